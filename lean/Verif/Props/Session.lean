import Verif.Proofs.Quiet
import Verif.Props.Main
/-
C56, C57: what the options do to a session, why workers stop, and the independence of the result from the interleaving.
-/
namespace Wassign
open Spec Build Main Threaded

section
variable {σ τ ρ : Type}

/-! ## C56 -/

/-- **C56**: if nobody cancels and the deadline does not pass, a worker ends only because its search has no scheduling to
offer, because there is a single slot, or — with `--any` only — because some worker has found a valid solution. -/
theorem C56_why_workers_stop (cfg : Setup σ τ ρ) (g : Session σ τ ρ) (hr : Undisturbed cfg (start cfg) g)
    (hlate : ∀ tid t, (cfg.env tid).lateS t = false) (tid : Nat) (w : Worker σ τ ρ) (hw : g.workers[tid]? = some w)
    (hf : w.phase = .finished) :
    (∃ r, (cfg.env tid).next r = .ok (none, w.st.sched)) ∨ cfg.problem.input.ns = 1 ∨
    (cfg.any = true ∧ ∃ v ∈ g.workers, v.st.progress.bestScore.isFinite = true) := by
  have h := undisturbed_calm hr
  rcases h.done tid w hw hf with hc | h1 | ⟨t, hd⟩ | hd
  · obtain ⟨ha, v, hv, _, hs⟩ := h.cancelled hc
    exact .inr (.inr ⟨ha, v, hv, hs⟩)
  · exact .inr (.inl h1)
  · rw [hlate] at hd; cases hd
  · exact .inl hd

/-- **C56**: the session is cancelled by the workers only with `--any`, and only when one has found a valid solution. -/
theorem C56_cancelled_only_with_any (cfg : Setup σ τ ρ) (g : Session σ τ ρ) (hr : Undisturbed cfg (start cfg) g)
    (hc : g.cancelled = true) : cfg.any = true ∧ ∃ w ∈ g.workers, w.st.progress.bestScore.isFinite = true := by
  obtain ⟨h, w, hw, _, hf⟩ := (undisturbed_calm hr).cancelled hc
  exact ⟨h, w, hw, hf⟩

/-! ## C57 -/

/-- **C57**: the result of a session depends only on how many iterations each worker has begun, not on how the workers were
interleaved (nor on when cancellation or deadline struck). -/
theorem C57_interleaving_irrelevant (cfg : Setup σ τ ρ) (g g' : Session σ τ ρ) (hr : Run cfg (start cfg) g)
    (hr' : Run cfg (start cfg) g') (ho : g.over) (ho' : g'.over)
    (hs : g.workers.map (·.started) = g'.workers.map (·.started)) : g.workers = g'.workers ∧ wait g = wait g' := by
  have hlen : g.workers.length = g'.workers.length := by simpa using congrArg List.length hs
  have heq : g.workers = g'.workers := by
    apply List.ext_getElem? 
    intro tid
    cases e : g.workers[tid]? with
    | none =>
      symm
      rw [List.getElem?_eq_none_iff] at e ⊢
      omega
    | some w =>
      have hlt : tid < g'.workers.length := by
        have := (List.getElem?_eq_some_iff.1 e).1
        omega
      obtain ⟨w', e'⟩ : ∃ w', g'.workers[tid]? = some w' := ⟨_, List.getElem?_eq_getElem hlt⟩
      rw [e']
      congr 1
      have hs' := congrArg (fun l => l[tid]?) hs
      simp only [List.getElem?_map, e, e', Option.map_some, Option.some.injEq] at hs'
      exact track_unique (run_track hr tid w e) (run_track hr' tid w' e') (ho w (List.mem_of_getElem? e))
        (ho' w' (List.mem_of_getElem? e')) hs'
  refine ⟨heq, ?_⟩
  unfold wait collect
  rw [heq]

/-- **C57**: without `--any`, cancellation and timeout all complete sessions end with the same result. -/
theorem C57_deterministic (cfg : Setup σ τ ρ) (hany : cfg.any = false) (g g' : Session σ τ ρ)
    (hr : Undisturbed cfg (start cfg) g) (hr' : Undisturbed cfg (start cfg) g') (ho : g.over) (ho' : g'.over) :
    g.workers = g'.workers ∧ wait g = wait g' := by
  refine C57_interleaving_irrelevant cfg g g' hr.toRun hr'.toRun ho ho' ?_
  have hlen : g.workers.length = g'.workers.length := by rw [run_length hr.toRun, run_length hr'.toRun]
  apply List.ext_getElem?
  intro tid
  simp only [List.getElem?_map]
  cases e : g.workers[tid]? with
  | none =>
    rw [List.getElem?_eq_none_iff] at e
    rw [List.getElem?_eq_none (by omega)]
  | some w =>
    have hlt : tid < g'.workers.length := by
      have := (List.getElem?_eq_some_iff.1 e).1
      omega
    obtain ⟨w', e'⟩ : ∃ w', g'.workers[tid]? = some w' := ⟨_, List.getElem?_eq_getElem hlt⟩
    rw [e']
    simp only [Option.map_some, Option.some.injEq]
    exact course_unique (undisturbed_course hany hr tid w e) (undisturbed_course hany hr' tid w' e')
      (ho w (List.mem_of_getElem? e)) (ho' w' (List.mem_of_getElem? e'))

end

/-! ### Concrete undisturbed sessions -/

namespace ThEx

theorem undisturbed_trans {σ τ ρ : Type} {cfg : Setup σ τ ρ} {a b c : Session σ τ ρ} (h1 : Undisturbed cfg a b) (h2 : Undisturbed cfg b c) :
    Undisturbed cfg a c := by
  induction h2 with
  | refl => exact h1
  | step _ hs ih => exact .step ih hs

theorem exec_undisturbed {σ τ ρ : Type} (cfg : Setup σ τ ρ) : ∀ (l : List Nat) (g : Session σ τ ρ), Undisturbed cfg g (exec cfg l g) := by
  intro l
  induction l with
  | nil => intro g; exact .refl g
  | cons tid l ih =>
    intro g
    unfold exec
    split
    · exact ih g
    · rename_i w hw
      split
      · rename_i hp
        exact undisturbed_trans (.step (.refl g) (.check g tid w hw hp)) (ih _)
      · rename_i hp
        exact undisturbed_trans (.step (.refl g) (.run g tid w hw hp)) (ih _)
      · rename_i k hp
        exact undisturbed_trans (.step (.refl g) (.test g tid k w hw hp)) (ih _)
      · exact ih g

/-- One worker after the other. -/
def final2 (any : Bool) : Session Nat Unit Nat :=
  exec (cfg any) [0, 0, 0, 0, 0, 0, 0, 0, 0, 1, 1, 1, 1, 1, 1] (start (cfg any))

theorem final_over : (final false).over ∧ (final2 false).over := by
  have h1 : (final false).workers.map (fun w => w.phase) = [.finished, .finished] := by decide +kernel
  have h2 : (final2 false).workers.map (fun w => w.phase) = [.finished, .finished] := by decide +kernel
  refine ⟨fun w hw => ?_, fun w hw => ?_⟩
  · have : w.phase ∈ (final false).workers.map (fun w => w.phase) := List.mem_map.2 ⟨w, hw, rfl⟩
    rw [h1] at this; simp at this; exact .inl this
  · have : w.phase ∈ (final2 false).workers.map (fun w => w.phase) := List.mem_map.2 ⟨w, hw, rfl⟩
    rw [h2] at this; simp at this; exact .inl this

/-- Two different interleavings, one result. -/
example : wait (final false) = wait (final2 false) :=
  (C57_deterministic (cfg false) rfl _ _ (exec_undisturbed _ _ _) (exec_undisturbed _ _ _) final_over.1 final_over.2).2

/-- With `--any` the interleaving matters: alone in time, worker 1 does not find anything better than worker 0 found, and it
may be cut off before its first iteration. -/
example : (final2 true).cancelled = true ∧ (final2 true).workers.map (fun w => (w.phase, w.started)) = [(.finished, 1), (.finished, 0)] ∧
    (final true).workers.map (fun w => (w.phase, w.started)) = [(.finished, 1), (.finished, 1)] := by decide +kernel

end ThEx

/-! ## The options of the program -/

section
variable {F σ : Type} (o : Outside F σ)

/-- **C56**, `--threads`: as many workers as asked for, but at least one, and one only if there is a single slot. -/
theorem C56_threads (p : Prepared) (opts : Opts F) (g : Session σ ASolver (σ × Nat))
    (hr : Run (setup o p opts) (start (setup o p opts)) g) :
    g.workers.length = if p.input.ns = 1 then 1 else if opts.threads = 0 then 1 else opts.threads := by
  rw [run_length hr]
  simp only [start, List.length_map, List.length_range, workerCount]
  show (if p.input.ns = 1 then 1 else max opts.threads 1) = _
  split
  · rfl
  · split <;> omega

/-- **C44**: the workers of the program start from engines seeded with pairwise distinct numbers derived from the seed. -/
theorem C44_workers_differ (p : Prepared) (opts : Opts F) : ∃ seeds : Nat → BitVec 64,
    (∀ a b, a < 2 ^ 64 → b < 2 ^ 64 → seeds a = seeds b → a = b) ∧
    ∀ tid, ((setup o p opts).init tid).sched.1 = o.engine (seeds tid) ∧
      ((setup o p opts).init tid).hill.rng = o.engine (seeds tid + 1) := by
  refine ⟨workerSeed o, ?_, fun tid => ⟨rfl, rfl⟩⟩
  intro a b ha hb h
  have := congrArg BitVec.toNat (mixSeed_inj o.seed _ _ h)
  rwa [BitVec.toNat_ofNat, BitVec.toNat_ofNat, Nat.mod_eq_of_lt ha, Nat.mod_eq_of_lt hb] at this

/-- **C56**, `--no-cs` and `--greedy`: then no critical set restricts the search and the assignment solver starts at the
lowest level; otherwise (with several slots) the sets are those of the analysis, simplified unless `--no-cs-simp`. -/
theorem C56_critical_sets (d : InputData) (opts : Opts F) (p : Prepared) (h : prepare o d opts = .ok p) :
    (opts.noCs = true ∨ opts.greedy = true ∨ d.ns ≤ 1 → p.analysis.preferenceBound = 0 ∧ ∀ l, p.analysis.forPreference l = []) ∧
    (opts.noCs = false → opts.greedy = false → 1 < d.ns → Analysis.new d true (!opts.noCsSimp) = .ok p.analysis) := by
  unfold prepare at h
  simp only [R.bind_eq_ok] at h
  obtain ⟨an, h1, st, _, h2⟩ := h
  cases h2
  refine ⟨?_, ?_⟩
  · intro hor
    have : (!opts.noCs && !opts.greedy && decide (1 < d.ns)) = false := by
      rcases hor with e | e | e
      · simp [e]
      · simp [e]
      · have : ¬ 1 < d.ns := by omega
        simp [this]
    rw [this] at h1
    simp only [Analysis.new] at h1
    cases h1
    exact ⟨rfl, fun l => rfl⟩
  · intro e1 e2 e3
    rw [e1, e2] at h1
    simpa [e3] using h1

theorem nan_isNaN : F32.nan.isNaN = true := by decide

/-- **C56**, `--greedy`: scores of complete solutions have the worst preference as first part unless `--greedy` is given; and
the assignment solver minimises cost only. -/
theorem C56_greedy (d : InputData) (opts : Opts F) (p : Prepared) (h : prepare o d opts = .ok p) (hw : WF d) (hz : Sizes d)
    (s : Scheduling) (a : Assignment) (hsh : Shape d s a) (hr : ∀ c t, slotAt s c = some t → t < d.ns) (hv : Valid d s a) (sc : Score)
    (hsc : p.scoring.evaluate d (.complete s a) = .ok sc) (hf : sc.isFinite = true) :
    (opts.greedy = true → sc.major.isNaN = true) ∧ (opts.greedy = false → ∃ w, IsWorst d a w ∧ sc.major = F32.ofU32 w) := by
  have hg : p.scoring.greedy = opts.greedy := by
    unfold prepare at h
    simp only [R.bind_eq_ok] at h
    obtain ⟨an, h1, st, _, h2⟩ := h
    cases h2; rfl
  obtain ⟨w, cnt, h1, _, _, h2⟩ := evaluate_valid p.scoring hsh hz hw hr hv
  rw [hsc] at h2
  have h2 := Except.ok.inj h2
  by_cases hm : (p.scoring.minorOf cnt).isFinite = true
  · rw [if_pos hm, hg] at h2
    rw [h2]
    constructor
    · intro e
      simp only [e, if_true]
      exact nan_isNaN
    · intro e
      exact ⟨w, h1, by simp only [e, Bool.false_eq_true, if_false]⟩
  · rw [if_neg hm] at h2
    rw [h2, Score.infinite_not_finite] at hf
    cases hf

/-- **C56**: the remaining options reach every worker: `--max-neighbors`, `--any`, the scoring chosen by `--greedy`, and the
assignment solver gets `--greedy`, the cost function for `--pref-exp` and the bound of the analysis. -/
theorem C56_options_reach_workers (d : InputData) (opts : Opts F) (p : Prepared) (h : prepare o d opts = .ok p) (tid : Nat) :
    (setup o p opts).problem = ⟨d, newScoring o d opts, opts.maxNeighbors⟩ ∧ (setup o p opts).any = opts.any ∧
    ∃ static, StaticData.new d = .ok static ∧ ((setup o p opts).env tid).asolve =
      Asg.solveUntil ⟨d, p.analysis.preferenceBound, static, opts.greedy, o.cost opts.prefExp⟩ ⟨o.backend tid, o.lateAsg tid⟩ true := by
  unfold prepare at h
  simp only [R.bind_eq_ok] at h
  obtain ⟨an, h1, st, h3, h2⟩ := h
  cases h2
  exact ⟨rfl, rfl, st, h3, rfl⟩

/-- **C56**, `--any`: a worker of the program that has found a valid solution does not begin another iteration, and once it
has ended the whole session is cancelled, so that it is over after at most three moves per worker (C23). -/
theorem C56_any_ends_session (hrng : o.rng.Lawful) {raw : Raw} {tr : List Reader.Event} (hd : Describes tr raw) (d : InputData)
    (hbd : build raw = .ok d) (opts : Opts F) (p : Prepared) (hp : prepare o d opts = .ok p) (hany : opts.any = true)
    (g : Session σ ASolver (σ × Nat)) (hr : Run (setup o p opts) (start (setup o p opts)) g) (w : Worker σ ASolver (σ × Nat))
    (hw : w ∈ g.workers) (hf : w.st.progress.bestScore.isFinite = true) :
    w.phase ≠ .check ∧ w.phase ≠ .run ∧ (w.phase = .finished → g.cancelled = true) :=
  C23_any_stops_everyone _ _ _ (setup_wf hd hbd hrng hp).2 hany g hr w hw hf

/-- **C57** for the program: without `--any`, cancellation and timeout, what is printed does not depend on the interleaving. -/
theorem C57_same_output (p : Prepared) (opts : Opts F) (hany : opts.any = false) (g g' : Session σ ASolver (σ × Nat))
    (hr : Undisturbed (setup o p opts) (start (setup o p opts)) g) (hr' : Undisturbed (setup o p opts) (start (setup o p opts)) g')
    (ho : g.over) (ho' : g'.over) : report p g = report p g' := by
  unfold report
  rw [(C57_deterministic _ hany g g' hr hr' ho ho').2]

end
end Wassign
