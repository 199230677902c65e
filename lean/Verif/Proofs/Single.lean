import Verif.Proofs.SearchComplete
import Verif.Proofs.HillAsg
import Verif.Proofs.PromptAsg
import Verif.Proofs.Quiet
import Verif.Proofs.Source
import Verif.Props.Search
/-
A single slot in which everything takes place: there is only one scheduling, one worker and one iteration.
-/
namespace Wassign
open Spec Threaded

/-- With a single slot and nothing optional there is only one scheduling. -/
theorem single_unique {i : InputData} (h1 : i.ns = 1) (hman : ∀ c ∈ i.choices, c.isOptional = false) {s t : Scheduling}
    (hs : SchedShape i s) (hsp : Placed i s) (ht : SchedShape i t) (htp : Placed i t) : s = t := by
  have key : ∀ u : Scheduling, SchedShape i u → Placed i u → ∀ c, c < i.nc → u[c]? = some (some 0) := by
    intro u hu hp c hc
    have h := hp c hc (hman _ (List.getElem_mem hc))
    unfold slotAt at h
    have hcu : c < u.length := by rw [hu.len]; exact hc
    rw [List.getElem?_eq_getElem hcu] at h ⊢
    cases hx : u[c] with
    | none => rw [hx] at h; exact absurd rfl h
    | some x =>
      have := hu.range c x (by unfold slotAt; rw [List.getElem?_eq_getElem hcu, hx]; rfl)
      have : x = 0 := by omega
      rw [this]
  apply List.ext_getElem?
  intro c
  by_cases hc : c < i.nc
  · rw [key s hs hsp c hc, key t ht htp c hc]
  · rw [List.getElem?_eq_none (by rw [hs.len]; omega), List.getElem?_eq_none (by rw [ht.len]; omega)]

namespace Search
variable {σ : Type}

/-- A complete candidate of the search schedules everything that is not optional, in existing slots. -/
theorem leaf_placed {i : InputData} {scr : List Nat} {m : Machine σ} (hm : MInv i scr m) (hd : m.depth = scr.length) :
    SchedShape i (decS m.st.decisions) ∧ Placed i (decS m.st.decisions) := by
  refine ⟨⟨by simpa [decS] using hm.st.len, hm.st.range⟩, ?_⟩
  intro c hc hopt hnone
  have hmem : c ∈ scr := hm.ord.perm.mem_iff.2 (by simpa using hc)
  obtain ⟨d, hd1, hd2⟩ := List.mem_iff_getElem.1 hmem
  have hg := hm.dec d (by omega) c (by rw [List.getElem?_eq_getElem hd1, hd2])
  have := hg.opt hnone i.choices[c] (by simp [hc])
  rw [hopt] at this; cases this

/-- With a single slot, nothing optional and no critical sets, the search gives up only if there is no feasible scheduling. -/
theorem single_none {g : RngOps σ} (hg : g.Lawful) {i : InputData} (hw : WF i) (hz : Sizes i) (hr : SearchReady i) (hl : LevelsOk i)
    (h1 : i.ns = 1) (hman : ∀ c ∈ i.choices, c.isOptional = false) {bound : Nat} (hb : bound ≤ i.maxPref) {sets : Nat → List CriticalSet}
    (hsets : ∀ l, sets l = []) {late : Nat → Nat → Bool} (hlate : ∀ l k, late l k = false) {rs r : σ}
    (h : nextScheduling g i bound sets late rs = .ok (none, r)) : ∀ T, SchedShape i T → ¬ SchedValid i T := by
  have hcs : ∀ l, ∀ set ∈ sets l, ∀ e ∈ set.data, e < i.nc := by
    intro l set hset; rw [hsets] at hset; cases hset
  obtain ⟨x, r1, e1, e2⟩ := nextScheduling_total hg hw hz hr (by omega) (hl.sorted.imp (fun h => Nat.le_of_lt h)) hl.maxMem hb hcs late rs
  rw [h] at e1
  cases e1
  obtain ⟨rs', o, r', h3, h4⟩ := e2 rfl
  obtain ⟨o', r'', h5, h6⟩ := solve_total hg hw hz hr (hcs i.maxPref) (late i.maxPref) rs'
  rw [h3] at h5
  cases h5
  intro T hT hv
  rcases h4 with ⟨s, rfl⟩ | rfl | rfl
  · obtain ⟨hns, scr, m', hm, hd, rfl⟩ := h6
    obtain ⟨a, b⟩ := leaf_placed hm hd
    rw [single_unique h1 hman a b hT hv.mandatory] at hns
    exact hns hv
  · refine h6 T ⟨hv, hT.range, ?_⟩
    intro set hset
    rw [hsets] at hset; cases hset
  · obtain ⟨k, hk⟩ := h6
    rw [hlate] at hk; cases hk

end Search

namespace Hill
variable {σ τ : Type}

theorem moveLoop_moves {g : RngOps σ} {draws maxN : Nat} {i : InputData} (hsw : addSwap i = false) {s : Scheduling} (hs : SchedShape i s) :
    ∀ (keys : List Nat) {k : Nat} {res l : List Scheduling} {rs rs' : σ}, (∀ key ∈ keys, key < maxKey i) →
      moveLoop g draws maxN i s keys k res rs = .ok (l, rs') →
      (∀ n ∈ res, SingleMove i s n ∧ schedFeasible i n = .ok true) → ∀ n ∈ l, SingleMove i s n ∧ schedFeasible i n = .ok true := by
  intro keys
  induction keys with
  | nil => intro k res l rs rs' _ h hres; cases h; exact hres
  | cons key ks ih =>
    intro k res l rs rs' hk h hres
    have hk' : ∀ key ∈ ks, key < maxKey i := fun x hx => hk x (List.mem_cons_of_mem _ hx)
    simp only [moveLoop] at h
    split at h
    · cases h; exact hres
    split at h
    · cases h; exact hres
    simp only [R.bind_eq_ok] at h
    obtain ⟨n, hn, ok, hok, h⟩ := h
    obtain ⟨n', hn', hmove⟩ := neighbor_move hs (hk key (by simp))
    rw [hn] at hn'
    injection hn' with hn'
    subst hn'
    cases ok
    · simp only [Bool.not_false, if_true] at h
      exact ih hk' h hres
    · simp only [Bool.not_true, Bool.false_eq_true, if_false, hsw] at h
      refine ih hk' h ?_
      intro x hx
      simp only [List.mem_append, List.mem_singleton] at hx
      rcases hx with hx | rfl
      · exact hres x hx
      · exact ⟨hmove, hok⟩

/-- With a single slot and nothing optional, the only feasible scheduling has no neighbours. -/
theorem single_neighbors {g : RngOps σ} (hg : g.Lawful) {draws maxN : Nat} {i : InputData} (h1 : i.ns = 1)
    (hman : ∀ c ∈ i.choices, c.isOptional = false) {s : Scheduling} (hs : SchedShape i s) (hp : Placed i s) {rs rs' : σ} {l : List Scheduling}
    (h : pickNeighbors g draws maxN i s rs = .ok (l, rs')) : l = [] := by
  have hsw : addSwap i = false := by unfold addSwap; simp [h1]
  unfold pickNeighbors at h
  simp only [R.bind_eq_ok, hsw, Bool.false_and, Bool.false_eq_true, if_false] at h
  obtain ⟨r, hr, h⟩ := h
  cases h
  have := moveLoop_moves hsw hs _ (shuffled_keys hg maxN i rs) hr (by simp)
  cases l with
  | nil => rfl
  | cons n l =>
    obtain ⟨⟨hn, c, _, hc, _⟩, hf⟩ := this n (by simp)
    exact absurd (by rw [single_unique h1 hman hn (schedFeasible_placed hn.len hf) hs hp]) hc

/-- So hill climbing keeps the first solution. -/
theorem single_loop {pr : HProblem} {env : HEnv σ τ} (hg : env.rng.Lawful) (h1 : pr.input.ns = 1)
    (hman : ∀ c ∈ pr.input.choices, c.isOptional = false) {s : Scheduling} {a : Assignment} (hs : SchedShape pr.input s) (hp : Placed pr.input s)
    {deadline : Bool} {sc : Score} {k : Nat} {st : HState σ τ} {r : Best × HState σ τ}
    (h : loop pr env deadline k ⟨.complete s a, sc⟩ st = .ok r) : r.1 = ⟨.complete s a, sc⟩ := by
  cases k with
  | zero => cases h
  | succ k =>
    simp only [loop] at h
    split at h
    · cases h; rfl
    · simp only [R.bind_eq_ok, schedOf] at h
      obtain ⟨s', hs', ns, hns, q, hq, h⟩ := h
      cases hs'
      obtain ⟨l, rs⟩ := ns
      have := single_neighbors hg h1 hman hs hp hns
      subst this
      simp only [round] at hq
      cases hq
      simp only [Bool.false_eq_true, if_false] at h
      cases h; rfl

end Hill

theorem Score.lt_inf {a : Score} (h : a.isFinite = true) : Score.lt a Score.infinite = true := by
  unfold Score.lt
  rw [Score.cmp_nonfinite_right Score.infinite_not_finite, if_pos h]; rfl

section
variable {σ τ ρ : Type}

/-- One iteration with a single slot and nothing optional. -/
theorem single_iterate {pr : HProblem} {env : SEnv σ τ ρ} (hg : env.rng.Lawful) (h1 : pr.input.ns = 1)
    (hman : ∀ c ∈ pr.input.choices, c.isOptional = false) (hl : ∀ t, env.lateS t = false) {st st' : SState σ τ ρ} {k : Nat}
    (hs : ∀ r s r', env.next r = .ok (some s, r') → SchedShape pr.input s ∧ Placed pr.input s)
    (h0 : st.progress = .empty)
    (hfin : ∀ s a t t', env.asolve t s = .ok (some a, t') → ∀ sc, pr.scoring.evaluate pr.input (.complete s a) = .ok sc → SchedShape pr.input s →
      Placed pr.input s → t = st.hill.asg → (∃ r r', env.next r = .ok (some s, r')) → sc.isFinite = true)
    (h : Shotgun.iterate pr env true 1 st = .ok (k, st')) :
    (∃ r r', env.next r = .ok (none, r') ∧ st'.progress.bestScore = Score.infinite) ∨
    ∃ s r r', env.next r = .ok (some s, r') ∧ ((∃ t', env.asolve st.hill.asg s = .ok (none, t') ∧ st'.progress.bestScore = Score.infinite) ∨
      ∃ a t', env.asolve st.hill.asg s = .ok (some a, t') ∧ st'.progress.bestSolution = .complete s a ∧ st'.progress.bestScore.isFinite = true) := by
  unfold Shotgun.iterate Shotgun.clock at h
  simp only [hl, if_true, Bool.false_eq_true, if_false, R.bind_eq_ok] at h
  obtain ⟨⟨x, r'⟩, hx, h⟩ := h
  cases x with
  | none =>
    cases h
    refine .inl ⟨_, _, hx, ?_⟩
    simp only [h0]; rfl
  | some s =>
    right
    obtain ⟨hsh, hpl⟩ := hs _ _ _ hx
    simp only [R.bind_eq_ok, Shotgun.iterate] at h
    obtain ⟨⟨sol, hst⟩, hh, sc, hsc, q, hq, h⟩ := h
    cases hq
    cases h
    refine ⟨s, _, _, hx, ?_⟩
    unfold Hill.solve at hh
    simp only [R.bind_eq_ok] at hh
    obtain ⟨⟨sol0, st0⟩, ha, sc0, hsc0, hh⟩ := hh
    unfold Hill.solveAssignment at ha
    simp only [R.bind_eq_ok] at ha
    obtain ⟨⟨r, t'⟩, ha, ha'⟩ := ha
    have hlt : Score.lt Score.infinite Score.infinite = false := by decide
    cases r with
    | none =>
      cases ha'
      left
      refine ⟨t', ha, ?_⟩
      simp only [Scoring.evaluate, Solution.isInvalid, Bool.false_eq_true, if_false, if_true] at hsc0
      cases hsc0
      simp only [Score.infinite_not_finite, Bool.not_false, if_true] at hh
      cases hh
      simp only [Scoring.evaluate, Solution.isInvalid, Bool.false_eq_true, if_false, if_true] at hsc
      cases hsc
      simp only [Shotgun.tick, Shotgun.record, h0]
      rw [show Progress.empty.bestScore = Score.infinite from rfl, hlt]
      simp only [Bool.false_eq_true, if_false]; rfl
    | some a =>
      cases ha'
      right
      refine ⟨a, t', ha, ?_⟩
      have hf := hfin s a _ t' ha sc0 hsc0 hsh hpl rfl ⟨_, _, hx⟩
      simp only [hf, Bool.not_true, Bool.false_eq_true, if_false, R.bind_eq_ok] at hh
      obtain ⟨b, hb, hh⟩ := hh
      cases hh
      rw [Hill.single_loop hg h1 hman hsh hpl hb] at hsc ⊢
      simp only [hsc0] at hsc
      cases hsc
      have hlt : Score.lt sc Score.infinite = true := Score.lt_inf hf
      simp only [Shotgun.tick, Shotgun.record, h0]
      rw [show Progress.empty.bestScore = Score.infinite from rfl, if_pos hlt]
      exact ⟨rfl, hf⟩

/-- An undisturbed session with a single slot: the one worker that has ended without panic has done one iteration. -/
theorem single_session {cfg : Setup σ τ ρ} (h1 : cfg.problem.input.ns = 1) {g : Session σ τ ρ} (hr : Undisturbed cfg (start cfg) g) :
    ∃ w, g.workers = [w] ∧ (g.cancelled = true → w.phase = .finished) ∧ (if w.phase = .check then w.started = 0 else w.started = 1) := by
  generalize hs : start cfg = g0 at hr
  induction hr with
  | refl =>
    subst hs
    exact ⟨⟨.check, cfg.init 0, 0⟩, by simp [start, workerCount, h1, List.range_succ], by simp [start], by simp⟩
  | step _ h ih =>
    obtain ⟨w, hw, hc, hst⟩ := ih
    have one : ∀ (l : List (Worker σ τ ρ)) (t : Nat) (v u : Worker σ τ ρ), l = [w] → l[t]? = some v → v = w ∧ l.set t u = [u] := by
      intro l t v u e h
      subst e
      match t with
      | 0 => simp at h; exact ⟨h.symm, rfl⟩
      | t + 1 => simp at h
    cases h with
    | check t v e1 e2 =>
      obtain ⟨rfl, e3⟩ := one _ t v (checkStep _ false v) hw e1
      refine ⟨_, e3, ?_, ?_⟩
      · intro hcc; rw [hc hcc] at e2; cases e2
      · rename_i g' _
        have hcc : g'.cancelled = false := by
          cases hcc : g'.cancelled with
          | false => rfl
          | true => rw [hc hcc] at e2; cases e2
        rw [if_pos e2] at hst
        simp [checkStep, hcc, hst]
    | run t v e1 e2 =>
      obtain ⟨rfl, e3⟩ := one _ t v (runStep cfg t v) hw e1
      rw [e2] at hst
      simp only [reduceCtorEq, if_false] at hst
      refine ⟨_, e3, ?_, ?_⟩
      · intro hcc; rw [hc hcc] at e2; cases e2
      · unfold runStep; split <;> simp [hst]
    | test t k v e1 e2 =>
      obtain ⟨rfl, e3⟩ := one _ t v (testStep cfg t k v).2 hw e1
      rw [e2] at hst
      simp only [reduceCtorEq, if_false] at hst
      refine ⟨_, e3, ?_, ?_⟩
      · intro _
        rcases testStep_cases (cfg := cfg) t k v with ⟨e, _⟩ | ⟨e, _⟩ | ⟨e, he⟩
        · rw [e]
        · rw [e]
        · exact absurd (.inl h1) he
      · rcases testStep_cases (cfg := cfg) t k v with ⟨e, _⟩ | ⟨e, _⟩ | ⟨e, he⟩
        · rw [e]; simp [hst]
        · rw [e]; simp [hst]
        · exact absurd (.inl h1) he

end
end Wassign
