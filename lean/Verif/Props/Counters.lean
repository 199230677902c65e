import Verif.Props.Session
/-
C22, C56: the counters of the workers: iterations begun and completed, assignments solved.
-/
namespace Wassign
open Spec Build Main Threaded
variable {σ τ ρ : Type}

/-! ## Iterations -/

/-- How many iterations a worker has begun and completed, depending on where it is. -/
def Tally (w : Worker σ τ ρ) : Prop :=
  match w.phase with
  | .check => w.started = w.st.progress.iterations
  | .run => w.started = w.st.progress.iterations + 1
  | .test k => k ≤ 1 ∧ w.started + k = w.st.progress.iterations + 1
  | .finished => w.started = w.st.progress.iterations ∨ w.started = w.st.progress.iterations + 1
  | .panicked => w.started = w.st.progress.iterations + 1

theorem tally_run {cfg : Setup σ τ ρ} (hinit : ∀ tid, (cfg.init tid).progress.iterations = 0) {g : Session σ τ ρ}
    (hr : Run cfg (start cfg) g) : ∀ w ∈ g.workers, Tally w := by
  generalize hg0 : start cfg = g0 at hr
  induction hr with
  | refl =>
    subst hg0
    intro w hw
    simp only [start, List.mem_map] at hw
    obtain ⟨tid, _, rfl⟩ := hw
    exact (hinit tid).symm
  | step _ hs ih =>
    cases hs with
    | cancel => exact ih
    | move hm =>
      cases hm with
      | check tid w late hw hp =>
        intro v hv
        rcases List.mem_or_eq_of_mem_set hv with hv | rfl
        · exact ih v hv
        · have h := ih w (List.mem_of_getElem? hw)
          unfold Tally at h
          rw [hp] at h
          have h : w.started = w.st.progress.iterations := h
          unfold checkStep
          split
          · exact .inl h
          · show w.started + 1 = w.st.progress.iterations + 1
            omega
      | run tid w hw hp =>
        intro v hv
        rcases List.mem_or_eq_of_mem_set hv with hv | rfl
        · exact ih v hv
        · have h := ih w (List.mem_of_getElem? hw)
          unfold Tally at h
          rw [hp] at h
          have h : w.started = w.st.progress.iterations + 1 := h
          unfold runStep
          split
          · rename_i k st he
            obtain ⟨k1, k2⟩ := iterate_one_count he
            refine ⟨k1, ?_⟩
            show w.started + k = st.progress.iterations + 1
            omega
          · exact h
      | test tid k w hw hp =>
        intro v hv
        rcases List.mem_or_eq_of_mem_set hv with hv | rfl
        · exact ih v hv
        · have h := ih w (List.mem_of_getElem? hw)
          unfold Tally at h
          rw [hp] at h
          obtain ⟨h1, h2⟩ : k ≤ 1 ∧ w.started + k = w.st.progress.iterations + 1 := h
          obtain ⟨t1, t2, t3, _⟩ := testStep_iterations cfg tid k w
          unfold Tally
          rcases t3 with t3 | ⟨t3, t4, _⟩
          · rw [t3]
            show _ = _ ∨ _ = _
            rw [t1, t2]
            omega
          · rw [t3]
            show _ = _
            rw [t1, t2]
            have : ¬ k < 1 := fun h => t4 (.inr h)
            omega

/-- **C56**: a worker whose iteration came to nothing does not begin another one: all its iterations but possibly the last
one it began are complete, and at the head of its loop all of them are. -/
theorem C56_stops_when_exhausted (cfg : Setup σ τ ρ) (hinit : ∀ tid, (cfg.init tid).progress.iterations = 0) (g : Session σ τ ρ)
    (hr : Run cfg (start cfg) g) (w : Worker σ τ ρ) (hw : w ∈ g.workers) :
    w.started ≤ w.st.progress.iterations + 1 ∧ w.st.progress.iterations ≤ w.started ∧
    (w.phase = .check → w.started = w.st.progress.iterations) := by
  have h := tally_run hinit hr w hw
  unfold Tally at h
  cases hp : w.phase with
  | check => rw [hp] at h; simp only at h; exact ⟨by omega, by omega, fun _ => h⟩
  | run => rw [hp] at h; simp only at h; exact ⟨by omega, by omega, by intro e; cases e⟩
  | test k => rw [hp] at h; simp only at h; exact ⟨by omega, by omega, by intro e; cases e⟩
  | finished => rw [hp] at h; simp only at h; exact ⟨by omega, by omega, by intro e; cases e⟩
  | panicked => rw [hp] at h; simp only at h; exact ⟨by omega, by omega, by intro e; cases e⟩

/-! ## Assignments -/

/-- `calls` counts how often the assignment solver has been asked. -/
def CountsCalls (asolve : τ → Scheduling → R (Option Assignment × τ)) (calls : τ → Nat) : Prop :=
  ∀ sv s r sv', asolve sv s = .ok (r, sv') → calls sv' = calls sv + 1

section
variable {calls : τ → Nat} {pr : HProblem} {env : HEnv σ τ} {dl : Bool}

/-- The counter agrees. -/
def CallsAgree (calls : τ → Nat) (b : Nat) (st : HState σ τ) : Prop := st.count + b = calls st.asg

theorem clock_agrees {b : Nat} {st : HState σ τ} (h : CallsAgree calls b st) : CallsAgree calls b (Hill.clock env dl st).2 := by
  unfold Hill.clock; split <;> exact h

theorem solveAssignment_agrees (hc : CountsCalls env.asolve calls) {b : Nat} {st st' : HState σ τ} {s : Scheduling} {sol : Solution}
    (h : CallsAgree calls b st) (hs : Hill.solveAssignment env st s = .ok (sol, st')) : CallsAgree calls b st' := by
  unfold Hill.solveAssignment at hs
  rw [R.bind_eq_ok] at hs
  obtain ⟨⟨r, sv'⟩, h1, hs⟩ := hs
  have h2 := hc _ _ _ _ h1
  have : st' = Hill.publish { st with
      asg := sv'
      count := st.count + 1
      events := st.events ++ Hill.lpEvents env.worker (env.lpOf st.asg) (env.lpOf sv') } (Event.ofAssignments env.worker (st.count + 1)) := by
    cases r <;> (cases hs; rfl)
  subst this
  show st.count + 1 + b = calls sv'
  unfold CallsAgree at h
  omega

theorem round_agrees (hc : CountsCalls env.asolve calls) {b : Nat} : ∀ (ns : List Scheduling) (f : Bool) (be : Hill.Best) (st st' : HState σ τ)
    (x y : Bool) (be' : Hill.Best), CallsAgree calls b st → Hill.round pr env dl ns f be st = .ok (x, y, be', st') → CallsAgree calls b st' := by
  intro ns
  induction ns with
  | nil => intro f be st st' x y be' h hs; cases hs; exact h
  | cons n ns ih =>
    intro f be st st' x y be' h hs
    have h1 := clock_agrees (env := env) (dl := dl) h
    unfold Hill.round at hs
    simp only at hs
    split at hs
    · cases hs; exact h1
    · rw [R.bind_eq_ok] at hs
      obtain ⟨⟨sol, st1⟩, h2, hs⟩ := hs
      have h3 := solveAssignment_agrees hc h1 h2
      rw [R.bind_eq_ok] at hs
      obtain ⟨sc, _, hs⟩ := hs
      split at hs
      · exact ih _ _ _ _ _ _ _ (show CallsAgree calls b (Hill.publish st1 _) from h3) hs
      · exact ih _ _ _ _ _ _ _ h3 hs

theorem loop_agrees (hc : CountsCalls env.asolve calls) {b : Nat} : ∀ (k : Nat) (be : Hill.Best) (st st' : HState σ τ)
    (be' : Hill.Best), CallsAgree calls b st → Hill.loop pr env dl k be st = .ok (be', st') → CallsAgree calls b st' := by
  intro k
  induction k with
  | zero => intro be st st' be' h hs; cases hs
  | succ k ih =>
    intro be st st' be' h hs
    have h1 := clock_agrees (env := env) (dl := dl) h
    unfold Hill.loop at hs
    simp only at hs
    split at hs
    · cases hs; exact h1
    · rw [R.bind_eq_ok] at hs
      obtain ⟨s, _, hs⟩ := hs
      rw [R.bind_eq_ok] at hs
      obtain ⟨ns, _, hs⟩ := hs
      rw [R.bind_eq_ok] at hs
      obtain ⟨⟨x, y, be1, st1⟩, h2, hs⟩ := hs
      have h3 := round_agrees hc _ _ _ _ _ _ _ _
        (show CallsAgree calls b { (Hill.clock env dl st).2 with rng := ns.2 } from h1) h2
      simp only at hs
      split at hs
      · cases hs; exact h3
      · split at hs
        · exact ih _ _ _ _ h3 hs
        · cases hs; exact h3

theorem hill_agrees (hc : CountsCalls env.asolve calls) {b : Nat} {st st' : HState σ τ} {s : Scheduling} {sol : Solution}
    (h : CallsAgree calls b st) (hs : Hill.solve pr env dl st s = .ok (sol, st')) : CallsAgree calls b st' := by
  unfold Hill.solve at hs
  rw [R.bind_eq_ok] at hs
  obtain ⟨⟨sol0, st1⟩, h2, hs⟩ := hs
  have h3 := solveAssignment_agrees hc h h2
  rw [R.bind_eq_ok] at hs
  obtain ⟨sc, _, hs⟩ := hs
  simp only at hs
  split at hs
  · cases hs; exact h3
  · rw [R.bind_eq_ok] at hs
    obtain ⟨⟨be, st2⟩, h4, hs⟩ := hs
    cases hs
    exact loop_agrees hc _ _ _ _ _ (show CallsAgree calls b (Hill.publish st1 _) from h3) h4

end

theorem iterate_agrees {calls : τ → Nat} {pr : HProblem} {env : SEnv σ τ ρ} {dl : Bool} (hc : CountsCalls env.asolve calls) {b : Nat} :
    ∀ (n k : Nat) (st st' : SState σ τ ρ), CallsAgree calls b st.hill → Shotgun.iterate pr env dl n st = .ok (k, st') →
      CallsAgree calls b st'.hill := by
  intro n
  induction n with
  | zero => intro k st st' h hs; cases hs; exact h
  | succ n ih =>
    intro k st st' h hs
    have h1 : CallsAgree calls b (Shotgun.clock env dl st).2.hill := by unfold Shotgun.clock; split <;> exact h
    unfold Shotgun.iterate at hs
    simp only at hs
    split at hs
    · cases hs; exact h1
    · rw [R.bind_eq_ok] at hs
      obtain ⟨⟨x, r⟩, _, hs⟩ := hs
      cases x with
      | none => cases hs; exact h1
      | some s =>
        simp only at hs
        rw [R.bind_eq_ok] at hs
        obtain ⟨⟨sol, h'⟩, h2, hs⟩ := hs
        have h3 := hill_agrees hc h1 h2
        rw [R.bind_eq_ok] at hs
        obtain ⟨sc, _, hs⟩ := hs
        rw [R.bind_eq_ok] at hs
        obtain ⟨⟨k', st2⟩, h4, hs⟩ := hs
        cases hs
        refine ih _ _ _ ?_ h4
        show CallsAgree calls b (Hill.publish _ _)
        have : CallsAgree calls b (Shotgun.record env sol sc { (Shotgun.clock env dl st).2 with
            sched := r
            hill := h' }).hill := by
          unfold Shotgun.record; split <;> exact h3
        exact this

/-- **C22**: the assignment counter of a worker is the number of times it has asked its assignment solver (told by any
function of the solver that grows by one with every call). -/
theorem C22_assignments_counted (cfg : Setup σ τ ρ) (calls : τ → Nat) (hc : ∀ tid, CountsCalls (cfg.env tid).asolve calls)
    (hinit : ∀ tid, (cfg.init tid).hill.count = 0) (g : Session σ τ ρ) (hr : Run cfg (start cfg) g)
    (hok : ∀ w ∈ g.workers, w.phase ≠ .panicked) (tid : Nat) (w : Worker σ τ ρ) (hw : g.workers[tid]? = some w) :
    w.st.hill.count + calls (cfg.init tid).hill.asg = calls w.st.hill.asg := by
  have hafter : ∀ n st, after cfg tid n = some st → CallsAgree calls (calls (cfg.init tid).hill.asg) st.hill := by
    intro n
    induction n with
    | zero => intro st h; cases h; show _ + _ = _; rw [hinit]; omega
    | succ n ih =>
      intro st h
      unfold after at h
      cases e : after cfg tid n with
      | none => rw [e] at h; cases h
      | some st0 =>
        rw [e] at h
        simp only at h
        split at h
        · rename_i k st1 he
          cases h
          have := iterate_agrees (hc tid) _ _ _ _ (ih _ e) he
          split
          · exact this
          · exact this
        · cases h
  have ht := run_track hr tid w hw
  unfold OnTrack at ht
  cases hp : w.phase with
  | check => rw [hp] at ht; exact hafter _ _ ht
  | finished => rw [hp] at ht; exact hafter _ _ ht
  | run => rw [hp] at ht; obtain ⟨m, _, h⟩ := ht; exact hafter _ _ h
  | test k =>
    rw [hp] at ht
    obtain ⟨m, st, _, h, he⟩ := ht
    exact iterate_agrees (hc tid) _ _ _ _ (hafter _ _ h) he
  | panicked => exact absurd hp (hok w (List.mem_of_getElem? hw))

/-- **C22**: when all events of a session have arrived, the report shows how many assignments were solved by all workers. -/
theorem C22_final_assignments (cfg : Setup σ τ ρ) (Inv : Nat → τ → Prop) (InvR : Nat → ρ → Prop) (hS : SetupWF cfg Inv InvR)
    (g : Session σ τ ρ) (hr : Run cfg (start cfg) g) (hinit : ∀ tid, (cfg.init tid).hill.count = 0)
    (past : List (List Event)) (batch : List Event)
    (hall : ∀ (tid : Nat) (w : Worker σ τ ρ), g.workers[tid]? = some w →
      ((past.flatten ++ batch).filter (fun e => decide (e.worker = tid))).filterMap (·.assignments) =
        w.st.hill.events.filterMap (·.assignments)) :
    let tp := past.foldl (fun tp b => (poll tp b).2) (freshProgress (workerCount cfg))
    (poll tp batch).1.assignments = (g.workers.map (·.st.hill.count)).sum := by
  intro tp
  have hsok := run_ok hS (start_ok hS) hr
  have htp : batch.foldl deliver tp = (List.range g.workers.length).map
      (fun w => ((past.flatten ++ batch).filter (fun e => decide (e.worker = w))).foldl absorb .empty) := by
    show batch.foldl deliver (past.foldl _ _) = _
    rw [polls_eq, ← List.foldl_append, delivered, hsok.count]
  obtain ⟨_, _, h3, _⟩ := summarize_eq (batch.foldl deliver tp)
  show (summarize (batch.foldl deliver tp)).assignments = _
  rw [h3, htp, List.map_map]
  refine congrArg List.sum ?_
  apply List.ext_getElem
  · simp
  · intro tid l1 l2
    simp only [List.length_map, List.length_range] at l1
    rw [List.getElem_map, List.getElem_map, List.getElem_range]
    obtain ⟨k, seen, evs, hw⟩ := (hsok.ok tid _ (List.getElem?_eq_getElem l1)).worked
    obtain ⟨i1, i2, i3⟩ := init_mode hS (show tid < workerCount cfg by rw [← hsok.count]; exact l1)
    refine (fold_last (·.assignments) (·.assignments) absorb_assignments _ _).trans ?_
    rw [hall tid _ (List.getElem?_eq_getElem l1), hw.events, i3, List.nil_append, hw.asgs, hinit]
    rw [Nat.sub_zero]
    cases e : g.workers[tid].st.hill.count with
    | zero => rfl
    | succ k =>
      rw [List.getLast?_range']
      simp

/-! ### Concrete sessions -/

namespace ThEx

example (w : Worker Nat Unit Nat) (hw : w ∈ (final false).workers) : w.started ≤ w.st.progress.iterations + 1 :=
  (C56_stops_when_exhausted (cfg false) (fun _ => rfl) _ (exec_run _ _ _) w hw).1

/-- The session of `ThEx` with an assignment solver that counts its calls. -/
def counting (sv : Nat) (s : Scheduling) : R (Option Assignment × Nat) :=
  match HillEx.env.asolve () s with
  | .ok r => .ok (r.1, sv + 1)
  | .error f => .error f

def cfgN : Setup Nat Nat Nat where
  problem := HillEx.prob
  any := false
  threads := 2
  env := fun tid => { (cfg false).env tid with
    asolve := counting
    lpOf := fun _ => 0 }
  init := fun tid => Shotgun.new tid 0 5

theorem counting_counts : CountsCalls counting id := by
  intro sv s r sv' h
  unfold counting at h
  split at h
  · cases h; rfl
  · cases h

def finalN := exec cfgN order (start cfgN)

theorem finalN_counts : finalN.workers.map (fun w => (w.phase, w.st.hill.count, w.st.hill.asg)) =
    [(.finished, 26, 31), (.finished, 1, 6)] := by decide +kernel

example (tid : Nat) (w : Worker Nat Nat Nat) (hw : finalN.workers[tid]? = some w) : w.st.hill.count + 5 = w.st.hill.asg :=
  C22_assignments_counted cfgN id (fun _ => counting_counts) (fun _ => rfl) finalN (exec_run _ _ _) (by
    intro w hw hp
    have := List.mem_map_of_mem (f := fun w : Worker Nat Nat Nat => (w.phase, w.st.hill.count, w.st.hill.asg)) hw
    rw [finalN_counts, hp] at this
    simp at this) tid w hw

end ThEx
end Wassign
