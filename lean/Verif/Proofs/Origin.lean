import Verif.Proofs.Climb
/-
Where the solutions of a worker come from: from the assignment solver.
-/
namespace Wassign
open Spec
namespace Hill
variable {σ τ : Type} {pr : HProblem} {env : HEnv σ τ} {Inv : τ → Prop}

/-- A solution the assignment solver has produced: its scheduling has the right dimensions, and if it has an assignment, that is
what the solver answered for the scheduling in some state it can be in. -/
structure From (i : InputData) (asolve : τ → Scheduling → R (Option Assignment × τ)) (Inv : τ → Prop) (sol : Solution) : Prop where
  sched : ∀ s, schedOf sol = .ok s → SchedShape i s
  made : ∀ s a, sol = .complete s a → ∃ t t', Inv t ∧ asolve t s = .ok (some a, t')

theorem From.invalid {i : InputData} {asolve : τ → Scheduling → R (Option Assignment × τ)} : From i asolve Inv .invalid :=
  ⟨by intro s h; simp [schedOf, panic'] at h, by intro s a h; cases h⟩

theorem solveAssignment_from (hA : Shaped pr.input env.asolve Inv) {st st' : HState σ τ} {s : Scheduling} (hs : SchedShape pr.input s)
    (hi : Inv st.asg) {sol : Solution} (h : solveAssignment env st s = .ok (sol, st')) :
    Inv st'.asg ∧ From pr.input env.asolve Inv sol := by
  obtain ⟨h1, _, _, ⟨r, t', hr, hsol⟩, _⟩ := solveAssignment_spec hA hs hi h
  refine ⟨h1, ?_⟩
  cases r with
  | none =>
    subst hsol
    exact ⟨by intro s' e; cases e; exact hs, by intro s' a e; cases e⟩
  | some a =>
    subst hsol
    exact ⟨by intro s' e; cases e; exact hs, by intro s' a' e; cases e; exact ⟨_, _, hi, hr⟩⟩

theorem round_from (hA : Shaped pr.input env.asolve Inv) {deadline : Bool} :
    ∀ (ns : List Scheduling), (∀ n ∈ ns, SchedShape pr.input n) → ∀ {found ret found' : Bool} {b b' : Best} {st st' : HState σ τ},
      From pr.input env.asolve Inv b.sol → Inv st.asg → round pr env deadline ns found b st = .ok (ret, found', b', st') →
      Inv st'.asg ∧ From pr.input env.asolve Inv b'.sol := by
  intro ns
  induction ns with
  | nil => intro _ _ _ _ _ _ _ _ hb hi h; cases h; exact ⟨hi, hb⟩
  | cons n ns ih =>
    intro hn found ret found' b b' st st' hb hi h
    have hn' : ∀ x ∈ ns, SchedShape pr.input x := fun x hx => hn x (List.mem_cons_of_mem _ hx)
    obtain ⟨c1, _⟩ := clock_eq (env := env) (deadline := deadline) (st := st)
    simp only [round] at h
    split at h
    · cases h; exact ⟨by rw [c1]; exact hi, hb⟩
    · simp only [R.bind_eq_ok] at h
      obtain ⟨⟨sol, st1⟩, h1, sc, h2, h⟩ := h
      obtain ⟨i1, i2⟩ := solveAssignment_from hA (hn n (by simp)) (by rw [c1]; exact hi) h1
      split at h
      · exact ih hn' (b := ⟨sol, sc⟩) i2 (by exact i1) h
      · exact ih hn' hb (by exact i1) h

theorem loop_from (hg : env.rng.Lawful) (hA : Shaped pr.input env.asolve Inv) {deadline : Bool} :
    ∀ (k : Nat) {b b' : Best} {st st' : HState σ τ}, From pr.input env.asolve Inv b.sol → Inv st.asg →
      loop pr env deadline k b st = .ok (b', st') → Inv st'.asg ∧ From pr.input env.asolve Inv b'.sol := by
  intro k
  induction k with
  | zero => intro b b' st st' _ _ h; simp [loop, panic'] at h
  | succ k ih =>
    intro b b' st st' hb hi h
    simp only [loop] at h
    obtain ⟨c1, _⟩ := clock_eq (env := env) (deadline := deadline) (st := st)
    split at h
    · cases h; exact ⟨by rw [c1]; exact hi, hb⟩
    · simp only [R.bind_eq_ok] at h
      obtain ⟨s, hs, ⟨ns, rs⟩, hns, ⟨ret, found, b1, st1⟩, hr, h⟩ := h
      obtain ⟨hp, _, _⟩ := pickNeighbors_spec hg (hb.sched s hs) hns
      obtain ⟨j1, j2⟩ := round_from hA ns (fun n hn => (hp n hn).1) hb (by rw [← c1] at hi; exact hi) hr
      split at h
      · cases h; exact ⟨j1, j2⟩
      · split at h
        · exact ih j2 j1 h
        · cases h; exact ⟨j1, j2⟩

theorem solve_from (hg : env.rng.Lawful) (hA : Shaped pr.input env.asolve Inv) {deadline : Bool} {st st' : HState σ τ} (hi : Inv st.asg)
    {s : Scheduling} (hs : SchedShape pr.input s) {sol : Solution} (h : solve pr env deadline st s = .ok (sol, st')) :
    Inv st'.asg ∧ From pr.input env.asolve Inv sol := by
  unfold solve at h
  simp only [R.bind_eq_ok] at h
  obtain ⟨⟨sol0, st1⟩, h1, sc0, h2, h⟩ := h
  obtain ⟨i1, i2⟩ := solveAssignment_from hA hs hi h1
  split at h
  · cases h; exact ⟨i1, .invalid⟩
  · simp only [R.bind_eq_ok] at h
    obtain ⟨⟨b, st2⟩, hlp, h⟩ := h
    cases h
    exact loop_from hg hA rounds (b := ⟨sol0, sc0⟩) i2 (by exact i1) hlp

end Hill

open Hill
variable {σ τ ρ : Type}

/-- What a worker has recorded comes from the assignment solver. -/
def Recorded (pr : HProblem) (env : SEnv σ τ ρ) (Inv : τ → Prop) (st : SState σ τ ρ) : Prop :=
  Inv st.hill.asg ∧ From pr.input env.asolve Inv st.progress.bestSolution

theorem iterate_recorded {pr : HProblem} {env : SEnv σ τ ρ} {Inv : τ → Prop} (hg : env.rng.Lawful) (hA : Shaped pr.input env.asolve Inv)
    (hnext : ∀ r s r', env.next r = .ok (some s, r') → SchedShape pr.input s) {deadline : Bool} :
    ∀ (n k : Nat) (st st' : SState σ τ ρ), Recorded pr env Inv st → Shotgun.iterate pr env deadline n st = .ok (k, st') →
      Recorded pr env Inv st' := by
  intro n
  induction n with
  | zero => intro k st st' h hs; cases hs; exact h
  | succ n ih =>
    intro k st st' h hs
    have h1 : Recorded pr env Inv (Shotgun.clock env deadline st).2 := by unfold Shotgun.clock; split <;> exact h
    unfold Shotgun.iterate at hs
    simp only at hs
    generalize (Shotgun.clock env deadline st) = c at h1 hs
    split at hs
    · cases hs; exact h1
    · rw [R.bind_eq_ok] at hs
      obtain ⟨⟨x, r⟩, hx, hs⟩ := hs
      cases x with
      | none => cases hs; exact h1
      | some s =>
        simp only at hs
        rw [R.bind_eq_ok] at hs
        obtain ⟨⟨sol, h'⟩, h2, hs⟩ := hs
        obtain ⟨hinv, hfrom⟩ := solve_from hg hA h1.1 (hnext _ _ _ hx) h2
        rw [R.bind_eq_ok] at hs
        obtain ⟨sc, hsc, hs⟩ := hs
        rw [R.bind_eq_ok] at hs
        obtain ⟨⟨k', st2⟩, h4, hs⟩ := hs
        cases hs
        refine ih _ _ _ ?_ h4
        refine ⟨?_, ?_⟩
        · show Inv (Shotgun.record env sol sc _).hill.asg
          unfold Shotgun.record; split <;> exact hinv
        · show From _ _ _ (Shotgun.record env sol sc _).progress.bestSolution
          unfold Shotgun.record
          split
          · exact hfrom
          · exact h1.2

end Wassign
