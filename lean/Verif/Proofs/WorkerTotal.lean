import Verif.Proofs.HillTotal
import Verif.Proofs.HillAsg
import Verif.Proofs.Shotgun
import Verif.Proofs.Threaded
/-
Workers do not panic.
-/
namespace Wassign
open Spec Hill

variable {σ τ ρ : Type}

/-- The scheduling solver of a worker always answers, and what it supplies is valid. -/
structure Answers (i : InputData) (next : ρ → R (Option Scheduling × ρ)) (Inv : ρ → Prop) : Prop where
  total : ∀ r, Inv r → ∃ x r', next r = .ok (x, r') ∧ Inv r'
  valid : ∀ r s r', Inv r → next r = .ok (some s, r') → SchedShape i s ∧ SchedValid i s

/-- What keeps a worker from panicking. -/
structure WorkerTotal (pr : HProblem) (env : SEnv σ τ ρ) (Inv : τ → Prop) (InvR : ρ → Prop) : Prop where
  wf : WF pr.input
  sizes : Sizes pr.input
  lawful : env.rng.Lawful
  varied : env.rng.Varied env.draws pr.input.nc
  solid : Solid pr.input env.asolve Inv
  answers : Answers pr.input env.next InvR

theorem evaluate_invalid (sc : Scoring) (i : InputData) : ∃ x, sc.evaluate i .invalid = .ok x := ⟨_, rfl⟩

theorem iterate_total {pr : HProblem} {env : SEnv σ τ ρ} {Inv : τ → Prop} {InvR : ρ → Prop} (hW : WorkerTotal pr env Inv InvR)
    (dl : Bool) : ∀ (n : Nat) (st : SState σ τ ρ), Inv st.hill.asg → InvR st.sched →
    ∃ k st', Shotgun.iterate pr env dl n st = .ok (k, st') ∧ Inv st'.hill.asg ∧ InvR st'.sched := by
  intro n
  induction n with
  | zero => intro st h1 h2; exact ⟨0, st, rfl, h1, h2⟩
  | succ n ih =>
    intro st h1 h2
    unfold Shotgun.iterate
    have hc : (Shotgun.clock env dl st).2.hill = st.hill ∧ (Shotgun.clock env dl st).2.sched = st.sched := by
      unfold Shotgun.clock; split <;> exact ⟨rfl, rfl⟩
    rw [← hc.1] at h1
    rw [← hc.2] at h2
    generalize Shotgun.clock env dl st = c at h1 h2
    simp only
    split
    · exact ⟨0, c.2, rfl, h1, h2⟩
    · obtain ⟨x, r', hx, hr'⟩ := hW.answers.total _ h2
      rw [hx, R.bind_ok]
      cases x with
      | none => exact ⟨0, _, rfl, h1, hr'⟩
      | some s =>
        obtain ⟨hs, hv⟩ := hW.answers.valid _ _ _ h2 hx
        obtain ⟨⟨sol, h'⟩, hh⟩ := solve_total hW.wf hW.sizes hW.lawful hW.varied hW.solid dl h1 hs hv
        obtain ⟨hi, _, _, sol0, sc0, _, evs, _, _, _, _, _, hres⟩ := solve_spec (F := fun _ => True) hW.wf (Nat.le_of_lt hW.sizes.maxPref) hW.lawful hW.solid.shaped
          (fun _ _ _ => trivial) h1 hs trivial hh
        have hev : ∃ sc, pr.scoring.evaluate pr.input sol = .ok sc := by
          rcases hres with ⟨_, rfl, _⟩ | ⟨_, _, sc, _, hg, _⟩
          · exact evaluate_invalid _ _
          · exact ⟨sc, hg.eval⟩
        obtain ⟨sc, hsc⟩ := hev
        simp only [hh, R.bind_ok, hsc]
        have key : ∀ st0 : SState σ τ ρ, Inv st0.hill.asg → InvR st0.sched →
            Inv (Shotgun.tick env (Shotgun.record env sol sc st0)).hill.asg ∧ InvR (Shotgun.tick env (Shotgun.record env sol sc st0)).sched := by
          intro st0 a b
          obtain ⟨_, e1, e2, _⟩ := record_best env sol sc st0
          constructor
          · show Inv (Shotgun.record env sol sc st0).hill.asg
            rw [← e2.2.1]; exact a
          · show InvR (Shotgun.record env sol sc st0).sched
            rw [e1]; exact b
        obtain ⟨k1, k2⟩ := key { c.2 with
          sched := r'
          hill := h' } hi hr'
        obtain ⟨k, st', e, i1, i2⟩ := ih _ k1 k2
        rw [e, R.bind_ok]
        exact ⟨_, _, rfl, i1, i2⟩

namespace Threaded

/-- No worker has panicked, and the sub-solvers keep their invariants. -/
def Calm (Inv : Nat → τ → Prop) (InvR : Nat → ρ → Prop) (g : Session σ τ ρ) : Prop :=
  ∀ tid w, g.workers[tid]? = some w → w.phase ≠ .panicked ∧ Inv tid w.st.hill.asg ∧ InvR tid w.st.sched

theorem calm_start {cfg : Setup σ τ ρ} {Inv : Nat → τ → Prop} {InvR : Nat → ρ → Prop}
    (h : ∀ tid, Inv tid (cfg.init tid).hill.asg ∧ InvR tid (cfg.init tid).sched) : Calm Inv InvR (start cfg) := by
  intro tid w hw
  unfold start at hw
  simp only [List.getElem?_map] at hw
  cases e : (List.range (workerCount cfg))[tid]? with
  | none => rw [e] at hw; cases hw
  | some t =>
    rw [e] at hw
    obtain ⟨h1, h2⟩ := List.getElem?_eq_some_iff.1 e
    simp at h2
    subst h2
    cases hw
    exact ⟨by simp, (h tid).1, (h tid).2⟩

theorem calm_set {Inv : Nat → τ → Prop} {InvR : Nat → ρ → Prop} {g : Session σ τ ρ} (h : Calm Inv InvR g) {tid : Nat} {w' : Worker σ τ ρ}
    (hw : w'.phase ≠ .panicked ∧ Inv tid w'.st.hill.asg ∧ InvR tid w'.st.sched) (b : Bool) :
    Calm Inv InvR ⟨b, g.workers.set tid w'⟩ := by
  intro t w ht
  simp only [List.getElem?_set] at ht
  split at ht
  · rename_i e
    subst e
    split at ht
    · cases ht; exact hw
    · cases ht
  · exact h t w ht

theorem calm_run {cfg : Setup σ τ ρ} {Inv : Nat → τ → Prop} {InvR : Nat → ρ → Prop}
    (hW : ∀ tid, WorkerTotal cfg.problem (cfg.env tid) (Inv tid) (InvR tid)) {g g' : Session σ τ ρ} (h : Calm Inv InvR g)
    (hr : Run cfg g g') : Calm Inv InvR g' := by
  induction hr with
  | refl => exact h
  | step _ hs ih =>
    rename_i g1 g2 _
    cases hs with
    | cancel => exact fun t w ht => ih t w ht
    | move hm =>
      cases hm with
      | check tid w late hw hp =>
        obtain ⟨_, a, b⟩ := ih tid w hw
        refine calm_set ih ?_ _
        unfold checkStep
        split <;> exact ⟨by simp, a, b⟩
      | run tid w hw hp =>
        obtain ⟨_, a, b⟩ := ih tid w hw
        refine calm_set ih ?_ _
        obtain ⟨k, st', e, c, d⟩ := iterate_total (hW tid) true 1 w.st a b
        unfold runStep
        rw [e]
        exact ⟨by simp, c, d⟩
      | test tid k w hw hp =>
        obtain ⟨_, a, b⟩ := ih tid w hw
        refine calm_set ih ?_ _
        have hst : ∀ st : SState σ τ ρ, (st = w.st ∨ st = Shotgun.progress (cfg.env tid) w.st) → Inv tid st.hill.asg ∧ InvR tid st.sched := by
          rintro st (rfl | rfl) <;> exact ⟨a, b⟩
        unfold testStep
        simp only
        have hx := hst (if cfg.any then Shotgun.progress (cfg.env tid) w.st else w.st) (by split <;> simp)
        generalize (if cfg.any then Shotgun.progress (cfg.env tid) w.st else w.st) = st' at hx
        split
        · exact ⟨by simp, hx⟩
        · split <;> exact ⟨by simp, hx⟩

end Threaded
end Wassign
