import Verif.Proofs.SearchTerm
import Verif.Proofs.SchedRange
import Verif.Spec.Best
import Verif.Model.Main
/-
The real scheduling search as a source of schedulings.
-/
namespace Wassign
open Spec Search

theorem source_next {σ : Type} {g : RngOps σ} {i : InputData} {csTimeout : Int} {bound : Nat} {sets : Nat → List CriticalSet}
    {late : Nat → Nat → Nat → Bool} {r : σ × Nat} {x : Option Scheduling × (σ × Nat)}
    (h : source g i csTimeout bound sets late r = .ok x) : nextScheduling g i bound sets (late r.2) r.1 = .ok (x.1, x.2.1) := by
  unfold source at h
  simp only [R.bind_eq_ok] at h
  obtain ⟨d, _, h⟩ := h
  split at h
  · cases h
  · rw [R.bind_eq_ok] at h
    obtain ⟨y, hy, h⟩ := h
    cases h
    exact hy

theorem source_supplies {σ : Type} (g : RngOps σ) (i : InputData) (csTimeout : Int) (bound : Nat) (sets : Nat → List CriticalSet)
    (late : Nat → Nat → Nat → Bool) : Supplies i (source g i csTimeout bound sets late) (fun _ => True) where
  keeps := by intros; trivial
  shape := by
    intro r s r' _ h
    obtain ⟨h1, h2⟩ := nextScheduling_feasible (source_next h)
    exact ⟨h1, schedFeasible_range h1 h2⟩
  placed := by
    intro r s r' _ h
    obtain ⟨h1, h2⟩ := nextScheduling_feasible (source_next h)
    exact schedFeasible_placed h1 h2

end Wassign
