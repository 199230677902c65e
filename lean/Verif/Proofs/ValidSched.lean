import Verif.Spec.Solution
import Verif.Spec.WF
import Verif.Proofs.FoldLemmas
import Verif.Proofs.Attend
/-
The scheduling of a valid solution is feasible.
-/
namespace Wassign
open Spec
open scoped Classical

theorem rsum_unique {n j : Nat} (hj : j < n) (P : Nat → Prop) [DecidablePred P] (h1 : P j) (h2 : ∀ c, c < n → P c → c = j) :
    rsum n (fun c => if P c then 1 else 0) = 1 := by
  have h := rsum_update (k := n) (f := fun c => if P c then 1 else 0) (g := fun _ => 0) hj (by
    intro c hc hne
    show (if P c then 1 else 0) = 0
    rw [if_neg (fun h => hne (h2 c hc h))])
  simp only [rsum_const_zero, if_pos h1] at h
  omega

/-- The people in the choices of one slot are all the people. -/
theorem slot_participants {i : InputData} {s : Scheduling} {a : Assignment} (hlen : s.length = i.nc) (h1 : OnePerSlot i s a)
    {t : Nat} (ht : t < i.ns) : rsum i.nc (fun c => if slotAt s c = some t then participants i a c else 0) = i.np := by
  have e1 : rsum i.nc (fun c => if slotAt s c = some t then participants i a c else 0) =
      rsum i.nc (fun c => rsum i.np (fun p => if slotAt s c = some t ∧ Attends a p c then 1 else 0)) := by
    apply rsum_congr
    intro c _
    by_cases hc : slotAt s c = some t
    · rw [if_pos hc]
      unfold participants
      rw [countP_range_eq_rsum]
      apply rsum_congr
      intro p _
      by_cases ha : Attends a p c
      · rw [if_pos ((attendsB_iff a p c).2 ha), if_pos ⟨hc, ha⟩]
      · rw [if_neg (fun h => ha ((attendsB_iff a p c).1 h)), if_neg (fun h => ha h.2)]
    · rw [if_neg hc]
      symm
      rw [show (fun p => if slotAt s c = some t ∧ Attends a p c then 1 else 0) = fun _ => 0 from by
        funext p; rw [if_neg (fun h => hc h.1)]]
      exact rsum_const_zero _
  rw [e1, rsum_comm]
  have e2 : rsum i.np (fun p => rsum i.nc (fun c => if slotAt s c = some t ∧ Attends a p c then 1 else 0)) = rsum i.np (fun _ => 1) := by
    apply rsum_congr
    intro p hp
    obtain ⟨c, ⟨q1, q2⟩, q3⟩ := h1 p hp t ht
    have hc : c < i.nc := by
      rw [← hlen]
      apply Nat.lt_of_not_le
      intro hge
      rw [slotAt_none_of_ge hge] at q2; cases q2
    exact rsum_unique hc _ ⟨q2, q1⟩ (fun c' _ h => q3 c' h.2 h.1)
  rw [e2, rsum_const, Nat.mul_one]

/-- **Every valid solution has a feasible scheduling.** -/
theorem schedValid_of_valid {i : InputData} {s : Scheduling} {a : Assignment} (hlen : s.length = i.nc) (hv : Valid i s a)
    (hp : Placed i s) : SchedValid i s := by
  have get : ∀ (f : Choice → Nat) c (hc : c < i.nc), (i.choices[c]?.map f).getD 0 = f i.choices[c] := by
    intro f c hc
    have : i.choices[c]? = some i.choices[c] := List.getElem?_eq_getElem hc
    rw [this]; rfl
  refine ⟨hp, ?_, ?_, hv.sched⟩
  · intro t ht
    rw [← slot_participants hlen hv.onePerSlot ht]
    refine rsum_le_rsum (k := i.nc) (fun c hc => ?_)
    by_cases h : slotAt s c = some t
    · rw [if_pos h, if_pos h, get _ c hc]
      exact (hv.bounds c hc (by rw [h]; simp)).1
    · rw [if_neg h, if_neg h]; exact Nat.le_refl _
  · intro t ht
    have := slot_participants hlen hv.onePerSlot ht
    refine Nat.le_trans (Nat.le_of_eq this.symm) ?_
    refine rsum_le_rsum (k := i.nc) (fun c hc => ?_)
    by_cases h : slotAt s c = some t
    · rw [if_pos h, if_pos h, get _ c hc]
      exact (hv.bounds c hc (by rw [h]; simp)).2
    · rw [if_neg h, if_neg h]; exact Nat.le_refl _

end Wassign
