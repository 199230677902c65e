import Verif.Proofs.Counts
import Verif.Proofs.IntSums
import Verif.Spec.Assign
/-
The total cost of an assignment as a sum over the preference values.
-/
namespace Wassign
open Spec
variable {i : InputData} {s : Scheduling} {a : Assignment}

theorem isum_mul_right {α : Type} (l : List α) (f : α → Int) (c : Int) : isum l (fun x => f x * c) = isum l f * c := by
  induction l with
  | nil => simp
  | cons x l ih => simp [ih, Int.add_mul]

theorem isum_count (l : List Nat) (p : Nat → Prop) [DecidablePred p] :
    isum l (fun k => if p k then 1 else 0) = ((l.countP fun k => decide (p k) : Nat) : Int) := by
  induction l with
  | nil => rfl
  | cons x l ih =>
    rw [isum_cons, ih, List.countP_cons]
    by_cases h : p x <;> simp [h]
    omega

theorem rowNodup_of_valid (h : Shape i s a) (h1 : OnePerSlot i s a) (h2 : OnlyScheduled i s a) : RowNodup i a :=
  (spec_of_colOk h (colOk_of_spec h h1 h2)).2.2

/-- The cost of one row. -/
theorem rowCost (h : Shape i s a) (hn : RowNodup i a) (he : EntriesInRange i a) (hw : WF i) (cost : Nat → Int) {p : Nat} (hp : p < i.np) :
    isum (List.range i.nc) (fun c => if attendsB a p c = true then cost ((pref i p c).getD 0) else 0) =
      isum (List.range (i.maxPref + 1)) (fun x => ((List.range i.ns).countP (fun k => decide (Gets i a p k x)) : Nat) * cost x) := by
  have s1 : isum (List.range i.nc) (fun c => if attendsB a p c = true then cost ((pref i p c).getD 0) else 0) =
      isum (List.range i.nc) (fun c => isum (List.range i.ns) (fun k => if ent a p k = c then cost ((pref i p c).getD 0) else 0)) := by
    refine isum_congr fun c _ => ?_
    by_cases hat : attendsB a p c = true
    · obtain ⟨k, hk, hkc⟩ := (attends_iff h hp).1 ((attendsB_iff a p c).1 hat)
      rw [if_pos hat, isum_range_single hk, if_pos hkc]
      intro j hj hne
      rw [if_neg]
      intro e
      exact hne (hn p hp j k hj hk (e.trans hkc.symm))
    · rw [if_neg hat, isum_zero]
      intro k hk
      rw [if_neg]
      intro e
      exact hat ((attendsB_iff a p c).2 ((attends_iff h hp).2 ⟨k, by simpa using hk, e⟩))
  rw [s1, isum_comm]
  have s2 : isum (List.range i.ns) (fun k => isum (List.range i.nc) (fun c => if ent a p k = c then cost ((pref i p c).getD 0) else 0)) =
      isum (List.range i.ns) (fun k => isum (List.range (i.maxPref + 1)) (fun x => (if Gets i a p k x then 1 else 0) * cost x)) := by
    refine isum_congr fun k hk => ?_
    have hk : k < i.ns := by simpa using hk
    obtain ⟨x, hx, hxm⟩ := pref_some hw hp (he p hp k hk)
    rw [isum_range_single (he p hp k hk) (f := fun c => if ent a p k = c then cost ((pref i p c).getD 0) else 0), if_pos rfl, hx]
    · rw [isum_range_single (show x < i.maxPref + 1 by omega) (f := fun x => (if Gets i a p k x then 1 else 0) * cost x),
        if_pos ((gets_iff h hp hk).2 hx)]
      · simp
      · intro y _ hne
        rw [if_neg]
        · simp
        · rw [gets_iff h hp hk, hx]
          intro e; cases e; exact hne rfl
    · intro c _ hne
      rw [if_neg (Ne.symm hne)]
  rw [s2, isum_comm]
  refine isum_congr fun x _ => ?_
  rw [isum_mul_right, isum_count]

/-- **The total cost is the sum of the costs of the preference values, as often as they are given out.** -/
theorem totalCost_counts (h : Shape i s a) (hn : RowNodup i a) (he : EntriesInRange i a) (hw : WF i) (cost : Nat → Int) :
    totalCost i cost a = isum (List.range (i.maxPref + 1)) (fun x => (timesGiven i a x : Int) * cost x) := by
  show isum (List.range i.np) (fun p => isum (List.range i.nc) (fun c =>
    if attendsB a p c = true then cost ((pref i p c).getD 0) else 0)) = _
  rw [isum_congr (fun p hp => rowCost h hn he hw cost (by simpa using hp)), isum_comm]
  refine isum_congr fun x _ => ?_
  rw [isum_mul_right]
  congr 1
  unfold timesGiven
  exact isum_range_natCast _ _

end Wassign

namespace Wassign
open Spec
variable {i : InputData} {s : Scheduling} {a : Assignment}

theorem totalCost_valid (h : Shape i s a) (hw : WF i) (hv : Valid i s a) (cost : Nat → Int) : totalCost i cost a = givenSum i cost a :=
  totalCost_counts h (rowNodup_of_valid h hv.onePerSlot hv.onlyScheduled) (entriesInRange_of_valid h hv.onlyScheduled) hw cost

/-- Everybody gets one value per slot. -/
theorem givenSum_one (h : Shape i s a) (hw : WF i) (hv : Valid i s a) : givenSum i (fun _ => 1) a = (i.np * i.ns : Nat) := by
  have he := entriesInRange_of_valid h hv.onlyScheduled
  show isum (List.range (i.maxPref + 1)) (fun x => (timesGiven i a x : Int) * 1) = _
  have s1 : ∀ x, (timesGiven i a x : Int) * 1 =
      isum (List.range i.np) (fun p => isum (List.range i.ns) (fun k => if Gets i a p k x then 1 else 0)) := by
    intro x
    rw [Int.mul_one]
    unfold timesGiven
    rw [isum_congr (fun p _ => isum_count (List.range i.ns) (fun k => Gets i a p k x))]
    exact (isum_range_natCast _ _).symm
  rw [isum_congr (fun x _ => s1 x), isum_comm]
  have s2 : ∀ p ∈ List.range i.np, isum (List.range (i.maxPref + 1)) (fun x => isum (List.range i.ns) (fun k => if Gets i a p k x then 1 else 0)) = (i.ns : Int) := by
    intro p hp
    have hp : p < i.np := by simpa using hp
    rw [isum_comm]
    rw [isum_congr (g := fun _ => (1 : Int)), isum_const, List.length_range, Int.mul_one]
    intro k hk
    have hk : k < i.ns := by simpa using hk
    obtain ⟨x, hx, hxm⟩ := pref_some hw hp (he p hp k hk)
    rw [isum_range_single (show x < i.maxPref + 1 by omega), if_pos ((gets_iff h hp hk).2 hx)]
    intro y _ hne
    rw [if_neg]
    rw [gets_iff h hp hk, hx]
    intro e; cases e; exact hne rfl
  rw [isum_congr s2, isum_const, List.length_range]
  simp

theorem givenSum_affine (α β : Int) {v w : Nat → Int} (h : ∀ x ≤ i.maxPref, w x = α * v x + β) :
    givenSum i w a = α * givenSum i v a + β * givenSum i (fun _ => 1) a := by
  show isum (List.range (i.maxPref + 1)) (fun x => (timesGiven i a x : Int) * w x) =
    α * isum (List.range (i.maxPref + 1)) (fun x => (timesGiven i a x : Int) * v x) +
    β * isum (List.range (i.maxPref + 1)) (fun x => (timesGiven i a x : Int) * 1)
  rw [Int.mul_comm α, Int.mul_comm β, ← isum_mul_right, ← isum_mul_right, ← isum_add]
  refine isum_congr fun x hx => ?_
  rw [h x (by have : x < i.maxPref + 1 := by simpa using hx
              omega)]
  rw [Int.mul_add, Int.mul_one]
  congr 1
  rw [Int.mul_comm α, Int.mul_assoc]

end Wassign
