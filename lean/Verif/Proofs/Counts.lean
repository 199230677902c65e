import Verif.Proofs.Evaluate
import Verif.Spec.Counts
/-
The preference counts of scoring.rs:240-253 count what they should.
-/
namespace Wassign
open Spec
variable {i : InputData} {s : Scheduling} {a : Assignment}

/-- Cells with preference `x` in the first `k` entries of chooser `p`. -/
def rowCount (i : InputData) (a : Assignment) (x p k : Nat) : Nat := (List.range k).countP fun k => decide (Gets i a p k x)

theorem rowCount_succ (x p k : Nat) : rowCount i a x p (k+1) = rowCount i a x p k + if Gets i a p k x then 1 else 0 := by
  unfold rowCount
  rw [List.range_succ, List.countP_append]
  simp [List.countP_cons]

/-- Cells with preference `x` in the rows of the first `p` choosers. -/
def givenUpTo (i : InputData) (a : Assignment) (x p : Nat) : Nat := ((List.range p).map fun p => rowCount i a x p i.ns).sum

theorem givenUpTo_succ (x p : Nat) : givenUpTo i a x (p+1) = givenUpTo i a x p + rowCount i a x p i.ns := by
  unfold givenUpTo
  rw [List.range_succ, List.map_append, List.sum_append]
  simp

theorem gets_iff (h : Shape i s a) {p k : Nat} (hp : p < i.np) (hk : k < i.ns) {x : Nat} :
    Gets i a p k x ↔ pref i p (ent a p k) = some x := by
  unfold Gets
  rw [entry_some h hp hk]
  simp

/-- **The preference counts are exact.** -/
theorem prefCounts_spec (h : Shape i s a) {cnt : List Nat} (hc : Scoring.prefCounts i a = .ok cnt) :
    cnt = (List.range (i.maxPref + 1)).map (timesGiven i a) := by
  unfold Scoring.prefCounts at hc
  rw [R.bind_eq_ok] at hc
  obtain ⟨n, hn, hc⟩ := hc
  obtain ⟨_, rfl⟩ := addU32_eq_ok.1 hn
  have key := foldlM_inv (l := List.range i.np)
    (Inv := fun p (cnt : List Nat) => cnt = (List.range (i.maxPref + 1)).map fun x => givenUpTo i a x p) (r := cnt) ?_ ?_ hc
  · rw [List.length_range] at key; exact key
  · intro p hp cnt cnt' hinv hf
    have hp : p < i.np := by simpa using hp
    simp only [List.getElem_range] at hf
    have inner := foldlM_inv (l := List.range i.ns)
      (Inv := fun k (cnt : List Nat) => cnt = (List.range (i.maxPref + 1)).map fun x => givenUpTo i a x p + rowCount i a x p k) (r := cnt') ?_ ?_ hf
    · rw [List.length_range] at inner
      rw [inner]
      simp only [givenUpTo_succ]
    · intro k hk cnt cnt' hinv hf
      have hk : k < i.ns := by simpa using hk
      simp only [List.getElem_range, R.bind_eq_ok] at hf
      obtain ⟨x, hx, c, hc, c', hc', hf⟩ := hf
      rw [cellPref_ok_iff h hp hk] at hx
      obtain ⟨_, rfl⟩ := addU32_eq_ok.1 hc'
      cases hf
      have hg : ∀ y, Gets i a p k y ↔ y = x := by
        intro y
        rw [gets_iff h hp hk, hx]
        exact ⟨fun e => (Option.some.inj e).symm, fun e => by rw [e]⟩
      have hget := idx_eq_ok.1 hc
      apply List.ext_getElem?
      intro y
      rw [List.getElem?_set]
      split
      · rename_i e
        subst e
        rw [hinv] at hget
        split
        · rename_i hlt
          rw [hinv] at hlt
          simp only [List.length_map, List.length_range] at hlt
          rw [List.getElem?_map, List.getElem?_range hlt] at hget ⊢
          simp only [Option.map_some, Option.some.injEq, rowCount_succ, hg, if_true] at hget ⊢
          omega
        · rename_i hlt
          rw [hinv] at hlt
          simp only [List.length_map, List.length_range] at hlt
          rw [List.getElem?_eq_none (by simpa using hlt)]
      · rename_i hne
        rw [hinv]
        simp only [List.getElem?_map]
        by_cases hy : y < i.maxPref + 1
        · rw [List.getElem?_range hy]
          simp only [Option.map_some, rowCount_succ, hg, if_neg (Ne.symm hne), Nat.add_zero]
        · rw [List.getElem?_eq_none (by simpa using hy)]; rfl
    · rw [hinv]; simp [rowCount]
  · apply List.ext_getElem?
    intro y
    by_cases hy : y < i.maxPref + 1
    · rw [List.getElem?_map, List.getElem?_range hy, List.getElem?_replicate, if_pos hy]
      rfl
    · rw [List.getElem?_eq_none (by simpa using hy), List.getElem?_eq_none (by simpa using hy)]

theorem timesGiven_le (x : Nat) : timesGiven i a x ≤ i.np * i.ns := by
  unfold timesGiven
  have : ∀ n, ((List.range n).map fun p => (List.range i.ns).countP fun k => decide (Gets i a p k x)).sum ≤ n * i.ns := by
    intro n
    induction n with
    | zero => simp
    | succ n ih =>
      rw [List.range_succ, List.map_append, List.sum_append, Nat.succ_mul]
      have := @List.countP_le_length Nat (fun k => decide (Gets i a n k x)) (List.range i.ns)
      rw [List.length_range] at this
      simp only [List.map_cons, List.map_nil, List.sum_cons, List.sum_nil]
      omega
  exact this i.np

end Wassign
