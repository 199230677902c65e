import Verif.Proofs.Float
import Verif.Spec.Scorable
/-
When the minor score is finite.
-/
namespace Wassign
open Spec F32
namespace Scoring

/-- With moderate powers the minor score is finite. -/
theorem minorSum_finite {powf : F32 → F32 → F32} {e : F32} {m : Nat} (h : ModeratePowers powf e m) {cnt : List Nat}
    (hlen : cnt.length ≤ m + 1) (hm : m ≤ u32Max) (hc : ∀ c ∈ cnt, c ≤ u32Max) : (minorSum powf e m cnt).isFinite = true := by
  have hs : (scaling powf e m).Plain := by
    unfold scaling
    split
    · exact ofU32_plain (by unfold u32Max; omega)
    · exact plain_of (h.plain m (Nat.le_refl _)).1 (h.plain m (Nat.le_refl _)).2
  have key : ∀ l : List (Nat × Nat), (∀ x ∈ l, x.1 ≤ u32Max ∧ x.2 ≤ m) → ∀ sum : F32, sum.toNat ≤ roundBits (2^209) 1 →
      (l.foldl (minorStep powf e (scaling powf e m)) sum).toNat ≤ roundBits (2^209) 1 := by
    intro l
    induction l with
    | nil => intro _ sum hs; exact hs
    | cons x l ih =>
      intro hl sum hsum
      have hx := hl x (by simp)
      refine ih (fun y hy => hl y (by simp [hy])) _ (add_small hsum ?_)
      exact term_small (ofU32_plain hx.1) (ofU32_mag_le hx.1) (plain_of (h.plain _ hx.2).1 (h.plain _ hx.2).2) hs
        (by have := h.positive; omega) (h.least _ hx.2) h.moderate
  have := key cnt.zipIdx (by
    intro x hx
    rw [List.mem_zipIdx_iff_getElem?] at hx
    have h1 := List.mem_of_getElem? hx
    have h2 := (List.getElem?_eq_some_iff.1 hx).1
    exact ⟨hc _ h1, by omega⟩) 0#32 (by show 0 ≤ _; omega)
  exact isFinite_of_lt (Nat.lt_of_le_of_lt this (roundBits_pow 209 (by omega)))

/-- If a power of a preference value is not finite then the minor score is not, whatever the counts. -/
theorem minorSum_bad {powf : F32 → F32 → F32} {e : F32} {m n : Nat} (h : (powf (ofU32 n) e).isFinite = false) {cnt : List Nat}
    (hlen : n < cnt.length) : (minorSum powf e m cnt).isFinite = false := by
  have stay : ∀ l : List (Nat × Nat), ∀ sum : F32, sum.isFinite = false → (l.foldl (minorStep powf e (scaling powf e m)) sum).isFinite = false := by
    intro l
    induction l with
    | nil => intro sum h; exact h
    | cons x l ih => intro sum h; exact ih _ (add_bad (.inl h))
  have key : ∀ l : List (Nat × Nat), (∃ c, (c, n) ∈ l) → ∀ sum : F32, (l.foldl (minorStep powf e (scaling powf e m)) sum).isFinite = false := by
    intro l
    induction l with
    | nil => rintro ⟨c, h⟩; cases h
    | cons x l ih =>
      rintro ⟨c, hc⟩ sum
      rcases List.mem_cons.1 hc with rfl | hc
      · exact stay l _ (add_bad (.inr (div_bad (mul_bad h))))
      · exact ih ⟨c, hc⟩ _
  exact key _ ⟨cnt[n], by rw [List.mem_zipIdx_iff_getElem?]; simp [hlen]⟩ _

end Scoring
end Wassign
