import Verif.Proofs.FoldLemmas
/-
Pigeonhole facts over lists of naturals (core Lean only).
-/
namespace Wassign

theorem nodup_map_range {n : Nat} {f : Nat → Nat}
    (inj : ∀ a b, a < n → b < n → f a = f b → a = b) : ((List.range n).map f).Nodup := by
  induction n with
  | zero => simp
  | succ n ih =>
    rw [List.range_succ, List.map_append, List.nodup_append]
    refine ⟨ih (fun a b ha hb h => inj a b (by omega) (by omega) h), by simp, ?_⟩
    intro a ha b hb
    simp at ha hb
    obtain ⟨c, hc, rfl⟩ := ha
    subst hb
    intro e
    have := inj c n (by omega) (by omega) e
    omega

/-- An injective map from `0..n` to itself is surjective. -/
theorem surj_of_inj {n : Nat} {f : Nat → Nat} (hf : ∀ k, k < n → f k < n)
    (inj : ∀ a b, a < n → b < n → f a = f b → a = b) : ∀ t, t < n → ∃ k, k < n ∧ f k = t := by
  intro t ht
  by_cases h : t ∈ (List.range n).map f
  · simpa using h
  · have hd : (t :: (List.range n).map f).Nodup := List.nodup_cons.2 ⟨h, nodup_map_range inj⟩
    have hsub : (t :: (List.range n).map f) ⊆ List.range n := by
      intro x hx
      simp at hx ⊢
      rcases hx with rfl | ⟨k, hk, rfl⟩
      · exact ht
      · exact hf k hk
    have := hd.length_le_of_subset hsub
    simp at this; omega

/-- A surjective map from `0..n` onto `0..n` is injective. -/
theorem inj_of_surj {n : Nat} {f : Nat → Nat}
    (surj : ∀ t, t < n → ∃ k, k < n ∧ f k = t) :
    ∀ a b, a < n → b < n → f a = f b → a = b := by
  -- choose a right inverse on 0..n; it is injective, hence surjective
  have hg : ∃ g : Nat → Nat, ∀ t, t < n → g t < n ∧ f (g t) = t := by
    refine ⟨fun t => if h : t < n then (surj t h).choose else 0, ?_⟩
    intro t ht
    simp [ht]
    exact (surj t ht).choose_spec
  obtain ⟨g, hg⟩ := hg
  have ginj : ∀ a b, a < n → b < n → g a = g b → a = b := by
    intro a b ha hb h
    have h1 := (hg a ha).2
    have h2 := (hg b hb).2
    rw [h] at h1; omega
  have gsurj := surj_of_inj (fun k hk => (hg k hk).1) ginj
  intro a b ha hb h
  obtain ⟨x, hx, rfl⟩ := gsurj a ha
  obtain ⟨y, hy, rfl⟩ := gsurj b hb
  rw [(hg x hx).2, (hg y hy).2] at h
  rw [h]

end Wassign
