import Verif.Spec.Best
import Verif.Proofs.ScoreOrder
/-
Keeping the best of a sequence of scored solutions.
-/
namespace Wassign
open Spec

/-- The comparison used everywhere in the code: replace only by something strictly better. -/
def keep (b x : Solution × Score) : Solution × Score := if Score.lt x.2 b.2 then x else b

/-- Nothing found. -/
def nothing : Solution × Score := (.invalid, Score.infinite)

theorem Score.inMode_infinite (g : Bool) : Score.infinite.InMode g := by
  intro h; exact absurd h (by decide)

theorem Score.lt_finite {a b : Score} (h : Score.lt a b = true) : a.isFinite = true := by
  unfold Score.lt at h
  cases fa : a.isFinite
  · rw [Score.cmp_nonfinite_left fa] at h
    split at h <;> cases h
  · rfl

theorem Score.lt_of_nonfinite {a b : Score} (ha : a.isFinite = true) (hb : b.isFinite = false) : Score.lt a b = true := by
  unfold Score.lt
  rw [Score.cmp_nonfinite_right hb, ha]; rfl

theorem isBest_nil : IsBest [] nothing := .inl ⟨rfl, by simp⟩

theorem Spec.IsBest.mode {g : Bool} {seen : List (Solution × Score)} {b : Solution × Score} (h : IsBest seen b) (hm : OneMode g seen) :
    b.2.InMode g := by
  rcases h with ⟨rfl, _⟩ | ⟨h, _⟩
  · exact Score.inMode_infinite g
  · exact hm b h

theorem Spec.IsBest.le {seen : List (Solution × Score)} {b : Solution × Score} (h : IsBest seen b) : ∀ x ∈ seen, b.2.le x.2 := by
  rcases h with ⟨rfl, h⟩ | ⟨_, _, h⟩
  · intro x hx
    unfold Score.le
    rw [Score.cmp_nonfinite_left (show (Solution.invalid, Score.infinite).2.isFinite = false from rfl), h x hx]
    simp
  · exact h

theorem isBest_keep {g : Bool} {seen : List (Solution × Score)} {b x : Solution × Score} (hm : OneMode g (seen ++ [x]))
    (h : IsBest seen b) : IsBest (seen ++ [x]) (keep b x) := by
  have hb : b.2.InMode g := h.mode (fun y hy => hm y (by simp [hy]))
  have hx : x.2.InMode g := hm x (by simp)
  unfold keep
  cases hlt : Score.lt x.2 b.2
  · simp only [Bool.false_eq_true, if_false]
    have hle := Score.not_lt_iff.1 hlt
    rcases h with ⟨rfl, h⟩ | ⟨h1, h2, h3⟩
    · refine .inl ⟨rfl, ?_⟩
      intro y hy
      rcases List.mem_append.1 hy with hy | hy
      · exact h y hy
      · simp only [List.mem_singleton] at hy; subst hy
        cases hf : y.2.isFinite
        · rfl
        · rw [Score.lt_of_nonfinite hf (by rfl)] at hlt; cases hlt
    · refine .inr ⟨by simp [h1], h2, ?_⟩
      intro y hy
      rcases List.mem_append.1 hy with hy | hy
      · exact h3 y hy
      · simp only [List.mem_singleton] at hy; subst hy; exact hle
  · simp only [if_true]
    refine .inr ⟨by simp, Score.lt_finite hlt, ?_⟩
    intro y hy
    rcases List.mem_append.1 hy with hy | hy
    · exact Score.le_trans hx hb (hm y (by simp [hy])) (Score.lt_le hlt) (h.le y hy)
    · simp only [List.mem_singleton] at hy; subst hy; exact Score.le_refl _

theorem isBest_foldl {g : Bool} : ∀ (l seen : List (Solution × Score)) {b : Solution × Score}, OneMode g (seen ++ l) →
    IsBest seen b → IsBest (seen ++ l) (l.foldl keep b) := by
  intro l
  induction l with
  | nil => intro seen b _ h; simpa using h
  | cons x l ih =>
    intro seen b hm h
    have := ih (seen ++ [x]) (b := keep b x) (by simpa using hm)
      (isBest_keep (fun y hy => hm y (by simp at hy ⊢; rcases hy with hy | hy <;> simp [hy])) h)
    simpa using this

/-- Keeping the best of the bests. -/
theorem isBest_flatten {α : Type} {g : Bool} (seen : α → List (Solution × Score)) (best : α → Solution × Score) :
    ∀ (l : List α) {b : Solution × Score}, (∀ a ∈ l, OneMode g (seen a) ∧ IsBest (seen a) (best a)) →
      IsBest (l.map best) b → IsBest (l.flatMap seen) b := by
  intro l b h hb
  have hmode : OneMode g (l.map best) := by
    intro x hx
    obtain ⟨a, ha, rfl⟩ := List.mem_map.1 hx
    exact (h a ha).2.mode (h a ha).1
  rcases hb with ⟨rfl, hb⟩ | ⟨h1, h2, h3⟩
  · refine .inl ⟨rfl, ?_⟩
    intro x hx
    obtain ⟨a, ha, hx⟩ := List.mem_flatMap.1 hx
    have hf := hb (best a) (List.mem_map.2 ⟨a, ha, rfl⟩)
    rcases (h a ha).2 with ⟨_, h'⟩ | ⟨_, h', _⟩
    · exact h' x hx
    · rw [hf] at h'; cases h'
  · obtain ⟨a, ha, rfl⟩ := List.mem_map.1 h1
    refine .inr ⟨?_, h2, ?_⟩
    · rcases (h a ha).2 with ⟨e, _⟩ | ⟨hm, _⟩
      · rw [e] at h2; exact absurd h2 (by decide)
      · exact List.mem_flatMap.2 ⟨a, ha, hm⟩
    · intro x hx
      obtain ⟨a', ha', hx⟩ := List.mem_flatMap.1 hx
      exact Score.le_trans (hmode _ (List.mem_map.2 ⟨a, ha, rfl⟩)) (hmode _ (List.mem_map.2 ⟨a', ha', rfl⟩))
        ((h a' ha').1 x hx) (h3 _ (List.mem_map.2 ⟨a', ha', rfl⟩)) ((h a' ha').2.le x hx)

end Wassign
