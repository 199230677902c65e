import Verif.Proofs.SchedCons
/-
Boolean computations that never fail and decide a proposition.
-/
namespace Wassign

/-- `x` returns without fault, and its result decides `P`. -/
def Decides (x : R Bool) (P : Prop) : Prop := ∃ b, x = .ok b ∧ (b = true ↔ P)

theorem Decides.congr {x : R Bool} {P Q : Prop} (h : Decides x P) (hpq : P ↔ Q) : Decides x Q := by
  obtain ⟨b, h1, h2⟩ := h
  exact ⟨b, h1, h2.trans hpq⟩

theorem Decides.pure {b : Bool} {P : Prop} (h : b = true ↔ P) : Decides (Except.ok b) P := ⟨b, rfl, h⟩

theorem Decides.true_of {x : R Bool} {P : Prop} (h : Decides x P) (hp : P) : x = .ok true := by
  obtain ⟨b, h1, h2⟩ := h
  rw [h1, h2.2 hp]

theorem Decides.false_of {x : R Bool} {P : Prop} (h : Decides x P) (hp : ¬ P) : x = .ok false := by
  obtain ⟨b, h1, h2⟩ := h
  cases b
  · exact h1
  · exact absurd (h2.1 rfl) hp

theorem Decides.iff_true {x : R Bool} {P : Prop} (h : Decides x P) : x = .ok true ↔ P := by
  obtain ⟨b, h1, h2⟩ := h
  rw [h1, ← h2]
  simp

theorem Decides.allM {α : Type} {l : List α} {p : α → R Bool} {Q : α → Prop}
    (h : ∀ x ∈ l, Decides (p x) (Q x)) : Decides (l.allM p) (∀ x ∈ l, Q x) := by
  obtain ⟨b, hb⟩ := allM_total (fun x hx => let ⟨b, h1, _⟩ := h x hx; ⟨b, h1⟩)
  refine ⟨b, hb, allM_ok_iff ?_ hb⟩
  intro x hx c hc
  obtain ⟨d, h1, h2⟩ := h x hx
  rw [h1] at hc
  cases hc
  exact h2

theorem Decides.anyM {α : Type} {l : List α} {p : α → R Bool} {Q : α → Prop}
    (h : ∀ x ∈ l, Decides (p x) (Q x)) : Decides (l.anyM p) (∃ x ∈ l, Q x) := by
  induction l with
  | nil => exact ⟨false, rfl, by simp⟩
  | cons x xs ih =>
    obtain ⟨b, h1, h2⟩ := h x (by simp)
    obtain ⟨d, h3, h4⟩ := ih (fun y hy => h y (by simp [hy]))
    cases b
    · refine ⟨d, by simp [List.anyM, h1, h3], ?_⟩
      rw [h4]; simp at h2; simp [h2]
    · refine ⟨true, by simp [List.anyM, h1], ?_⟩
      simp at h2; simp [h2]

theorem Decides.filterM {α : Type} {l : List α} {p : α → R Bool} {Q : α → Prop} [DecidablePred Q]
    (h : ∀ x ∈ l, Decides (p x) (Q x)) : l.filterM p = .ok (l.filter (fun x => decide (Q x))) := by
  apply filterM_eq_ok_of
  intro x hx
  obtain ⟨b, h1, h2⟩ := h x hx
  rw [h1]
  congr 1
  cases b
  · simp at h2; simp [h2]
  · simp at h2; simp [h2]

theorem Decides.bind {α : Type} {x : R α} {a : α} {f : α → R Bool} {P : Prop} (hx : x = .ok a)
    (h : Decides (f a) P) : Decides (x >>= f) P := by
  rw [hx]; exact h

end Wassign
