import Verif.Basic
/-
Stable sorting (Rust `sort_by_key` / `sort_unstable` on indices), as a structurally recursive
insertion sort so that concrete cases compute in the kernel.
-/
namespace Wassign
variable {α : Type}

/-- Insert before the first element that is not smaller. -/
def insertBy (le : α → α → Bool) (x : α) : List α → List α
  | [] => [x]
  | y :: ys => if le x y then x :: y :: ys else y :: insertBy le x ys

/-- Stable insertion sort. -/
def isort (le : α → α → Bool) : List α → List α
  | [] => []
  | x :: xs => insertBy le x (isort le xs)

/-- Sorting indices. -/
def sortNat (l : List Nat) : List Nat := isort (fun a b => decide (a ≤ b)) l

/-- Stable sort by a numeric key (`sort_by_key`). -/
def sortByKey (key : α → Nat) (l : List α) : List α := isort (fun a b => decide (key a ≤ key b)) l

theorem insertBy_perm (le : α → α → Bool) (x : α) (l : List α) : (insertBy le x l).Perm (x :: l) := by
  induction l with
  | nil => simp [insertBy]
  | cons y ys ih =>
    unfold insertBy; split
    · exact List.Perm.refl _
    · exact (List.Perm.cons y ih).trans (List.Perm.swap x y ys)

theorem isort_perm (le : α → α → Bool) (l : List α) : (isort le l).Perm l := by
  induction l with
  | nil => simp [isort]
  | cons x xs ih => exact (insertBy_perm le x _).trans (List.Perm.cons x ih)

@[simp] theorem mem_isort {le : α → α → Bool} {l : List α} {x : α} : x ∈ isort le l ↔ x ∈ l :=
  (isort_perm le l).mem_iff

@[simp] theorem length_isort {le : α → α → Bool} {l : List α} : (isort le l).length = l.length :=
  (isort_perm le l).length_eq

theorem insertBy_pairwise {le : α → α → Bool} (htr : ∀ a b c, le a b → le b c → le a c)
    (htot : ∀ a b, le a b || le b a) (x : α) {l : List α} (h : l.Pairwise (fun a b => le a b = true)) :
    (insertBy le x l).Pairwise (fun a b => le a b = true) := by
  induction l with
  | nil => simp [insertBy]
  | cons y ys ih =>
    rw [List.pairwise_cons] at h
    unfold insertBy
    split
    · next hxy =>
      rw [List.pairwise_cons]
      refine ⟨?_, List.pairwise_cons.2 h⟩
      intro z hz
      rcases List.mem_cons.1 hz with rfl | hz
      · exact hxy
      · exact htr _ _ _ hxy (h.1 z hz)
    · next hxy =>
      rw [List.pairwise_cons]
      refine ⟨?_, ih h.2⟩
      intro z hz
      have := (insertBy_perm le x ys).mem_iff.1 hz
      rcases List.mem_cons.1 this with rfl | hz
      · have := htot z y
        simp [hxy] at this; exact this
      · exact h.1 z hz

theorem isort_pairwise {le : α → α → Bool} (htr : ∀ a b c, le a b → le b c → le a c)
    (htot : ∀ a b, le a b || le b a) (l : List α) :
    (isort le l).Pairwise (fun a b => le a b = true) := by
  induction l with
  | nil => simp [isort]
  | cons x xs ih => exact insertBy_pairwise htr htot x ih

theorem sortNat_perm (l : List Nat) : (sortNat l).Perm l := isort_perm _ l

theorem sortNat_pairwise (l : List Nat) : (sortNat l).Pairwise (· ≤ ·) := by
  have := isort_pairwise (le := fun a b : Nat => decide (a ≤ b)) (by simp; omega) (by simp; omega) l
  exact this.imp (by simp)

@[simp] theorem mem_sortNat {l : List Nat} {x : Nat} : x ∈ sortNat l ↔ x ∈ l := (sortNat_perm l).mem_iff
@[simp] theorem length_sortNat {l : List Nat} : (sortNat l).length = l.length := (sortNat_perm l).length_eq

theorem sortNat_eq_of_perm {l₁ l₂ : List Nat} (h : l₁.Perm l₂) : sortNat l₁ = sortNat l₂ := by
  apply List.Perm.eq_of_pairwise (le := (· ≤ ·))
  · intro a b _ _; omega
  · exact sortNat_pairwise l₁
  · exact sortNat_pairwise l₂
  · exact ((sortNat_perm l₁).trans h).trans (sortNat_perm l₂).symm

theorem perm_of_sortNat_eq {l₁ l₂ : List Nat} (h : sortNat l₁ = sortNat l₂) : l₁.Perm l₂ :=
  (sortNat_perm l₁).symm.trans (h ▸ sortNat_perm l₂)

theorem sortByKey_perm (key : α → Nat) (l : List α) : (sortByKey key l).Perm l := isort_perm _ l

@[simp] theorem mem_sortByKey {key : α → Nat} {l : List α} {x : α} : x ∈ sortByKey key l ↔ x ∈ l :=
  (sortByKey_perm key l).mem_iff

theorem sortByKey_pairwise (key : α → Nat) (l : List α) :
    (sortByKey key l).Pairwise (fun a b => key a ≤ key b) := by
  have := isort_pairwise (le := fun a b : α => decide (key a ≤ key b)) (by simp; omega) (by simp; omega) l
  exact this.imp (by simp)

end Wassign
