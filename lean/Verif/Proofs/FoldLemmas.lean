import Verif.Basic
/-
Loop invariants for monadic folds, and sums over ranges.
-/
namespace Wassign
variable {α β : Type}

/-- Partial-correctness invariant rule for `foldlM`. -/
theorem foldlM_inv {l : List α} {f : β → α → R β} (Inv : Nat → β → Prop)
    (step : ∀ k (h : k < l.length) s s', Inv k s → f s l[k] = .ok s' → Inv (k+1) s')
    {s r : β} (h0 : Inv 0 s) (h : l.foldlM f s = .ok r) : Inv l.length r := by
  induction l generalizing s Inv with
  | nil => simp at h; subst h; exact h0
  | cons x xs ih =>
    simp only [List.foldlM_cons, R.bind_eq_ok] at h
    obtain ⟨s1, h1, h2⟩ := h
    have := ih (fun k => Inv (k+1)) (fun k hk s s' hi hf => step (k+1) (by simpa using hk) s s' hi (by simpa using hf))
      (step 0 (by simp) s s1 h0 (by simpa using h1)) h2
    simpa using this

/-- Total-correctness invariant rule for `foldlM`. -/
theorem foldlM_total {l : List α} {f : β → α → R β} (Inv : Nat → β → Prop)
    (step : ∀ k (h : k < l.length) s, Inv k s → ∃ s', f s l[k] = .ok s' ∧ Inv (k+1) s')
    {s : β} (h0 : Inv 0 s) : ∃ r, l.foldlM f s = .ok r ∧ Inv l.length r := by
  induction l generalizing s Inv with
  | nil => exact ⟨s, rfl, h0⟩
  | cons x xs ih =>
    obtain ⟨s1, h1, hi⟩ := step 0 (by simp) s h0
    simp only [List.getElem_cons_zero] at h1
    obtain ⟨r, hr, hi'⟩ := ih (fun k => Inv (k+1))
      (fun k hk s hi => step (k+1) (by simpa using hk) s hi) hi
    exact ⟨r, by simp [List.foldlM_cons, h1, hr], by simpa using hi'⟩

/-- Invariant rule for a pure `foldl`. -/
theorem foldl_inv {l : List α} {f : β → α → β} (Inv : Nat → β → Prop)
    (step : ∀ k (h : k < l.length) s, Inv k s → Inv (k+1) (f s l[k]))
    {s : β} (h0 : Inv 0 s) : Inv l.length (l.foldl f s) := by
  induction l generalizing s Inv with
  | nil => exact h0
  | cons x xs ih =>
    have := ih (fun k => Inv (k+1)) (fun k hk s hi => step (k+1) (by simpa using hk) s hi)
      (step 0 (by simp) s h0)
    simpa using this

/-- `Σ_{c<k} f c`. -/
def rsum (k : Nat) (f : Nat → Nat) : Nat := ((List.range k).map f).sum

@[simp] theorem rsum_zero (f : Nat → Nat) : rsum 0 f = 0 := rfl
@[simp] theorem rsum_succ (k : Nat) (f : Nat → Nat) : rsum (k+1) f = rsum k f + f k := by
  simp [rsum, List.range_succ, List.sum_append]

theorem rsum_congr {k : Nat} {f g : Nat → Nat} (h : ∀ c, c < k → f c = g c) :
    rsum k f = rsum k g := by
  induction k with
  | zero => rfl
  | succ k ih => simp [ih (fun c hc => h c (by omega)), h k (by omega)]

theorem rsum_le_rsum {k : Nat} {f g : Nat → Nat} (h : ∀ c, c < k → f c ≤ g c) :
    rsum k f ≤ rsum k g := by
  induction k with
  | zero => simp
  | succ k ih =>
    have := ih (fun c hc => h c (by omega))
    have := h k (by omega)
    simp; omega

theorem rsum_mono {k n : Nat} (h : k ≤ n) (f : Nat → Nat) : rsum k f ≤ rsum n f := by
  induction n with
  | zero => have : k = 0 := by omega
            subst this; simp
  | succ n ih =>
    by_cases hk : k = n + 1
    · subst hk; simp
    · have := ih (by omega); simp; omega

theorem rsum_add (k : Nat) (f g : Nat → Nat) :
    rsum k (fun c => f c + g c) = rsum k f + rsum k g := by
  induction k with
  | zero => simp
  | succ k ih => simp [ih]; omega

@[simp] theorem rsum_const_zero (k : Nat) : rsum k (fun _ => 0) = 0 := by
  induction k with
  | zero => rfl
  | succ k ih => simp [ih]

theorem rsum_const (k m : Nat) : rsum k (fun _ => m) = k * m := by
  induction k with
  | zero => simp
  | succ k ih => simp [ih, Nat.succ_mul]

/-- Changing one summand. -/
theorem rsum_update {k : Nat} {f g : Nat → Nat} {j : Nat} (hj : j < k)
    (h : ∀ c, c < k → c ≠ j → f c = g c) : rsum k f + g j = rsum k g + f j := by
  induction k with
  | zero => omega
  | succ k ih =>
    simp only [rsum_succ]
    by_cases hjk : j = k
    · subst hjk
      have : rsum j f = rsum j g := rsum_congr (fun c hc => h c (by omega) (by omega))
      omega
    · have := ih (by omega) (fun c hc hne => h c (by omega) hne)
      have := h k (by omega) (fun e => hjk e.symm)
      omega

theorem rsum_single_le {k j : Nat} (hj : j < k) (f : Nat → Nat) : f j ≤ rsum k f := by
  induction k with
  | zero => omega
  | succ k ih =>
    simp only [rsum_succ]
    by_cases hjk : j = k
    · subst hjk; omega
    · have := ih (by omega); omega

theorem rsum_comm (n m : Nat) (f : Nat → Nat → Nat) :
    rsum n (fun a => rsum m (fun b => f a b)) = rsum m (fun b => rsum n (fun a => f a b)) := by
  induction n with
  | zero => simp
  | succ n ih => simp [ih, rsum_add]

theorem rsum_eq_list_sum {γ : Type} (l : List γ) (f : γ → Nat) (g : Nat → Nat)
    (h : ∀ k (hk : k < l.length), g k = f l[k]) : rsum l.length g = (l.map f).sum := by
  have : (List.range l.length).map g = l.map f := by
    apply List.ext_getElem
    · simp
    · intro n h1 h2
      have : n < l.length := by simpa using h1
      simp [h n this]
  simp [rsum, this]

theorem countP_range_eq_rsum (n : Nat) (p : Nat → Bool) :
    (List.range n).countP p = rsum n (fun c => if p c then 1 else 0) := by
  induction n with
  | zero => simp
  | succ n ih => simp [List.range_succ, List.countP_append, ih, List.countP_cons]

end Wassign
