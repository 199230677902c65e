import Verif.Proofs.FoldLemmas
/-
Integer sums over lists.
-/
namespace Wassign

/-- Sum of `f` over a list. -/
def isum {α : Type} (l : List α) (f : α → Int) : Int := (l.map f).sum

section
variable {α β : Type}

@[simp] theorem isum_nil (f : α → Int) : isum [] f = 0 := rfl
@[simp] theorem isum_cons (a : α) (l : List α) (f : α → Int) : isum (a :: l) f = f a + isum l f := by
  simp [isum]

theorem isum_append (l l' : List α) (f : α → Int) : isum (l ++ l') f = isum l f + isum l' f := by
  induction l with
  | nil => simp
  | cons a l ih => simp [ih]; omega

theorem isum_congr {l : List α} {f g : α → Int} (h : ∀ a ∈ l, f a = g a) : isum l f = isum l g := by
  induction l with
  | nil => rfl
  | cons a l ih => simp [h a (by simp), ih (fun b hb => h b (by simp [hb]))]

theorem isum_zero {l : List α} {f : α → Int} (h : ∀ a ∈ l, f a = 0) : isum l f = 0 := by
  induction l with
  | nil => rfl
  | cons a l ih => simp [h a (by simp), ih (fun b hb => h b (by simp [hb]))]

theorem isum_map (l : List α) (g : α → β) (f : β → Int) : isum (l.map g) f = isum l (fun a => f (g a)) := by
  simp [isum, Function.comp_def]

theorem isum_flatMap (l : List α) (g : α → List β) (f : β → Int) :
    isum (l.flatMap g) f = isum l (fun a => isum (g a) f) := by
  induction l with
  | nil => rfl
  | cons a l ih => simp [isum_append, ih]

theorem isum_filter (l : List α) (p : α → Bool) (f : α → Int) :
    isum (l.filter p) f = isum l (fun a => if p a then f a else 0) := by
  induction l with
  | nil => rfl
  | cons a l ih =>
    simp only [List.filter_cons]
    split <;> simp [*]

theorem isum_add (l : List α) (f g : α → Int) : isum l (fun a => f a + g a) = isum l f + isum l g := by
  induction l with
  | nil => rfl
  | cons a l ih => simp [ih]; omega

theorem isum_sub (l : List α) (f g : α → Int) : isum l (fun a => f a - g a) = isum l f - isum l g := by
  induction l with
  | nil => rfl
  | cons a l ih => simp [ih]; omega

theorem isum_comm (l : List α) (l' : List β) (f : α → β → Int) :
    isum l (fun a => isum l' (fun b => f a b)) = isum l' (fun b => isum l (fun a => f a b)) := by
  induction l with
  | nil => simp; exact (isum_zero (by simp)).symm
  | cons a l ih => simp [ih, isum_add]

theorem isum_nonneg {l : List α} {f : α → Int} (h : ∀ a ∈ l, 0 ≤ f a) : 0 ≤ isum l f := by
  induction l with
  | nil => simp
  | cons a l ih =>
    have := ih (fun b hb => h b (by simp [hb]))
    have := h a (by simp)
    simp; omega

theorem isum_le {l : List α} {f g : α → Int} (h : ∀ a ∈ l, f a ≤ g a) : isum l f ≤ isum l g := by
  induction l with
  | nil => simp
  | cons a l ih =>
    have := ih (fun b hb => h b (by simp [hb]))
    have := h a (by simp)
    simp; omega

theorem isum_const (l : List α) (c : Int) : isum l (fun _ => c) = l.length * c := by
  induction l with
  | nil => simp
  | cons a l ih => simp [ih, Int.add_mul]; omega

/-- Only one summand differs from zero. -/
theorem isum_single [DecidableEq α] {l : List α} (hn : l.Nodup) {a : α} (ha : a ∈ l) {f : α → Int}
    (h : ∀ b ∈ l, b ≠ a → f b = 0) : isum l f = f a := by
  induction l with
  | nil => cases ha
  | cons b l ih =>
    rw [List.nodup_cons] at hn
    rw [isum_cons]
    by_cases e : b = a
    · subst e
      rw [isum_zero (fun c hc => h c (by simp [hc]) (by rintro rfl; exact hn.1 hc))]
      omega
    · rw [h b (by simp) e, ih hn.2 (by simpa [Ne.symm e] using ha) (fun c hc => h c (by simp [hc]))]
      omega

theorem isum_range_single {n k : Nat} (hk : k < n) {f : Nat → Int} (h : ∀ b, b < n → b ≠ k → f b = 0) :
    isum (List.range n) f = f k :=
  isum_single List.nodup_range (by simpa using hk) (fun b hb => h b (by simpa using hb))

/-- A sum of zeros and ones over a list without repetition that equals one has exactly one one. -/
theorem isum_one_unique [DecidableEq α] {l : List α} (hn : l.Nodup) {f : α → Int}
    (h01 : ∀ a ∈ l, f a = 0 ∨ f a = 1) (h : isum l f = 1) : ∃ a ∈ l, f a = 1 ∧ ∀ b ∈ l, f b = 1 → b = a := by
  induction l with
  | nil => simp at h
  | cons a l ih =>
    rw [List.nodup_cons] at hn
    rw [isum_cons] at h
    have hl : ∀ b ∈ l, f b = 0 ∨ f b = 1 := fun b hb => h01 b (by simp [hb])
    rcases h01 a (by simp) with e | e
    · obtain ⟨b, hb, hfb, hu⟩ := ih hn.2 hl (by omega)
      refine ⟨b, by simp [hb], hfb, ?_⟩
      intro c hc hfc
      rcases List.mem_cons.1 hc with rfl | hc
      · omega
      · exact hu c hc hfc
    · refine ⟨a, by simp, e, ?_⟩
      intro c hc hfc
      rcases List.mem_cons.1 hc with rfl | hc
      · rfl
      · exfalso
        have h0 : isum l f = 0 := by omega
        have : ∀ m : List α, (∀ b ∈ m, f b = 0 ∨ f b = 1) → c ∈ m → 1 ≤ isum m f := by
          intro m
          induction m with
          | nil => simp
          | cons x m ihm =>
            intro h1 h2
            rw [isum_cons]
            have hm : 0 ≤ isum m f := isum_nonneg (fun b hb => by rcases h1 b (by simp [hb]) with e | e <;> omega)
            rcases List.mem_cons.1 h2 with rfl | h2
            · omega
            · have := ihm (fun b hb => h1 b (by simp [hb])) h2
              rcases h1 x (by simp) with e | e <;> omega
        have := this l hl hc
        omega

theorem isum_perm {l l' : List α} (h : l.Perm l') (f : α → Int) : isum l f = isum l' f := by
  induction h with
  | nil => rfl
  | cons a _ ih => simp [ih]
  | swap a b l => simp; omega
  | trans _ _ ih1 ih2 => rw [ih1, ih2]

/-- Sum over positions. -/
theorem isum_zipIdx (l : List α) (f : α → Nat → Int) :
    isum l.zipIdx (fun e => f e.1 e.2) = isum (List.range l.length) (fun k => match l[k]? with | some a => f a k | none => 0) := by
  unfold isum
  congr 1
  apply List.ext_getElem
  · simp
  · intro n h1 h2
    simp only [List.length_map, List.length_zipIdx] at h1
    simp [h1]

theorem isum_range_natCast (n : Nat) (f : Nat → Nat) : isum (List.range n) (fun k => (f k : Int)) = (rsum n f : Int) := by
  induction n with
  | zero => rfl
  | succ n ih => rw [List.range_succ, isum_append, ih, rsum_succ]; simp
end

/-- A monadic fold: what its success implies and when it succeeds. -/
theorem foldlM_both {α β : Type} {l : List α} {f : β → α → R β} (Inv : Nat → β → Prop) (Ok : Nat → Prop)
    (step : ∀ k (h : k < l.length) s, Inv k s →
      (∀ s', f s l[k] = .ok s' → Inv (k+1) s') ∧ (Ok k → ∃ s', f s l[k] = .ok s'))
    {s : β} (h0 : Inv 0 s) :
    (∀ r, l.foldlM f s = .ok r → Inv l.length r) ∧
    ((∀ k, k < l.length → Ok k) → ∃ r, l.foldlM f s = .ok r) := by
  constructor
  · intro r hr
    exact foldlM_inv Inv (fun k h s s' hi hs => (step k h s hi).1 s' hs) h0 hr
  · intro hok
    obtain ⟨r, hr, _⟩ := foldlM_total Inv (fun k h s hi => by
      obtain ⟨s', hs'⟩ := (step k h s hi).2 (hok k h)
      exact ⟨s', hs', (step k h s hi).1 s' hs'⟩) h0
    exact ⟨r, hr⟩

end Wassign
