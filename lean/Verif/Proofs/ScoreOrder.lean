import Verif.Spec.Score
/-
Order properties of scores, and of the conversion u32 -> f32.
-/
namespace Wassign

theorem compareInt_swap (a b : Int) : (compare a b).swap = compare b a := by
  simp only [compare, compareOfLessAndEq]; grind [Ordering.swap]

theorem compareInt_lt {a b : Int} : compare a b = .lt ↔ a < b := by
  simp only [compare, compareOfLessAndEq]; grind
theorem compareInt_eq {a b : Int} : compare a b = .eq ↔ a = b := by
  simp only [compare, compareOfLessAndEq]; grind
theorem compareInt_gt {a b : Int} : compare a b = .gt ↔ b < a := by
  simp only [compare, compareOfLessAndEq]; grind

theorem Score.cmp_swap (a b : Score) : (Score.cmp a b).swap = Score.cmp b a := by
  unfold Score.cmp
  cases ha : a.isFinite <;> cases hb : b.isFinite <;> try rfl
  have sw : ∀ x y : F32, (F32.totalCmp x y).swap = F32.totalCmp y x := fun x y => compareInt_swap _ _
  have hc : (F32.totalCmp a.major b.major == .eq) = (F32.totalCmp b.major a.major == .eq) := by
    rw [← sw a.major b.major]; cases F32.totalCmp a.major b.major <;> rfl
  have ho : (a.major.isNaN || b.major.isNaN) = (b.major.isNaN || a.major.isNaN) := Bool.or_comm _ _
  simp only [hc, ho]
  split
  · exact sw _ _
  · exact sw _ _

/-- The sort key of a score within a mode: finite before non-finite, then lexicographic. -/
theorem Score.cmp_greedy {a b : Score} (ha : a.isFinite = true) (hb : b.isFinite = true)
    (na : a.major.isNaN = true) : Score.cmp a b = F32.totalCmp a.minor b.minor := by
  simp [Score.cmp, ha, hb, na]

theorem Score.cmp_normal {a b : Score} (ha : a.isFinite = true) (hb : b.isFinite = true)
    (na : a.major.isNaN = false) (nb : b.major.isNaN = false) :
    Score.cmp a b = if F32.totalKey a.major = F32.totalKey b.major
      then F32.totalCmp a.minor b.minor else F32.totalCmp a.major b.major := by
  simp [Score.cmp, ha, hb, na, nb, F32.totalCmp]

theorem Score.cmp_nonfinite_left {a b : Score} (ha : a.isFinite = false) :
    Score.cmp a b = if b.isFinite then .gt else .eq := by
  cases hb : b.isFinite <;> simp [Score.cmp, ha, hb]

theorem Score.cmp_nonfinite_right {a b : Score} (hb : b.isFinite = false) :
    Score.cmp a b = if a.isFinite then .lt else .eq := by
  cases ha : a.isFinite <;> simp [Score.cmp, ha, hb]

theorem F32.totalCmp_gt {a b : F32} : F32.totalCmp a b = .gt ↔ F32.totalKey b < F32.totalKey a :=
  compareInt_gt

theorem Score.le_trans {g : Bool} {a b c : Score} (ha : a.InMode g) (hb : b.InMode g)
    (hc : c.InMode g) (h1 : a.le b) (h2 : b.le c) : a.le c := by
  unfold Score.le at *
  cases fa : a.isFinite
  · rw [Score.cmp_nonfinite_left fa] at *
    cases fb : b.isFinite
    · rw [Score.cmp_nonfinite_left fb] at h2
      exact h2
    · simp [fb] at h1
  · cases fc : c.isFinite
    · rw [Score.cmp_nonfinite_right fc, fa]; simp
    · cases fb : b.isFinite
      · rw [Score.cmp_nonfinite_left fb, fc] at h2; simp at h2
      · have na := ha fa; have nb := hb fb; have nc := hc fc
        cases g
        · rw [Score.cmp_normal fa fb na nb] at h1
          rw [Score.cmp_normal fb fc nb nc] at h2
          rw [Score.cmp_normal fa fc na nc]
          unfold F32.totalCmp at *
          split at h1 <;> split at h2 <;> split <;> rw [Ne, compareInt_gt] at * <;> omega
        · rw [Score.cmp_greedy fa fb na] at h1
          rw [Score.cmp_greedy fb fc nb] at h2
          rw [Score.cmp_greedy fa fc na]
          rw [Ne, F32.totalCmp_gt] at *; omega

theorem Score.cmp_self (a : Score) : Score.cmp a a = .eq := by
  unfold Score.cmp F32.totalCmp
  have h : ∀ x : Int, compare x x = .eq := fun x => compareInt_eq.2 rfl
  cases ha : a.isFinite <;> simp

theorem Score.le_refl (a : Score) : a.le a := by simp [Score.le, Score.cmp_self]

theorem Score.le_total (a b : Score) : a.le b ∨ b.le a := by
  unfold Score.le
  rw [← Score.cmp_swap a b]
  cases Score.cmp a b <;> simp [Ordering.swap]

theorem Score.not_lt_iff {a b : Score} : Score.lt a b = false ↔ b.le a := by
  unfold Score.lt Score.le
  rw [← Score.cmp_swap a b]
  cases Score.cmp a b <;> simp [Ordering.swap]

theorem Score.lt_le {a b : Score} (h : Score.lt a b = true) : a.le b := by
  unfold Score.lt at h; unfold Score.le
  cases hc : Score.cmp a b <;> simp [hc] at h ⊢

theorem Score.infinite_not_finite : Score.infinite.isFinite = false := by decide

theorem Score.le_infinite (a : Score) : a.le Score.infinite := by
  unfold Score.le
  rw [Score.cmp_nonfinite_right Score.infinite_not_finite]; split <;> simp

/-! ### u32 → f32 -/

theorem F32.ofU32_toNat {n : Nat} (hn : n ≤ u32Max) (h0 : n ≠ 0) :
    ∃ e m, e = Nat.log2 n ∧ e ≤ 31 ∧ 2^23 ≤ m ∧ m ≤ 2^24 ∧
      (F32.ofU32 n).toNat = (e + 126) * 2^23 + m ∧
      (if e ≤ 23 then m = n * 2^(23 - e) else
        m = n / 2^(e-23) ∨ m = n / 2^(e-23) + 1) := by
  have hlo : 2^(Nat.log2 n) ≤ n := Nat.log2_self_le h0
  have hhi : n < 2^(Nat.log2 n + 1) := Nat.lt_log2_self
  have he : Nat.log2 n ≤ 31 := by
    apply Nat.le_of_not_lt; intro hh
    have : 2^32 ≤ 2^(Nat.log2 n) := Nat.pow_le_pow_right (by omega) hh
    have h32 : u32Max = 4294967295 := rfl
    omega
  have sz : ∀ m, m ≤ 2^24 → (Nat.log2 n + 126) * 2^23 + m < 2^32 := by
    intro m hm
    have : (Nat.log2 n + 126) * 2^23 ≤ 157 * 2^23 := Nat.mul_le_mul_right _ (by omega)
    omega
  unfold F32.ofU32
  rw [if_neg h0]
  generalize hE : Nat.log2 n = e at *
  by_cases h23 : e ≤ 23
  · refine ⟨e, n * 2^(23-e), rfl, he, ?_, ?_, ?_, ?_⟩
    · calc 2^23 = 2^e * 2^(23-e) := by rw [← Nat.pow_add]; congr 1; omega
        _ ≤ n * 2^(23-e) := Nat.mul_le_mul_right _ hlo
    · calc n * 2^(23-e) ≤ 2^(e+1) * 2^(23-e) := Nat.mul_le_mul_right _ (by omega)
        _ = 2^24 := by rw [← Nat.pow_add]; congr 1; omega
    · simp only [h23, if_true, BitVec.toNat_ofNat]
      apply Nat.mod_eq_of_lt
      apply sz
      calc n * 2^(23-e) ≤ 2^(e+1) * 2^(23-e) := Nat.mul_le_mul_right _ (by omega)
        _ = 2^24 := by rw [← Nat.pow_add]; congr 1; omega
    · simp [h23]
  · have hd : 0 < 2^(e-23) := Nat.pow_pos (by omega)
    have hq1 : 2^23 ≤ n / 2^(e-23) := by
      rw [Nat.le_div_iff_mul_le hd, ← Nat.pow_add]
      have : 23 + (e - 23) = e := by omega
      rw [this]; exact hlo
    have hq2 : n / 2^(e-23) < 2^24 := by
      rw [Nat.div_lt_iff_lt_mul hd, ← Nat.pow_add]
      have : 24 + (e - 23) = e + 1 := by omega
      rw [this]; exact hhi
    refine ⟨e, if 2^(e-23) < 2 * (n % 2^(e-23)) ∨ (2 * (n % 2^(e-23)) = 2^(e-23) ∧ n / 2^(e-23) % 2 = 1)
      then n / 2^(e-23) + 1 else n / 2^(e-23), rfl, he, ?_, ?_, ?_, ?_⟩
    case refine_3 =>
      simp only [h23, if_false, BitVec.toNat_ofNat]
      rw [Nat.mod_eq_of_lt]
      apply sz
      split <;> omega
    · split <;> omega
    · split <;> omega
    · rw [if_neg h23]; split <;> simp

theorem F32.isFinite_of_lt {b : F32} (h : b.toNat < 0x7F800000) : b.isFinite = true := by
  unfold F32.isFinite
  simp only [bne_iff_ne, ne_eq]
  intro he
  have h1 : (b &&& 0x7F800000#32).toNat = 0x7F800000 := by rw [he]; rfl
  rw [BitVec.toNat_and] at h1
  have : b.toNat &&& (0x7F800000#32).toNat ≤ b.toNat := Nat.and_le_left
  omega

theorem F32.isNaN_of_lt {b : F32} (h : b.toNat < 0x7F800000) : b.isNaN = false := by
  unfold F32.isNaN
  simp only [decide_eq_false_iff_not, BitVec.not_lt, BitVec.le_def]
  rw [BitVec.toNat_and]
  have : b.toNat &&& (0x7FFFFFFF#32).toNat ≤ b.toNat := Nat.and_le_left
  simp at this ⊢; omega

theorem F32.totalKey_of_lt {b : F32} (h : b.toNat < 0x80000000) : F32.totalKey b = b.toNat := by
  unfold F32.totalKey
  have hm : b.msb = false := by
    rw [BitVec.msb_eq_false_iff_two_mul_lt]; simp; omega
  have : b.sshiftRight 31 = 0#32 := by
    rw [BitVec.sshiftRight_eq_of_msb_false hm]
    apply BitVec.eq_of_toNat_eq
    simp [BitVec.toNat_ushiftRight, Nat.shiftRight_eq_div_pow]
    omega
  rw [this]
  simp
  rw [BitVec.toInt_eq_toNat_of_msb hm]

theorem F32.ofU32_lt {n : Nat} (hn : n ≤ u32Max) : (F32.ofU32 n).toNat < 0x7F800000 := by
  by_cases h0 : n = 0
  · subst h0; decide
  · obtain ⟨e, m, _, he, _, hm, h, _⟩ := F32.ofU32_toNat hn h0
    rw [h]
    have : (e + 126) * 2^23 ≤ 157 * 2^23 := Nat.mul_le_mul_right _ (by omega)
    omega

theorem F32.ofU32_isFinite {n : Nat} (hn : n ≤ u32Max) : (F32.ofU32 n).isFinite = true :=
  F32.isFinite_of_lt (F32.ofU32_lt hn)

theorem F32.ofU32_isNaN {n : Nat} (hn : n ≤ u32Max) : (F32.ofU32 n).isNaN = false :=
  F32.isNaN_of_lt (F32.ofU32_lt hn)

/-- The conversion is exact below 2^24: the encoded value determines the integer. -/
theorem F32.ofU32_strictMono {a b : Nat} (hb : b < 2^24) (h : a < b) :
    F32.totalKey (F32.ofU32 a) < F32.totalKey (F32.ofU32 b) := by
  have hbu : b ≤ u32Max := by unfold u32Max; omega
  have hau : a ≤ u32Max := by omega
  rw [F32.totalKey_of_lt (by have := F32.ofU32_lt hau; omega),
    F32.totalKey_of_lt (by have := F32.ofU32_lt hbu; omega)]
  have hb0 : b ≠ 0 := by omega
  obtain ⟨e', m', he', _, hl', hm', h', hx'⟩ := F32.ofU32_toNat hbu hb0
  have e'le : e' ≤ 23 := by
    subst he'
    apply Nat.le_of_not_lt; intro hh
    have := Nat.pow_le_pow_right (n := 2) (by omega) hh
    have := Nat.log2_self_le hb0
    omega
  rw [if_pos e'le] at hx'
  by_cases h0 : a = 0
  · subst h0; rw [h']; simp [F32.ofU32]; omega
  obtain ⟨e, m, he, _, hl, hm, h'', hx⟩ := F32.ofU32_toNat hau h0
  have hle : e ≤ e' := by
    subst he he'
    apply Nat.le_of_not_lt; intro hh
    have h1 := Nat.pow_le_pow_right (n := 2) (by omega) hh
    have h2 := Nat.log2_self_le h0
    have h3 := Nat.lt_log2_self (n := b)
    have : 2 ^ (b.log2 + 1) ≤ 2^(a.log2) := h1
    omega
  rw [if_pos (by omega)] at hx
  rw [h'', h']
  by_cases heq : e = e'
  · subst heq
    have : a * 2^(23-e) < b * 2^(23-e) := Nat.mul_lt_mul_of_pos_right h (Nat.pow_pos (by omega))
    omega
  · have hlt : m < 2^24 := by
      rw [hx]
      have h3 := Nat.lt_log2_self (n := a)
      rw [← he] at h3
      calc a * 2^(23-e) < 2^(e+1) * 2^(23-e) := Nat.mul_lt_mul_of_pos_right h3 (Nat.pow_pos (by omega))
        _ = 2^24 := by rw [← Nat.pow_add]; congr 1; omega
    have : (e + 1 + 126) * 2^23 ≤ (e' + 126) * 2^23 := Nat.mul_le_mul_right _ (by omega)
    omega

end Wassign
