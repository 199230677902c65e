import Verif.Model.Float
import Verif.Proofs.ScoreOrder
import Mathlib.Tactic.Ring
import Mathlib.Tactic.Positivity
/-
Rounding: monotonicity and error bounds, and the finiteness of the minor score.
-/
namespace Wassign
namespace F32

theorem nearest_ge (n d : Nat) : n / d ≤ nearest n d := by unfold nearest; split <;> omega
theorem nearest_le (n d : Nat) : nearest n d ≤ n / d + 1 := by unfold nearest; split <;> omega

/-- Rounding is monotone. -/
theorem nearest_mono {n d n' d' : Nat} (hd : 0 < d) (hd' : 0 < d') (h : n * d' ≤ n' * d) : nearest n d ≤ nearest n' d' := by
  have hq : n / d ≤ n' / d' := by
    rw [Nat.le_div_iff_mul_le hd']
    have h1 : n / d * d ≤ n := Nat.div_mul_le_self n d
    have h2 : n / d * d' * d ≤ n' * d := by
      calc n / d * d' * d = n / d * d * d' := by rw [Nat.mul_right_comm]
        _ ≤ n * d' := Nat.mul_le_mul_right _ h1
        _ ≤ n' * d := h
    exact Nat.le_of_mul_le_mul_right h2 hd
  rcases Nat.lt_or_eq_of_le hq with hlt | heq
  · have := nearest_le n d
    have := nearest_ge n' d'
    omega
  · have h1 := Nat.div_add_mod n d
    have h2 := Nat.div_add_mod n' d'
    have hr : n % d * d' ≤ n' % d' * d := by
      have e1 : n * d' = d * d' * (n / d) + n % d * d' := by
        calc n * d' = (d * (n / d) + n % d) * d' := by rw [h1]
          _ = _ := by ring
      have e2 : n' * d = d * d' * (n / d) + n' % d' * d := by
        calc n' * d = (d' * (n' / d') + n' % d') * d := by rw [h2]
          _ = _ := by rw [← heq]; ring
      omega
    unfold nearest
    rw [← heq]
    split
    · rename_i hc
      have : d' < 2 * (n' % d') ∨ (2 * (n' % d') = d' ∧ n / d % 2 = 1) := by
        rcases hc with hc | ⟨hc, ho⟩
        · left
          have h3 : d * d' < 2 * (n % d) * d' := Nat.mul_lt_mul_of_pos_right hc hd'
          have h4 : d * d' < d * (2 * (n' % d')) := by
            calc d * d' < 2 * (n % d) * d' := h3
              _ = 2 * (n % d * d') := by ring
              _ ≤ 2 * (n' % d' * d) := Nat.mul_le_mul_left _ hr
              _ = d * (2 * (n' % d')) := by ring
          exact Nat.lt_of_mul_lt_mul_left h4
        · have h4 : d * d' ≤ d * (2 * (n' % d')) := by
            calc d * d' = 2 * (n % d) * d' := by rw [hc]
              _ = 2 * (n % d * d') := by ring
              _ ≤ 2 * (n' % d' * d) := Nat.mul_le_mul_left _ hr
              _ = d * (2 * (n' % d')) := by ring
          have := Nat.le_of_mul_le_mul_left h4 hd
          rcases Nat.lt_or_eq_of_le this with hlt | he
          · exact .inl hlt
          · exact .inr ⟨he.symm, ho⟩
      rw [if_pos this]
    · split <;> omega

/-- Rounding at most doubles. -/
theorem nearest_le_two {n d : Nat} (hd : 0 < d) : nearest n d * d ≤ 2 * n := by
  have h1 := Nat.div_add_mod n d
  unfold nearest
  split
  · rename_i hc
    rcases Nat.eq_zero_or_pos (n / d) with h0 | hp
    · rw [h0] at hc ⊢
      rw [h0] at h1
      simp only [Nat.mul_zero, Nat.zero_add] at h1
      rw [h1] at hc
      simp at hc
      omega
    · have : d ≤ d * (n / d) := Nat.le_mul_of_pos_right _ hp
      calc (n / d + 1) * d = d * (n / d) + d := by ring
        _ ≤ 2 * n := by omega
  · calc n / d * d ≤ n := Nat.div_mul_le_self n d
      _ ≤ 2 * n := by omega

/-! ### Bit patterns -/

/-- The exponent and mantissa chosen by `roundBits`. -/
theorem round_parts {n d : Nat} (hd : 0 < d) : ∃ e m, e = Nat.log2 (n / d) - 23 ∧ m = nearest n (d * 2^e) ∧ m ≤ 2^24 ∧ (0 < e → 2^23 ≤ m) := by
  refine ⟨_, _, rfl, rfl, ?_, ?_⟩
  · generalize he : Nat.log2 (n / d) - 23 = e
    have : n / (d * 2^e) < 2^24 := by
      rw [← Nat.div_div_eq_div_mul, Nat.div_lt_iff_lt_mul (Nat.pow_pos (by omega)), ← Nat.pow_add]
      by_cases h0 : n / d = 0
      · rw [h0]; exact Nat.pow_pos (by omega)
      · have := @Nat.lt_log2_self (n / d)
        refine Nat.lt_of_lt_of_le this (Nat.pow_le_pow_right (by omega) (by omega))
    have := nearest_le n (d * 2^e)
    omega
  · generalize he : Nat.log2 (n / d) - 23 = e
    intro hp
    have : 2^23 ≤ n / (d * 2^e) := by
      rw [← Nat.div_div_eq_div_mul, Nat.le_div_iff_mul_le (Nat.pow_pos (by omega)), ← Nat.pow_add]
      have h0 : n / d ≠ 0 := by
        intro h0; rw [h0] at he; simp at he; omega
      have := Nat.log2_self_le h0
      have e2 : 23 + e = Nat.log2 (n / d) := by omega
      rw [e2]; exact this
    exact Nat.le_trans this (nearest_ge _ _)

theorem roundBits_mono {n d n' d' : Nat} (hd : 0 < d) (hd' : 0 < d') (h : n * d' ≤ n' * d) : roundBits n d ≤ roundBits n' d' := by
  obtain ⟨e, m, he, hm, hm1, _⟩ := round_parts (n := n) hd
  obtain ⟨e', m', he', hm', _, hm2⟩ := round_parts (n := n') hd'
  have hq : n / d ≤ n' / d' := by
    rw [Nat.le_div_iff_mul_le hd']
    have h1 : n / d * d ≤ n := Nat.div_mul_le_self n d
    have h2 : n / d * d' * d ≤ n' * d := by
      calc n / d * d' * d = n / d * d * d' := by rw [Nat.mul_right_comm]
        _ ≤ n * d' := Nat.mul_le_mul_right _ h1
        _ ≤ n' * d := h
    exact Nat.le_of_mul_le_mul_right h2 hd
  have hlog : Nat.log2 (n / d) ≤ Nat.log2 (n' / d') := by
    by_cases h0 : n / d = 0
    · rw [h0]; simp
    · rw [Nat.le_log2 (by intro h'; rw [h'] at hq; exact h0 (Nat.le_zero.1 hq))]
      exact Nat.le_trans (Nat.log2_self_le h0) hq
  have key : e * 2^23 + m ≤ e' * 2^23 + m' := by
    rcases Nat.lt_or_eq_of_le (show e ≤ e' by omega) with hlt | heq
    · have := hm2 (by omega)
      omega
    · subst heq
      have : m ≤ m' := by
        rw [hm, hm']
        refine nearest_mono (Nat.mul_pos hd (Nat.pow_pos (by omega))) (Nat.mul_pos hd' (Nat.pow_pos (by omega))) ?_
        calc n * (d' * 2^e) = n * d' * 2^e := by ring
          _ ≤ n' * d * 2^e := Nat.mul_le_mul_right _ h
          _ = n' * (d * 2^e) := by ring
      omega
  have r1 : roundBits n d = min (e * 2^23 + m) 0x7F800000 := by rw [hm, he]; rfl
  have r2 : roundBits n' d' = min (e' * 2^23 + m') 0x7F800000 := by rw [hm', he']; rfl
  rw [r1, r2]
  exact min_le_min_right _ key

/-- The magnitude encoded by a bit pattern below 2^31. -/
def magBits (x : Nat) : Nat := if x / 2^23 = 0 then x % 2^23 else (2^23 + x % 2^23) * 2^(x / 2^23 - 1)

theorem mag_eq {b : F32} (h : b.toNat < 2^31) : b.mag = magBits b.toNat := by
  unfold mag magBits
  simp only [Nat.mod_eq_of_lt h]

theorem magBits_parts {e m : Nat} (h1 : m ≤ 2^24) (h2 : 0 < e → 2^23 ≤ m) : magBits (e * 2^23 + m) = m * 2^e := by
  unfold magBits
  by_cases hlow : m < 2^23
  · have : e = 0 := by
      by_contra h; have := h2 (by omega); omega
    subst this
    rw [if_pos (by omega)]
    simp only [Nat.zero_mul, Nat.zero_add, Nat.pow_zero, Nat.mul_one]
    omega
  · by_cases hcarry : m = 2^24
    · subst hcarry
      have q : (e * 2^23 + 2^24) / 2^23 = e + 2 := by omega
      have r : (e * 2^23 + 2^24) % 2^23 = 0 := by omega
      rw [q, r, if_neg (by omega)]
      simp only [Nat.add_zero, show e + 2 - 1 = e + 1 by omega, Nat.pow_succ]
      ring
    · have q : (e * 2^23 + m) / 2^23 = e + 1 := by omega
      have r : (e * 2^23 + m) % 2^23 = m - 2^23 := by omega
      rw [q, r, if_neg (by omega)]
      rw [Nat.add_sub_cancel, Nat.add_sub_cancel' (by omega)]

/-- The rounded number is at most twice the given one. -/
theorem magBits_round {n d : Nat} (hd : 0 < d) : magBits (roundBits n d) * d ≤ 2 * n ∨ roundBits n d = 0x7F800000 := by
  obtain ⟨e, m, he, hm, hm1, hm2⟩ := round_parts (n := n) hd
  have r1 : roundBits n d = min (e * 2^23 + m) 0x7F800000 := by rw [hm, he]; rfl
  rw [r1]
  by_cases hlt : e * 2^23 + m < 0x7F800000
  · left
    rw [Nat.min_eq_left (by omega), magBits_parts hm1 hm2, hm]
    calc nearest n (d * 2^e) * 2^e * d = nearest n (d * 2^e) * (d * 2^e) := by ring
      _ ≤ 2 * n := nearest_le_two (Nat.mul_pos hd (Nat.pow_pos (by omega)))
  · right
    omega

theorem magBits_mono {x y : Nat} (h : x ≤ y) : magBits x ≤ magBits y := by
  have hx := Nat.div_add_mod x (2^23)
  have hy := Nat.div_add_mod y (2^23)
  have hq : x / 2^23 ≤ y / 2^23 := Nat.div_le_div_right h
  have mx := Nat.mod_lt x (show 0 < 2^23 by omega)
  have my := Nat.mod_lt y (show 0 < 2^23 by omega)
  unfold magBits
  generalize x / 2^23 = a at *
  generalize y / 2^23 = b at *
  generalize x % 2^23 = r at *
  generalize y % 2^23 = s at *
  rcases Nat.lt_or_eq_of_le hq with hlt | heq
  · rw [if_neg (show ¬ b = 0 by omega)]
    have hp : 0 < 2^(b-1) := Nat.pow_pos (by omega)
    split
    · calc r ≤ 2^23 := by omega
        _ ≤ 2^23 + s := by omega
        _ ≤ (2^23 + s) * 2^(b-1) := Nat.le_mul_of_pos_right _ hp
    · rename_i ha
      calc (2^23 + r) * 2^(a-1) ≤ 2^24 * 2^(a-1) := Nat.mul_le_mul_right _ (by omega)
        _ = 2^23 * 2^(a - 1 + 1) := by rw [Nat.pow_succ]; ring
        _ ≤ 2^23 * 2^(b - 1) := Nat.mul_le_mul_left _ (Nat.pow_le_pow_right (by omega) (by omega))
        _ ≤ (2^23 + s) * 2^(b-1) := Nat.mul_le_mul_right _ (by omega)
  · subst heq
    split
    · omega
    · exact Nat.mul_le_mul_right _ (by omega)

/-! ### Non-negative finite numbers -/

/-- A non-negative finite number. -/
def Plain (b : F32) : Prop := b.toNat < 0x7F800000

theorem Plain.fin {b : F32} (h : b.Plain) : b.isFinite = true := isFinite_of_lt h
theorem Plain.nan {b : F32} (h : b.Plain) : b.isNaN = false := isNaN_of_lt h
theorem Plain.inf {b : F32} (h : b.Plain) : b.isInf = false := by unfold isInf; rw [h.fin]; rfl
theorem Plain.pos {b : F32} (h : b.Plain) : b.neg = false := by
  unfold neg
  rw [BitVec.msb_eq_false_iff_two_mul_lt]
  unfold Plain at h
  omega
theorem Plain.lt {b : F32} (h : b.Plain) : b.toNat < 2^31 := by unfold Plain at h; omega
theorem Plain.mag {b : F32} (h : b.Plain) : b.mag = magBits b.toNat := mag_eq h.lt

theorem signed_false {x : Nat} (h : x ≤ 0x7F800000) : (signed false x).toNat = x := by
  unfold signed
  simp only [Bool.false_eq_true, if_false, BitVec.toNat_ofNat]
  omega

theorem roundBits_le (n d : Nat) : roundBits n d ≤ 0x7F800000 := by unfold roundBits; exact Nat.min_le_right _ _

theorem mul_plain {a b : F32} (ha : a.Plain) (hb : b.Plain) : (mul a b).toNat = roundBits (a.mag * b.mag) (2^149) := by
  unfold mul
  simp only [ha.nan, hb.nan, ha.inf, hb.inf, ha.pos, hb.pos, Bool.or_self, Bool.false_eq_true, if_false, Bool.xor_self]
  exact signed_false (roundBits_le _ _)

theorem div_plain {a b : F32} (ha : a.Plain) (hb : b.Plain) (h0 : b.mag ≠ 0) : (div a b).toNat = roundBits (a.mag * 2^149) b.mag := by
  unfold div
  simp only [ha.nan, hb.nan, ha.inf, hb.inf, ha.pos, hb.pos, Bool.or_self, Bool.false_eq_true, if_false, Bool.xor_self, h0]
  exact signed_false (roundBits_le _ _)

theorem add_plain {a b : F32} (ha : a.Plain) (hb : b.Plain) : (add a b).toNat = roundBits (a.mag + b.mag) 1 := by
  unfold add
  simp only [ha.nan, hb.nan, ha.inf, hb.inf, ha.pos, hb.pos, Bool.or_self, Bool.false_eq_true, if_false, Bool.and_self]
  by_cases h0 : (a.mag : Int) + b.mag = 0
  · rw [if_pos h0]
    have e1 : a.mag + b.mag = 0 := by omega
    rw [e1, signed_false (by omega)]
    decide +kernel
  · rw [if_neg h0]
    have : decide ((a.mag : Int) + b.mag < 0) = false := by simp; omega
    rw [this, signed_false (roundBits_le _ _)]
    have : ((a.mag : Int) + b.mag).natAbs = a.mag + b.mag := by omega
    rw [this]

theorem log2_shift {n : Nat} (h0 : n ≠ 0) (k : Nat) : Nat.log2 (n * 2^k) = Nat.log2 n + k := by
  have hp : 0 < 2^k := Nat.pow_pos (by omega)
  have hlo := Nat.log2_self_le h0
  have hhi := @Nat.lt_log2_self n
  rw [Nat.log2_eq_iff (Nat.mul_ne_zero h0 (by omega))]
  constructor
  · rw [Nat.pow_add]; exact Nat.mul_le_mul_right _ hlo
  · rw [show Nat.log2 n + k + 1 = (Nat.log2 n + 1) + k by omega, Nat.pow_add]
    exact Nat.mul_lt_mul_of_pos_right hhi hp

/-- The conversion of an integer is the rounding of its value. -/
theorem ofU32_eq_round {n : Nat} (hn : n ≤ u32Max) : (ofU32 n).toNat = roundBits (n * 2^149) 1 := by
  by_cases h0 : n = 0
  · subst h0; decide +kernel
  · have hlo := Nat.log2_self_le h0
    have hhi := @Nat.lt_log2_self n
    have hl : Nat.log2 (n * 2^149) = Nat.log2 n + 149 := log2_shift h0 149
    have he : Nat.log2 n ≤ 31 := by
      apply Nat.le_of_not_lt; intro hh
      have : 2^32 ≤ 2^(Nat.log2 n) := Nat.pow_le_pow_right (by omega) hh
      have h32 : u32Max = 4294967295 := rfl
      omega
    unfold roundBits
    simp only [Nat.div_one, hl, Nat.one_mul]
    rw [show Nat.log2 n + 149 - 23 = Nat.log2 n + 126 by omega]
    generalize hE : Nat.log2 n = e at *
    have key : nearest (n * 2^149) (2^(e + 126)) = if e ≤ 23 then n * 2^(23 - e) else
        (if 2^(e-23) < 2 * (n % 2^(e-23)) ∨ (2 * (n % 2^(e-23)) = 2^(e-23) ∧ n / 2^(e-23) % 2 = 1)
          then n / 2^(e-23) + 1 else n / 2^(e-23)) := by
      split
      · rename_i h23
        have e1 : n * 2^149 = n * 2^(23 - e) * 2^(e + 126) := by
          rw [Nat.mul_assoc, ← Nat.pow_add]; congr 2; omega
        rw [e1]
        unfold nearest
        rw [Nat.mul_mod_left, Nat.mul_div_cancel _ (Nat.pow_pos (by omega))]
        have : 0 < 2^(e + 126) := Nat.pow_pos (by omega)
        rw [if_neg (by omega)]
      · rename_i h23
        have e1 : 2^(e + 126) = 2^(e - 23) * 2^149 := by rw [← Nat.pow_add]; congr 1; omega
        rw [e1]
        unfold nearest
        rw [Nat.mul_mod_mul_right, Nat.mul_div_mul_right _ _ (Nat.pow_pos (by omega))]
        have hp : 0 < 2^149 := by positivity
        have c1 : (2^(e - 23) * 2^149 < 2 * (n % 2^(e-23) * 2^149)) ↔ 2^(e-23) < 2 * (n % 2^(e-23)) := by
          rw [← Nat.mul_assoc]; exact Nat.mul_lt_mul_right hp
        have c2 : (2 * (n % 2^(e-23) * 2^149) = 2^(e - 23) * 2^149) ↔ 2 * (n % 2^(e-23)) = 2^(e-23) := by
          rw [← Nat.mul_assoc]; exact Nat.mul_left_inj (by omega)
        simp only [c1, c2]
    rw [key]
    have hsmall := ofU32_lt hn
    have hval : (ofU32 n).toNat = (e + 126) * 2^23 + (if e ≤ 23 then n * 2^(23 - e) else
        (if 2^(e-23) < 2 * (n % 2^(e-23)) ∨ (2 * (n % 2^(e-23)) = 2^(e-23) ∧ n / 2^(e-23) % 2 = 1)
          then n / 2^(e-23) + 1 else n / 2^(e-23))) := by
      obtain ⟨e', m, he', _, _, hm, hval, _⟩ := ofU32_toNat hn h0
      unfold ofU32
      rw [if_neg h0]
      simp only [hE]
      have hb : (e + 126) * 2^23 ≤ 157 * 2^23 := Nat.mul_le_mul_right _ (by omega)
      split
      · rename_i h23
        have : n * 2^(23-e) ≤ 2^24 := by
          calc n * 2^(23-e) ≤ 2^(e+1) * 2^(23-e) := Nat.mul_le_mul_right _ (by omega)
            _ = 2^24 := by rw [← Nat.pow_add]; congr 1; omega
        rw [BitVec.toNat_ofNat]
        apply Nat.mod_eq_of_lt
        omega
      · rename_i h23
        have hq2 : n / 2^(e-23) < 2^24 := by
          rw [Nat.div_lt_iff_lt_mul (Nat.pow_pos (by omega)), ← Nat.pow_add]
          have : 24 + (e - 23) = e + 1 := by omega
          rw [this]; exact hhi
        rw [BitVec.toNat_ofNat]
        apply Nat.mod_eq_of_lt
        split <;> omega
    rw [hval] at hsmall ⊢
    omega

/-! ### Powers of two -/

theorem roundBits_pow (k : Nat) (h : k ≤ 276) : roundBits (2^k) 1 < 0x7F800000 := by
  have h1 : roundBits (2^276) 1 < 0x7F800000 := by decide +kernel
  refine Nat.lt_of_le_of_lt (roundBits_mono (by omega) (by omega) ?_) h1
  have := Nat.pow_le_pow_right (show 0 < 2 by omega) h
  omega

theorem ofU32_plain {n : Nat} (hn : n ≤ u32Max) : (ofU32 n).Plain := ofU32_lt hn

/-- A converted number is at most 2^32. -/
theorem ofU32_mag_le {n : Nat} (hn : n ≤ u32Max) : (ofU32 n).mag ≤ 2^181 := by
  rw [(ofU32_plain hn).mag, ofU32_eq_round hn]
  have h1 : roundBits (n * 2^149) 1 ≤ roundBits (2^32 * 2^149) 1 := by
    refine roundBits_mono (by omega) (by omega) ?_
    have : n ≤ 2^32 := by unfold u32Max at hn; omega
    have := Nat.mul_le_mul_right (2^149) this
    omega
  refine Nat.le_trans (magBits_mono h1) ?_
  decide +kernel

end F32

namespace Scoring
open F32

/-- One summand of the minor score. -/
theorem term_small {c v s : F32} (hc : c.Plain) (hc2 : c.mag ≤ 2^181) (hv : v.Plain) (hs : s.Plain) (h0 : s.mag ≠ 0)
    (hvs : v.mag ≤ s.mag) (hs2 : s.mag ≤ 2^244) : (div (mul c v) s).toNat ≤ roundBits (2^182) 1 := by
  have hprod : c.mag * v.mag ≤ 2^425 := by
    calc c.mag * v.mag ≤ 2^181 * 2^244 := Nat.mul_le_mul hc2 (Nat.le_trans hvs hs2)
      _ = 2^425 := (Nat.pow_add 2 181 244).symm
  have hm := mul_plain hc hv
  have hmp : (mul c v).Plain := by
    unfold Plain
    rw [hm]
    refine Nat.lt_of_le_of_lt (roundBits_mono (n' := 2^276) (d' := 1) (by positivity) (by omega) ?_) (roundBits_pow 276 (by omega))
    calc c.mag * v.mag * 1 ≤ 2^425 := by omega
      _ = 2^276 * 2^149 := Nat.pow_add 2 276 149
  have hmag : (mul c v).mag * 2^149 ≤ 2 * (c.mag * v.mag) := by
    rw [hmp.mag, hm]
    rcases magBits_round (n := c.mag * v.mag) (d := 2^149) (by positivity) with h | h
    · exact h
    · unfold Plain at hmp; rw [hm] at hmp; omega
  rw [div_plain hmp hs h0]
  refine roundBits_mono (by omega) (by omega) ?_
  calc (mul c v).mag * 2^149 * 1 ≤ 2 * (c.mag * v.mag) := by omega
    _ ≤ 2 * (2^181 * s.mag) := Nat.mul_le_mul_left _ (Nat.mul_le_mul hc2 hvs)
    _ = 2^182 * s.mag := by ring

/-- A running sum of at most 2^60 stays there when a small number is added. -/
theorem add_small {x y : F32} (hx : x.toNat ≤ roundBits (2^209) 1) (hy : y.toNat ≤ roundBits (2^182) 1) :
    (add x y).toNat ≤ roundBits (2^209) 1 := by
  have px : x.Plain := Nat.lt_of_le_of_lt hx (roundBits_pow 209 (by omega))
  have py : y.Plain := Nat.lt_of_le_of_lt hy (roundBits_pow 182 (by omega))
  rw [add_plain px py]
  have mx : x.mag ≤ 2^209 := by
    rw [px.mag]; exact Nat.le_trans (magBits_mono hx) (by decide +kernel)
  have my : y.mag ≤ 2^182 := by
    rw [py.mag]; exact Nat.le_trans (magBits_mono hy) (by decide +kernel)
  refine Nat.le_trans (roundBits_mono (n' := 2^209 + 2^182) (d' := 1) (by omega) (by omega) ?_) (by decide +kernel)
  omega

end Scoring
end Wassign

/-! ### Numbers that are not finite -/
namespace Wassign
namespace F32

theorem signed_inf (s : Bool) : (signed s 0x7F800000).isFinite = false := by cases s <;> decide +kernel
theorem nan_not_finite : nan.isFinite = false := by decide +kernel

theorem mul_bad {a b : F32} (h : b.isFinite = false) : (mul a b).isFinite = false := by
  unfold mul
  split
  · exact nan_not_finite
  · rename_i hn
    have hb : b.isInf = true := by
      unfold isInf
      rw [h]
      cases e : b.isNaN
      · rfl
      · simp [e] at hn
    rw [if_pos (by simp [hb])]
    split
    · exact nan_not_finite
    · exact signed_inf _

theorem div_bad {a b : F32} (h : a.isFinite = false) : (div a b).isFinite = false := by
  unfold div
  split
  · exact nan_not_finite
  · rename_i hn
    have ha : a.isInf = true := by
      unfold isInf
      rw [h]
      cases e : a.isNaN
      · rfl
      · simp [e] at hn
    rw [if_pos ha]
    split
    · exact nan_not_finite
    · exact signed_inf _

theorem inf_not_finite {a : F32} (h : a.isInf = true) : a.isFinite = false := by
  unfold isInf at h
  cases e : a.isFinite
  · rfl
  · rw [e] at h; cases h

theorem add_bad {a b : F32} (h : a.isFinite = false ∨ b.isFinite = false) : (add a b).isFinite = false := by
  unfold add
  split
  · exact nan_not_finite
  · rename_i hn
    have hn1 : a.isNaN = false := by cases e : a.isNaN <;> simp [e] at hn ⊢
    have hn2 : b.isNaN = false := by cases e : b.isNaN <;> simp [e] at hn ⊢
    split
    · rename_i ha
      split
      · exact nan_not_finite
      · exact inf_not_finite ha
    · rename_i ha
      have hb : b.isInf = true := by
        rcases h with h | h
        · unfold isInf at ha; rw [h, hn1] at ha; exact absurd rfl ha
        · unfold isInf; rw [h, hn2]; rfl
      rw [if_pos hb]
      exact inf_not_finite hb

theorem plain_of {b : F32} (h : b.isFinite = true) (h2 : b.neg = false) : b.Plain := by
  have h3 := BitVec.msb_eq_false_iff_two_mul_lt.1 h2
  apply Nat.lt_of_not_le
  intro hge
  have hb : b &&& 0x7F800000#32 = 0x7F800000#32 := by
    have l1 : 0x7F800000#32 ≤ b := by
      rw [BitVec.le_def]
      exact hge
    have l2 : b < 0x80000000#32 := by
      rw [BitVec.lt_def]
      show b.toNat < 2147483648
      omega
    clear h h2 h3 hge
    apply BitVec.eq_of_toNat_eq
    rw [BitVec.toNat_and]
    rw [BitVec.le_def] at l1
    rw [BitVec.lt_def] at l2
    have e1 : (0x7F800000#32).toNat = 255 * 2^23 := rfl
    have e2 : (0x80000000#32).toNat = 256 * 2^23 := rfl
    rw [e1] at l1 ⊢
    rw [e2] at l2
    have hdiv : b.toNat / 2^23 = 255 := by omega
    apply Nat.eq_of_testBit_eq
    intro j
    rw [Nat.testBit_and, ← Nat.shiftLeft_eq, Nat.testBit_shiftLeft]
    by_cases hj : 23 ≤ j
    · have h2 := @Nat.testBit_div_two_pow 23 b.toNat (j - 23)
      rw [hdiv, show j - 23 + 23 = j by omega] at h2
      rw [← h2]
      simp
    · simp [hj]
  unfold isFinite at h
  rw [hb] at h
  simp at h

end F32
end Wassign
