import Verif.Model.Display
import Verif.Spec.Display
import Verif.Proofs.ReadInput
import Verif.Proofs.Rounding
import Mathlib.Tactic.Ring
import Mathlib.Tactic.Linarith
import Mathlib.Tactic.Positivity
import Mathlib.Tactic.FieldSimp
import Mathlib.Data.Rat.Defs
import Mathlib.Algebra.Order.Field.Rat
/-
How numbers are written (C73).
-/
namespace Wassign
open Spec

theorem decimal_snoc (s : Str) (c : Char) : decimal (s ++ [c]) = 10 * decimal s + (c.toNat - '0'.toNat) := by
  unfold decimal; rw [List.foldl_append]; rfl

theorem decimal_append (s t : Str) : decimal (s ++ t) = decimal s * 10 ^ t.length + decimal t := by
  induction t using List.reverseRecOn with
  | nil => simp [decimal]
  | append_singleton t c ih =>
    rw [← List.append_assoc, decimal_snoc, ih, decimal_snoc, List.length_append, List.length_singleton, Nat.pow_succ]
    ring

theorem natStr_digits (n : Nat) : (∀ c ∈ natStr n, IsDigit c) ∧ decimal (natStr n) = n := by
  have := (digitsVal_zero (bound := n)).1 (digitsVal_natDigits n (n + 1) n (by omega) (Nat.le_refl n))
  exact ⟨this.1, this.2.1⟩

theorem natDigits_lead : ∀ (fuel n : Nat), n < fuel → (natDigitsGo fuel n).head? = some '0' → natDigitsGo fuel n = ['0'] := by
  intro fuel
  induction fuel with
  | zero => intro n h; omega
  | succ fuel ih =>
    intro n hn
    unfold natDigitsGo
    split
    · intro h; simp at h; rw [h]
    · rename_i h10
      intro h
      obtain ⟨c, t, h1, _⟩ := natDigits_head fuel (n / 10) (by omega)
      have hz := ih (n / 10) (by omega) (by rw [h1] at h ⊢; exact h)
      have hv := (digitsVal_zero (bound := n)).1 (digitsVal_natDigits n fuel (n / 10) (by omega) (by omega))
      rw [hz] at hv
      have : decimal ['0'] = 0 := by decide
      omega

theorem natStr_lead (n : Nat) (h : (natStr n).head? = some '0') : natStr n = ['0'] := natDigits_lead _ _ (by omega) h

theorem natStr_ne_nil (n : Nat) : natStr n ≠ [] := by
  obtain ⟨c, t, h1, _⟩ := natDigits_head (n + 1) n (by omega)
  unfold natStr; rw [h1]; simp

theorem fixedDigits_spec : ∀ (k n : Nat), (∀ c ∈ fixedDigits k n, IsDigit c) ∧ (fixedDigits k n).length = k ∧
    decimal (fixedDigits k n) = n % 10 ^ k := by
  intro k
  induction k with
  | zero => intro n; simp [fixedDigits, decimal, Nat.mod_one]
  | succ k ih =>
    intro n
    obtain ⟨h1, h2, h3⟩ := ih (n / 10)
    have hm : n % 10 < 10 := Nat.mod_lt _ (by omega)
    refine ⟨?_, by simp [fixedDigits, h2], ?_⟩
    · intro c hc
      rcases List.mem_append.1 (show c ∈ fixedDigits k (n / 10) ++ [digitChar (n % 10)] from hc) with hc | hc
      · exact h1 c hc
      · rw [List.mem_singleton.1 hc]; exact Time.isDigit_iff.1 (isDigit_digitChar hm)
    · show decimal (fixedDigits k (n / 10) ++ [digitChar (n % 10)]) = _
      rw [decimal_snoc, h3, digitChar_toNat hm, Nat.pow_succ, Nat.mul_comm (10 ^ k) 10, Nat.mod_mul]
      show 10 * _ + (48 + n % 10 - 48) = _
      omega

theorem nearestBy_err (tie : Nat → Bool) {n D : Nat} (hD : 0 < D) :
    2 * (nearestBy tie n D * D) ≤ 2 * n + D ∧ 2 * n ≤ 2 * (nearestBy tie n D * D) + D := by
  have h1 := Nat.div_add_mod n D
  have h2 := Nat.mod_lt n hD
  unfold nearestBy
  split
  · rw [Nat.add_mul, Nat.one_mul, Nat.mul_comm (n / D) D]
    omega
  · rw [Nat.mul_comm (n / D) D]
    omega

theorem nearestBy_mono (tie : Nat → Bool) {n n' D : Nat} (h : n ≤ n') : nearestBy tie n D ≤ nearestBy tie n' D := by
  have hq : n / D ≤ n' / D := Nat.div_le_div_right h
  rcases Nat.lt_or_eq_of_le hq with hlt | heq
  · unfold nearestBy; split <;> split <;> omega
  · have h1 := Nat.div_add_mod n D
    have h2 := Nat.div_add_mod n' D
    rw [← heq] at h2
    have hr : n % D ≤ n' % D := by omega
    unfold nearestBy
    rw [← heq]
    split
    · rename_i hc
      rw [if_pos]
      rcases hc with hc | ⟨hc, ht⟩
      · left; omega
      · by_cases he : n' % D = n % D
        · right; exact ⟨by rw [he]; exact hc, ht⟩
        · left; omega
    · split <;> omega

theorem nearestBy_exact (tie : Nat → Bool) (k : Nat) {D : Nat} (hD : 0 < D) : nearestBy tie (k * D) D = k := by
  unfold nearestBy
  rw [Nat.mul_mod_left, Nat.mul_div_cancel _ hD, if_neg (by omega)]

/-- The number written, in units of the last decimal. -/
def shownNat (tie : Nat → Bool) (prec : Nat) (b : F32) : Nat := nearestBy tie (b.mag * 10 ^ prec) (2 ^ 149)

theorem strFloat_shown (tie : Nat → Bool) (prec : Nat) {b : F32} (h : b.isFinite = true) :
    ∃ t, strFloat tie prec b = (if b.neg then ['-'] else []) ++ t ∧ Decimal prec t (shownNat tie prec b) ∧
      Rounded prec b.mag (2 ^ 149) (shownNat tie prec b) := by
  have hn : b.isNaN = false := by
    cases hb : b.isNaN with
    | false => rfl
    | true =>
      exfalso
      have hc : F32.Plain (b &&& 0x7FFFFFFF#32) := by
        apply F32.plain_of
        · unfold F32.isFinite at h ⊢
          rw [BitVec.and_assoc]
          exact h
        · unfold F32.neg
          have hm : (0x7FFFFFFF#32).msb = false := by decide
          rw [BitVec.msb_and, hm, Bool.and_false]
      unfold F32.isNaN at hb
      rw [decide_eq_true_eq, BitVec.lt_def] at hb
      unfold F32.Plain at hc
      have : (0x7F800000#32).toNat = 0x7F800000 := rfl
      omega
  have hi : b.isInf = false := by unfold F32.isInf; rw [h]; rfl
  have h1 := nearestBy_err tie (n := b.mag * 10 ^ prec) (show 0 < 2 ^ 149 by positivity)
  obtain ⟨d1, d2⟩ := natStr_digits (shownNat tie prec b / 10 ^ prec)
  obtain ⟨f1, f2, f3⟩ := fixedDigits_spec prec (shownNat tie prec b % 10 ^ prec)
  refine ⟨natStr (shownNat tie prec b / 10 ^ prec) ++ (if prec = 0 then [] else '.' :: fixedDigits prec (shownNat tie prec b % 10 ^ prec)), ?_, ?_, ?_⟩
  · unfold strFloat
    rw [hn, hi]
    simp only [Bool.false_eq_true, if_false]
    rw [List.append_assoc]; rfl
  · refine ⟨_, _, ?_, natStr_ne_nil _, natStr_lead _, d1, f1, f2, ?_⟩
    · split <;> simp
    · rw [decimal_append, f2, f3, d2, Nat.mod_mod, Nat.mul_comm, Nat.div_add_mod]
  · unfold Rounded
    exact h1

/-- A `u32` converted to a float is an integer. -/
theorem ofU32_integral {n : Nat} (hn : n ≤ u32Max) : ∃ k, (F32.ofU32 n).mag = k * 2 ^ 149 ∧ (n < 2 ^ 24 → k = n) := by
  have hp := F32.ofU32_plain hn
  rw [hp.mag, F32.ofU32_eq_round hn]
  obtain ⟨e, m, he, hm, hm1, hm2⟩ := F32.round_parts (n := n * 2 ^ 149) (d := 1) (by omega)
  have hb : F32.roundBits (n * 2 ^ 149) 1 = e * 2 ^ 23 + m := by
    have r1 : F32.roundBits (n * 2 ^ 149) 1 = min (e * 2 ^ 23 + m) 0x7F800000 := by rw [hm, he]; rfl
    have : F32.roundBits (n * 2 ^ 149) 1 < 0x7F800000 := by rw [← F32.ofU32_eq_round hn]; exact hp
    omega
  rw [hb, F32.magBits_parts hm1 hm2]
  by_cases h0 : n = 0
  · subst h0
    refine ⟨0, ?_, fun _ => rfl⟩
    have : m = 0 := by rw [hm]; simp [F32.nearest]
    rw [this]; simp
  · rw [Nat.div_one, F32.log2_shift h0] at he
    by_cases hbig : 150 ≤ e
    · refine ⟨m * 2 ^ (e - 149), ?_, ?_⟩
      · rw [Nat.mul_assoc, ← Nat.pow_add, Nat.sub_add_cancel (by omega)]
      · intro hlt
        have : Nat.log2 n < 24 := (Nat.log2_lt h0).2 hlt
        omega
    · have hex : m * 2 ^ e = n * 2 ^ 149 := by
        have hs : n * 2 ^ 149 = n * 2 ^ (149 - e) * 2 ^ e := by
          rw [Nat.mul_assoc, ← Nat.pow_add, Nat.sub_add_cancel (by omega)]
        rw [hm, Nat.one_mul, hs]
        congr 1
        have hpos : 0 < 2 ^ e := by positivity
        unfold F32.nearest
        rw [Nat.mul_mod_left, Nat.mul_div_cancel _ hpos, if_neg (by omega)]
      exact ⟨n, hex, fun _ => rfl⟩

theorem F32.magBits_strict {x y : Nat} (h : x < y) : F32.magBits x < F32.magBits y := by
  have step : ∀ z, F32.magBits z < F32.magBits (z + 1) := by
    intro z
    have hz := Nat.div_add_mod z (2 ^ 23)
    have mz := Nat.mod_lt z (show 0 < 2 ^ 23 by omega)
    unfold F32.magBits
    by_cases hc : z % 2 ^ 23 + 1 < 2 ^ 23
    · have q : (z + 1) / 2 ^ 23 = z / 2 ^ 23 := by omega
      have r : (z + 1) % 2 ^ 23 = z % 2 ^ 23 + 1 := by omega
      rw [q, r]
      split
      · omega
      · exact Nat.mul_lt_mul_of_pos_right (by omega) (Nat.pow_pos (by omega))
    · have q : (z + 1) / 2 ^ 23 = z / 2 ^ 23 + 1 := by omega
      have r : (z + 1) % 2 ^ 23 = 0 := by omega
      have r0 : z % 2 ^ 23 = 2 ^ 23 - 1 := by omega
      rw [q, r, r0, if_neg (show ¬ z / 2 ^ 23 + 1 = 0 by omega), Nat.add_sub_cancel]
      split
      · rename_i h0
        rw [h0]; omega
      · rename_i h0
        obtain ⟨e, he⟩ : ∃ e, z / 2 ^ 23 = e + 1 := ⟨z / 2 ^ 23 - 1, by omega⟩
        rw [he, Nat.add_sub_cancel, Nat.pow_succ]
        have hp : 0 < 2 ^ e := Nat.pow_pos (by omega)
        calc (2 ^ 23 + (2 ^ 23 - 1)) * 2 ^ e < 2 ^ 24 * 2 ^ e := Nat.mul_lt_mul_of_pos_right (by omega) hp
          _ = (2 ^ 23 + 0) * (2 ^ e * 2) := by ring
  exact Nat.lt_of_lt_of_le (step x) (F32.magBits_mono h)

namespace Scoring

theorem powers_up : ∀ K : Nat, K ≤ 2 ^ 23 → (2 ^ 24 + 1) ^ K * 2 ^ 24 ≤ (2 ^ 24) ^ K * (2 ^ 24 + 2 * K) := by
  intro K
  induction K with
  | zero => intro _; simp
  | succ K ih =>
    intro hK
    have := ih (by omega)
    calc (2 ^ 24 + 1) ^ (K + 1) * 2 ^ 24 = (2 ^ 24 + 1) * ((2 ^ 24 + 1) ^ K * 2 ^ 24) := by rw [Nat.pow_succ]; ring
      _ ≤ (2 ^ 24 + 1) * ((2 ^ 24) ^ K * (2 ^ 24 + 2 * K)) := Nat.mul_le_mul_left _ this
      _ = (2 ^ 24) ^ K * ((2 ^ 24 + 1) * (2 ^ 24 + 2 * K)) := by ring
      _ ≤ (2 ^ 24) ^ K * (2 ^ 24 * (2 ^ 24 + 2 * (K + 1))) := Nat.mul_le_mul_left _ (by omega)
      _ = (2 ^ 24) ^ (K + 1) * (2 ^ 24 + 2 * (K + 1)) := by rw [Nat.pow_succ]; ring

theorem near_bounds {K x y : Nat} (hK : K ≤ 2 ^ 23) (h : Near K x y) : x * 2 ^ 24 ≤ y * (2 ^ 24 + 2 * K) ∧ y * (2 ^ 24 - K) ≤ x * 2 ^ 24 := by
  have hpos : 0 < (2 ^ 24) ^ K := by positivity
  constructor
  · apply Nat.le_of_mul_le_mul_left _ hpos
    calc (2 ^ 24) ^ K * (x * 2 ^ 24) = (2 ^ 24) ^ K * x * 2 ^ 24 := by ring
      _ ≤ (2 ^ 24 + 1) ^ K * y * 2 ^ 24 := Nat.mul_le_mul_right _ h.2
      _ = (2 ^ 24 + 1) ^ K * 2 ^ 24 * y := by ring
      _ ≤ (2 ^ 24) ^ K * (2 ^ 24 + 2 * K) * y := Nat.mul_le_mul_right _ (powers_up K hK)
      _ = (2 ^ 24) ^ K * (y * (2 ^ 24 + 2 * K)) := by ring
  · apply Nat.le_of_mul_le_mul_left _ hpos
    calc (2 ^ 24) ^ K * (y * (2 ^ 24 - K)) = (2 ^ 24 - K) * (2 ^ 24) ^ K * y := by ring
      _ ≤ 2 ^ 24 * (2 ^ 24 - 1) ^ K * y := Nat.mul_le_mul_right _ (bernoulli K)
      _ = 2 ^ 24 * ((2 ^ 24 - 1) ^ K * y) := by ring
      _ ≤ 2 ^ 24 * ((2 ^ 24) ^ K * x) := Nat.mul_le_mul_left _ h.1
      _ = (2 ^ 24) ^ K * (x * 2 ^ 24) := by ring

theorem near_rat {K x y : Nat} (hK : K ≤ 2 ^ 23) (h : Near K x y) : |(x : ℚ) - y| ≤ y * (K / 2 ^ 23) := by
  obtain ⟨h1, h2⟩ := near_bounds hK h
  have q1 : (x : ℚ) * 2 ^ 24 ≤ y * (2 ^ 24 + 2 * K) := by exact_mod_cast h1
  have q2 : (y : ℚ) * (2 ^ 24 - K) ≤ x * 2 ^ 24 := by
    have e : ((2 ^ 24 - K : Nat) : ℚ) = 2 ^ 24 - K := by
      rw [Nat.cast_sub (by omega)]; norm_num
    rw [← e]
    exact_mod_cast h2
  have hy : (0 : ℚ) ≤ y * K := by positivity
  rw [abs_le]
  constructor <;> linarith

end Scoring

theorem rounded_rat {prec x d m : Nat} (hd : 0 < d) (h : Rounded prec x d m) :
    |(m : ℚ) / 10 ^ prec - (x : ℚ) / d| ≤ 1 / (2 * 10 ^ prec) := by
  have hdq : (0 : ℚ) < d := by exact_mod_cast hd
  have hp : (0 : ℚ) < 10 ^ prec := by positivity
  have q1 : 2 * ((m : ℚ) * d) ≤ 2 * (x * 10 ^ prec) + d := by exact_mod_cast h.1
  have q2 : 2 * ((x : ℚ) * 10 ^ prec) ≤ 2 * (m * d) + d := by exact_mod_cast h.2
  rw [div_sub_div _ _ hp.ne' hdq.ne', abs_le, neg_le, ← neg_div, div_le_div_iff₀ (by positivity) (by positivity),
    div_le_div_iff₀ (by positivity) (by positivity)]
  constructor
  · nlinarith
  · nlinarith

theorem ratio_close {M E S D : ℚ} {r : ℚ} (hS : 0 < S) (hD : 0 < D) (h : |M * S - E * D| ≤ E * D * r) :
    |M / D - E / S| ≤ E / S * r := by
  have e1 : M / D - E / S = (M * S - E * D) / (D * S) := by
    rw [div_sub_div _ _ hD.ne' hS.ne', mul_comm D E]
  have hp : 0 < D * S := mul_pos hD hS
  rw [e1, abs_div, abs_of_pos hp, div_le_iff₀ hp]
  have e2 : E / S * r * (D * S) = E * D * r := by field_simp
  rw [e2]
  exact h

theorem shown_close {M E S m K : Nat} (hS : 0 < S) (hK : K ≤ 2 ^ 23) (hr : Rounded 5 M (2 ^ 149) m)
    (hn : Near K (M * S) (E * 2 ^ 149)) :
    |(m : ℚ) / 10 ^ 5 - (E : ℚ) / (S : ℚ)| ≤ 1 / (2 * 10 ^ 5) + (E : ℚ) / (S : ℚ) * ((K : ℚ) / 2 ^ 23) := by
  have hD : 0 < 2 ^ 149 := by positivity
  generalize 2 ^ 149 = D at hr hn hD
  have r1 := rounded_rat hD hr
  have r2 := Scoring.near_rat hK hn
  rw [Nat.cast_mul, Nat.cast_mul] at r2
  have r3 := ratio_close (by exact_mod_cast hS) (by exact_mod_cast hD) r2
  exact le_trans (abs_sub_le _ ((M : ℚ) / (D : ℚ)) _) (add_le_add r1 r3)

end Wassign
