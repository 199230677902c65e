import Verif.Spec.Exponent
import Verif.Spec.Pareto
import Mathlib.Analysis.MeanInequalitiesPow
import Mathlib.Analysis.Convex.SpecificFunctions.Basic
/-
How the exact cost grows.
-/
namespace Wassign
open Spec

theorem exactCost_step {e : ℝ} (he : 1 ≤ e) (x : Nat) : exactCost e x < exactCost e (x + 1) := by
  have h := Real.add_rpow_le_rpow_add (a := (x : ℝ) + 1) (b := 1) (by positivity) (by norm_num) he
  rw [Real.one_rpow] at h
  have h2 : ⌊((x : ℝ) + 1) ^ e + 1⌋ ≤ ⌊(((x + 1 : Nat) : ℝ) + 1) ^ e⌋ := Int.floor_le_floor (by push_cast; exact h)
  rw [Int.floor_add_one] at h2
  unfold exactCost
  omega

theorem exactCost_bend {e : ℝ} (he : 2 ≤ e) (x : Nat) :
    exactCost e (x + 1) - exactCost e x < exactCost e (x + 2) - exactCost e (x + 1) := by
  set t : ℝ := (x : ℝ) + 1 with ht
  have htp : 0 ≤ t := by positivity
  have hq : 1 ≤ e / 2 := by linarith
  have sq : ∀ y : ℝ, 0 ≤ y → y ^ e = (y ^ (2 : ℕ)) ^ (e / 2) := by
    intro y hy
    rw [← Real.rpow_natCast, ← Real.rpow_mul hy]
    congr 1
    push_cast
    ring
  have hconv : ((1 / 2 : ℝ) • t ^ 2 + (1 / 2 : ℝ) • (t + 2) ^ 2) ^ (e / 2) ≤
      (1 / 2 : ℝ) • (t ^ 2) ^ (e / 2) + (1 / 2 : ℝ) • ((t + 2) ^ 2) ^ (e / 2) := by
    have h1 : t ^ 2 ∈ Set.Ici (0 : ℝ) := by show (0 : ℝ) ≤ t ^ 2; positivity
    have h2 : (t + 2) ^ 2 ∈ Set.Ici (0 : ℝ) := by show (0 : ℝ) ≤ (t + 2) ^ 2; positivity
    exact (convexOn_rpow hq).2 h1 h2 (by norm_num) (by norm_num) (by norm_num)
  have hmid : (1 / 2 : ℝ) • t ^ 2 + (1 / 2 : ℝ) • (t + 2) ^ 2 = (t + 1) ^ 2 + 1 := by
    simp only [smul_eq_mul]; ring
  rw [hmid] at hconv
  have hsup := Real.add_rpow_le_rpow_add (a := (t + 1) ^ 2) (b := 1) (by positivity) (by norm_num) hq
  rw [Real.one_rpow] at hsup
  rw [← sq t htp, ← sq (t + 2) (by linarith)] at hconv
  rw [← sq (t + 1) (by linarith)] at hsup
  simp only [smul_eq_mul] at hconv
  have key : t ^ e + (t + 2) ^ e ≥ 2 * (t + 1) ^ e + 2 := by linarith
  have e0 : exactCost e x = ⌊t ^ e⌋ := rfl
  have e1 : exactCost e (x + 1) = ⌊(t + 1) ^ e⌋ := by unfold exactCost; rw [ht]; push_cast; rfl
  have e2 : exactCost e (x + 2) = ⌊(t + 2) ^ e⌋ := by
    unfold exactCost; rw [ht]; push_cast; congr 2; ring
  rw [e0, e1, e2]
  have f0 := Int.lt_floor_add_one (t ^ e)
  have f1 := Int.floor_le ((t + 1) ^ e)
  have f2 := Int.lt_floor_add_one ((t + 2) ^ e)
  have : (2 * ⌊(t + 1) ^ e⌋ : ℝ) < (⌊t ^ e⌋ : ℝ) + (⌊(t + 2) ^ e⌋ : ℝ) := by linarith
  have : 2 * ⌊(t + 1) ^ e⌋ < ⌊t ^ e⌋ + ⌊(t + 2) ^ e⌋ := by exact_mod_cast this
  omega

/-- Whole exponents: nothing is cut off. -/
theorem exactCost_nat (n x : Nat) : exactCost (n : ℝ) x = ((x + 1 : Nat) : Int) ^ n := by
  unfold exactCost
  rw [Real.rpow_natCast]
  have : ((x : ℝ) + 1) ^ n = (((((x + 1 : Nat) : Int) ^ n : Int)) : ℝ) := by push_cast; rfl
  rw [this, Int.floor_intCast]

/-- The value of the exact cost, from powers of whole numbers. -/
theorem exactCost_eq {e : ℝ} {p q : Nat} (he : e = (p : ℝ) / (q : ℝ)) (hq : 0 < q) {x v : Nat} (h1 : v ^ q ≤ (x + 1) ^ p)
    (h2 : (x + 1) ^ p < (v + 1) ^ q) : exactCost e x = v := by
  have hqr : (q : ℝ) ≠ 0 := by positivity
  have hpow : (((x : ℝ) + 1) ^ e) ^ q = ((x : ℝ) + 1) ^ p := by
    rw [← Real.rpow_natCast, ← Real.rpow_mul (by positivity), he, div_mul_cancel₀ _ hqr, Real.rpow_natCast]
  have hnn : 0 ≤ ((x : ℝ) + 1) ^ e := by positivity
  unfold exactCost
  rw [Int.floor_eq_iff]
  constructor
  · apply le_of_not_gt
    intro hlt
    have := pow_lt_pow_left₀ hlt hnn (by omega : q ≠ 0)
    rw [hpow] at this
    have h1' : ((v : ℝ)) ^ q ≤ ((x : ℝ) + 1) ^ p := by exact_mod_cast h1
    push_cast at this
    linarith
  · apply lt_of_not_ge
    intro hge
    have := pow_le_pow_left₀ (by positivity) hge q
    rw [hpow] at this
    have h2' : ((x : ℝ) + 1) ^ p < ((v : ℝ) + 1) ^ q := by exact_mod_cast h2
    push_cast at this
    linarith

end Wassign
