import Verif.Proofs.Minor
import Mathlib.Tactic.Ring
/-
Error bounds for the minor score.
-/
namespace Wassign
open Spec F32

/-- `x` approximates `y` with a relative error of at most `k` roundings of 2^-24. -/
def Near (k x y : Nat) : Prop := (2^24 - 1)^k * y ≤ (2^24)^k * x ∧ (2^24)^k * x ≤ (2^24 + 1)^k * y

namespace Near

theorem refl (x : Nat) : Near 0 x x := by unfold Near; simp

theorem trans {j k x y z : Nat} (h : Near j x y) (h' : Near k y z) : Near (j + k) x z := by
  constructor
  · calc (2^24 - 1)^(j+k) * z = (2^24 - 1)^j * ((2^24 - 1)^k * z) := by rw [Nat.pow_add]; ring
      _ ≤ (2^24 - 1)^j * ((2^24)^k * y) := Nat.mul_le_mul_left _ h'.1
      _ = (2^24)^k * ((2^24 - 1)^j * y) := by ring
      _ ≤ (2^24)^k * ((2^24)^j * x) := Nat.mul_le_mul_left _ h.1
      _ = (2^24)^(j+k) * x := by rw [Nat.pow_add]; ring
  · calc (2^24)^(j+k) * x = (2^24)^k * ((2^24)^j * x) := by rw [Nat.pow_add]; ring
      _ ≤ (2^24)^k * ((2^24 + 1)^j * y) := Nat.mul_le_mul_left _ h.2
      _ = (2^24 + 1)^j * ((2^24)^k * y) := by ring
      _ ≤ (2^24 + 1)^j * ((2^24 + 1)^k * z) := Nat.mul_le_mul_left _ h'.2
      _ = (2^24 + 1)^(j+k) * z := by rw [Nat.pow_add]; ring

theorem one_refl (x : Nat) : Near 1 x x := by unfold Near; constructor <;> omega

theorem up {k x y : Nat} (h : Near k x y) : ∀ j, Near (k + j) x y
  | 0 => h
  | j + 1 => (up h j).trans (one_refl y)

theorem mono {k k' x y : Nat} (h : Near k x y) (hk : k ≤ k') : Near k' x y := by
  obtain ⟨j, rfl⟩ := Nat.exists_eq_add_of_le hk
  exact h.up j

theorem mul_right {k x y : Nat} (h : Near k x y) (c : Nat) : Near k (x * c) (y * c) := by
  constructor
  · rw [← Nat.mul_assoc, ← Nat.mul_assoc]; exact Nat.mul_le_mul_right _ h.1
  · rw [← Nat.mul_assoc, ← Nat.mul_assoc]; exact Nat.mul_le_mul_right _ h.2

theorem add {k x y x' y' : Nat} (h : Near k x y) (h' : Near k x' y') : Near k (x + x') (y + y') := by
  constructor
  · rw [Nat.mul_add, Nat.mul_add]; exact Nat.add_le_add h.1 h'.1
  · rw [Nat.mul_add, Nat.mul_add]; exact Nat.add_le_add h.2 h'.2

end Near

namespace F32

theorem nearest_err {n D : Nat} (hD : 0 < D) : 2 * (nearest n D * D) ≤ 2 * n + D ∧ 2 * n ≤ 2 * (nearest n D * D) + D := by
  have h1 := Nat.div_add_mod n D
  have h2 := Nat.mod_lt n hD
  unfold nearest
  split
  · rename_i hc
    rw [Nat.add_mul, Nat.one_mul, Nat.mul_comm (n / D) D]
    omega
  · rename_i hc
    rw [Nat.mul_comm (n / D) D]
    omega

/-- Rounding a number that is not too small, or an integral number of units, makes a small relative error. -/
theorem round_near {n d : Nat} (hd : 0 < d) (hbig : 2^23 ≤ n / d ∨ d = 1) (hfin : roundBits n d < 0x7F800000) :
    Near 1 (magBits (roundBits n d) * d) n := by
  obtain ⟨e, m, he, hm, hm1, hm2⟩ := round_parts (n := n) hd
  have r1 : roundBits n d = min (e * 2^23 + m) 0x7F800000 := by rw [hm, he]; rfl
  have r2 : roundBits n d = e * 2^23 + m := by omega
  rw [r2, magBits_parts hm1 hm2, hm]
  have hD : 0 < d * 2^e := Nat.mul_pos hd (Nat.pow_pos (by omega))
  have e1 : nearest n (d * 2^e) * 2^e * d = nearest n (d * 2^e) * (d * 2^e) := by ring
  rw [e1]
  have herr := nearest_err (n := n) hD
  by_cases hn : 2^23 ≤ n / (d * 2^e)
  · have : 2^23 * (d * 2^e) ≤ n := by
      calc 2^23 * (d * 2^e) ≤ n / (d * 2^e) * (d * 2^e) := Nat.mul_le_mul_right _ hn
        _ ≤ n := Nat.div_mul_le_self _ _
    unfold Near
    simp only [Nat.pow_one]
    omega
  · have he0 : e = 0 := by
      by_contra hne
      have hp : 0 < e := by omega
      apply hn
      rw [← Nat.div_div_eq_div_mul, Nat.le_div_iff_mul_le (Nat.pow_pos (by omega)), ← Nat.pow_add]
      have h0 : n / d ≠ 0 := by
        intro h0; rw [h0] at he; simp at he; omega
      have := Nat.log2_self_le h0
      have e2 : 23 + e = Nat.log2 (n / d) := by omega
      rw [e2]; exact this
    subst he0
    rcases hbig with hb | hb
    · exact absurd (by simpa using hb) hn
    · subst hb
      simp only [Nat.one_mul, Nat.pow_zero]
      have : nearest n 1 * 1 = n := by unfold nearest; simp [Nat.mod_one]
      rw [this]
      exact Near.one_refl n

end F32

namespace Scoring

/-- One summand. -/
theorem term_near {n : Nat} (hn : n ≤ u32Max) {v s : F32} (hv : v.Plain) (hs : s.Plain) (h0 : s.mag ≠ 0) (hvs : v.mag ≤ s.mag)
    (hs2 : s.mag ≤ 2^244) (h1 : v.mag = 0 ∨ 2^149 ≤ v.mag) :
    Near 3 ((div (mul (ofU32 n) v) s).mag * s.mag) (n * v.mag * 2^149) := by
  have hcp := ofU32_plain hn
  have hsmall := term_small hcp (ofU32_mag_le hn) hv hs h0 hvs hs2
  have htp : (div (mul (ofU32 n) v) s).Plain := Nat.lt_of_le_of_lt hsmall (roundBits_pow 182 (by omega))
  have hm := mul_plain hcp hv
  have hc : Near 1 ((ofU32 n).mag) (n * 2^149) := by
    have := round_near (n := n * 2^149) (d := 1) (by omega) (.inr rfl) (by rw [← ofU32_eq_round hn]; exact hcp)
    rw [Nat.mul_one, ← ofU32_eq_round hn, ← hcp.mag] at this
    exact this
  have hprod : (ofU32 n).mag * v.mag ≤ 2^425 := by
    calc (ofU32 n).mag * v.mag ≤ 2^181 * 2^244 := Nat.mul_le_mul (ofU32_mag_le hn) (Nat.le_trans hvs hs2)
      _ = 2^425 := (Nat.pow_add 2 181 244).symm
  have hmp : (mul (ofU32 n) v).Plain := by
    unfold Plain
    rw [hm]
    refine Nat.lt_of_le_of_lt (roundBits_mono (n' := 2^276) (d' := 1) (Nat.pow_pos (by omega)) (by omega) ?_) (roundBits_pow 276 (by omega))
    calc (ofU32 n).mag * v.mag * 1 ≤ 2^425 := by omega
      _ = 2^276 * 2^149 := Nat.pow_add 2 276 149
  have hdv := div_plain hmp hs h0
  have hzero : ∀ d, 0 < d → roundBits 0 d = 0 := by
    intro d hd
    unfold roundBits nearest
    simp
  by_cases hcase : n = 0 ∨ v.mag = 0
  · -- nothing is added
    have hpz : (ofU32 n).mag * v.mag = 0 := by
      rcases hcase with h | h
      · subst h
        have : (ofU32 0).mag = 0 := by decide +kernel
        rw [this, Nat.zero_mul]
      · rw [h, Nat.mul_zero]
    rw [hpz, hzero _ (Nat.pow_pos (by omega))] at hm
    have mz : (mul (ofU32 n) v).mag = 0 := by rw [hmp.mag, hm]; decide +kernel
    rw [mz, Nat.zero_mul, hzero _ (by omega)] at hdv
    have dz : (div (mul (ofU32 n) v) s).mag = 0 := by rw [htp.mag, hdv]; decide +kernel
    have : n * v.mag * 2^149 = 0 := by
      rcases hcase with h | h <;> simp [h]
    rw [dz, this, Nat.zero_mul]
    unfold Near; simp
  · have hn1 : 1 ≤ n := by omega
    have hv1 : 2^149 ≤ v.mag := by omega
    have hcm : 2^149 ≤ (ofU32 n).mag := by
      have one : (ofU32 1).mag = 2^149 := by decide +kernel
      rw [← one, hcp.mag, (ofU32_plain (by omega)).mag, ofU32_eq_round hn, ofU32_eq_round (by omega)]
      refine magBits_mono (roundBits_mono (by omega) (by omega) ?_)
      have := Nat.mul_le_mul_right (2^149) hn1
      omega
    -- the product
    have hp1 : Near 1 ((mul (ofU32 n) v).mag * 2^149) ((ofU32 n).mag * v.mag) := by
      have := round_near (n := (ofU32 n).mag * v.mag) (d := 2^149) (Nat.pow_pos (by omega)) (.inl ?_) (by rw [← hm]; exact hmp)
      · rw [← hm, ← hmp.mag] at this
        exact this
      · rw [Nat.le_div_iff_mul_le (Nat.pow_pos (by omega))]
        calc 2^23 * 2^149 ≤ 2^149 * 2^149 := Nat.mul_le_mul_right _ (Nat.pow_le_pow_right (by omega) (by omega))
          _ ≤ (ofU32 n).mag * v.mag := Nat.mul_le_mul hcm hv1
    have hpm : 2^149 ≤ (mul (ofU32 n) v).mag := by
      have e149 : magBits (roundBits (2^149) 1) = 2^149 := by decide +kernel
      rw [hmp.mag, hm]
      refine Nat.le_trans (Nat.le_of_eq e149.symm) (magBits_mono (roundBits_mono (by omega) (Nat.pow_pos (by omega)) ?_))
      have := Nat.mul_le_mul hcm hv1
      omega
    -- the quotient
    have hq : Near 1 ((div (mul (ofU32 n) v) s).mag * s.mag) ((mul (ofU32 n) v).mag * 2^149) := by
      have := round_near (n := (mul (ofU32 n) v).mag * 2^149) (d := s.mag) (by omega) (.inl ?_) (by rw [← hdv]; exact htp)
      · rw [← hdv, ← htp.mag] at this
        exact this
      · rw [Nat.le_div_iff_mul_le (by omega)]
        calc 2^23 * s.mag ≤ 2^23 * 2^244 := Nat.mul_le_mul_left _ hs2
          _ = 2^267 := (Nat.pow_add 2 23 244).symm
          _ ≤ 2^298 := Nat.pow_le_pow_right (by omega) (by omega)
          _ = 2^149 * 2^149 := Nat.pow_add 2 149 149
          _ ≤ (mul (ofU32 n) v).mag * 2^149 := Nat.mul_le_mul_right _ hpm
    have hc2 := hc.mul_right v.mag
    have := (hq.trans hp1).trans hc2
    rw [show n * 2^149 * v.mag = n * v.mag * 2^149 by ring] at this
    exact this

/-- Adding to the running sum. -/
theorem add_near {x y : F32} (hx : x.toNat ≤ roundBits (2^209) 1) (hy : y.toNat ≤ roundBits (2^182) 1) :
    Near 1 (F32.add x y).mag (x.mag + y.mag) := by
  have px : x.Plain := Nat.lt_of_le_of_lt hx (roundBits_pow 209 (by omega))
  have py : y.Plain := Nat.lt_of_le_of_lt hy (roundBits_pow 182 (by omega))
  have ha := add_plain px py
  have hp : (F32.add x y).Plain := Nat.lt_of_le_of_lt (add_small hx hy) (roundBits_pow 209 (by omega))
  have := round_near (n := x.mag + y.mag) (d := 1) (by omega) (.inr rfl) (by rw [← ha]; exact hp)
  rw [← ha, Nat.mul_one, ← hp.mag] at this
  exact this

/-- The exact sum. -/
def exactSum (powf : F32 → F32 → F32) (e : F32) (l : List (Nat × Nat)) : Nat := (l.map fun x => x.1 * (powf (ofU32 x.2) e).mag).sum

theorem minorSum_near {powf : F32 → F32 → F32} {e : F32} {m : Nat} (h : ModeratePowers powf e m)
    (hwhole : ∀ n ≤ m, (powf (ofU32 n) e).mag = 0 ∨ 2^149 ≤ (powf (ofU32 n) e).mag) {cnt : List Nat}
    (hlen : cnt.length ≤ m + 1) (hm : m ≤ u32Max) (hc : ∀ c ∈ cnt, c ≤ u32Max) :
    (minorSum powf e m cnt).Plain ∧
    Near (3 + cnt.length) ((minorSum powf e m cnt).mag * (scaling powf e m).mag) (exactSum powf e cnt.zipIdx * 2^149) := by
  have hs : (scaling powf e m).Plain := by
    unfold scaling
    split
    · exact ofU32_plain (by unfold u32Max; omega)
    · exact plain_of (h.plain m (Nat.le_refl _)).1 (h.plain m (Nat.le_refl _)).2
  have key : ∀ l : List (Nat × Nat), (∀ x ∈ l, x.1 ≤ u32Max ∧ x.2 ≤ m) → ∀ (sum : F32) (acc k : Nat), sum.toNat ≤ roundBits (2^209) 1 →
      Near (3 + k) (sum.mag * (scaling powf e m).mag) (acc * 2^149) →
      (l.foldl (minorStep powf e (scaling powf e m)) sum).toNat ≤ roundBits (2^209) 1 ∧
      Near (3 + k + l.length) ((l.foldl (minorStep powf e (scaling powf e m)) sum).mag * (scaling powf e m).mag) ((acc + exactSum powf e l) * 2^149) := by
    intro l
    induction l with
    | nil => intro _ sum acc k hs hn; exact ⟨hs, by simpa [exactSum] using hn⟩
    | cons x l ih =>
      intro hl sum acc k hsum hnear
      have hx := hl x (by simp)
      have hv := plain_of (h.plain _ hx.2).1 (h.plain _ hx.2).2
      have hsmall := term_small (ofU32_plain hx.1) (ofU32_mag_le hx.1) hv hs (by have := h.positive; omega) (h.least _ hx.2) h.moderate
      have hterm := term_near hx.1 hv hs (by have := h.positive; omega) (h.least _ hx.2) h.moderate (hwhole _ hx.2)
      have hadd := (add_near hsum hsmall).mul_right (scaling powf e m).mag
      rw [Nat.add_mul] at hadd
      have hboth := hadd.trans (hnear.add (hterm.mono (show 3 ≤ 3 + k by omega)))
      have := ih (fun y hy => hl y (by simp [hy])) (minorStep powf e (scaling powf e m) sum x) (acc + x.1 * (powf (ofU32 x.2) e).mag) (k + 1)
        (add_small hsum hsmall) (by
          rw [Nat.add_mul, show 3 + (k + 1) = 1 + (3 + k) by omega]
          exact hboth)
      refine ⟨this.1, ?_⟩
      have h2 := this.2
      rw [List.foldl_cons, List.length_cons, show 3 + k + (l.length + 1) = 3 + (k + 1) + l.length by omega]
      have e1 : exactSum powf e (x :: l) = x.1 * (powf (ofU32 x.2) e).mag + exactSum powf e l := by simp [exactSum]
      rw [e1, ← Nat.add_assoc acc]
      exact h2
  have := key cnt.zipIdx (by
    intro x hx
    rw [List.mem_zipIdx_iff_getElem?] at hx
    have h1 := List.mem_of_getElem? hx
    have h2 := (List.getElem?_eq_some_iff.1 hx).1
    exact ⟨hc _ h1, by omega⟩) 0#32 0 0 (by show 0 ≤ _; omega) (by
      have : F32.mag (0#32) = 0 := by decide +kernel
      rw [this, Nat.zero_mul]
      unfold Near; simp)
  rw [List.length_zipIdx, Nat.zero_add, Nat.add_zero] at this
  exact ⟨Nat.lt_of_le_of_lt this.1 (roundBits_pow 209 (by omega)), this.2⟩

theorem bernoulli (n : Nat) : (2^24 - n) * (2^24)^n ≤ 2^24 * (2^24 - 1)^n := by
  induction n with
  | zero => simp
  | succ n ih =>
    by_cases hn : n + 1 ≤ 2^24
    · obtain ⟨k, hk⟩ := Nat.exists_eq_add_of_le hn
      have e1 : 2^24 - (n+1) = k := by omega
      have e2 : 2^24 - n = k + 1 := by omega
      rw [e2] at ih
      rw [e1]
      calc k * (2^24)^(n+1) = k * 2^24 * (2^24)^n := by rw [Nat.pow_succ]; ring
        _ ≤ (2^24 - 1) * (k + 1) * (2^24)^n := Nat.mul_le_mul_right _ (by omega)
        _ = (2^24 - 1) * ((k + 1) * (2^24)^n) := by ring
        _ ≤ (2^24 - 1) * (2^24 * (2^24 - 1)^n) := Nat.mul_le_mul_left _ ih
        _ = 2^24 * (2^24 - 1)^(n+1) := by rw [Nat.pow_succ]; ring
    · rw [show 2^24 - (n+1) = 0 by omega, Nat.zero_mul]
      exact Nat.zero_le _

theorem powers_le (K : Nat) : (2^24 + 1)^K * (2^24 - 2 * K) ≤ 2^24 * (2^24 - 1)^K := by
  have hpos : 0 < (2^24)^(2*K) := Nat.pow_pos (by omega)
  apply Nat.le_of_mul_le_mul_right _ hpos
  calc (2^24 + 1)^K * (2^24 - 2 * K) * (2^24)^(2*K) = (2^24 + 1)^K * ((2^24 - 2 * K) * (2^24)^(2*K)) := by ring
    _ ≤ (2^24 + 1)^K * (2^24 * (2^24 - 1)^(2*K)) := Nat.mul_le_mul_left _ (bernoulli _)
    _ = 2^24 * (2^24 - 1)^K * ((2^24 + 1) * (2^24 - 1))^K := by
        rw [Nat.two_mul, Nat.pow_add, Nat.mul_pow]; ring
    _ ≤ 2^24 * (2^24 - 1)^K * ((2^24)^2)^K := Nat.mul_le_mul_left _ (Nat.pow_le_pow_left (by omega) _)
    _ = 2^24 * (2^24 - 1)^K * (2^24)^(2*K) := by rw [← Nat.pow_mul]

/-- Numbers that differ by more than the error are told apart. -/
theorem near_lt {K x y e e' : Nat} (h : Near K x e) (h' : Near K y e') (hgap : e * 2^24 < e' * (2^24 - 2 * K)) : x < y := by
  have h1 : (2^24 + 1)^K * e * 2^24 < (2^24 - 1)^K * e' * 2^24 := by
    calc (2^24 + 1)^K * e * 2^24 = (2^24 + 1)^K * (e * 2^24) := by ring
      _ < (2^24 + 1)^K * (e' * (2^24 - 2 * K)) := Nat.mul_lt_mul_of_pos_left hgap (Nat.pow_pos (by omega))
      _ = e' * ((2^24 + 1)^K * (2^24 - 2 * K)) := by ring
      _ ≤ e' * (2^24 * (2^24 - 1)^K) := Nat.mul_le_mul_left _ (powers_le K)
      _ = (2^24 - 1)^K * e' * 2^24 := by ring
  have h2 : (2^24 + 1)^K * e < (2^24 - 1)^K * e' := Nat.lt_of_mul_lt_mul_right h1
  have h3 : (2^24)^K * x < (2^24)^K * y := Nat.lt_of_le_of_lt h.2 (Nat.lt_of_lt_of_le h2 h'.1)
  exact Nat.lt_of_mul_lt_mul_left h3

end Scoring
end Wassign
