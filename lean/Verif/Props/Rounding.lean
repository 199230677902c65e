import Verif.Props.Objective
import Verif.Proofs.Rounding
/-
C62: rounding does not change the order of solutions, unless they are almost equally good.
-/
namespace Wassign
open Spec Build Threaded Main Reader

variable {F σ : Type}

theorem zipIdx_range (n : Nat) (f : Nat → Nat) : ((List.range n).map f).zipIdx = (List.range n).map fun x => (f x, x) := by
  apply List.ext_getElem
  · simp
  · intro k h1 h2
    simp

theorem exactSum_given (d : InputData) (a : Assignment) (powf : F32 → F32 → F32) (e : F32) :
    ((Scoring.exactSum powf e ((List.range (d.maxPref + 1)).map (timesGiven d a)).zipIdx : Nat) : Int) =
      givenSum d (fun x => ((powf (F32.ofU32 x) e).mag : Int)) a := by
  rw [zipIdx_range]
  unfold Scoring.exactSum
  rw [List.map_map]
  show _ = isum (List.range (d.maxPref + 1)) (fun x => (timesGiven d a x : Int) * ((powf (F32.ofU32 x) e).mag : Int))
  have := isum_range_natCast (d.maxPref + 1) (fun x => timesGiven d a x * (powf (F32.ofU32 x) e).mag)
  rw [← isum_congr (fun x _ => Int.natCast_mul (timesGiven d a x) _)]
  rw [this]
  rfl

theorem lt_of_mag {x y : F32} (hx : x.Plain) (hy : y.Plain) (h : x.mag < y.mag) : F32.totalCmp x y = .lt := by
  have : x.toNat < y.toNat := by
    apply Nat.lt_of_not_le
    intro hle
    rw [hx.mag, hy.mag] at h
    have := F32.magBits_mono hle
    omega
  unfold F32.totalCmp
  rw [compare_lt_iff_lt, F32.totalKey_of_lt (by have := hx.lt; omega), F32.totalKey_of_lt (by have := hy.lt; omega)]
  omega

/-- **C62** (partial: the powers are assumed to be moderate and zero or at least one): let the weight of a preference value be
its computed power, and take the exact weighted sums of two valid solutions with the same worst preference (which does not
matter in greedy mode). If that of `a` is less than that of `a'` by more than a fraction of `(maxPref + 4) / 2^23`, then `a` has the better score. -/
theorem C62_order_partial (raw : Raw) (tr : List Reader.Event) (hdes : Describes tr raw) (d : InputData)
    (h : build raw = .ok d) (hr : ManageableRaw raw) (hd : Manageable d) (o : Outside F σ) (opts : Opts F) (p : Prepared)
    (hp : prepare o d opts = .ok p) (hpow : ModeratePowers o.powf (o.toF32 opts.prefExp) d.maxPref)
    (hwhole : WholePowers o.powf (o.toF32 opts.prefExp) d.maxPref) (weight : Nat → Int)
    (hweight : ∀ x, weight x = ((o.powf (F32.ofU32 x) (o.toF32 opts.prefExp)).mag : Int))
    (s s' : Scheduling) (a a' : Assignment) (hs : SchedShape d s) (hsh : Shape d s a) (hv : Valid d s a)
    (hs' : SchedShape d s') (hsh' : Shape d s' a') (hv' : Valid d s' a')
    (hworst : opts.greedy = true ∨ ∃ w, IsWorst d a w ∧ IsWorst d a' w)
    (hgap : givenSum d weight a * 2^23 < givenSum d weight a' * (2^23 - ((d.maxPref : Int) + 4)))
    (x x' : Score) (hx : p.scoring.evaluate d (.complete s a) = .ok x) (hx' : p.scoring.evaluate d (.complete s' a') = .ok x') :
    Score.lt x x' = true := by
  have hmax := fun q hq => ((described_fit hdes).1 q hq).2.1
  obtain ⟨m, written, hb⟩ := build_spec hmax h
  obtain ⟨hz, _, _⟩ := sizes_of_manageable hb hr hd
  have hwt : weight = fun x => ((o.powf (F32.ofU32 x) (o.toF32 opts.prefExp)).mag : Int) := funext hweight
  subst hwt
  have near : ∀ a, _ := fun a => Scoring.minorSum_near hpow hwhole (cnt := (List.range (d.maxPref + 1)).map (timesGiven d a)) (by simp)
    (Nat.le_of_lt hz.maxPref) (by
      intro c hc
      obtain ⟨x, _, rfl⟩ := List.mem_map.1 hc
      exact Nat.le_trans (timesGiven_le x) hz.attendances)
  obtain ⟨w, hw, he⟩ := C60_score_formula d hb.wf hz o opts p hp s a hs hsh hv _ rfl
  obtain ⟨w', hw', he'⟩ := C60_score_formula d hb.wf hz o opts p hp s' a' hs' hsh' hv' _ rfl
  obtain ⟨p1, n1⟩ := near a
  obtain ⟨p2, n2⟩ := near a'
  simp only [List.length_map, List.length_range] at n1 n2
  have hlt : F32.totalCmp (Scoring.minorSum o.powf (o.toF32 opts.prefExp) d.maxPref ((List.range (d.maxPref + 1)).map (timesGiven d a)))
      (Scoring.minorSum o.powf (o.toF32 opts.prefExp) d.maxPref ((List.range (d.maxPref + 1)).map (timesGiven d a'))) = .lt := by
    apply lt_of_mag p1 p2
    refine Nat.lt_of_mul_lt_mul_right (Scoring.near_lt n1 n2 ?_)
    rw [← exactSum_given, ← exactSum_given] at hgap
    generalize Scoring.exactSum o.powf (o.toF32 opts.prefExp) ((List.range (d.maxPref + 1)).map (timesGiven d a)).zipIdx = e1 at hgap
    generalize Scoring.exactSum o.powf (o.toF32 opts.prefExp) ((List.range (d.maxPref + 1)).map (timesGiven d a')).zipIdx = e2 at hgap
    have hK : d.maxPref + 4 ≤ 2^23 := by
      apply Nat.le_of_not_lt
      intro hlt
      have h1 : ((e2 : Nat) : Int) * (2^23 - ((d.maxPref : Int) + 4)) ≤ 0 := Int.mul_nonpos_of_nonneg_of_nonpos (by omega) (by omega)
      omega
    have hnat : e1 * 2^23 < e2 * (2^23 - (d.maxPref + 4)) := by
      have e3 : ((2^23 - (d.maxPref + 4) : Nat) : Int) = 2^23 - ((d.maxPref : Int) + 4) := by omega
      rw [← e3] at hgap
      exact_mod_cast hgap
    have e4 : 2^24 - 2 * (3 + (d.maxPref + 1)) = 2 * (2^23 - (d.maxPref + 4)) := by omega
    rw [e4]
    calc e1 * 2^149 * 2^24 = (e1 * 2^23) * (2 * 2^149) := by ring
      _ < e2 * (2^23 - (d.maxPref + 4)) * (2 * 2^149) := Nat.mul_lt_mul_of_pos_right hnat (by positivity)
      _ = e2 * 2^149 * (2 * (2^23 - (d.maxPref + 4))) := by ring
  rw [p1.fin, if_pos rfl, hx] at he
  rw [p2.fin, if_pos rfl, hx'] at he'
  cases he
  cases he'
  have hle : ∀ {a w}, IsWorst d a w → w ≤ u32Max := by
    intro a w hw
    have : w ≤ d.maxPref := by
      rcases hw.attained with h0 | ⟨p, c, _, hx⟩
      · omega
      · exact pref_le hb.wf hx
    exact Nat.le_trans this (Nat.le_of_lt hz.maxPref)
  unfold Score.lt
  cases hg : opts.greedy with
  | true =>
    rw [Score.cmp_greedy]
    · rw [hlt]; rfl
    · simp [Score.isFinite, p1.fin, nan_isNaN]
    · simp [Score.isFinite, p2.fin, nan_isNaN]
    · simp [nan_isNaN]
  | false =>
    rcases hworst with hh | ⟨v, hv1, hv2⟩
    · rw [hh] at hg; cases hg
    · have e1 : w = v := IsWorst.unique hw hv1
      have e2 : w' = v := IsWorst.unique hw' hv2
      subst e1 e2
      have hu := hle hw
      rw [Score.cmp_normal]
      · simp only [Bool.false_eq_true, if_false, if_true, hlt]; rfl
      · simp [Score.isFinite, p1.fin, F32.ofU32_isFinite hu]
      · simp [Score.isFinite, p2.fin, F32.ofU32_isFinite hu]
      · simp [F32.ofU32_isNaN hu]
      · simp [F32.ofU32_isNaN hu]

end Wassign

namespace Wassign.ObjectiveEx
open Spec Build Threaded Main Reader

/-- The two solutions of C61's example: sums of cubes 51 and 54, and the scores are ordered like that. -/
example (x x' : Score) (hx : prepared.scoring.evaluate data (.complete sch better) = .ok x)
    (hx' : prepared.scoring.evaluate data (.complete sch cheaper) = .ok x') (w : Nat) (hw : IsWorst data better w) (hw' : IsWorst data cheaper w) :
    Score.lt x x' = true :=
  C62_order_partial raw _ describes_raw data build_raw manageable.1 manageable.2 ideal eff prepared prepare_ok moderate
    (by
      have h3 : data.maxPref = 3 := by decide +kernel
      rw [h3]
      unfold WholePowers
      decide +kernel)
    _ (fun _ => rfl) sch sch better cheaper sch_shape better_shape better_valid sch_shape cheaper_shape cheaper_valid (.inr ⟨w, hw, hw'⟩)
    (by
      show givenSum data (fun x => ((outside.powf (F32.ofU32 x) (outside.toF32 eff.prefExp)).mag : Int)) better * 2^23 <
        givenSum data (fun x => ((outside.powf (F32.ofU32 x) (outside.toF32 eff.prefExp)).mag : Int)) cheaper * (2^23 - ((data.maxPref : Int) + 4))
      decide +kernel) x x' hx hx'

/-- Sums that are closer than that can be confused: 2^24 and 2^24 + 1 people with preference 1 give the same score. -/
theorem C62_too_close : Scoring.minorSum (fun x _ => x) (F32.ofU32 1) 1 [1, 16777216] = Scoring.minorSum (fun x _ => x) (F32.ofU32 1) 1 [0, 16777217] := by
  decide +kernel

end Wassign.ObjectiveEx
