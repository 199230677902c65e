import Verif.Props.Rounding
import Verif.Proofs.Display
/-
C73: the score that is shown is the score of the timetable that is printed.
-/
namespace Wassign
open Spec Build Threaded Main Reader

variable {F σ : Type}

/-- **C73** (numbers): a finite number is written as a decimal fraction that differs from it by at most half a unit of the last
decimal - however ties are broken. -/
theorem C73_number (tie : Nat → Bool) (prec : Nat) (b : F32) (h : b.isFinite = true) :
    ∃ t m, strFloat tie prec b = (if b.neg then ['-'] else []) ++ t ∧ Decimal prec t m ∧ Rounded prec b.mag (2 ^ 149) m := by
  obtain ⟨t, h1, h2, h3⟩ := strFloat_shown tie prec h
  exact ⟨t, _, h1, h2, h3⟩

/-- The text of a score of the two kinds that occur. -/
theorem display_text (tie : Nat → Bool) (greedy : Bool) {w : Nat} (hw : w ≤ u32Max) {minor : F32} (hp : minor.Plain) :
    ∃ k, (F32.ofU32 w).mag = k * 2 ^ 149 ∧ (w < 2 ^ 24 → k = w) ∧
      ScoreText greedy k (shownNat tie 5 minor) (Score.display tie ⟨if greedy then F32.nan else F32.ofU32 w, minor⟩) ∧
      Rounded 5 minor.mag (2 ^ 149) (shownNat tie 5 minor) := by
  obtain ⟨k, k1, k2⟩ := ofU32_integral hw
  obtain ⟨t, h1, h2, h3⟩ := strFloat_shown tie 5 hp.fin
  rw [hp.pos] at h1
  simp only [Bool.false_eq_true, if_false, List.nil_append] at h1
  refine ⟨k, k1, k2, ?_, h3⟩
  unfold Score.display
  cases greedy with
  | true =>
    have : F32.nan.isNaN = true := by decide
    simp only [if_true, this, h1]
    exact .minorOnly rfl h2
  | false =>
    simp only [Bool.false_eq_true, if_false, F32.ofU32_isNaN hw, h1]
    have hq := F32.ofU32_plain hw
    obtain ⟨tw, g1, g2, _⟩ := strFloat_shown tie 0 hq.fin
    rw [hq.pos] at g1
    simp only [Bool.false_eq_true, if_false, List.nil_append] at g1
    have hs : shownNat tie 0 (F32.ofU32 w) = k := by
      unfold shownNat
      rw [k1, Nat.pow_zero, Nat.mul_one, nearestBy_exact tie k (by positivity)]
    rw [hs] at g2
    rw [g1]
    have := ScoreText.both (greedy := false) rfl g2 h2
    simpa using this

/-- **C73** (the log): after a session without a panicking worker the log either says nothing about a score, and no timetable is
printed, or it shows the score of the very timetable that is printed: outside greedy mode the worst preference given out,
exactly, and in both modes the weighted sum of the preferences given out, divided by the weight of the greatest one, up to half
a unit of the fifth decimal and a fraction of `(maxPref + 4) / 2^23`. -/
theorem C73_score_shown (tie : Nat → Bool) (raw : Raw) (tr : List Reader.Event) (hdes : Describes tr raw) (d : InputData)
    (h : build raw = .ok d) (hr : ManageableRaw raw) (hd : Manageable d) (o : Outside F σ) (hrng : o.rng.Lawful) (opts : Opts F)
    (p : Prepared) (hp : prepare o d opts = .ok p) (hpow : ModeratePowers o.powf (o.toF32 opts.prefExp) d.maxPref)
    (hwhole : WholePowers o.powf (o.toF32 opts.prefExp) d.maxPref) (hsmall : d.maxPref + 4 ≤ 2 ^ 23) (weight : Nat → Int)
    (hweight : ∀ x, weight x = ((o.powf (F32.ofU32 x) (o.toF32 opts.prefExp)).mag : Int)) (top : Int)
    (htop : top = ((Scoring.scaling o.powf (o.toF32 opts.prefExp) d.maxPref).mag : Int))
    (g : Session σ ASolver (σ × Nat)) (hg : Run (setup o p opts) (start (setup o p opts)) g)
    (hok : ∀ w ∈ g.workers, w.phase ≠ .panicked) :
    (report p g = .ok .noSolution ∧ scoreShown tie p g = .ok none) ∨
    ∃ s a sched table w m text, report p g = .ok (.tables sched (csv table)) ∧ AssignmentTable d s a table ∧ Valid d s a ∧
      IsWorst d a w ∧ scoreShown tie p g = .ok (some text) ∧ ScoreText opts.greedy w m text ∧
      |(m : ℚ) / 10 ^ 5 - (givenSum d weight a : ℚ) / (top : ℚ)| ≤
        1 / (2 * 10 ^ 5) + (givenSum d weight a : ℚ) / (top : ℚ) * (((d.maxPref : ℚ) + 4) / 2 ^ 23) := by
  have hmax := fun q hq => ((described_fit hdes).1 q hq).2.1
  obtain ⟨mm, written, hb⟩ := build_spec hmax h
  obtain ⟨hz, _, _⟩ := sizes_of_manageable hb hr hd
  obtain ⟨hin, hS⟩ := setup_wf hdes h hrng hp
  have hn : (setup o p opts).problem.input.nc ≤ u32Max := by
    have := hb.ncI32
    show p.input.nc ≤ u32Max
    rw [hin]
    unfold i32Max at this; unfold u32Max; omega
  obtain ⟨sol, hw, hiff, hsol⟩ := C21_invalid_iff _ _ _ hS g hg hn hok
  rcases hsol with rfl | ⟨s, a, rfl, hsh, hss, hv, hpl, sc, hsc, hfin⟩
  · left
    constructor
    · unfold report; rw [hw]; rfl
    · unfold scoreShown; rw [hw]; rfl
  · right
    rcases report_ok hdes h hrng hp hg hok with ⟨e, _⟩ | ⟨s', a', x, sched, hw', hrep, hss', hv', _, ⟨table, rfl, htab⟩, _⟩
    · exfalso
      have hw2 := hw
      unfold report at e
      rw [hw2] at e
      simp only [R.bind_ok, Solution.isInvalid, Bool.false_eq_true, if_false] at e
      have hsc' : p.scoring.evaluate p.input (.complete s a) = .ok sc := hsc
      rw [hsc', R.bind_ok] at e
      split at e <;> (simp only [R.bind_eq_ok] at e; obtain ⟨_, _, _, _, e⟩ := e; cases e)
    · rw [hw] at hw'
      cases hw'
      have hsh : Shape p.input s a := hsh
      rw [hin] at hsh
      have hsc : p.scoring.evaluate p.input (.complete s a) = .ok sc := hsc
      rw [hin] at hsc
      obtain ⟨w, hworst, he⟩ := C60_score_formula d hb.wf hz o opts p hp s a hss' hsh hv' _ rfl
      obtain ⟨p1, n1⟩ := Scoring.minorSum_near hpow hwhole (cnt := (List.range (d.maxPref + 1)).map (timesGiven d a)) (by simp)
        (Nat.le_of_lt hz.maxPref) (by
          intro c hc
          obtain ⟨x, _, rfl⟩ := List.mem_map.1 hc
          exact Nat.le_trans (timesGiven_le x) hz.attendances)
      have hle : w ≤ d.maxPref := by
        rcases hworst.attained with h0 | ⟨p, c, _, hx⟩
        · omega
        · exact pref_le hb.wf hx
      rw [p1.fin, if_pos rfl] at he
      obtain ⟨k, _, k2, ht, hround⟩ := display_text tie opts.greedy (Nat.le_trans hle (Nat.le_of_lt hz.maxPref)) p1
      have hk : k = w := k2 (by omega)
      subst hk
      refine ⟨s, a, sched, table, k, _, _, hrep, htab, hv', hworst, ?_, ht, ?_⟩
      · unfold scoreShown
        rw [hw, R.bind_ok]
        simp only [Solution.isInvalid, Bool.false_eq_true, if_false]
        rw [hin, he]
        rfl
      · have hwt : weight = fun x => ((o.powf (F32.ofU32 x) (o.toF32 opts.prefExp)).mag : Int) := funext hweight
        simp only [List.length_map, List.length_range] at n1
        subst hwt htop
        rw [← exactSum_given]
        have := shown_close hpow.positive (by omega) hround n1
        push_cast at this ⊢
        have e : (3 : ℚ) + ((d.maxPref : ℚ) + 1) = (d.maxPref : ℚ) + 4 := by ring
        rw [e] at this
        exact this

theorem mag_le_of_key {x y : F32} (hx : x.Plain) (hy : y.Plain) (h : F32.totalKey x ≤ F32.totalKey y) : x.mag ≤ y.mag := by
  rw [F32.totalKey_of_lt (by have := hx.lt; omega), F32.totalKey_of_lt (by have := hy.lt; omega)] at h
  rw [hx.mag, hy.mag]
  exact F32.magBits_mono (by omega)

theorem mag_lt_of_key {x y : F32} (hx : x.Plain) (hy : y.Plain) (h : F32.totalKey x < F32.totalKey y) : x.mag < y.mag := by
  rw [F32.totalKey_of_lt (by have := hx.lt; omega), F32.totalKey_of_lt (by have := hy.lt; omega)] at h
  rw [hx.mag, hy.mag]
  exact F32.magBits_strict (by omega)

/-- **C73** (order): of two valid timetables, the one that is at least as good never shows the worse score. -/
theorem C73_order (tie : Nat → Bool) (raw : Raw) (tr : List Reader.Event) (hdes : Describes tr raw) (d : InputData)
    (h : build raw = .ok d) (hr : ManageableRaw raw) (hd : Manageable d) (o : Outside F σ) (opts : Opts F)
    (p : Prepared) (hp : prepare o d opts = .ok p) (hpow : ModeratePowers o.powf (o.toF32 opts.prefExp) d.maxPref)
    (hwhole : WholePowers o.powf (o.toF32 opts.prefExp) d.maxPref)
    (s s' : Scheduling) (a a' : Assignment) (hs : SchedShape d s) (hsh : Shape d s a) (hv : Valid d s a)
    (hs' : SchedShape d s') (hsh' : Shape d s' a') (hv' : Valid d s' a') (x x' : Score)
    (hx : p.scoring.evaluate d (.complete s a) = .ok x) (hx' : p.scoring.evaluate d (.complete s' a') = .ok x')
    (hle : Score.lt x' x = false) :
    ∃ k m k' m', ScoreText opts.greedy k m (x.display tie) ∧ ScoreText opts.greedy k' m' (x'.display tie) ∧
      (if opts.greedy then m ≤ m' else k < k' ∨ (k = k' ∧ m ≤ m')) := by
  have hmax := fun q hq => ((described_fit hdes).1 q hq).2.1
  obtain ⟨mm, written, hb⟩ := build_spec hmax h
  obtain ⟨hz, _, _⟩ := sizes_of_manageable hb hr hd
  have near : ∀ a, _ := fun a => Scoring.minorSum_near hpow hwhole (cnt := (List.range (d.maxPref + 1)).map (timesGiven d a)) (by simp)
    (Nat.le_of_lt hz.maxPref) (by
      intro c hc
      obtain ⟨x, _, rfl⟩ := List.mem_map.1 hc
      exact Nat.le_trans (timesGiven_le x) hz.attendances)
  obtain ⟨w, hw, he⟩ := C60_score_formula d hb.wf hz o opts p hp s a hs hsh hv _ rfl
  obtain ⟨w', hw', he'⟩ := C60_score_formula d hb.wf hz o opts p hp s' a' hs' hsh' hv' _ rfl
  obtain ⟨p1, _⟩ := near a
  obtain ⟨p2, _⟩ := near a'
  rw [p1.fin, if_pos rfl, hx] at he
  rw [p2.fin, if_pos rfl, hx'] at he'
  cases he
  cases he'
  have bound : ∀ {a w}, IsWorst d a w → w ≤ u32Max := by
    intro a w hw
    have : w ≤ d.maxPref := by
      rcases hw.attained with h0 | ⟨p, c, _, hx⟩
      · omega
      · exact pref_le hb.wf hx
    exact Nat.le_trans this (Nat.le_of_lt hz.maxPref)
  have u1 := bound hw
  have u2 := bound hw'
  obtain ⟨k, e1, _, t1, _⟩ := display_text tie opts.greedy u1 p1
  obtain ⟨k', e2, _, t2, _⟩ := display_text tie opts.greedy u2 p2
  refine ⟨k, _, k', _, t1, t2, ?_⟩
  have shown : ∀ {y y' : F32}, y.mag ≤ y'.mag → shownNat tie 5 y ≤ shownNat tie 5 y' := fun h => nearestBy_mono tie (Nat.mul_le_mul_right _ h)
  have hcmp : ∀ {c : Ordering}, (c == .lt) = false → c ≠ .lt := by intro c h e; rw [e] at h; cases h
  unfold Score.lt at hle
  have hle := hcmp hle
  cases hg : opts.greedy with
  | true =>
    rw [hg] at hle
    rw [Score.cmp_greedy (by simp [Score.isFinite, p2.fin, nan_isNaN]) (by simp [Score.isFinite, p1.fin, nan_isNaN]) (by simp [nan_isNaN])] at hle
    simp only [if_true]
    unfold F32.totalCmp at hle
    rw [ne_eq, compare_lt_iff_lt, not_lt] at hle
    exact shown (mag_le_of_key p1 p2 hle)
  | false =>
    rw [hg] at hle
    rw [Score.cmp_normal (by simp [Score.isFinite, p2.fin, F32.ofU32_isFinite u2]) (by simp [Score.isFinite, p1.fin, F32.ofU32_isFinite u1])
      (by simp [F32.ofU32_isNaN u2]) (by simp [F32.ofU32_isNaN u1])] at hle
    simp only [Bool.false_eq_true, if_false] at hle ⊢
    have q1 := F32.ofU32_plain u1
    have q2 := F32.ofU32_plain u2
    have hpos : 0 < 2 ^ 149 := by positivity
    split at hle
    · rename_i heq
      right
      refine ⟨?_, ?_⟩
      · have m1 := mag_le_of_key q2 q1 (by omega)
        have m2 := mag_le_of_key q1 q2 (by omega)
        have : k * 2 ^ 149 = k' * 2 ^ 149 := by omega
        exact Nat.eq_of_mul_eq_mul_right hpos this
      · unfold F32.totalCmp at hle
        rw [ne_eq, compare_lt_iff_lt, not_lt] at hle
        exact shown (mag_le_of_key p1 p2 hle)
    · rename_i hne
      left
      unfold F32.totalCmp at hle
      rw [ne_eq, compare_lt_iff_lt, not_lt] at hle
      have := mag_lt_of_key q1 q2 (by omega)
      rw [e1, e2] at this
      exact Nat.lt_of_mul_lt_mul_right this

end Wassign

namespace Wassign.DisplayEx
open Spec Threaded Main Reader

/-- Ties go to the even number. -/
def even (n : Nat) : Bool := n % 2 == 1

/-- The numbers of the tests in the repository (score.rs:63-78: 2.125 is 0x40080000, 4.0 is 0x40800000). -/
example : Score.display even ⟨0x40800000#32, 0x40080000#32⟩ = "(4, 2.12500)".toList ∧ Score.display even ⟨F32.nan, 0x40080000#32⟩ = "2.12500".toList := by
  decide +kernel

/-- The run of C52's example: everybody attends both choices; the preferences given out are 1, 0, 0, 1 and the greatest one is 2. -/
theorem shown : scoreShown even MainEx.prepared MainEx.final = .ok (some "(1, 1.00000)".toList) := by decide +kernel

/-- All hypotheses of `C73_score_shown` are met by that run. -/
example : ∃ s a table, AssignmentTable MainEx.data s a table ∧ IsWorst MainEx.data a 1 := by
  obtain ⟨raw, hd, hb⟩ := C55_input_as_described _ _ _ MainEx.read_ok
  obtain ⟨m1, m2⟩ := MainEx.manageable raw hd
  have h2 : MainEx.data.maxPref = 2 := by decide +kernel
  have hpow : ModeratePowers MainEx.outside.powf (MainEx.outside.toF32 (effectiveOptions MainEx.read.2).prefExp) MainEx.data.maxPref := by
    rw [h2]
    refine ⟨?_, ?_, ?_, ?_⟩
    all_goals decide +kernel
  have hwh : WholePowers MainEx.outside.powf (MainEx.outside.toF32 (effectiveOptions MainEx.read.2).prefExp) MainEx.data.maxPref := by
    rw [h2]
    unfold WholePowers
    decide +kernel
  have hok : ∀ w ∈ MainEx.final.workers, w.phase ≠ .panicked := by
    intro w hw
    have h := List.mem_map_of_mem (f := fun w => (w.phase, w.started, w.st.progress.iterations)) hw
    rw [MainEx.final_phases] at h
    simp at h
    rw [h.1]; simp
  rcases C73_score_shown even raw _ hd MainEx.data hb m1 (m2 _ hb) MainEx.outside Ex.counter_lawful _ MainEx.prepared MainEx.prepare_ok
    hpow hwh (by rw [h2]; decide) _ (fun _ => rfl) _ rfl MainEx.final (ThEx.exec_run _ _ _) hok with ⟨h, _⟩ | ⟨s, a, _, table, w, m, text, _, h3, _, h4, h5, h6, _⟩
  · rw [MainEx.reported] at h; cases h
  · rw [shown] at h5
    cases h5
    refine ⟨s, a, table, h3, ?_⟩
    have hg : (effectiveOptions MainEx.read.2).greedy = false := by decide +kernel
    have hw : w = 1 := by
      rw [hg] at h6
      generalize htx : "(1, 1.00000)".toList = text at h6
      cases h6 with
      | minorOnly h => cases h
      | @both tw t _ hd _ =>
        obtain ⟨ds, fs, hds, hne, _, hdig, _, hlen, rfl⟩ := hd
        simp only [if_true] at hds
        subst hds
        match tw, hne, hdig, htx with
        | [c], _, _, htx =>
          have hc : c = '1' := by
            have := congrArg (fun l => l[1]?) htx
            simpa using this.symm
          have : fs = [] := List.length_eq_zero_iff.1 hlen
          subst hc this
          decide
        | c :: c' :: rest, _, hdig, htx =>
          exfalso
          have hc : c' = ',' := by
            have := congrArg (fun l => l[2]?) htx
            simpa using this.symm
          have := hdig c' (by simp)
          rw [hc] at this
          revert this
          unfold IsDigit
          decide
    rw [← hw]
    exact h4

/-- The example of C61: sums of cubes 51 and 54 out of 27 for the worst. -/
example : (match ObjectiveEx.prepared.scoring.evaluate ObjectiveEx.data (.complete ObjectiveEx.sch ObjectiveEx.better) with
    | .ok x => x.display even
    | .error _ => []) = "(3, 1.88889)".toList := by decide +kernel

end Wassign.DisplayEx
