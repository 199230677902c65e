import Verif.Props.Total
import Verif.Proofs.Minor
import Verif.Proofs.Counts
/-
C60: the number that decides. Which score a valid solution gets, when it is finite, and what happens when it is not.
-/
namespace Wassign
open Spec Build Threaded Main Reader

variable {F σ : Type}

theorem prepare_scoring {o : Outside F σ} {d : InputData} {opts : Opts F} {p : Prepared} (hp : prepare o d opts = .ok p) :
    p.scoring = ⟨opts.greedy, Scoring.minorSum o.powf (o.toF32 opts.prefExp) d.maxPref⟩ := by
  unfold prepare at hp
  simp only [R.bind_eq_ok] at hp
  obtain ⟨an, _, st, _, h2⟩ := hp
  cases h2; rfl

/-- **C60** (the score of a valid solution): the minor part is the sum, in f32 arithmetic and in the order of the preference
values `0, 1, …`, of `count * powf(value, exponent) / scaling`, where `count` is the number of (chooser, slot) cells in which
the value is given out. -/
theorem C60_score_formula (d : InputData) (hw : WF d) (hz : Sizes d) (o : Outside F σ) (opts : Opts F) (p : Prepared)
    (hp : prepare o d opts = .ok p) (s : Scheduling) (a : Assignment) (hs : SchedShape d s) (hsh : Shape d s a) (hv : Valid d s a)
    (minor : F32)
    (hminor : minor = Scoring.minorSum o.powf (o.toF32 opts.prefExp) d.maxPref ((List.range (d.maxPref + 1)).map (timesGiven d a))) :
    ∃ w, IsWorst d a w ∧ p.scoring.evaluate d (.complete s a) = .ok
      (if minor.isFinite then ⟨if opts.greedy then F32.nan else F32.ofU32 w, minor⟩ else Score.infinite) := by
  obtain ⟨w, cnt, h1, _, h2, h3⟩ := evaluate_valid p.scoring hsh hz hw hs.range hv
  refine ⟨w, h1, ?_⟩
  rw [h3, prepare_scoring hp]
  simp only
  rw [prefCounts_spec hsh h2, ← hminor]

/-- **C60** (partial: `f32::powf` is assumed to be moderate): every valid solution gets a finite score, so that none of them is
ignored. -/
theorem C60_every_solution_scored_partial (raw : Raw) (tr : List Reader.Event) (hdes : Describes tr raw) (d : InputData)
    (h : build raw = .ok d) (hr : ManageableRaw raw) (hd : Manageable d) (o : Outside F σ) (opts : Opts F) (p : Prepared)
    (hp : prepare o d opts = .ok p) (hpow : ModeratePowers o.powf (o.toF32 opts.prefExp) d.maxPref) : Scorable p.scoring d := by
  have hmax := fun q hq => ((described_fit hdes).1 q hq).2.1
  obtain ⟨m, written, hb⟩ := build_spec hmax h
  obtain ⟨hz, _, _⟩ := sizes_of_manageable hb hr hd
  intro s a hs hsh hv
  obtain ⟨w, hw, he⟩ := C60_score_formula d hb.wf hz o opts p hp s a hs hsh hv _ rfl
  have hfin := Scoring.minorSum_finite hpow (cnt := (List.range (d.maxPref + 1)).map (timesGiven d a)) (by simp)
    (Nat.le_of_lt hz.maxPref) (by
      intro c hc
      obtain ⟨x, _, rfl⟩ := List.mem_map.1 hc
      exact Nat.le_trans (timesGiven_le x) hz.attendances)
  rw [hfin] at he
  refine ⟨_, he, ?_⟩
  simp only [if_true]
  unfold Score.isFinite
  rw [hfin]
  have hle : w ≤ d.maxPref := by
    rcases hw.attained with h0 | ⟨p, c, _, hx⟩
    · omega
    · exact pref_le hb.wf hx
  cases opts.greedy with
  | true => simp; right; decide
  | false => simp [F32.ofU32_isFinite (Nat.le_trans hle (Nat.le_of_lt hz.maxPref))]

/-- **C60** (finding 22): if the power of one of the preference values up to the greatest one is not finite - `--pref-exp` so
large that the power of the greatest preference overflows, or negative so that the power of 0 is infinite - then every solution
gets an infinite score, valid or not. -/
theorem C60_unscorable (d : InputData) (o : Outside F σ) (opts : Opts F) (p : Prepared) (hp : prepare o d opts = .ok p) (n : Nat)
    (hn : n ≤ d.maxPref) (hbad : (o.powf (F32.ofU32 n) (o.toF32 opts.prefExp)).isFinite = false) (s : Scheduling) (a : Assignment)
    (hsh : Shape d s a) (sc : Score) (hsc : p.scoring.evaluate d (.complete s a) = .ok sc) : sc.isFinite = false := by
  simp only [Scoring.evaluate, Solution.isInvalid, Bool.false_eq_true, if_false, if_true, Scoring.evaluateMinor, R.bind_eq_ok] at hsc
  obtain ⟨mj, _, mn, ⟨ok, _, hmn⟩, hsc⟩ := hsc
  have hmn : mn.isFinite = false := by
    split at hmn
    · cases hmn; decide
    · rw [R.bind_eq_ok] at hmn
      obtain ⟨cnt, hc, hmn⟩ := hmn
      cases hmn
      rw [prepare_scoring hp]
      refine Scoring.minorSum_bad hbad ?_
      rw [prefCounts_spec hsh hc]
      simp; omega
  rw [hmn, Bool.and_false] at hsc
  cases hsc
  exact Score.infinite_not_finite

/-- **C60** (finding 22, the program): and then, whatever the script, the solutions it has and the way the session goes, the
program prints no solution. -/
theorem C60_unscorable_no_solution (o : Outside F σ) (hrng : o.rng.Lawful) (opts : Opts F) (script : Reader.Script) (d : InputData)
    (hd : (Reader.readInput o.opt (Reader.new opts) script).1 = .ok d) (n : Nat) (hn : n ≤ d.maxPref)
    (hbad : (o.powf (F32.ofU32 n)
      (o.toF32 (Reader.effectiveOptions (Reader.readInput o.opt (Reader.new opts) script).2).prefExp)).isFinite = false)
    (out : Output) (h : TryRun o opts script (.ok out)) : out = .noSolution := by
  generalize hres : (Except.ok out : R Output) = res at h
  cases h with
  | rejected => cases hres
  | unprepared => cases hres
  | @solved d' p g h1 h2 h3 h4 =>
    rw [hd] at h1; cases h1
    obtain ⟨raw, hdes, hb⟩ := C55_input_as_described _ _ _ hd
    have hok : ∀ w ∈ g.workers, w.phase ≠ .panicked := by
      intro w hw hph
      have := C21_panic_reported g ⟨w, hw, hph⟩
      unfold report at hres
      rw [this] at hres
      cases hres
    obtain ⟨hin, hS⟩ := setup_wf hdes hb hrng h2
    have hmax := fun q hq => ((described_fit hdes).1 q hq).2.1
    obtain ⟨m, written, hbt⟩ := build_spec hmax hb
    have hnc : (setup o p (Reader.effectiveOptions (Reader.readInput o.opt (Reader.new opts) script).2)).problem.input.nc ≤ u32Max := by
      have := hbt.ncI32
      show p.input.nc ≤ u32Max
      rw [hin]
      unfold i32Max at this; unfold u32Max; omega
    obtain ⟨sol, hw, _, hsol⟩ := C21_invalid_iff _ _ _ hS g h3 hnc hok
    rcases hsol with rfl | ⟨s, a, rfl, hsh, _, _, _, sc, hsc, hfin⟩
    · unfold report at hres
      rw [hw] at hres
      cases hres; rfl
    · have hsh : Shape p.input s a := hsh
      have hsc : p.scoring.evaluate p.input (.complete s a) = .ok sc := hsc
      rw [hin] at hsh hsc
      rw [C60_unscorable d o _ p h2 n hn hbad s a hsh sc hsc] at hfin
      cases hfin

end Wassign

/-! ## Examples -/
namespace Wassign.FloatEx
open Spec Build Threaded Main Reader

/-- Numbers `x` below 2^24 as exact powers with exponent 1. -/
theorem identity_moderate (e : F32) (m : Nat) (hm : m ≤ 16777216) : ModeratePowers (fun x _ => x) e m := by
  have hu : m ≤ u32Max := by unfold u32Max; omega
  have hmag : ∀ n ≤ m, (F32.ofU32 n).mag ≤ (Scoring.scaling (fun x _ => x) e m).mag := by
    intro n hn
    unfold Scoring.scaling
    by_cases h0 : m = 0
    · rw [if_pos h0]
      have : n = 0 := by omega
      subst this
      decide +kernel
    · rw [if_neg h0, (F32.ofU32_plain hu).mag, (F32.ofU32_plain (by omega)).mag, F32.ofU32_eq_round hu, F32.ofU32_eq_round (by omega)]
      refine F32.magBits_mono (F32.roundBits_mono (by omega) (by omega) ?_)
      have := Nat.mul_le_mul_right (2^149) hn
      omega
  refine ⟨fun n hn => ?_, hmag, ?_, ?_⟩
  · have := F32.ofU32_plain (n := n) (by omega)
    exact ⟨this.fin, this.pos⟩
  · unfold Scoring.scaling
    by_cases h0 : m = 0
    · rw [if_pos h0]; decide +kernel
    · rw [if_neg h0, (F32.ofU32_plain hu).mag, F32.ofU32_eq_round hu]
      refine Nat.lt_of_lt_of_le (?_ : 0 < F32.magBits (F32.roundBits (1 * 2^149) 1)) (F32.magBits_mono (F32.roundBits_mono (by omega) (by omega) ?_))
      · decide +kernel
      · have := Nat.mul_le_mul_right (2^149) (show 1 ≤ m by omega)
        omega
  · unfold Scoring.scaling
    refine Nat.le_trans (m := 2^181) ?_ (Nat.pow_le_pow_right (by omega) (by omega))
    split
    · exact F32.ofU32_mag_le (by unfold u32Max; omega)
    · exact F32.ofU32_mag_le hu

/-- The surroundings of the example of C52, but `--pref-exp` is so large that every number above 1 has an infinite power. -/
def overflowing : Outside Unit Nat := { MainEx.outside with
  powf := fun x _ => if (F32.ofU32 1).toNat < x.toNat then F32.infinity else x }

def prepared : Prepared := match prepare overflowing MainEx.data (effectiveOptions MainEx.read.2) with
  | .ok p => p
  | .error _ => ⟨default, ⟨[], [], 0⟩, ⟨.empty, [], [], [], [], []⟩, ⟨true, fun _ => 0⟩⟩
def cfg := setup overflowing prepared (effectiveOptions MainEx.read.2)
def final := ThEx.exec cfg ([0, 1, 2, 3, 3, 2, 1, 0, 0, 1, 2, 3, 0, 1, 2, 3, 0, 1, 2, 3, 0, 1, 2, 3]) (start cfg)

theorem prepare_ok : prepare overflowing MainEx.data (effectiveOptions MainEx.read.2) = .ok prepared := by
  have h : (prepare overflowing MainEx.data (effectiveOptions MainEx.read.2)).isOk = true := by decide +kernel
  unfold prepared
  cases e : prepare overflowing MainEx.data (effectiveOptions MainEx.read.2) with
  | ok d => rfl
  | error f => rw [e] at h; cases h

/-- **C60** (finding 22, witness): the script of C52's example has a solution, which is printed with the ordinary powers; with
overflowing ones the same session ends with "No solution found." -/
theorem C60_hidden_solution : TryRun overflowing ReadEx.opts MainEx.script (.ok .noSolution) ∧
    ∃ sched asg, TryRun MainEx.outside ReadEx.opts MainEx.script (.ok (.tables sched asg)) := by
  refine ⟨?_, _, _, MainEx.printed.2⟩
  have h : report prepared final = .ok .noSolution := by decide +kernel
  rw [← h]
  refine .solved MainEx.read_ok prepare_ok (ThEx.exec_run cfg _ _) ?_
  intro w hw
  have hp : final.workers.map (fun w => w.phase) = [.finished, .finished, .finished, .finished] := by decide +kernel
  have h := List.mem_map_of_mem (f := fun w => w.phase) hw
  rw [hp] at h
  simp at h
  exact .inl h

/-- `C60_unscorable_no_solution` applies: no run of that program prints anything else. -/
example (out : Output) (h : TryRun overflowing ReadEx.opts MainEx.script (.ok out)) : out = .noSolution :=
  C60_unscorable_no_solution overflowing Ex.counter_lawful ReadEx.opts MainEx.script MainEx.data MainEx.read_ok 2 (by decide +kernel)
    (by decide +kernel) out h

/-- A score computed by the formula: three cells with preference 0, none with 1, two with 2, exponent 3 (exact cubes). -/
example : Scoring.minorSum (fun x _ => F32.mul x (F32.mul x x)) (F32.ofU32 3) 2 [3, 0, 2] = F32.ofU32 2 := by decide +kernel

end Wassign.FloatEx
