import Verif.Proofs.Evaluate
import Verif.Examples
/-
Property theorems C01, C02, C39.
-/
namespace Wassign
open Spec

/-- **C01** (only valid solutions get a finite score). For every well-formed input, every scorer and
every solution with the dimensions guaranteed by the constructors: if `evaluate` returns a finite
score, the solution is complete and valid. -/
theorem C01_finite_score_is_valid (sc : Scoring) (i : InputData) (hw : WF i) (hn : i.nc ≤ u32Max)
    (sol : Solution) (score : Score) (hsh : ∀ s a, sol = .complete s a → Shape i s a)
    (he : sc.evaluate i sol = .ok score) (hf : score.isFinite = true) :
    ∃ s a, sol = .complete s a ∧ Valid i s a :=
  evaluate_finite_valid sc hw hn hsh he hf

/-- **C01** (the feasibility check is exact): when it returns, it returns `true` exactly for valid
solutions. -/
theorem C01_feasibility_exact (i : InputData) (hw : WF i) (hn : i.nc ≤ u32Max)
    (s : Scheduling) (a : Assignment) (h : Shape i s a) (b : Bool)
    (hb : Scoring.isFeasible i (.complete s a) = .ok b) : b = true ↔ Valid i s a :=
  isFeasibleC_spec h hn hw hb

/-- **C01** (converse): every valid solution passes the check without a panic, and `evaluate` returns
the worst preference as major part (resp. NaN in greedy mode) unless the minor sum overflows f32. -/
theorem C01_valid_passes (sc : Scoring) (i : InputData) (hw : WF i) (hz : Sizes i)
    (s : Scheduling) (a : Assignment) (h : Shape i s a)
    (hr : ∀ c t, slotAt s c = some t → t < i.ns) (hv : Valid i s a) :
    Scoring.isFeasible i (.complete s a) = .ok true ∧
    ∃ w cnt, IsWorst i a w ∧ Scoring.prefCounts i a = .ok cnt ∧
      sc.evaluate i (.complete s a) = .ok
        (if (sc.minorOf cnt).isFinite then
          ⟨if sc.greedy then F32.nan else F32.ofU32 w, sc.minorOf cnt⟩ else Score.infinite) := by
  refine ⟨isFeasibleC_complete h hz hw hr hv, ?_⟩
  obtain ⟨w, cnt, h1, _, h2, h3⟩ := evaluate_valid sc h hz hw hr hv
  exact ⟨w, cnt, h1, h2, h3⟩

/-- Non-vacuity: a concrete solution with a finite score, hence valid. -/
example : ∃ score, Ex.scorer.evaluate Ex.inp (.complete Ex.sch Ex.asg) = .ok score ∧
    score.isFinite = true ∧ Valid Ex.inp Ex.sch Ex.asg := by
  refine ⟨⟨F32.ofU32 1, F32.ofU32 2⟩, by decide +kernel, by decide +kernel, ?_⟩
  obtain ⟨s, a, h, hv⟩ := C01_finite_score_is_valid Ex.scorer Ex.inp Ex.inp_wf (by decide)
    (.complete Ex.sch Ex.asg) ⟨F32.ofU32 1, F32.ofU32 2⟩
    (by intro s a h; cases h; exact Ex.shape) (by decide +kernel) (by decide +kernel)
  cases h; exact hv

/-- Test: the check also rejects (chooser 0 not in choice 2). -/
example : Scoring.isFeasible Ex.inp (.complete Ex.sch [[0, 1], [0, 1], [0, 2]]) = .ok false := by
  decide +kernel

/-- **C02**: when `Scheduling::is_feasible` returns, it returns `true` exactly for feasible
schedulings. -/
theorem C02_scheduling_feasible_exact (i : InputData) (hw : ∀ c ∈ i.schedCons, SchedConWF i c)
    (hn : i.nc ≤ u32Max) (hp : i.np ≤ u32Max) (s : Scheduling) (hs : s.length = i.nc) (b : Bool)
    (h : schedFeasible i s = .ok b) : b = true ↔ SchedValid i s :=
  schedFeasible_spec hs hn hp hw h

/-- **C02** (no panic): for schedulings into existing slots it always returns. -/
theorem C02_scheduling_feasible_returns (i : InputData) (hw : ∀ c ∈ i.schedCons, SchedConWF i c)
    (hz : Sizes i) (s : Scheduling) (hs : s.length = i.nc)
    (hr : ∀ c t, slotAt s c = some t → t < i.ns) : ∃ b, schedFeasible i s = .ok b :=
  schedFeasible_total hs hr hz hw

example : SchedValid Ex.inp Ex.sch :=
  (C02_scheduling_feasible_exact Ex.inp Ex.inp_wf.sched (by decide) (by decide) Ex.sch rfl true
    (by decide +kernel)).1 rfl

example : ¬ SchedValid Ex.inp [some 0, some 0, some 1, none] := fun h =>
  absurd ((C02_scheduling_feasible_exact Ex.inp Ex.inp_wf.sched (by decide) (by decide)
    [some 0, some 0, some 1, none] rfl false (by decide +kernel)).2 h) (by decide)

/-! ### C39: the order of scores -/

/-- **C39**: comparison is antisymmetric/total in the sense of an ordering function, for all scores. -/
theorem C39_compare_swaps (a b : Score) : (Score.cmp a b).swap = Score.cmp b a := Score.cmp_swap a b

/-- **C39**: reflexive and total. -/
theorem C39_reflexive_total (a b : Score) : Score.cmp a a = .eq ∧ (a.le b ∨ b.le a) :=
  ⟨Score.cmp_self a, Score.le_total a b⟩

/-- **C39**: transitive among the scores of one mode (greedy scores carry a NaN major part). -/
theorem C39_transitive (g : Bool) (a b c : Score) (ha : a.InMode g) (hb : b.InMode g)
    (hc : c.InMode g) (h1 : a.le b) (h2 : b.le c) : a.le c := Score.le_trans ha hb hc h1 h2

/-- **C39**: invalid (non-finite) scores are strictly worse than finite ones and equal to each other. -/
theorem C39_invalid_last (a b : Score) (ha : a.isFinite = true) (hb : b.isFinite = false) :
    Score.cmp a b = .lt ∧ Score.cmp b a = .gt ∧ Score.cmp b b = .eq := by
  simp [Score.cmp, ha, hb]

/-- **C39**: in normal mode a smaller worst preference (below 2^24, where the conversion to f32 is
exact) always wins, and equal ones are decided by the minor part. -/
theorem C39_worst_preference_first (v w : Nat) (m n : F32) (hw : w < 2^24)
    (hm : m.isFinite = true) (hn : n.isFinite = true) (h : v < w) :
    Score.cmp ⟨F32.ofU32 v, m⟩ ⟨F32.ofU32 w, n⟩ = .lt ∧
    Score.cmp ⟨F32.ofU32 v, m⟩ ⟨F32.ofU32 v, n⟩ = F32.totalCmp m n := by
  have hwu : w ≤ u32Max := by unfold u32Max; omega
  have hvu : v ≤ u32Max := by omega
  have key := F32.ofU32_strictMono hw h
  have f1 : (⟨F32.ofU32 v, m⟩ : Score).isFinite = true := by
    simp [Score.isFinite, hm, F32.ofU32_isFinite hvu]
  have f2 : (⟨F32.ofU32 w, n⟩ : Score).isFinite = true := by
    simp [Score.isFinite, hn, F32.ofU32_isFinite hwu]
  have f3 : (⟨F32.ofU32 v, n⟩ : Score).isFinite = true := by
    simp [Score.isFinite, hn, F32.ofU32_isFinite hvu]
  constructor
  · rw [Score.cmp_normal f1 f2 (F32.ofU32_isNaN hvu) (F32.ofU32_isNaN hwu), if_neg (by
      show ¬ F32.totalKey (F32.ofU32 v) = F32.totalKey (F32.ofU32 w); omega)]
    exact compareInt_lt.2 key
  · rw [Score.cmp_normal f1 f3 (F32.ofU32_isNaN hvu) (F32.ofU32_isNaN hvu), if_pos rfl]

/-- Non-vacuity and the boundary of C39: mixing the two modes is not transitive. With
`a = (2, 1.0)`, `b = (NaN, 2.0)`, `c = (1, 3.0)` we have `a < b < c` but `c < a`. -/
theorem C39_mixed_modes_not_transitive :
    ∃ a b c : Score, Score.lt a b = true ∧ Score.lt b c = true ∧ Score.lt c a = true :=
  ⟨⟨F32.ofU32 2, F32.ofU32 1⟩, ⟨F32.nan, F32.ofU32 2⟩, ⟨F32.ofU32 1, F32.ofU32 3⟩, by decide +kernel⟩

example : (⟨F32.ofU32 2, F32.ofU32 1⟩ : Score).InMode false ∧ (⟨F32.ofU32 1, F32.ofU32 3⟩ : Score).InMode false ∧
    Score.lt ⟨F32.ofU32 1, F32.ofU32 3⟩ ⟨F32.ofU32 2, F32.ofU32 1⟩ = true := by
  unfold Score.InMode; decide +kernel

end Wassign
