import Verif.Props.Assignment
import Verif.Props.Scoring
/-
Why C07, C08 and C10 hold only in part: concrete inputs, built by the real builder, on which every correct
backend gives an answer that contradicts the full claim.
-/
namespace Wassign
open Spec Build Asg

/-- The cost the program uses by default: (preference + 1)³. -/
def cubeCost (x : Nat) : Int := ((x + 1 : Nat) : Int) ^ 3

/-- The problem for given data. -/
def probOf (d : InputData) : AProblem where
  input := d
  bound := 0
  static := match StaticData.new d with | .ok s => s | .error _ => ⟨.empty, [], [], [], [], []⟩
  greedy := false
  cost := cubeCost

def dataOf (raw : Raw) : InputData := match build raw with | .ok d => d | .error _ => default

theorem tables22 {i : InputData} {s : Scheduling} {a : Assignment} (h : InOrder i s a) (hnp : i.np = 2) (hns : i.ns = 2) :
    ∃ x y z w, a = [[x, y], [z, w]] ∧ slotAt s x = some 0 ∧ slotAt s z = some 0 ∧ slotAt s y = some 1 ∧ slotAt s w = some 1 := by
  have hr := h.rows
  rw [hnp] at hr
  have hc := h.cols
  rw [hns] at hc
  match a, hr with
  | [r1, r2], _ =>
    have h1 := hc r1 (by simp)
    have h2 := hc r2 (by simp)
    match r1, h1, r2, h2 with
    | [x, y], _, [z, w], _ =>
      exact ⟨x, y, z, w, rfl, h.slot 0 0 x rfl, h.slot 1 0 z rfl, h.slot 0 1 y rfl, h.slot 1 1 w rfl⟩

/-- A sufficient executable check that a full solution is valid. -/
theorem valid_of_check {i : InputData} {s : Scheduling} {a : Assignment} (hsh : Shape i s a) (hn : i.nc ≤ u32Max) (hw : WF i)
    (h : Scoring.isFeasibleC i s a = .ok true) : AsgValid i s a := by
  have := (isFeasibleC_spec hsh hn hw h).1 rfl
  exact ⟨this.onePerSlot, this.onlyScheduled, this.bounds, this.asg⟩

/-! ### C07 -/

namespace LinkEx

/-- Choices A, B, C must have the same choosers (A with B, B with C); B is optional. -/
def raw : Raw where
  slots := ["Mo".toList, "Tu".toList]
  choices := [⟨"A".toList, 1, 1, 1, false⟩, ⟨"B".toList, 1, 1, 1, true⟩, ⟨"C".toList, 1, 1, 1, false⟩,
    ⟨"D".toList, 1, 1, 1, false⟩, ⟨"E".toList, 1, 1, 1, false⟩]
  choosers := [⟨"p".toList, [9, 0, 0, 0, 9]⟩, ⟨"q".toList, [0, 0, 9, 9, 0]⟩]
  exprs := [⟨⟨.choice, .chooser, "A".toList, 0⟩, .eq, ⟨.choice, .chooser, "B".toList, 0⟩⟩,
    ⟨⟨.choice, .chooser, "B".toList, 0⟩, .eq, ⟨.choice, .chooser, "C".toList, 0⟩⟩]

def d : InputData := dataOf raw

theorem built : build raw = .ok d := by decide +kernel

/-- B does not take place. -/
def s : Scheduling := [some 0, none, some 1, some 0, some 1]

theorem shape : SchedShape d s := by
  refine ⟨by decide +kernel, ?_⟩
  have hns : d.ns = 2 := by decide +kernel
  intro c t h
  rw [hns]
  match c with
  | 0 => simp [slotAt, s] at h; omega
  | 1 => simp [slotAt, s] at h
  | 2 => simp [slotAt, s] at h; omega
  | 3 => simp [slotAt, s] at h; omega
  | 4 => simp [slotAt, s] at h; omega
  | c + 5 => simp [slotAt, s] at h

theorem ok : ProblemOk (probOf d) ∧ (probOf d).input.prefLevels.Pairwise (· < ·) ∧
    (probOf d).input.prefLevels.getLast? = some (probOf d).input.maxPref :=
  problemOk_of_built raw d (by decide) built (by decide +kernel) (probOf d) rfl (by decide +kernel)

theorem in0 {c : Nat} (h : slotAt s c = some 0) : c = 0 ∨ c = 3 := by
  match c with
  | 0 => exact .inl rfl
  | 1 => simp [slotAt, s] at h
  | 2 => simp [slotAt, s] at h
  | 3 => exact .inr rfl
  | 4 => simp [slotAt, s] at h
  | c + 5 => simp [slotAt, s] at h

theorem in1 {c : Nat} (h : slotAt s c = some 1) : c = 2 ∨ c = 4 := by
  match c with
  | 0 => simp [slotAt, s] at h
  | 1 => simp [slotAt, s] at h
  | 2 => exact .inl rfl
  | 3 => simp [slotAt, s] at h
  | 4 => exact .inr rfl
  | c + 5 => simp [slotAt, s] at h

/-- p attends A and E, q attends D and C. -/
def best : Assignment := [[0, 4], [3, 2]]

theorem best_valid : AsgValid d s best :=
  valid_of_check ⟨by decide +kernel, by decide +kernel, by decide +kernel⟩ (by decide +kernel) ok.1.wf (by decide +kernel)

theorem alike_valid : AsgValid d s [[0, 2], [3, 4]] :=
  valid_of_check ⟨by decide +kernel, by decide +kernel, by decide +kernel⟩ (by decide +kernel) ok.1.wf (by decide +kernel)

theorem groups : d.depGroups = [[0, 1, 2], [3], [4]] := by decide +kernel

theorem fits : FlowFits d s := by
  constructor
  · decide +kernel
  · decide +kernel
  · decide +kernel
  · decide +kernel

end LinkEx

/-- **C07 fails in general**: A, B and C are to have the same choosers but B does not take place, so nothing ties
A to C. Every sound, optimal and complete backend makes the solver return an assignment that costs more than
`LinkEx.best`, which is valid and gives nobody a worse choice than the best level allows. -/
theorem C07_not_cheapest : build LinkEx.raw = .ok LinkEx.d ∧ SchedShape LinkEx.d LinkEx.s ∧ SchedValid LinkEx.d LinkEx.s ∧
    AsgValid LinkEx.d LinkEx.s LinkEx.best ∧ WithinLimit LinkEx.d LinkEx.best 0 ∧
    ∀ env : AEnv, Backend.Sound env.backend → Backend.Optimal env.backend → Backend.Complete env.backend →
      ∃ a sv', solveUntil (probOf LinkEx.d) env false ASolver.new LinkEx.s = .ok (some a, sv') ∧
        totalCost LinkEx.d cubeCost LinkEx.best < totalCost LinkEx.d cubeCost a := by
  have hsv : SchedValid LinkEx.d LinkEx.s :=
    (C02_scheduling_feasible_exact LinkEx.d LinkEx.ok.1.wf.sched (by decide +kernel) (by decide +kernel) LinkEx.s (by decide +kernel)
      true (by decide +kernel)).1 rfl
  refine ⟨LinkEx.built, LinkEx.shape, hsv, LinkEx.best_valid, ?_, ?_⟩
  · intro p c x hat hx
    rw [← attendsB_iff] at hat
    match p with
    | 0 =>
      have : c = 0 ∨ c = 4 := by simpa [attendsB, LinkEx.best] using hat
      rcases this with rfl | rfl
      · rw [show pref LinkEx.d 0 0 = some 0 by decide +kernel] at hx; cases hx; omega
      · rw [show pref LinkEx.d 0 4 = some 0 by decide +kernel] at hx; cases hx; omega
    | 1 =>
      have : c = 3 ∨ c = 2 := by simpa [attendsB, LinkEx.best] using hat
      rcases this with rfl | rfl
      · rw [show pref LinkEx.d 1 3 = some 0 by decide +kernel] at hx; cases hx; omega
      · rw [show pref LinkEx.d 1 2 = some 0 by decide +kernel] at hx; cases hx; omega
    | p + 2 => simp [attendsB, LinkEx.best] at hat
  · intro env hb ho hc
    obtain ⟨hp, hlev, hlast⟩ := LinkEx.ok
    obtain ⟨r, sv', h⟩ := solveUntil_total hp hb (env := env) (sv := ASolver.new) (fun st h => (by cases h)) LinkEx.shape
      (by decide +kernel) LinkEx.fits false
    have hres := reach_solve hp hlev hb (.new) LinkEx.shape h
    cases r with
    | none =>
      refine absurd ⟨[[0, 2], [3, 4]], LinkEx.alike_valid, withinMax hp _, ?_⟩ (hres.none rfl rfl hc hlast)
      intro g hg c hcg c' hcg' h1 h2 p hp'
      have hg' : g ∈ [[0, 1, 2], [3], [4]] := by rw [← LinkEx.groups]; exact hg
      have hp2 : p < 2 := by rw [show 2 = LinkEx.d.np by decide +kernel]; exact hp'
      rw [← attendsB_iff, ← attendsB_iff]
      simp only [List.mem_cons, List.not_mem_nil, or_false] at hg'
      have hone : slotAt LinkEx.s 1 = none := rfl
      rcases hg' with rfl | rfl | rfl
      · simp only [List.mem_cons, List.not_mem_nil, or_false] at hcg hcg'
        rcases hcg with rfl | rfl | rfl <;> rcases hcg' with rfl | rfl | rfl <;>
          first
          | exact absurd hone h1
          | exact absurd hone h2
          | (rcases (by omega : p = 0 ∨ p = 1) with rfl | rfl <;> decide)
      · simp at hcg hcg'; subst hcg; subst hcg'; exact Iff.rfl
      · simp at hcg hcg'; subst hcg; subst hcg'; exact Iff.rfl
    | some a =>
      refine ⟨a, sv', h, ?_⟩
      obtain ⟨l, hg, _⟩ := (hres.found a rfl).good
      have hal : ∀ p, p < 2 → attendsB a p 0 = attendsB a p 2 := by
        intro p hp'
        have := hg.alike [0, 1, 2] (by rw [show (probOf LinkEx.d).input.depGroups = _ from LinkEx.groups]; simp) 0 (by simp) 2 (by simp)
          (by simp [slotAt, LinkEx.s]) (by simp [slotAt, LinkEx.s]) p
          (by rw [show (probOf LinkEx.d).input.np = 2 by decide +kernel]; exact hp')
        rw [← attendsB_iff, ← attendsB_iff] at this
        rw [Bool.eq_iff_iff]; exact this
      have hmin : ∀ c, c < 5 → slotAt LinkEx.s c ≠ none → 1 ≤ participants LinkEx.d a c := by
        intro c hc' hs'
        have hlt : c < LinkEx.d.nc := by rw [show LinkEx.d.nc = 5 by decide +kernel]; exact hc'
        have h1 := (hg.valid.bounds c hlt hs').1
        have h2 : ∀ c, c < 5 → (LinkEx.d.choices[c]?.map (·.min)) = some 1 := by decide +kernel
        have h3 := h2 c hc'
        rw [List.getElem?_eq_getElem hlt] at h3
        simp only [Option.map_some, Option.some.injEq] at h3
        have h4 : (LinkEx.d.choices[c]'hlt).min ≤ participants LinkEx.d a c := h1
        omega
      obtain ⟨x, y, z, w, rfl, e1, e2, e3, e4⟩ := tables22 hg.order (by decide +kernel) (by decide +kernel)
      have m3 := hmin 3 (by omega) (by simp [slotAt, LinkEx.s])
      have m4 := hmin 4 (by omega) (by simp [slotAt, LinkEx.s])
      have a0 := hal 0 (by omega)
      have a1 := hal 1 (by omega)
      clear hal hmin hg hres h
      rcases LinkEx.in0 e1 with rfl | rfl <;> rcases LinkEx.in0 e2 with rfl | rfl <;>
        rcases LinkEx.in1 e3 with rfl | rfl <;> rcases LinkEx.in1 e4 with rfl | rfl <;>
        first
        | (exfalso; revert a0; decide)
        | (exfalso; revert a1; decide)
        | (exfalso; revert m3; decide +kernel)
        | (exfalso; revert m4; decide +kernel)
        | decide +kernel

/-! ### C08 -/

namespace NoneEx

/-- As `LinkEx`, with three choosers: D takes at most one and E at least two of them. -/
def raw : Raw where
  slots := ["Mo".toList, "Tu".toList]
  choices := [⟨"A".toList, 1, 3, 1, false⟩, ⟨"B".toList, 1, 3, 1, true⟩, ⟨"C".toList, 1, 3, 1, false⟩,
    ⟨"D".toList, 0, 1, 1, false⟩, ⟨"E".toList, 2, 3, 1, false⟩]
  choosers := [⟨"p".toList, [9, 0, 0, 0, 9]⟩, ⟨"q".toList, [0, 0, 9, 9, 0]⟩, ⟨"r".toList, [0, 0, 9, 9, 0]⟩]
  exprs := LinkEx.raw.exprs

def d : InputData := dataOf raw

theorem built : build raw = .ok d := by decide +kernel

theorem shape : SchedShape d LinkEx.s := ⟨by decide +kernel, by
  have h := LinkEx.shape.range
  intro c t hc
  have := h c t hc
  rw [show LinkEx.d.ns = 2 by decide +kernel] at this
  rw [show d.ns = 2 by decide +kernel]; exact this⟩

theorem ok : ProblemOk (probOf d) ∧ (probOf d).input.prefLevels.Pairwise (· < ·) ∧
    (probOf d).input.prefLevels.getLast? = some (probOf d).input.maxPref :=
  problemOk_of_built raw d (by decide) built (by decide +kernel) (probOf d) rfl (by decide +kernel)

/-- p and q attend A, only p attends C. -/
def good : Assignment := [[0, 2], [0, 4], [3, 4]]

theorem fits : FlowFits d LinkEx.s := by
  constructor
  · decide +kernel
  · decide +kernel
  · decide +kernel
  · decide +kernel

theorem tables32 {i : InputData} {s : Scheduling} {a : Assignment} (h : InOrder i s a) (hnp : i.np = 3) (hns : i.ns = 2) :
    ∃ x y z w u v, a = [[x, y], [z, w], [u, v]] ∧ slotAt s x = some 0 ∧ slotAt s z = some 0 ∧ slotAt s u = some 0 ∧
      slotAt s y = some 1 ∧ slotAt s w = some 1 ∧ slotAt s v = some 1 := by
  have hr := h.rows
  rw [hnp] at hr
  have hc := h.cols
  rw [hns] at hc
  match a, hr with
  | [r1, r2, r3], _ =>
    have h1 := hc r1 (by simp)
    have h2 := hc r2 (by simp)
    have h3 := hc r3 (by simp)
    match r1, h1, r2, h2, r3, h3 with
    | [x, y], _, [z, w], _, [u, v], _ =>
      exact ⟨x, y, z, w, u, v, rfl, h.slot 0 0 x rfl, h.slot 1 0 z rfl, h.slot 2 0 u rfl, h.slot 0 1 y rfl, h.slot 1 1 w rfl,
        h.slot 2 1 v rfl⟩

end NoneEx

/-- **C08 fails in general**: with every sound backend the solver returns nothing here, without any deadline,
although the scheduling is feasible and `NoneEx.good` is a valid assignment for it. -/
theorem C08_none_although_one_exists : build NoneEx.raw = .ok NoneEx.d ∧ SchedShape NoneEx.d LinkEx.s ∧
    SchedValid NoneEx.d LinkEx.s ∧ AsgValid NoneEx.d LinkEx.s NoneEx.good ∧
    ∀ env : AEnv, Backend.Sound env.backend →
      ∃ sv', solveUntil (probOf NoneEx.d) env false ASolver.new LinkEx.s = .ok (none, sv') := by
  have hsv : SchedValid NoneEx.d LinkEx.s :=
    (C02_scheduling_feasible_exact NoneEx.d NoneEx.ok.1.wf.sched (by decide +kernel) (by decide +kernel) LinkEx.s (by decide +kernel)
      true (by decide +kernel)).1 rfl
  refine ⟨NoneEx.built, NoneEx.shape, hsv, ?_, ?_⟩
  · exact valid_of_check ⟨by decide +kernel, by decide +kernel, by decide +kernel⟩ (by decide +kernel) NoneEx.ok.1.wf (by decide +kernel)
  · intro env hb
    obtain ⟨hp, hlev, hlast⟩ := NoneEx.ok
    obtain ⟨r, sv', h⟩ := solveUntil_total hp hb (env := env) (sv := ASolver.new) (fun st h => (by cases h)) NoneEx.shape
      (by decide +kernel) NoneEx.fits false
    cases r with
    | none => exact ⟨sv', h⟩
    | some a =>
      exfalso
      obtain ⟨l, hg, _⟩ := ((reach_solve hp hlev hb (.new) NoneEx.shape h).found a rfl).good
      have hnp : NoneEx.d.np = 3 := by decide +kernel
      have hgr : NoneEx.d.depGroups = [[0, 1, 2], [3], [4]] := by decide +kernel
      have hal : ∀ p, p < 3 → attendsB a p 0 = attendsB a p 2 := by
        intro p hp'
        have := hg.alike [0, 1, 2] (by rw [show (probOf NoneEx.d).input.depGroups = _ from hgr]; simp) 0 (by simp) 2 (by simp)
          (by simp [slotAt, LinkEx.s]) (by simp [slotAt, LinkEx.s]) p (by rw [show (probOf NoneEx.d).input.np = 3 from hnp]; exact hp')
        rw [← attendsB_iff, ← attendsB_iff] at this
        rw [Bool.eq_iff_iff]; exact this
      have h3 : (List.range 3).countP (fun p => attendsB a p 3) ≤ 1 := by
        have hlt : 3 < NoneEx.d.nc := by decide +kernel
        have h1 := (hg.valid.bounds 3 hlt (by simp [slotAt, LinkEx.s])).2
        rw [← hnp]
        have h2 : ∀ h, (NoneEx.d.choices[3]'h).max = 1 := by decide +kernel
        have h4 : participants NoneEx.d a 3 ≤ (NoneEx.d.choices[3]'hlt).max := h1
        rw [h2] at h4; exact h4
      have h4 : 2 ≤ (List.range 3).countP (fun p => attendsB a p 4) := by
        have hlt : 4 < NoneEx.d.nc := by decide +kernel
        have h1 := (hg.valid.bounds 4 hlt (by simp [slotAt, LinkEx.s])).1
        rw [← hnp]
        have h2 : ∀ h, (NoneEx.d.choices[4]'h).min = 2 := by decide +kernel
        have h4 : (NoneEx.d.choices[4]'hlt).min ≤ participants NoneEx.d a 4 := h1
        rw [h2] at h4; exact h4
      obtain ⟨x, y, z, w, u, v, rfl, e1, e2, e3, e4, e5, e6⟩ := NoneEx.tables32 hg.order hnp (by decide +kernel)
      have a0 := hal 0 (by omega)
      have a1 := hal 1 (by omega)
      have a2 := hal 2 (by omega)
      clear hal hg h
      rcases LinkEx.in0 e1 with rfl | rfl <;> rcases LinkEx.in0 e2 with rfl | rfl <;> rcases LinkEx.in0 e3 with rfl | rfl <;>
        rcases LinkEx.in1 e4 with rfl | rfl <;> rcases LinkEx.in1 e5 with rfl | rfl <;> rcases LinkEx.in1 e6 with rfl | rfl <;>
          first
          | (revert h3; decide)
          | (revert h4; decide)
          | (revert a0; decide)
          | (revert a1; decide)
          | (revert a2; decide)

end Wassign
