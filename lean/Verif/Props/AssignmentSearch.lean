import Verif.Props.AssignmentLimits
/-
Property theorems about the assignment stage, continued: C09 (search over the levels), C10 (worst preference),
C11 (incremental state), C12 (cache), C47 (keys).
-/
namespace Wassign
open Spec Build Asg

/-! ### C09 -/

/-- **C09**: the search over any list of levels, from any start inside it, with any oracle `attempt` whose
answers are right (`feasible` comes with an assignment that `works` for the level, `infeasible` is only said of
levels that are not `feasible`) and monotone: it ends, and
* what it returns works for some level at or above the start;
* if no answer was inconclusive, that level is the smallest feasible one, and nothing is returned only if no level
  at or above the start is feasible.
`levels.length + 1` is the number of iterations granted; the first part says they suffice. -/
theorem C09_search_finds_smallest {σ : Type} (attempt : Nat → σ → R (LimitResult × σ)) (levels : List Nat) (start : Nat)
    (hstart : start < levels.length) (feasible : Nat → Prop) (works : Nat → Assignment → Prop)
    (hret : ∀ l s, l ∈ levels → ∃ r, attempt l s = .ok r)
    (hyes : ∀ l s a s', attempt l s = .ok (.feasible a, s') → works l a)
    (hno : ∀ l s s', attempt l s = .ok (.infeasible, s') → ¬ feasible l)
    (hsorted : levels.Pairwise (· ≤ ·)) (hmono : ∀ l l', l ≤ l' → feasible l → feasible l') (s0 : σ) :
    ∃ b s', binLoop attempt levels start (levels.length + 1) ⟨start, levels.length - 1, none, true⟩ s0 = .ok (some (b, s')) ∧
      (∀ a, b.best = some a → ∃ k l, start ≤ k ∧ levels[k]? = some l ∧ works l a) ∧
      (b.isOptimal = false → ∃ l s s', attempt l s = .ok (.incomplete, s')) ∧
      (b.isOptimal = true →
        (∀ a, b.best = some a → ∃ k l, start ≤ k ∧ levels[k]? = some l ∧ works l a ∧
          ∀ j l', start ≤ j → j < k → levels[j]? = some l' → ¬ feasible l') ∧
        (b.best = none → ∀ j l', start ≤ j → levels[j]? = some l' → ¬ feasible l')) := by
  have hor : OracleOk attempt levels (fun _ => True) (fun k a => ∃ l, levels[k]? = some l ∧ works l a)
      (fun k => ∃ l, levels[k]? = some l ∧ feasible l) (∃ l s s', attempt l s = .ok (.incomplete, s')) := by
    constructor
    intro k l s r s' hl _ hr
    refine ⟨trivial, ?_⟩
    cases r with
    | feasible a => exact ⟨l, hl, hyes l s a s' hr⟩
    | infeasible =>
      rintro ⟨l', hl', hf⟩
      rw [hl] at hl'; cases hl'
      exact hno l s s' hr hf
    | incomplete => exact ⟨l, s, s', hr⟩
  have hm : ∀ j k, j ≤ k → k < levels.length → (∃ l, levels[j]? = some l ∧ feasible l) → ∃ l, levels[k]? = some l ∧ feasible l := by
    rintro j k hjk hk ⟨l, hl, hf⟩
    refine ⟨levels[k], by simp [hk], ?_⟩
    obtain ⟨hj, rfl⟩ := List.getElem?_eq_some_iff.1 hl
    refine hmono _ _ ?_ hf
    rcases Nat.lt_or_eq_of_le hjk with h | h
    · exact List.pairwise_iff_getElem.1 hsorted j k hj hk h
    · subst h; exact Nat.le_refl _
  obtain ⟨r, hr⟩ := bin_total (attempt := attempt) (levels := levels) (start := start) (Inv := fun _ => True)
    (fun k l s hl _ => by
      obtain ⟨⟨r, s'⟩, h⟩ := hret l s (List.mem_of_getElem? hl)
      exact ⟨r, s', h, trivial⟩) (levels.length + 1) ⟨start, levels.length - 1, none, true⟩ s0
    (by show levels.length - 1 < _; omega) trivial
  cases r with
  | none => exact absurd hr (bin_fuel _ _ _ (by simp only; omega) (by simp only; omega))
  | some q =>
    obtain ⟨b, s'⟩ := q
    obtain ⟨hres, _⟩ := bin_spec hor hm _ ⟨start, levels.length - 1, none, true⟩ _ s0 _
      (by
        refine ⟨Nat.le_refl _, by show levels.length - 1 < _; omega, ?_, ?_, ?_, ?_⟩
        · intro _ j h1 h2
          have h1' : start ≤ j := h1
          have h2' : j < start := h2
          omega
        · intro _; show levels.length - 1 + 1 = _; omega
        · intro a h'; cases h'
        · intro h'; cases h')
      trivial hr
    refine ⟨b, s', hr, ?_, hres.late, ?_⟩
    · intro a ha
      obtain ⟨k, h1, h2, ⟨l, h3, h4⟩, _⟩ := hres.some a ha
      exact ⟨k, l, h1, h3, h4⟩
    · intro ho
      refine ⟨?_, ?_⟩
      · intro a ha
        obtain ⟨k, h1, h2, ⟨l, h3, h4⟩, h5⟩ := hres.some a ha
        refine ⟨k, l, h1, h3, h4, ?_⟩
        intro j l' j1 j2 j3 hf
        exact h5 ho j j1 j2 ⟨l', j3, hf⟩
      · intro hn j l' j1 j2 hf
        have hj := (List.getElem?_eq_some_iff.1 j2).1
        exact hres.none hn ho j j1 hj ⟨l', j2, hf⟩

/-- **C09** in the solver: a solve that fails never fails because the search ran on: its fuel is enough. -/
theorem C09_solver_search_ends {σ : Type} (attempt : Nat → σ → R (LimitResult × σ)) (levels : List Nat) (bound : Nat) (s : σ)
    (hne : levels ≠ []) : binLoop attempt levels (startIndex levels bound) (levels.length + 1)
      ⟨startIndex levels bound, levels.length - 1, none, true⟩ s ≠ .ok none := by
  have := startIndex_lt (bound := bound) hne
  exact bin_fuel _ _ _ (by simp only; omega) (by simp only; omega)

/-- Example: the search over levels 0,2,5,9 from index 1 with an oracle that is feasible from 5 on. -/
example : ∃ s', binLoop (σ := Nat) (fun l s => .ok (if 5 ≤ l then .feasible [[l]] else .infeasible, s + 1)) [0, 2, 5, 9] 1 5
    ⟨1, 3, none, true⟩ 0 = .ok (some (⟨2, 1, some [[5]], true⟩, s')) := ⟨2, by decide +kernel⟩

/-! ### C10 -/

section
variable (pr : AProblem) (env : AEnv) (hp : ProblemOk pr) (hlev : pr.input.prefLevels.Pairwise (· < ·))
  (hb : Backend.Sound env.backend)
include hp hlev hb

/-- **C10**, partial: in non-greedy mode, as long as no deadline is involved, the worst preference in the
assignment returned is at most that of every valid assignment of the scheduling — provided every preference value
is a level, and the bound the search starts from is a lower bound. Missing: the levels are in general not the
values (C26), and then the claim is false (`C10_worst_not_least`); the bound is only partly right (C15). -/
theorem C10_least_worst_partial (hgr : pr.greedy = false) (hcomp : Backend.Complete env.backend)
    (sv : ASolver) (hsv : Reach pr env true sv) (s : Scheduling) (hs : SchedShape pr.input s)
    (hlinks : LinksScheduled pr.input s) (hzero : 0 ∈ pr.input.prefLevels)
    (hvals : ∀ p c x, pref pr.input p c = some x → x ∈ pr.input.prefLevels)
    (hbound : ∀ a w, AsgValid pr.input s a → IsWorst pr.input a w → pr.bound ≤ w)
    (a : Assignment) (sv' : ASolver) (h : solveUntil pr env false sv s = .ok (some a, sv')) :
    ∀ a' w w', AsgValid pr.input s a' → IsWorst pr.input a w → IsWorst pr.input a' w' → w ≤ w' := by
  intro a' w w' hv hw hw'
  obtain ⟨l, hg, _, hk⟩ := ((reach_solve hp hlev hb hsv hs h).found a rfl).good
  obtain ⟨k, k1, k2, k3⟩ := hk hgr
  have hmem : w' ∈ pr.input.prefLevels := by
    rcases hw'.attained with e | ⟨p, c, _, h2⟩
    · rw [e]; exact hzero
    · exact hvals p c w' h2
  obtain ⟨j, hj⟩ := List.mem_iff_getElem?.1 hmem
  have hwl : w ≤ l := by
    rcases hw.attained with e | ⟨p, c, h1, h2⟩
    · omega
    · exact hg.within p c w h1 h2
  have hjs : startIndex pr.input.prefLevels pr.bound ≤ j := startIndex_le hj (hbound a' w' hv hw')
  have hkj : k ≤ j := by
    by_contra hlt
    exact k3 rfl hcomp j w' hjs (by omega) hj ⟨a', hv, hw'.upper, alike_of_links hp.groups hlinks hv⟩
  obtain ⟨hk', rfl⟩ := List.getElem?_eq_some_iff.1 k2
  obtain ⟨hj', hje⟩ := List.getElem?_eq_some_iff.1 hj
  rcases Nat.lt_or_eq_of_le hkj with hlt | heq
  · have := List.pairwise_iff_getElem.1 hlev k j hk' hj' hlt
    omega
  · subst heq; omega

/-- **C10**, partial: what remains without assuming anything of the levels: nobody else's valid assignment stays
within a smaller level (not below the bound) than the one returned. -/
theorem C10_least_level_partial (hgr : pr.greedy = false) (hcomp : Backend.Complete env.backend)
    (sv : ASolver) (hsv : Reach pr env true sv) (s : Scheduling) (hs : SchedShape pr.input s)
    (hlinks : LinksScheduled pr.input s) (a : Assignment) (sv' : ASolver)
    (h : solveUntil pr env false sv s = .ok (some a, sv')) :
    ∃ l ∈ pr.input.prefLevels, WithinLimit pr.input a l ∧
      ∀ l' ∈ pr.input.prefLevels, pr.bound ≤ l' → ∀ a', AsgValid pr.input s a' → WithinLimit pr.input a' l' → l ≤ l' := by
  obtain ⟨l, hg, _, hk⟩ := ((reach_solve hp hlev hb hsv hs h).found a rfl).good
  obtain ⟨k, k1, k2, k3⟩ := hk hgr
  refine ⟨l, List.mem_of_getElem? k2, hg.within, ?_⟩
  intro l' hl' hbd a' hv hw
  obtain ⟨j, hj⟩ := List.mem_iff_getElem?.1 hl'
  have hkj : k ≤ j := by
    by_contra hlt
    exact k3 rfl hcomp j l' (startIndex_le hj hbd) (by omega) hj ⟨a', hv, hw, alike_of_links hp.groups hlinks hv⟩
  obtain ⟨hk', rfl⟩ := List.getElem?_eq_some_iff.1 k2
  obtain ⟨hj', rfl⟩ := List.getElem?_eq_some_iff.1 hj
  rcases Nat.lt_or_eq_of_le hkj with hlt | heq
  · exact Nat.le_of_lt (List.pairwise_iff_getElem.1 hlev k j hk' hj' hlt)
  · subst heq; exact Nat.le_refl _

end

/-- The example problem meets the hypotheses of `C10_least_worst_partial`. -/
example : AsgEx.prob.greedy = false ∧ 0 ∈ AsgEx.prob.input.prefLevels ∧
    (∀ p c x, pref AsgEx.prob.input p c = some x → x ∈ AsgEx.prob.input.prefLevels) ∧ AsgEx.prob.bound = 0 := by
  refine ⟨rfl, by decide, ?_, rfl⟩
  intro p c x h
  unfold pref at h
  cases hc : AsgEx.prob.input.choosers[p]? with
  | none => rw [hc] at h; cases h
  | some ch =>
    rw [hc] at h
    have h1 := List.mem_of_getElem? hc
    have h2 := List.mem_of_getElem? h
    have : ∀ ch ∈ AsgEx.prob.input.choosers, ∀ x ∈ ch.prefs, x ∈ AsgEx.prob.input.prefLevels := by decide
    exact this ch h1 x h2

namespace WorstEx

/-- Two choosers, two choices for one person each. -/
def raw : Raw where
  slots := ["Mo".toList]
  choices := [⟨"X".toList, 1, 1, 1, false⟩, ⟨"Y".toList, 1, 1, 1, false⟩]
  choosers := [⟨"p".toList, [20, 100]⟩, ⟨"q".toList, [0, 20]⟩]
  exprs := []

def d : InputData := dataOf raw

theorem built : build raw = .ok d := by decide +kernel

def s : Scheduling := [some 0, some 0]

theorem shape : SchedShape d s := by
  refine ⟨by decide +kernel, ?_⟩
  intro c t h
  rw [show d.ns = 1 by decide +kernel]
  match c with
  | 0 => simp [slotAt, s] at h; omega
  | 1 => simp [slotAt, s] at h; omega
  | c + 2 => simp [slotAt, s] at h

theorem ok : ProblemOk (probOf d) ∧ (probOf d).input.prefLevels.Pairwise (· < ·) ∧
    (probOf d).input.prefLevels.getLast? = some (probOf d).input.maxPref :=
  problemOk_of_built raw d (by decide) built (by decide +kernel) (probOf d) rfl (by decide +kernel)

theorem fits : FlowFits d s := by
  constructor
  · decide +kernel
  · decide +kernel
  · decide +kernel
  · decide +kernel

/-- p attends X, q attends Y: 80 and 80. -/
def fair : Assignment := [[0], [1]]

theorem fair_valid : AsgValid d s fair :=
  valid_of_check ⟨by decide +kernel, by decide +kernel, by decide +kernel⟩ (by decide +kernel) ok.1.wf (by decide +kernel)

theorem unfair_valid : AsgValid d s [[1], [0]] :=
  valid_of_check ⟨by decide +kernel, by decide +kernel, by decide +kernel⟩ (by decide +kernel) ok.1.wf (by decide +kernel)

theorem prefs : pref d 0 0 = some 80 ∧ pref d 0 1 = some 0 ∧ pref d 1 0 = some 100 ∧ pref d 1 1 = some 80 := by decide +kernel

end WorstEx

/-- **C10 fails in general**: the preferences are mirrored but the levels are not. With given preferences p: 20, 100
and q: 0, 20 the levels are 0, 20, 100; the fair assignment (mirrored: 80 and 80) is first within level 100, where
the cheaper one (0 and 100) wins. Every sound, optimal and complete backend gives worst preference 100 where 80 is
possible. -/
theorem C10_worst_not_least : build WorstEx.raw = .ok WorstEx.d ∧ SchedValid WorstEx.d WorstEx.s ∧
    AsgValid WorstEx.d WorstEx.s WorstEx.fair ∧ IsWorst WorstEx.d WorstEx.fair 80 ∧
    ∀ env : AEnv, Backend.Sound env.backend → Backend.Optimal env.backend → Backend.Complete env.backend →
      ∃ a sv', solveUntil (probOf WorstEx.d) env false ASolver.new WorstEx.s = .ok (some a, sv') ∧ IsWorst WorstEx.d a 100 := by
  obtain ⟨q1, q2, q3, q4⟩ := WorstEx.prefs
  have hsv : SchedValid WorstEx.d WorstEx.s :=
    (C02_scheduling_feasible_exact WorstEx.d WorstEx.ok.1.wf.sched (by decide +kernel) (by decide +kernel) WorstEx.s (by decide +kernel)
      true (by decide +kernel)).1 rfl
  have hatt : ∀ x y p c, Attends [[x], [y]] p c ↔ (p = 0 ∧ c = x) ∨ (p = 1 ∧ c = y) := by
    intro x y p c
    rw [← attendsB_iff]
    match p with
    | 0 => simp [attendsB]
    | 1 => simp [attendsB]
    | p + 2 => simp [attendsB]
  refine ⟨WorstEx.built, hsv, WorstEx.fair_valid, ⟨?_, ?_⟩, ?_⟩
  · intro p c x h1 h2
    rcases (hatt 0 1 p c).1 h1 with ⟨rfl, rfl⟩ | ⟨rfl, rfl⟩
    · rw [q1] at h2; cases h2; omega
    · rw [q4] at h2; cases h2; omega
  · exact .inr ⟨0, 0, (hatt 0 1 0 0).2 (.inl ⟨rfl, rfl⟩), q1⟩
  · intro env hb ho hc
    obtain ⟨hp, hlev, hlast⟩ := WorstEx.ok
    obtain ⟨r, sv', h⟩ := solveUntil_total hp hb (env := env) (sv := ASolver.new) (fun st h => (by cases h)) WorstEx.shape
      (by decide +kernel) WorstEx.fits false
    have hlinks : LinksScheduled WorstEx.d WorstEx.s := links_of_all hp.wf (by
      intro c hc'
      have : c < 2 := by rw [show 2 = WorstEx.d.nc by decide +kernel]; exact hc'
      rcases (by omega : c = 0 ∨ c = 1) with rfl | rfl <;> simp [slotAt, WorstEx.s])
    have hres := reach_solve hp hlev hb (.new) WorstEx.shape h
    cases r with
    | none =>
      exact absurd ⟨WorstEx.fair, WorstEx.fair_valid, withinMax hp _, alike_of_links hp.groups hlinks WorstEx.fair_valid⟩
        (hres.none rfl rfl hc hlast)
    | some a =>
      refine ⟨a, sv', h, ?_⟩
      obtain ⟨l, hg, _, hk⟩ := (hres.found a rfl).good
      obtain ⟨k, _, k2, _⟩ := hk rfl
      have hl : l = 0 ∨ l = 20 ∨ l = 100 := by
        have := List.mem_of_getElem? k2
        rw [show (probOf WorstEx.d).input.prefLevels = [0, 20, 100] by decide +kernel] at this
        simpa using this
      have hrows := hg.order.rows
      have hcols := hg.order.cols
      rw [show (probOf WorstEx.d).input.np = 2 by decide +kernel] at hrows
      rw [show (probOf WorstEx.d).input.ns = 1 by decide +kernel] at hcols
      have hin : ∀ c, slotAt WorstEx.s c = some 0 → c = 0 ∨ c = 1 := by
        intro c h
        match c with
        | 0 => exact .inl rfl
        | 1 => exact .inr rfl
        | c + 2 => simp [slotAt, WorstEx.s] at h
      obtain ⟨x, y, rfl⟩ : ∃ x y, a = [[x], [y]] := by
        match a, hrows with
        | [r1, r2], _ =>
          have h1 := hcols r1 (by simp)
          have h2 := hcols r2 (by simp)
          match r1, h1, r2, h2 with
          | [x], _, [y], _ => exact ⟨x, y, rfl⟩
      have hx := hin x (hg.order.slot 0 0 x rfl)
      have hy := hin y (hg.order.slot 1 0 y rfl)
      have hcount : ∀ c, c < 2 → (List.range 2).countP (fun p => attendsB [[x], [y]] p c) ≤ 1 := by
        intro c hc'
        have hlt : c < WorstEx.d.nc := by rw [show WorstEx.d.nc = 2 by decide +kernel]; exact hc'
        have h1 := (hg.valid.bounds c hlt (by rcases (by omega : c = 0 ∨ c = 1) with rfl | rfl <;> simp [slotAt, WorstEx.s])).2
        have h2 : ∀ c, c < 2 → (WorstEx.d.choices[c]?.map (·.max)) = some 1 := by decide +kernel
        have h3 := h2 c hc'
        rw [List.getElem?_eq_getElem hlt] at h3
        simp only [Option.map_some, Option.some.injEq] at h3
        have h4 : participants WorstEx.d [[x], [y]] c ≤ (WorstEx.d.choices[c]'hlt).max := h1
        unfold participants at h4
        rw [show WorstEx.d.np = 2 by decide +kernel, h3] at h4
        exact h4
      have hworst : ∀ v, pref WorstEx.d 1 y = some v → 80 ≤ v := by
        intro v hv
        rcases hy with rfl | rfl
        · rw [q3] at hv; cases hv; omega
        · rw [q4] at hv; cases hv; omega
      have hl100 : l = 100 := by
        have hav : Attends [[x], [y]] 1 y := (hatt x y 1 y).2 (.inr ⟨rfl, rfl⟩)
        have hpv : ∃ v, pref WorstEx.d 1 y = some v := by
          rcases hy with rfl | rfl
          · exact ⟨_, q3⟩
          · exact ⟨_, q4⟩
        obtain ⟨v, hv⟩ := hpv
        have h1 := hg.within 1 y v hav hv
        have h2 := hworst v hv
        omega
      have hle := hg.least ho [[1], [0]] WorstEx.unfair_valid (by rw [hl100]; exact withinMax hp _)
        (alike_of_links hp.groups hlinks WorstEx.unfair_valid)
      have c0 := hcount 0 (by omega)
      have c1 := hcount 1 (by omega)
      clear hcount hworst hg hres h hcols hrows
      rcases hx with rfl | rfl <;> rcases hy with rfl | rfl
      · exact absurd c0 (by decide)
      · exact absurd hle (by decide +kernel)
      · refine ⟨?_, .inr ⟨1, 0, (hatt 1 0 1 0).2 (.inr ⟨rfl, rfl⟩), q3⟩⟩
        intro p c x h1 h2
        rcases (hatt 1 0 p c).1 h1 with ⟨rfl, rfl⟩ | ⟨rfl, rfl⟩
        · rw [q2] at h2; cases h2; omega
        · rw [q3] at h2; cases h2; omega
      · exact absurd c1 (by decide)

end Wassign
