import Verif.Proofs.Critical
import Verif.Props.Rng
import Verif.Examples
/-
Property theorems C03, C04, C05 (scheduling search) and C13, C14, C15 (critical sets).

`g` is an arbitrary random engine (state type `σ`), `late` an arbitrary behaviour of the clock,
`A` the critical-set analysis with any settings.
-/
namespace Wassign
open Spec Search
variable {σ : Type}

/-- The preconditions on the preference levels: ascending, without repetition, containing the maximum
(proved for accepted inputs in C26). -/
structure LevelsOk (i : InputData) : Prop where
  sorted : i.prefLevels.Pairwise (· < ·)
  maxMem : i.maxPref ∈ i.prefLevels

theorem Ex.inp_levels : LevelsOk Ex.inp := ⟨by decide, by decide⟩

theorem Ex.inp_ready : SearchReady Ex.inp where
  limits := by
    intro k hk n hn
    simp only [Ex.inp, List.mem_cons, List.not_mem_nil, or_false] at hk
    rcases hk with rfl | rfl | rfl <;> simp at hn
    subst hn; decide
  offsets := by
    intro k hk o ho
    simp only [Ex.inp, List.mem_cons, List.not_mem_nil, or_false] at hk
    rcases hk with rfl | rfl | rfl <;> simp at ho
  slots := by decide
  conMap := by
    intro c hc k
    have : c = 0 ∨ c = 1 ∨ c = 2 ∨ c = 3 := by
      have : c < 4 := hc
      omega
    have hall : ∀ c' ∈ [0, 1, 2, 3], (∀ k ∈ Ex.inp.schedConsFor c', k ∈ Ex.inp.schedCons ∧ Concerns k c') ∧
        (∀ k ∈ Ex.inp.schedCons, Concerns k c' → k ∈ Ex.inp.schedConsFor c') := by decide
    have := hall c (by simp; omega)
    exact ⟨this.1 k, fun h => this.2 k h.1 h.2⟩

/-! ### C03 -/

/-- **C03**: whatever the random engine, the clock and the critical sets do, a scheduling produced by
`next_scheduling` has one entry per choice, passes `Scheduling::is_feasible`, and is feasible in the
sense of the specification. -/
theorem C03_produced_schedulings_feasible (g : RngOps σ) (i : InputData)
    (hw : ∀ c ∈ i.schedCons, SchedConWF i c) (hn : i.nc ≤ u32Max) (hp : i.np ≤ u32Max)
    (bound : Nat) (sets : Nat → List CriticalSet) (late : Nat → Nat → Bool) (rs r : σ) (s : Scheduling)
    (h : nextScheduling g i bound sets late rs = .ok (some s, r)) :
    s.length = i.nc ∧ schedFeasible i s = .ok true ∧ SchedValid i s := by
  obtain ⟨h1, h2⟩ := nextScheduling_feasible h
  exact ⟨h1, h2, (schedFeasible_spec h1 hn hp hw h2).1 rfl⟩

/-- Non-vacuity: a run on the example that produces a scheduling. -/
example : ∃ s r, nextScheduling Ex.rng Ex.inp 0 (fun _ => []) (fun _ _ => false) 3 = .ok (some s, r) ∧
    SchedValid Ex.inp s := by
  have h : nextScheduling Ex.rng Ex.inp 0 (fun _ => []) (fun _ _ => false) 3 =
      .ok (some [some 0, some 1, some 1, none], 8) := by decide +kernel
  exact ⟨_, _, h, (C03_produced_schedulings_feasible _ _ Ex.inp_wf.sched (by decide) (by decide) _ _ _ _ _ _ h).2.2⟩

/-! ### C05 -/

/-- **C05**: starting from the state in which `solve_scheduling` enters its loop, no infinite sequence
of loop iterations exists — for every input, every random engine and every critical sets. -/
theorem C05_no_infinite_search (g : RngOps σ) (hg : g.Lawful) (i : InputData) (cs : List CriticalSet)
    (suffix : List Nat) (rs : σ) (run : Nat → Machine σ)
    (h0 : run 0 = ⟨0, [], SearchState.new i.nc i.ns, (choiceScramble g rs i).2⟩)
    (hd : ∀ k, (run k).depth < i.nc)
    (hs : ∀ k, iter g i cs (choiceScramble g rs i).1 suffix (run k) = .ok (.next (run (k + 1)))) : False := by
  have hl := choiceScramble_length hg rs i
  refine no_infinite_run hg run ?_ (fun k => by rw [hl]; exact hd k) hs
  rw [h0]; exact btInv_start _ i _

/-- **C05** (quantitative): every run has at most `pend ns nc` iterations, where
`pend ns 0 = 1`, `pend ns (d+1) = (ns+1)·(pend ns d + 1) + 2`. -/
theorem C05_iterations_bounded (g : RngOps σ) (hg : g.Lawful) (i : InputData) (cs : List CriticalSet)
    (suffix : List Nat) (rs : σ) (run : Nat → Machine σ) (n : Nat)
    (h0 : run 0 = ⟨0, [], SearchState.new i.nc i.ns, (choiceScramble g rs i).2⟩)
    (hd : ∀ k < n, (run k).depth < i.nc)
    (hs : ∀ k < n, iter g i cs (choiceScramble g rs i).1 suffix (run k) = .ok (.next (run (k + 1)))) :
    n ≤ pend i.ns i.nc := by
  have hl := choiceScramble_length hg rs i
  have h := (run_length_le hg run (scramble := (choiceScramble g rs i).1)
    (by rw [h0]; exact btInv_start _ i _) n (fun k hk => by rw [hl]; exact hd k hk) hs).2
  have hp := pot_start i (choiceScramble g rs i).2 i.nc
  rw [h0, hl] at h
  unfold start at hp
  omega

/-- **C05** (the model's loop counter is no restriction): any larger amount of fuel gives the same
result of the loop. -/
theorem C05_fuel_irrelevant (g : RngOps σ) (hg : g.Lawful) (i : InputData) (cs : List CriticalSet)
    (suffix : List Nat) (late : Nat → Bool) (rs : σ) (extra : Nat) :
    loop g i cs (choiceScramble g rs i).1 suffix late (pend i.ns i.nc + 1 + extra) 0
        ⟨0, [], SearchState.new i.nc i.ns, (choiceScramble g rs i).2⟩ =
      loop g i cs (choiceScramble g rs i).1 suffix late (pend i.ns i.nc + 1) 0
        ⟨0, [], SearchState.new i.nc i.ns, (choiceScramble g rs i).2⟩ := by
  have hl := choiceScramble_length hg rs i
  have hp : pot i.ns (choiceScramble g rs i).1.length
      ⟨0, [], SearchState.new i.nc i.ns, (choiceScramble g rs i).2⟩ = pend i.ns i.nc := by
    rw [hl]; exact pot_start i _ _
  exact loop_fuel hg _ _ 0 _ (btInv_start _ i _) (by omega) (by omega)

/-- **C05** (no panic): for well-formed input the search returns normally. -/
theorem C05_search_returns (g : RngOps σ) (hg : g.Lawful) (i : InputData) (hw : WF i) (hz : Sizes i)
    (hr : SearchReady i) (cs : List CriticalSet) (hcs : ∀ set ∈ cs, ∀ e ∈ set.data, e < i.nc)
    (late : Nat → Bool) (rs : σ) : ∃ o r, solve g i cs late rs = .ok (o, r) := by
  obtain ⟨o, r, h, _⟩ := solve_total hg hw hz hr hcs late rs
  exact ⟨o, r, h⟩

example : ∃ o r, solve Ex.rng Ex.inp [⟨0, [0, 2]⟩] (fun _ => false) 5 = .ok (o, r) :=
  C05_search_returns _ Ex.rng_lawful _ Ex.inp_wf Ex.inp_sizes Ex.inp_ready _ (by decide) _ _

/-! ### C13, C14, C15 -/

/-- **C13**: if a scheduling has an assignment with one choice per slot for everyone in which nobody
gets anything worse than `l`, then the scheduling takes a choice of every critical set used at limit `l`
in every slot. -/
theorem C13_good_schedulings_cover (i : InputData) (hw : WF i) (hz : Sizes i) (hl : LevelsOk i)
    (an simp : Bool) (A : Analysis) (hA : Analysis.new i an simp = .ok A) (s : Scheduling)
    (a : Assignment) (hsh : Shape i s a) (hone : OnePerSlot i s a) (l : Nat) (hlev : l ∈ i.prefLevels)
    (hwst : WorstAtMost i a l) : ∀ set ∈ A.forPreference l, CoversSlots i s set.data := by
  intro set hset
  cases an with
  | false => simp [Analysis.new] at hA; subst hA; simp [Analysis.forPreference] at hset
  | true =>
    obtain ⟨A', h1, _, _, _, h5, _⟩ := Critical.forPreference_spec hw hz hl.sorted simp
    rw [h1] at hA; cases hA
    obtain ⟨h6, h7⟩ := (h5 l hlev).1 set hset
    exact Critical.covers_of_worst hw hsh hone hwst h6 h7

/-- **C13** (search states): moreover every partial decision state all of whose decisions agree with
such a scheduling passes the critical-set test of the search. -/
theorem C13_partial_decisions_pass (i : InputData) (hw : WF i) (hz : Sizes i) (hl : LevelsOk i)
    (an simp : Bool) (A : Analysis) (hA : Analysis.new i an simp = .ok A) (s : Scheduling)
    (a : Assignment) (hsh : Shape i s a) (hone : OnePerSlot i s a)
    (hrange : ∀ c t, slotAt s c = some t → t < i.ns) (l : Nat) (hlev : l ∈ i.prefLevels)
    (hwst : WorstAtMost i a l) (D : List Decision) (hD : D.length = i.nc)
    (hext : ∀ (c : Nat) (d : Decision), D[c]? = some d → d ≠ .undecided → slotAt s c = d.slot?) :
    satCritical i D (A.forPreference l) = .ok true := by
  refine satCritical_of_covers hD ?_ hext ?_ (C13_good_schedulings_cover i hw hz hl an simp A hA s a hsh hone l hlev hwst)
  · intro c t h
    rw [slotAt_decS] at h
    cases hd : D[c]? with
    | none => rw [hd] at h; cases h
    | some d =>
      rw [hd] at h
      refine hrange c t ?_
      rw [hext c d hd (by rintro rfl; cases h)]
      exact h
  · cases an with
    | false => simp [Analysis.new] at hA; subst hA; simp [Analysis.forPreference]
    | true =>
      obtain ⟨A', h1, _, _, _, _, h6⟩ := Critical.forPreference_spec hw hz hl.sorted simp
      rw [h1] at hA; cases hA
      exact fun set h => Critical.critical_range (h6 l set h)

/-- **C14**: for every preference level, a scheduling covers every slot by every raw critical set of
that level or above iff it does so for the sets the analysis returns for that level, with or without
simplification. -/
theorem C14_simplification_lossless (i : InputData) (hw : WF i) (hz : Sizes i) (hl : LevelsOk i)
    (simp : Bool) (A : Analysis) (hA : Analysis.new i true simp = .ok A) (l : Nat)
    (hlev : l ∈ i.prefLevels) (s : Scheduling) :
    (∀ set, IsCritical i set → l ≤ set.preference → CoversSlots i s set.data) ↔
      ∀ set ∈ A.forPreference l, CoversSlots i s set.data := by
  obtain ⟨A', h1, _, _, _, h5, _⟩ := Critical.forPreference_spec hw hz hl.sorted simp
  rw [h1] at hA; cases hA
  obtain ⟨h6, h7⟩ := h5 l hlev
  constructor
  · intro h set hset
    exact h set (h6 set hset).1 (h6 set hset).2
  · intro h set hc hle
    obtain ⟨o, ho, hsub⟩ := h7 set hc hle
    exact Critical.covers_mono (fun x hx => hsub.subset hx) (h o ho)

/-- **C14** (the search test): the same for the test applied to partial decision states. A raw set
passes if the number of slots it already covers plus its undecided choices reaches the number of slots. -/
theorem C14_lossless_for_decisions (i : InputData) (hw : WF i) (hz : Sizes i) (hl : LevelsOk i)
    (simp : Bool) (A : Analysis) (hA : Analysis.new i true simp = .ok A) (l : Nat)
    (hlev : l ∈ i.prefLevels) (D : List Decision) (hD : D.length = i.nc)
    (hrange : ∀ (c t : Nat), D[c]? = some (.slot t) → t < i.ns) :
    satCritical i D (A.forPreference l) = .ok true ↔
      ∀ set, IsCritical i set → l ≤ set.preference → csOk i D set = .ok true := by
  obtain ⟨A', h1, _, _, _, h5, _⟩ := Critical.forPreference_spec hw hz hl.sorted simp
  rw [h1] at hA; cases hA
  obtain ⟨h6, h7⟩ := h5 l hlev
  have hr : SlotsInRange i (decS D) := by
    intro c t h
    rw [slotAt_decS] at h
    cases hd : D[c]? with
    | none => rw [hd] at h; cases h
    | some d =>
      rw [hd] at h
      cases d with
      | slot t' => cases h; exact hrange c t hd
      | omitted => cases h
      | undecided => cases h
  unfold satCritical
  rw [allM_eq_ok_true]
  constructor
  · intro h set hc hle
    obtain ⟨o, ho, hsub⟩ := h7 set hc hle
    have hoc := h6 o ho
    have ho' := h o ho
    have hspec := csOk_spec hD hr (Critical.critical_range hoc.1)
    have hspec' := csOk_spec hD hr (Critical.critical_range hc)
    obtain ⟨b, hb1, hb2⟩ := hspec
    obtain ⟨b', hb1', hb2'⟩ := hspec'
    rw [hb1] at ho'; cases ho'
    have hle1 := hb2.1 rfl
    rw [hb1']
    congr 1
    rw [hb2']
    have hmono1 : covered i.ns D o.data ≤ covered i.ns D set.data := by
      unfold covered
      refine List.countP_mono_left ?_
      intro t _ ht
      simp only [covB, List.any_eq_true] at ht ⊢
      obtain ⟨x, hx, hx'⟩ := ht
      exact ⟨x, hsub.subset hx, hx'⟩
    have hmono2 : missing D o.data ≤ missing D set.data := hsub.countP_le
    omega
  · intro h set hset
    exact h set (h6 set hset).1 (h6 set hset).2

/-- **C15** (part that holds): if the minima of all choices together fit into all slots but one, then
no preference level below the bound admits a valid solution. In full, the property would not need the
hypothesis on the minima; `C15_bound_can_be_wrong` shows that it fails without it. -/
theorem C15_bound_is_lower_bound_partial (i : InputData) (hw : WF i) (hz : Sizes i) (hl : LevelsOk i)
    (an simp : Bool) (A : Analysis) (hA : Analysis.new i an simp = .ok A) (hp : 0 < i.np)
    (hmin : (i.choices.map (·.min)).sum ≤ i.np * (i.ns - 1)) (l : Nat) (hlev : l ∈ i.prefLevels)
    (hb : l < A.preferenceBound) (s : Scheduling) (a : Assignment) (hsh : Shape i s a)
    (hv : Valid i s a) : ¬ WorstAtMost i a l := by
  intro hwst
  cases an with
  | false => simp [Analysis.new] at hA; subst hA; simp at hb
  | true =>
    obtain ⟨A', h1, h2, h3, h4, h5, _⟩ := Critical.forPreference_spec hw hz hl.sorted simp
    rw [h1] at hA; cases hA
    rw [h4] at hb
    have : Critical.bound i A.sets ≤ l := by
      refine Critical.bound_le hlev ?_ ?_
      · have hcrit : IsCritical i ⟨i.maxPref, acceptable i 0 i.maxPref⟩ := by
          refine ⟨0, hp, hl.maxMem, rfl, Nat.le_trans ?_ hmin⟩
          have h8 := Critical.sum_map_sublist (fun c => (i.choices[c]?.map (·.min)).getD 0)
            (show (acceptable i 0 i.maxPref).Sublist (List.range i.nc) from List.filter_sublist)
          have h9 := Search.rsum_valOf i (·.min)
          rw [← h9]
          exact h8
        obtain ⟨o, ho, hd⟩ := h3 _ hcrit
        have hle : l ≤ i.maxPref := by
          have := Critical.bound_le_max i A.sets
          omega
        exact ⟨o, ho, Nat.le_trans hle hd.1⟩
      · intro set hset hle
        exact Critical.covers_size (Critical.covers_of_worst hw hsh hv.onePerSlot hwst (h2 set hset) hle)
    omega

/-- The bound never exceeds the largest preference. -/
theorem C15_bound_le_max (i : InputData) (an simp : Bool) (A : Analysis)
    (hA : Analysis.new i an simp = .ok A) : A.preferenceBound ≤ i.maxPref := by
  cases an with
  | false => simp [Analysis.new] at hA; subst hA; simp
  | true =>
    simp only [Analysis.new, if_true, R.bind_eq_ok] at hA
    obtain ⟨sets, _, hA⟩ := hA
    cases hA
    exact Critical.bound_le_max _ _

/-- Two choosers, two slots, two choices that need both choosers, and an optional one nobody likes. -/
def Ex.boundInp : InputData where
  choices := [⟨['A'], 2, 2, none, false⟩, ⟨['B'], 2, 2, none, false⟩, ⟨['C'], 0, 2, none, true⟩]
  choosers := [⟨['p'], [0, 0, 5]⟩, ⟨['q'], [0, 0, 5]⟩]
  slots := [['s'], ['t']]
  schedCons := []
  asgCons := []
  depGroups := [[0], [1], [2]]
  prefLevels := [0, 5]
  maxPref := 5
  choiceConMap := []
  chooserConMap := []

/-- **C15 fails in general**: here the bound is 5 although the only solution gives everybody
preference 0. -/
theorem C15_bound_can_be_wrong :
    WF Ex.boundInp ∧ Sizes Ex.boundInp ∧ LevelsOk Ex.boundInp ∧
    ∃ A, Analysis.new Ex.boundInp true true = .ok A ∧ 0 < A.preferenceBound ∧
      ∃ s a, Shape Ex.boundInp s a ∧ Valid Ex.boundInp s a ∧ WorstAtMost Ex.boundInp a 0 := by
  refine ⟨by decide, by constructor <;> decide, ⟨by decide, by decide⟩,
    ⟨[], [(0, []), (5, [])], 5⟩, by decide +kernel, by decide,
    [some 0, some 1, none], [[0, 1], [0, 1]], ⟨rfl, rfl, by decide⟩, ?_, ?_⟩
  · have hsh : Shape Ex.boundInp [some 0, some 1, none] [[0, 1], [0, 1]] := ⟨rfl, rfl, by decide⟩
    have hok : Scoring.isFeasible Ex.boundInp (.complete [some 0, some 1, none] [[0, 1], [0, 1]]) = .ok true := by
      decide +kernel
    exact (isFeasibleC_spec hsh (by decide) (by decide) hok).1 rfl
  · intro p c x hp hat hx
    have hp' : p = 0 ∨ p = 1 := by
      have : p < 2 := hp
      omega
    rw [← attendsB_iff] at hat
    have hc : c = 0 ∨ c = 1 := by
      rcases hp' with rfl | rfl <;> simpa [attendsB] using hat
    rcases hp' with rfl | rfl <;> rcases hc with rfl | rfl <;> simp [pref, Ex.boundInp] at hx <;> omega

/-- Two slots, three choosers; choice `A` is wanted by nobody. -/
def Ex.critInp : InputData where
  choices := [⟨['A'], 0, 3, none, false⟩, ⟨['B'], 1, 3, none, false⟩, ⟨['C'], 1, 3, none, false⟩]
  choosers := [⟨['p'], [4, 0, 2]⟩, ⟨['q'], [4, 2, 0]⟩, ⟨['r'], [4, 0, 2]⟩]
  slots := [['s'], ['t']]
  schedCons := []
  asgCons := []
  depGroups := [[0], [1], [2]]
  prefLevels := [0, 2, 4]
  maxPref := 4
  choiceConMap := []
  chooserConMap := []

/-- Non-vacuity of C13–C15: an input whose analysis yields critical sets and a bound above 0. -/
theorem Ex.critInp_analysis : ∃ A, Analysis.new Ex.critInp true true = .ok A ∧
    A.preferenceBound = 2 ∧ A.forPreference 2 = [⟨2, [1, 2]⟩] ∧ A.forPreference 4 = [⟨4, [0, 1, 2]⟩] ∧
    A.forPreference 0 = [⟨0, [1]⟩, ⟨0, [2]⟩] :=
  ⟨⟨[⟨4, [0, 1, 2]⟩, ⟨2, [1, 2]⟩, ⟨0, [1]⟩, ⟨0, [2]⟩],
    [(0, [⟨0, [1]⟩, ⟨0, [2]⟩]), (2, [⟨2, [1, 2]⟩]), (4, [⟨4, [0, 1, 2]⟩])], 2⟩,
    by decide +kernel, rfl, rfl, rfl, rfl⟩

/-- Here `C15_bound_is_lower_bound_partial` applies: no solution gives everybody preference 0. -/
example (s : Scheduling) (a : Assignment) (hsh : Shape Ex.critInp s a) (hv : Valid Ex.critInp s a) :
    ¬ WorstAtMost Ex.critInp a 0 := by
  obtain ⟨A, hA, hb, _⟩ := Ex.critInp_analysis
  exact C15_bound_is_lower_bound_partial Ex.critInp (by decide) (by constructor <;> decide)
    ⟨by decide, by decide⟩ true true A hA (by decide) (by decide) 0 (by decide) (by omega) s a hsh hv

/-! ### C04 -/

/-- Every feasible scheduling covers the sets used at the largest preference. -/
theorem covers_at_max (i : InputData) (hw : WF i) (hz : Sizes i) (hl : LevelsOk i) (hp : 0 < i.np)
    (an simp : Bool) (A : Analysis) (hA : Analysis.new i an simp = .ok A) (T : Scheduling)
    (hlen : T.length = i.nc) (hv : SchedValid i T) :
    ∀ set ∈ A.forPreference i.maxPref, CoversSlots i T set.data := by
  intro set hset
  cases an with
  | false => simp [Analysis.new] at hA; subst hA; simp [Analysis.forPreference] at hset
  | true =>
    obtain ⟨A', h1, _, _, _, h5, _⟩ := Critical.forPreference_spec hw hz hl.sorted simp
    rw [h1] at hA; cases hA
    obtain ⟨⟨p, hp', _, hd, _⟩, h7⟩ := (h5 _ hl.maxMem).1 set hset
    intro t ht
    have hmax := hv.maximum t ht
    have : ∃ c, c < i.nc ∧ slotAt T c = some t := by
      by_contra hne
      simp only [not_exists, not_and] at hne
      have : slotSum i T (·.max) t = 0 := by
        unfold slotSum
        have h0 := rsum_congr (k := i.nc) (f := fun c => if slotAt T c = some t then
          (i.choices[c]?.map (·.max)).getD 0 else 0) (g := fun _ => 0)
          (fun c hc => if_neg (hne c hc))
        rw [rsum_const_zero] at h0
        exact h0
      omega
    obtain ⟨c, hc, hct⟩ := this
    refine ⟨c, ?_, hct⟩
    rw [hd, Critical.acceptable_mem]
    obtain ⟨x, hx, hxm⟩ := pref_some hw hp' hc
    exact ⟨hc, x, hx, Nat.le_trans hxm h7⟩

/-- **C04** (general part): if `next_scheduling` returns false and the clock never reported the limit
exceeded, then either there is no feasible scheduling, or the search produced a complete candidate and
its final check threw it away (the code then gives up instead of continuing; `C04_can_miss` shows that
this really happens). -/
theorem C04_exhausted_means_none_partial (g : RngOps σ) (hg : g.Lawful) (i : InputData) (hw : WF i)
    (hz : Sizes i) (hr : SearchReady i) (hl : LevelsOk i) (hp : 0 < i.np) (hns : 0 < i.ns)
    (an simp : Bool) (A : Analysis) (hA : Analysis.new i an simp = .ok A) (late : Nat → Nat → Bool)
    (hlate : ∀ l k, late l k = false) (rs r : σ)
    (h : nextScheduling g i A.preferenceBound A.forPreference late rs = .ok (none, r)) :
    (∀ T : Scheduling, T.length = i.nc → (∀ c t, slotAt T c = some t → t < i.ns) → ¬ SchedValid i T) ∨
    ∃ rs' s r', solve g i (A.forPreference i.maxPref) (late i.maxPref) rs' = .ok (.rejected s, r') ∧
      ¬ SchedValid i s := by
  have hcs : ∀ l, ∀ set ∈ A.forPreference l, ∀ e ∈ set.data, e < i.nc := by
    cases an with
    | false => simp [Analysis.new] at hA; subst hA; simp [Analysis.forPreference]
    | true =>
      obtain ⟨A', h1, _, _, _, _, h6⟩ := Critical.forPreference_spec hw hz hl.sorted simp
      rw [h1] at hA; cases hA
      exact fun l set h => Critical.critical_range (h6 l set h)
  obtain ⟨x, r1, h1, h2⟩ := nextScheduling_total hg hw hz hr hns
    (hl.sorted.imp (fun h => Nat.le_of_lt h)) hl.maxMem (C15_bound_le_max i an simp A hA) hcs late rs
  rw [h] at h1
  cases h1
  obtain ⟨rs', o, r', h3, h4⟩ := h2 rfl
  obtain ⟨o', r'', h5, h6⟩ := solve_total hg hw hz hr (hcs i.maxPref) (late i.maxPref) rs'
  rw [h3] at h5
  cases h5
  rcases h4 with ⟨s, rfl⟩ | rfl | rfl
  · exact .inr ⟨rs', s, r', h3, h6.1⟩
  · refine .inl fun T hT hrange hv => h6 T ⟨hv, hrange, ?_⟩
    exact covers_at_max i hw hz hl hp an simp A hA T hT hv
  · obtain ⟨k, hk⟩ := h6
    rw [hlate] at hk; cases hk

/-- **C04** (full statement for inputs with small minima): if no constraint relates a choice to itself,
and either every minimum is at most 1 (and at most the maximum) or all minima together are at most the
number of choosers, then `next_scheduling` returning false without a time limit means that there is no
feasible scheduling. Missing: inputs with larger minima (false there, see `C04_can_miss`). -/
theorem C04_false_means_none_partial (g : RngOps σ) (hg : g.Lawful) (i : InputData) (hw : WF i)
    (hz : Sizes i) (hr : SearchReady i) (hl : LevelsOk i) (hp : 0 < i.np) (hns : 0 < i.ns)
    (hnc : 0 < i.nc)
    (hself : ∀ k ∈ i.schedCons, (k.kind = .choicesAreNotInSameSlot ∨ k.kind = .choicesHaveOffset) →
      k.right ≠ .choice k.left)
    (hmin : (∀ c ∈ i.choices, c.min ≤ 1 ∧ c.min ≤ c.max) ∨ (i.choices.map (·.min)).sum ≤ i.np)
    (an simp : Bool) (A : Analysis) (hA : Analysis.new i an simp = .ok A) (late : Nat → Nat → Bool)
    (hlate : ∀ l k, late l k = false) (rs r : σ)
    (h : nextScheduling g i A.preferenceBound A.forPreference late rs = .ok (none, r)) :
    ∀ T : Scheduling, T.length = i.nc → (∀ c t, slotAt T c = some t → t < i.ns) → ¬ SchedValid i T := by
  rcases C04_exhausted_means_none_partial g hg i hw hz hr hl hp hns an simp A hA late hlate rs r h with
    h | ⟨rs', s, r', h, _⟩
  · exact h
  · exfalso
    refine solve_never_rejects hg hw hz hr hself hmin hnc ?_ _ rs' s r' h
    cases an with
    | false => simp [Analysis.new] at hA; subst hA; simp [Analysis.forPreference]
    | true =>
      obtain ⟨A', h1, _, _, _, _, h6⟩ := Critical.forPreference_spec hw hz hl.sorted simp
      rw [h1] at hA; cases hA
      exact fun set h => Critical.critical_range (h6 _ set h)

/-- Four choosers, two slots; `A` needs exactly three people, `X` exactly two. -/
def Ex.missInp : InputData where
  choices := [⟨['A'], 3, 3, none, false⟩, ⟨['B'], 1, 2, none, false⟩,
              ⟨['C'], 1, 2, none, false⟩, ⟨['X'], 2, 2, none, false⟩]
  choosers := [⟨['p'], [0, 0, 0, 0]⟩, ⟨['q'], [0, 0, 0, 0]⟩, ⟨['r'], [0, 0, 0, 0]⟩, ⟨['u'], [0, 0, 0, 0]⟩]
  slots := [['s'], ['t']]
  schedCons := []
  asgCons := []
  depGroups := [[0], [1], [2], [3]]
  prefLevels := [0]
  maxPref := 0
  choiceConMap := []
  chooserConMap := []

/-- An engine whose shuffles do nothing. -/
def Ex.idRng : RngOps Nat where
  sample s := (((s * 7 % 1000 : Nat) : Int) - 500, s + 1)
  shuffle s n := (List.range n, s + 1)

theorem Ex.idRng_lawful : Ex.idRng.Lawful where
  sample_range s := by
    show -2147483648 ≤ (((s * 7 % 1000 : Nat) : Int) - 500) ∧
      (((s * 7 % 1000 : Nat) : Int) - 500) ≤ 2147483647
    omega
  shuffle_perm s n := List.Perm.refl _

/-- **C04 fails in general**: a lawful engine for which the search, without any time limit, reports
that there is no scheduling although there is one. -/
theorem C04_can_miss :
    WF Ex.missInp ∧ Sizes Ex.missInp ∧ LevelsOk Ex.missInp ∧ SearchReady Ex.missInp ∧
    Ex.idRng.Lawful ∧
    (∃ A r, Analysis.new Ex.missInp true true = .ok A ∧
      nextScheduling Ex.idRng Ex.missInp A.preferenceBound A.forPreference (fun _ _ => false) 0 =
        .ok (none, r)) ∧
    SchedValid Ex.missInp [some 0, some 0, some 1, some 1] := by
  refine ⟨by decide, by constructor <;> decide, ⟨by decide, by decide⟩, ?_, Ex.idRng_lawful,
    ⟨⟨[], [(0, [])], 0⟩, 5, by decide +kernel, by decide +kernel⟩, ?_⟩
  · constructor
    · intro k hk; cases hk
    · intro k hk; cases hk
    · decide
    · intro c hc k
      have : Ex.missInp.schedConsFor c = [] := rfl
      rw [this]
      simp [Ex.missInp]
  · have h : schedFeasible Ex.missInp [some 0, some 0, some 1, some 1] = .ok true := by decide +kernel
    exact (schedFeasible_spec rfl (by decide) (by decide) (by decide) h).1 rfl

/-- An input for which there is no feasible scheduling (`A` must be in two slots). -/
def Ex.noneInp : InputData where
  choices := [⟨['A'], 1, 2, none, false⟩, ⟨['B'], 1, 2, none, false⟩]
  choosers := [⟨['p'], [0, 0]⟩, ⟨['q'], [0, 0]⟩]
  slots := [['s'], ['t']]
  schedCons := [⟨.choiceIsInSlot, 0, .slot 0, .none⟩, ⟨.choiceIsInSlot, 1, .slot 0, .none⟩]
  asgCons := []
  depGroups := [[0], [1]]
  prefLevels := [0]
  maxPref := 0
  choiceConMap := [(0, [⟨.choiceIsInSlot, 0, .slot 0, .none⟩]), (1, [⟨.choiceIsInSlot, 1, .slot 0, .none⟩])]
  chooserConMap := []

/-- Non-vacuity of `C04_false_means_none_partial`: a run that returns false, so no scheduling exists. -/
example : ∀ T : Scheduling, T.length = 2 → (∀ c t, slotAt T c = some t → t < 2) →
    ¬ SchedValid Ex.noneInp T := by
  have hready : SearchReady Ex.noneInp := by
    constructor
    · intro k hk n hn
      simp only [Ex.noneInp, List.mem_cons, List.not_mem_nil, or_false] at hk
      rcases hk with rfl | rfl <;> simp at hn
    · intro k hk o ho
      simp only [Ex.noneInp, List.mem_cons, List.not_mem_nil, or_false] at hk
      rcases hk with rfl | rfl <;> simp at ho
    · decide
    · intro c hc k
      have hc' : c = 0 ∨ c = 1 := by
        have : c < 2 := hc
        omega
      have hall : ∀ c' ∈ [0, 1], (∀ k ∈ Ex.noneInp.schedConsFor c', k ∈ Ex.noneInp.schedCons ∧ Concerns k c') ∧
          (∀ k ∈ Ex.noneInp.schedCons, Concerns k c' → k ∈ Ex.noneInp.schedConsFor c') := by decide
      have := hall c (by simp; omega)
      exact ⟨this.1 k, fun h => this.2 k h.1 h.2⟩
  exact C04_false_means_none_partial Ex.idRng Ex.idRng_lawful Ex.noneInp (by decide)
    (by constructor <;> decide) hready ⟨by decide, by decide⟩ (by decide) (by decide) (by decide)
    (by decide) (.inl (by decide)) true true ⟨[⟨0, [0, 1]⟩], [(0, [⟨0, [0, 1]⟩])], 0⟩ (by decide +kernel)
    (fun _ _ => false) (fun _ _ => rfl) 0 3 (by decide +kernel)

end Wassign
