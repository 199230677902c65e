import Verif.Proofs.Levels
import Verif.Props.Search
import Verif.Props.Order
/-
C79: the search goes through the preference levels as documented.
-/
namespace Wassign
open Spec Search
variable {σ : Type}

namespace Search

theorem preferenceAfter_next {i : InputData} (hl : LevelsOk i) {limit : Nat} (h : limit < i.maxPref) :
    NextLevel i limit (i.preferenceAfter limit) := by
  have hs := hl.sorted
  have hmem := hl.maxMem
  unfold InputData.preferenceAfter
  cases hf : i.prefLevels.find? (fun l => decide (limit < l)) with
  | none =>
    have := List.find?_eq_none.1 hf i.maxPref hmem
    simp at this; omega
  | some l =>
    have h1 := List.find?_some hf
    simp only [decide_eq_true_eq] at h1
    refine ⟨List.mem_of_find?_eq_some hf, h1, ?_⟩
    intro x hx hlx
    rw [List.find?_eq_some_iff_append] at hf
    obtain ⟨_, as, bs, hab, hbefore⟩ := hf
    rw [hab] at hx hs
    rw [List.mem_append] at hx
    rcases hx with hx | hx
    · have := hbefore _ hx; simp at this; omega
    · rw [List.pairwise_append] at hs
      rcases List.mem_cons.1 hx with rfl | hx
      · exact Nat.le_refl _
      · exact Nat.le_of_lt ((List.pairwise_cons.1 hs.2.1).1 _ hx)

/-- The sets of the analysis have choices that exist, each once. -/
theorem analysis_sets {i : InputData} (hw : WF i) (hz : Sizes i) (hl : LevelsOk i) {an simp : Bool} {A : Analysis}
    (hA : Analysis.new i an simp = .ok A) :
    ∀ l, ∀ set ∈ A.forPreference l, (∀ e ∈ set.data, e < i.nc) ∧ set.data.Nodup := by
  cases an with
  | false =>
    simp [Analysis.new] at hA
    subst hA
    intro l set h
    simp [Analysis.forPreference] at h
  | true =>
    obtain ⟨A', h1, _, _, _, _, h6⟩ := Critical.forPreference_spec hw hz hl.sorted simp
    rw [h1] at hA; cases hA
    intro l set h
    refine ⟨Critical.critical_range (h6 l set h), ?_⟩
    obtain ⟨p, _, _, e, _⟩ := h6 l set h
    rw [e]
    exact List.nodup_range.filter _

theorem limitLoop_levels {g : RngOps σ} (hg : g.Lawful) {i : InputData} (hw : WF i) (hz : Sizes i) (hr : SearchReady i) (hl : LevelsOk i)
    {sets : Nat → List CriticalSet} (hcs : ∀ l, ∀ set ∈ sets l, (∀ e ∈ set.data, e < i.nc) ∧ set.data.Nodup) {late : Nat → Nat → Bool}
    (hnc : 0 < i.nc) (hns : 0 < i.ns) {start : Nat} {up : Nat → Prop}
    (hup : ∀ l, ((∃ k, late l k = true) ∨ NoneCovers i (sets l) ∨ (∃ rs s r, solve g i (sets l) (late l) rs = .ok (.rejected s, r))) → up l) :
    ∀ (fuel limit : Nat) (rs : σ) (slots : List (List Nat)) (r : σ), limit ≤ i.maxPref → Raised i up start limit →
      limitLoop g i sets late fuel limit rs = .ok (some slots, r) →
      ∃ s l order, toScheduling i slots = .ok s ∧ Raised i up start l ∧ HandlingOrder i order ∧
        ∀ set ∈ sets l, CoversSlots i s set.data ∨
          ∃ last t, order.getLast? = some last ∧ last ∈ set.data ∧ t < i.ns ∧ CoversBut i s set.data t := by
  intro fuel
  induction fuel with
  | zero => intro limit rs slots r _ _ h; simp [limitLoop, panic'] at h
  | succ fuel ih =>
    intro limit rs slots r hle hra h
    unfold limitLoop at h
    simp only [R.bind_eq_ok] at h
    obtain ⟨o, ho, h⟩ := h
    obtain ⟨o', r', h1, h2⟩ := solve_total hg hw hz hr (fun set h => (hcs limit set h).1) (late limit) rs
    rw [ho] at h1
    cases h1
    by_cases he : o'.slots.isEmpty = false
    · rw [if_pos he] at h
      cases h
      cases o' with
      | found res =>
        have hp := choiceScramble_perm hg rs i
        have hlen : (choiceScramble g rs i).1.length = i.nc := by simpa using hp.length_eq
        have hne : (choiceScramble g rs i).1 ≠ [] := by
          intro h0; rw [h0] at hlen; simp at hlen; omega
        obtain ⟨s, hs1, hs2⟩ := solve_covers hg hw hz hr (fun set h => (hcs limit set h).1) (fun set h => (hcs limit set h).2)
          (List.getLast?_eq_some_getLast hne) ho
        refine ⟨s, limit, (choiceScramble g rs i).1, hs1, hra, ⟨hp, (C71_most_constrained_first g hg i rs).2⟩, ?_⟩
        intro set hset
        rcases hs2 set hset with h | ⟨h, t, ht, hb⟩
        · exact .inl h
        · exact .inr ⟨_, t, List.getLast?_eq_some_getLast hne, h, ht, hb⟩
      | rejected s => simp [Outcome.slots] at he
      | exhausted => simp [Outcome.slots] at he
      | timeout => simp [Outcome.slots] at he
    · rw [if_neg he] at h
      by_cases hm : limit = i.maxPref
      · rw [if_pos hm] at h; cases h
      · rw [if_neg hm] at h
        have hlt : limit < i.maxPref := Nat.lt_of_le_of_ne hle hm
        have hnext := preferenceAfter_next hl hlt
        refine ih _ _ _ _ (hnext.2.2 _ hl.maxMem hlt) (.next hra (hup limit ?_) hnext) h
        cases o' with
        | found res =>
          obtain ⟨s, _, hlen, _⟩ := h2
          exfalso
          apply he
          cases res with
          | nil => simp at hlen; omega
          | cons _ _ => rfl
        | rejected s => exact .inr (.inr ⟨rs, s, _, ho⟩)
        | exhausted =>
          refine .inr (.inl fun t hsh hv => ?_)
          by_contra hno
          refine h2 t ⟨hv, hsh.range, fun set hset => ?_⟩
          by_contra hnc
          exact hno ⟨set, hset, hnc⟩
        | timeout => exact .inl h2

end Search

/-- **C79**: a search starts at the preference bound (or, for one draw in ten, at the greatest preference) and goes up level by level; a
level is given up only if the time limit struck, if no scheduling satisfies the rules and all critical sets of that level, or if a complete
candidate was thrown away by the final check (see `C04_can_miss`). The scheduling found at a level satisfies every critical set of
that level that does not contain the choice decided on last, and the others at least in all slots but one. Missing: the critical sets that contain
this choice are not all satisfied (`C79_last_choice_unchecked`). -/
theorem C79_levels_partial (g : RngOps σ) (hg : g.Lawful) (i : InputData) (hw : WF i) (hz : Sizes i) (hr : SearchReady i) (hl : LevelsOk i)
    (hns : 0 < i.ns) (hnc : 0 < i.nc) (an simp : Bool) (A : Analysis) (hA : Analysis.new i an simp = .ok A)
    (late : Nat → Nat → Bool) (rs r : σ) (s : Scheduling)
    (h : nextScheduling g i A.preferenceBound A.forPreference late rs = .ok (some s, r)) :
    ∃ draw rs1 l order, nextInRange g rs 0 10 = .ok (draw, rs1) ∧
      Raised i (fun l => (∃ k, late l k = true) ∨ NoneCovers i (A.forPreference l) ∨
          ∃ rs' s' r', solve g i (A.forPreference l) (late l) rs' = .ok (.rejected s', r') ∧ ¬ SchedValid i s')
        (if draw = 0 then i.maxPref else A.preferenceBound) l ∧
      HandlingOrder i order ∧
      ∀ set ∈ A.forPreference l, CoversSlots i s set.data ∨
        ∃ last t, order.getLast? = some last ∧ last ∈ set.data ∧ t < i.ns ∧ CoversBut i s set.data t := by
  have hsets := analysis_sets hw hz hl hA
  unfold nextScheduling at h
  simp only [R.bind_eq_ok] at h
  obtain ⟨⟨draw, rs1⟩, hdraw, res, hres, h⟩ := h
  obtain ⟨slots?, r'⟩ := res
  cases slots? with
  | none => cases h
  | some slots =>
    simp only [R.bind_eq_ok] at h
    obtain ⟨d, hd, sch, hsch, h⟩ := h
    have hle : (if draw = 0 then i.maxPref else A.preferenceBound) ≤ i.maxPref := by
      split
      · exact Nat.le_refl _
      · exact C15_bound_le_max i an simp A hA
    obtain ⟨s', l, order, h1, h2, h3, h4⟩ := limitLoop_levels hg hw hz hr hl hsets hnc hns
      (up := fun l => (∃ k, late l k = true) ∨ NoneCovers i (A.forPreference l) ∨
          ∃ rs' s' r', solve g i (A.forPreference l) (late l) rs' = .ok (.rejected s', r') ∧ ¬ SchedValid i s') (by
        rintro l (h | h | ⟨rs', s', r', h⟩)
        · exact .inl h
        · exact .inr (.inl h)
        · refine .inr (.inr ⟨rs', s', r', h, ?_⟩)
          obtain ⟨o, r'', h5, h6⟩ := solve_total hg hw hz hr (fun set hs => (hsets l set hs).1) (late l) rs'
          rw [h] at h5
          cases h5
          exact h6.1) _ _ _ _ _ hle .start hres
    obtain ⟨s'', h5, h6, _⟩ := limitLoop_found _ _ _ _ _ hres
    rw [h1] at hd h5
    cases hd
    cases h5
    unfold Scheduling.withData at hsch
    rw [if_pos h6] at hsch
    cases hsch
    cases h
    exact ⟨draw, rs1, l, order, hdraw, h2, h3, h4⟩

theorem Spec.Raised.between {i : InputData} {up : Nat → Prop} {a l : Nat} (h : Raised i up a l) :
    a ≤ l ∧ ∀ q ∈ i.prefLevels, a ≤ q → q < l → up q := by
  induction h with
  | start => exact ⟨Nat.le_refl _, fun q _ h1 h2 => absurd h2 (by omega)⟩
  | @next m m' h hup hn ih =>
    refine ⟨by have := hn.2.1; omega, fun q hq h1 h2 => ?_⟩
    rcases Nat.lt_trichotomy q m with hlt | rfl | hgt
    · exact ih.2 q hq h1 hlt
    · exact hup
    · exact absurd (hn.2.2 q hq hgt) (by omega)

/-- **C79**: if the search starts at the preference bound and no time limit strikes, the level at which it finds a scheduling is
justified: no scheduling within the rules has an assignment in which everybody gets something of a lower level (from the bound on). (Under the
conditions under which the final check never throws anything away.) -/
theorem C79_level_justified (g : RngOps σ) (hg : g.Lawful) (i : InputData) (hw : WF i) (hz : Sizes i) (hr : SearchReady i) (hl : LevelsOk i)
    (hns : 0 < i.ns) (hnc : 0 < i.nc)
    (hself : ∀ k ∈ i.schedCons, (k.kind = .choicesAreNotInSameSlot ∨ k.kind = .choicesHaveOffset) → k.right ≠ .choice k.left)
    (hmin : (∀ c ∈ i.choices, c.min ≤ 1 ∧ c.min ≤ c.max) ∨ (i.choices.map (·.min)).sum ≤ i.np)
    (an simp : Bool) (A : Analysis) (hA : Analysis.new i an simp = .ok A)
    (late : Nat → Nat → Bool) (hlate : ∀ l k, late l k = false) (rs rs1 r : σ) (draw : Int) (hdraw : nextInRange g rs 0 10 = .ok (draw, rs1))
    (hne : draw ≠ 0) (s : Scheduling)
    (h : nextScheduling g i A.preferenceBound A.forPreference late rs = .ok (some s, r)) :
    ∃ l order, A.preferenceBound ≤ l ∧ HandlingOrder i order ∧
      (∀ set ∈ A.forPreference l, CoversSlots i s set.data ∨
        ∃ last t, order.getLast? = some last ∧ last ∈ set.data ∧ t < i.ns ∧ CoversBut i s set.data t) ∧
      ∀ q ∈ i.prefLevels, A.preferenceBound ≤ q → q < l → ∀ t a, SchedShape i t → SchedValid i t → Shape i t a → OnePerSlot i t a →
        ¬ WorstAtMost i a q := by
  obtain ⟨draw', rs1', l, order, h1, h2, h3, h4⟩ := C79_levels_partial g hg i hw hz hr hl hns hnc an simp A hA late rs r s h
  rw [hdraw] at h1
  cases h1
  rw [if_neg hne] at h2
  refine ⟨l, order, h2.between.1, h3, h4, ?_⟩
  intro q hq hbq hql t a hsh hv hsha hone hwst
  rcases h2.between.2 q hq hbq hql with ⟨k, hk⟩ | hn | ⟨rs', s', r', hrej, _⟩
  · rw [hlate] at hk; cases hk
  · obtain ⟨set, hset, hnot⟩ := hn t hsh hv
    exact hnot (C13_good_schedulings_cover i hw hz hl an simp A hA t a hsha hone q hq hwst set hset)
  · exact solve_never_rejects hg hw hz hr hself hmin hnc (fun set hs => (analysis_sets hw hz hl hA q set hs).1) _ rs' s' r' hrej

/-! ### The last decision -/

/-- Three choosers, two slots; two of the choosers dislike the first choice. -/
def Ex.lastInp : InputData where
  choices := [⟨['C'], 1, 3, none, false⟩, ⟨['A'], 1, 2, none, false⟩, ⟨['B'], 1, 3, none, false⟩]
  choosers := [⟨['p'], [1, 0, 0]⟩, ⟨['q'], [1, 0, 0]⟩, ⟨['r'], [0, 0, 0]⟩]
  slots := [['s'], ['t']]
  schedCons := []
  asgCons := []
  depGroups := [[0], [1], [2]]
  prefLevels := [0, 1]
  maxPref := 1
  choiceConMap := []
  chooserConMap := []

theorem Ex.lastInp_ready : SearchReady Ex.lastInp := by
  constructor
  · intro k hk; cases hk
  · intro k hk; cases hk
  · decide
  · intro c hc k
    have : Ex.lastInp.schedConsFor c = [] := rfl
    rw [this]
    simp [Ex.lastInp]

/-- **C79 fails in general**: a search that starts at the preference bound 0, without any time limit, returns at that level a scheduling that
does not satisfy a critical set of the level, because nothing tests the critical sets after the last decision, although there is a scheduling
that satisfies all of them and even has a valid assignment in which everybody gets nothing but 0; with the scheduling returned, somebody has
to take something worse. -/
theorem C79_last_choice_unchecked :
    WF Ex.lastInp ∧ Sizes Ex.lastInp ∧ LevelsOk Ex.lastInp ∧ SearchReady Ex.lastInp ∧ Ex.idRng.Lawful ∧
    ∃ A r s, Analysis.new Ex.lastInp true true = .ok A ∧ A.preferenceBound = 0 ∧ nextInRange Ex.idRng 1 0 10 = .ok (7, 2) ∧
      (∃ slots, solve Ex.idRng Ex.lastInp (A.forPreference 0) (fun _ => false) 2 = .ok (.found slots, r) ∧
        toScheduling Ex.lastInp slots = .ok s) ∧
      nextScheduling Ex.idRng Ex.lastInp A.preferenceBound A.forPreference (fun _ _ => false) 1 = .ok (some s, r) ∧
      (∃ set ∈ A.forPreference 0, ¬ CoversSlots Ex.lastInp s set.data) ∧
      ∃ t a, SchedShape Ex.lastInp t ∧ SchedValid Ex.lastInp t ∧ Spec.Shape Ex.lastInp t a ∧ Valid Ex.lastInp t a ∧ WorstAtMost Ex.lastInp a 0 := by
  refine ⟨by decide, by constructor <;> decide, ⟨by decide, by decide⟩, Ex.lastInp_ready, Ex.idRng_lawful,
    ⟨[⟨1, [0, 1, 2]⟩, ⟨0, [1, 2]⟩], [(0, [⟨0, [1, 2]⟩]), (1, [⟨1, [0, 1, 2]⟩])], 0⟩, 5, [some 0, some 1, some 1],
    by decide +kernel, rfl, by decide +kernel, ⟨[[0], [1, 2]], by decide +kernel, by decide +kernel⟩, by decide +kernel,
    ⟨⟨0, [1, 2]⟩, by decide, ?_⟩, [some 0, some 0, some 1], [[1, 2], [1, 2], [0, 2]], ⟨rfl, ?_⟩, ?_, ⟨rfl, rfl, by decide⟩, ?_, ?_⟩
  · intro h
    obtain ⟨c, hc, hs⟩ := h 0 (by decide)
    rcases List.mem_cons.1 hc with rfl | hc
    · cases hs
    · rw [List.mem_singleton.1 hc] at hs; cases hs
  · intro c t h
    match c, h with
    | 0, h => cases h; decide
    | 1, h => cases h; decide
    | 2, h => cases h; decide
    | c + 3, h => simp [slotAt] at h
  · exact (schedFeasible_spec (b := true) (i := Ex.lastInp) rfl (by decide) (by decide) (fun k hk => by cases hk) (by decide +kernel)).1 rfl
  · have hok : Scoring.isFeasible Ex.lastInp (.complete [some 0, some 0, some 1] [[1, 2], [1, 2], [0, 2]]) = .ok true := by
      decide +kernel
    exact (isFeasibleC_spec ⟨rfl, rfl, by decide⟩ (by decide) (by decide) hok).1 rfl
  · intro p c x hp hat hx
    have hp' : p = 0 ∨ p = 1 ∨ p = 2 := by
      have : p < 3 := hp
      omega
    rw [← attendsB_iff] at hat
    rcases hp' with rfl | rfl | rfl <;> simp [attendsB] at hat <;> rcases hat with rfl | rfl <;> simp [pref, Ex.lastInp] at hx <;> omega

/-- Non-vacuity of `C79_levels_partial` and `C79_level_justified`: their hypotheses hold for this run. -/
example : ∃ l order, 0 ≤ l ∧ HandlingOrder Ex.lastInp order ∧
    ∀ q ∈ Ex.lastInp.prefLevels, 0 ≤ q → q < l → ∀ t a, SchedShape Ex.lastInp t → SchedValid Ex.lastInp t → Spec.Shape Ex.lastInp t a →
      OnePerSlot Ex.lastInp t a → ¬ WorstAtMost Ex.lastInp a q := by
  obtain ⟨hw, hz, hl, hr, hg, A, r, s, hA, hb, hd, _, hn, _⟩ := C79_last_choice_unchecked
  obtain ⟨l, order, h1, h2, _, h4⟩ := C79_level_justified Ex.idRng hg Ex.lastInp hw hz hr hl (by decide) (by decide) (fun k hk => by cases hk)
    (.inl (by decide)) true true A hA (fun _ _ => false) (fun _ _ => rfl) 1 2 r 7 hd (by decide) s hn
  rw [hb] at h1 h4
  exact ⟨l, order, h1, h2, h4⟩

end Wassign
