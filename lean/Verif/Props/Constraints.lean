import Mathlib.Tactic.Tauto
import Verif.Proofs.Reduce
import Verif.Examples
import Mathlib.Data.List.Perm.Subperm
/-
Property theorems C27, C28 (constraint preprocessing), C45 (dependency groups), C51 (negation).
-/
namespace Wassign
open Spec

/-! ### C45 -/

/-- **C45**: whenever the same-chooser constraints mention existing choices (and their number fits the
code's index type), the groups computed from them are a partition of the choices in which two choices
share a group iff they are connected by same-chooser constraints. -/
theorem C45_groups_are_the_closure (cons : List Constraint) (n : Nat) (hn : n ≤ i32Max)
    (hw : ∀ c ∈ cons, c.kind = .choicesHaveSameChoosers → ∃ y, c.right = .choice y ∧ c.left < n ∧ y < n) :
    ∃ groups, getDependentChoices cons n = .ok groups ∧ Partition n groups ∧
      ∀ a b, a < n → b < n → ((∃ g ∈ groups, a ∈ g ∧ b ∈ g) ↔ Connected (SameLink cons) a b) := by
  obtain ⟨gs, h1, h2, _, h3⟩ := getDependentChoices_spec hn hw
  exact ⟨gs, h1, h2, h3⟩

/-- Non-vacuity: six choices, two chains that meet. -/
example : getDependentChoices [⟨.choicesHaveSameChoosers, 4, .choice 1, .none⟩,
    ⟨.choiceIsInSlot, 0, .slot 9, .none⟩, ⟨.choicesHaveSameChoosers, 3, .choice 2, .none⟩,
    ⟨.choicesHaveSameChoosers, 1, .choice 3, .none⟩] 6 = .ok [[0], [1, 2, 3, 4], [5]] := by decide +kernel

/-! ### C27 -/

/-- **C27**, the half that keeps users safe: for every list of well-formed written constraints,
preprocessing succeeds, its result is in solver form, and every solution of the result satisfies every
written constraint unless the problem is reported as unsatisfiable. -/
theorem C27_written_constraints_enforced (i : InputData) (hn : i.nc ≤ i32Max) (L : List Constraint)
    (hw : ∀ c ∈ L, WrittenWF i c) :
    ∃ res inf, reduceAndOptimize L i.nc = .ok (res, inf) ∧ (∀ c ∈ res, SchedConWF i c ∨ AsgConWF i c) ∧
      (inf = false → ∀ s a, (∀ c ∈ res, Holds i s a c) → ∀ c ∈ L, Holds i s a c) := by
  obtain ⟨red, res, inf, h1, h2, _, h4, h5⟩ := reduceAndOptimize_spec hn hw
  refine ⟨res, inf, h1, fun c hc => derived_wf h2.wf ((h4 c).1 hc), ?_⟩
  intro hinf s a hres c hc
  by_cases hk : c.kind = .slotsHaveSameChoices
  · have hnot : ¬ ∃ c ∈ L, c.kind = .slotsHaveSameChoices ∧ c.right ≠ .slot c.left := by
      rw [← h5, hinf]; simp
    have : c.right = .slot c.left := by
      by_contra hne; exact hnot ⟨c, hc, hk, hne⟩
    left
    unfold SchedHolds
    rw [hk, this]
    intro x; exact Iff.rfl
  · obtain ⟨c', hc', hiff⟩ := h2.kept c hc hk
    exact (hiff s a).1 (hres c' ((h4 c').2 (.given hc')))

/-- **C27**: reporting "not satisfiable" is correct: no solution in which the choosers attend one choice
per slot satisfies the written constraints. -/
theorem C27_infeasible_is_unsatisfiable (i : InputData) (hn : i.nc ≤ i32Max) (L : List Constraint)
    (hw : ∀ c ∈ L, WrittenWF i c) (res : List Constraint)
    (h : reduceAndOptimize L i.nc = .ok (res, true)) (hp : 0 < i.np) (s : Scheduling) (a : Assignment)
    (hone : OnePerSlot i s a) : ¬ ∀ c ∈ L, Holds i s a c := by
  obtain ⟨red, res', inf, h1, _, _, _, h5⟩ := reduceAndOptimize_spec hn hw
  rw [h] at h1
  cases h1
  obtain ⟨c, hc, hk, hne⟩ := h5.1 rfl
  intro hall
  have hwc := hw c hc
  have hh := hall c hc
  unfold WrittenWF at hwc
  rw [hk] at hwc
  cases hr : c.right with
  | slot t =>
    rw [hr] at hwc
    simp only at hwc
    rcases hh with hh | hh
    · unfold SchedHolds at hh
      rw [hk, hr] at hh
      simp only at hh
      obtain ⟨x, ⟨_, hx⟩, _⟩ := hone 0 hp c.left hwc.1
      have := (hh x).1 hx
      rw [hx] at this
      cases this
      exact hne hr
    · unfold AsgHolds at hh; rw [hk] at hh; simp at hh
  | none => rw [hr] at hwc; simp at hwc
  | choice _ => rw [hr] at hwc; simp at hwc
  | chooser _ => rw [hr] at hwc; simp at hwc
  | limit _ => rw [hr] at hwc; simp at hwc

/-- **C27**, partial: nothing else is forbidden among the solutions in which every choice takes place and
has a participant, if no (chooser, choice) membership is demanded twice. Missing: solutions that leave
out an optional choice or hold a choice without participants, and repeated demands; there the claim is
false (`C27_forbids_too_much`, `C28_repetition_changes_meaning`). -/
theorem C27_nothing_else_forbidden_partial (i : InputData) (hn : i.nc ≤ i32Max) (L : List Constraint)
    (hw : ∀ c ∈ L, WrittenWF i c) (hd : (L.filterMap demand?).Nodup) (res : List Constraint) (inf : Bool)
    (h : reduceAndOptimize L i.nc = .ok (res, inf)) (s : Scheduling) (a : Assignment)
    (hp : Populated i s a) (hL : ∀ c ∈ L, Holds i s a c) : ∀ c ∈ res, Holds i s a c := by
  obtain ⟨red, res', inf', h1, h2, _, h4, _⟩ := reduceAndOptimize_spec hn hw
  rw [h] at h1
  cases h1
  intro c hc
  refine derived_holds h2.wf hp (by rw [h2.demands]; exact hd) ?_ ((h4 c).1 hc)
  intro c' hc'
  obtain ⟨d, hd', _, hiff⟩ := h2.source c' hc'
  exact (hiff s a).2 (hL d hd')

namespace Ex

/-- Three choices, two of them linked, two slots, two choosers. -/
def small : InputData where
  choices := [⟨['A'], 1, 2, none, true⟩, ⟨['B'], 1, 2, none, false⟩, ⟨['C'], 1, 2, none, false⟩]
  choosers := [⟨['p'], [0, 0, 0]⟩, ⟨['q'], [0, 0, 0]⟩]
  slots := [['s'], ['t']]
  schedCons := []
  asgCons := []
  depGroups := []
  prefLevels := [0]
  maxPref := 0
  choiceConMap := []
  chooserConMap := []

/-- `A.choosers == B.choosers`, `!A.choosers.contains(p)`, `C.choosers.contains(q)`. -/
def smallCons : List Constraint :=
  [⟨.choicesHaveSameChoosers, 0, .choice 1, .none⟩, ⟨.choiceNotContainsChooser, 0, .chooser 0, .none⟩,
   ⟨.choiceContainsChooser, 2, .chooser 1, .none⟩]

theorem smallCons_wf : ∀ c ∈ smallCons, WrittenWF small c := by decide

theorem smallCons_reduced : reduceAndOptimize smallCons small.nc = .ok
    ([⟨.choicesAreNotInSameSlot, 0, .choice 1, .none⟩, ⟨.choicesHaveSameChoosers, 0, .choice 1, .none⟩,
      ⟨.chooserIsInChoice, 1, .choice 2, .none⟩, ⟨.chooserIsNotInChoice, 0, .choice 0, .none⟩,
      ⟨.chooserIsNotInChoice, 0, .choice 1, .none⟩], false) := by decide +kernel

end Ex

/-- **C27** fails in full: with the optional choice A left out, a solution that satisfies the three
written constraints (and every other rule of C01) is rejected, because `A` not containing `p` was copied to `B`. -/
theorem C27_forbids_too_much :
    ∃ (i : InputData) (L res : List Constraint) (s : Scheduling) (a : Assignment),
      (∀ c ∈ L, WrittenWF i c) ∧ reduceAndOptimize L i.nc = .ok (res, false) ∧
      OnePerSlot i s a ∧ OnlyScheduled i s a ∧ WithinBounds i s a ∧
      (∀ c ∈ L, Holds i s a c) ∧ ¬ ∀ c ∈ res, Holds i s a c := by
  refine ⟨Ex.small, Ex.smallCons, _, [none, some 0, some 1], [[1, 2], [1, 2]], Ex.smallCons_wf,
    Ex.smallCons_reduced, ?_, ?_, ?_, ?_, ?_⟩
  · intro p hp t ht
    have hp' : p = 0 ∨ p = 1 := by have : p < 2 := hp; omega
    have ht' : t = 0 ∨ t = 1 := by have : t < 2 := ht; omega
    have hat : ∀ c, Attends [[1, 2], [1, 2]] p c ↔ c = 1 ∨ c = 2 := by
      intro c
      rw [← attendsB_iff]
      rcases hp' with rfl | rfl <;> simp [attendsB]
    rcases ht' with rfl | rfl
    · refine ⟨1, ⟨(hat 1).2 (.inl rfl), rfl⟩, ?_⟩
      intro c' h1 h2
      rcases (hat c').1 h1 with rfl | rfl
      · rfl
      · simp [slotAt] at h2
    · refine ⟨2, ⟨(hat 2).2 (.inr rfl), rfl⟩, ?_⟩
      intro c' h1 h2
      rcases (hat c').1 h1 with rfl | rfl
      · simp [slotAt] at h2
      · rfl
  · intro p hp c hc
    have hp' : p = 0 ∨ p = 1 := by have : p < 2 := hp; omega
    rw [← attendsB_iff] at hc
    have : c = 1 ∨ c = 2 := by
      rcases hp' with rfl | rfl <;> simpa [attendsB] using hc
    rcases this with rfl | rfl
    · exact ⟨0, by decide, rfl⟩
    · exact ⟨1, by decide, rfl⟩
  · intro c hc _
    have : c = 0 ∨ c = 1 ∨ c = 2 := by have : c < 3 := hc; omega
    rcases this with rfl | rfl | rfl
    · rename_i h; exact absurd rfl h
    · show 1 ≤ participants Ex.small [[1, 2], [1, 2]] 1 ∧ participants Ex.small [[1, 2], [1, 2]] 1 ≤ 2
      decide
    · show 1 ≤ participants Ex.small [[1, 2], [1, 2]] 2 ∧ participants Ex.small [[1, 2], [1, 2]] 2 ≤ 2
      decide
  · intro c hc
    right
    simp only [Ex.smallCons, List.mem_cons, List.not_mem_nil, or_false] at hc
    rcases hc with rfl | rfl | rfl
    · intro h; exact absurd rfl h
    · show ¬ Attends _ _ _
      rw [← attendsB_iff]; decide
    · intro _
      rw [← attendsB_iff]; decide
  · intro h
    have h5 := h ⟨.chooserIsNotInChoice, 0, .choice 1, .none⟩ (by simp)
    rcases h5 with h5 | h5
    · exact h5
    · have : ¬ Attends [[1, 2], [1, 2]] 0 1 := h5
      rw [← attendsB_iff] at this
      exact this (by decide)

namespace Ex

/-- Constraints for the example input: A and B have the same choosers, p in A, q not in B, slot s holds A. -/
def inpCons : List Constraint :=
  [⟨.choicesHaveSameChoosers, 0, .choice 1, .none⟩, ⟨.choiceContainsChooser, 0, .chooser 0, .none⟩,
   ⟨.chooserIsNotInChoice, 1, .choice 1, .none⟩, ⟨.slotContainsChoice, 0, .choice 0, .none⟩]

end Ex

/-- Non-vacuity of the partial theorem: a populated solution that satisfies the written constraints. -/
example : (∀ c ∈ Ex.inpCons, WrittenWF Ex.inp c) ∧ (Ex.inpCons.filterMap demand?).Nodup ∧
    (∃ res, reduceAndOptimize Ex.inpCons Ex.inp.nc = .ok (res, false) ∧ res.length = 7) ∧
    Populated Ex.inp [some 0, some 1, some 0, some 1] [[0, 1], [2, 3], [2, 3]] ∧
    ∀ c ∈ Ex.inpCons, Holds Ex.inp [some 0, some 1, some 0, some 1] [[0, 1], [2, 3], [2, 3]] c := by
  refine ⟨by decide, by decide, ⟨_, rfl, by decide +kernel⟩, ⟨?_, ?_, ?_⟩, ?_⟩
  · intro p hp t ht
    have hp' : p = 0 ∨ p = 1 ∨ p = 2 := by have : p < 3 := hp; omega
    have ht' : t = 0 ∨ t = 1 := by have : t < 2 := ht; omega
    have key : ∀ c, Attends [[0, 1], [2, 3], [2, 3]] p c → c < 4 ∧ attendsB [[0, 1], [2, 3], [2, 3]] p c = true := by
      intro c hc
      rw [← attendsB_iff] at hc
      refine ⟨?_, hc⟩
      rcases hp' with rfl | rfl | rfl <;> simp [attendsB] at hc <;> omega
    have fin : ∃ c < 4, (attendsB [[0, 1], [2, 3], [2, 3]] p c = true ∧
        slotAt [some 0, some 1, some 0, some 1] c = some t) ∧
        ∀ c' < 4, attendsB [[0, 1], [2, 3], [2, 3]] p c' = true →
          slotAt [some 0, some 1, some 0, some 1] c' = some t → c' = c := by
      rcases hp' with rfl | rfl | rfl <;> rcases ht' with rfl | rfl <;> decide
    obtain ⟨c, _, ⟨h1, h2⟩, h3⟩ := fin
    exact ⟨c, ⟨(attendsB_iff _ _ _).1 h1, h2⟩, fun c' h4 h5 => h3 c' (key c' h4).1 (key c' h4).2 h5⟩
  · decide
  · intro c hc
    have : ∀ c < 4, ∃ p < 3, attendsB [[0, 1], [2, 3], [2, 3]] p c = true := by decide
    obtain ⟨p, h1, h2⟩ := this c hc
    exact ⟨p, h1, (attendsB_iff _ _ _).1 h2⟩
  · intro c hc
    simp only [Ex.inpCons, List.mem_cons, List.not_mem_nil, or_false] at hc
    rcases hc with rfl | rfl | rfl | rfl
    · right
      intro _ _ p
      rw [← attendsB_iff, ← attendsB_iff]
      rcases p with _ | _ | _ | p <;> simp [attendsB]
    · right
      intro _
      rw [← attendsB_iff]; decide
    · right
      show ¬ Attends _ _ _
      rw [← attendsB_iff]; decide
    · left; rfl

/-! ### C28 -/

/-- Solutions accepted by a constraint list. -/
def Accepts (i : InputData) (L : List Constraint) (s : Scheduling) (a : Assignment) : Prop :=
  ∀ c ∈ L, Holds i s a c

theorem pair_sublist_or {α : Type} {l : List α} {a b : α} (hne : a ≠ b) (ha : a ∈ l) (hb : b ∈ l) :
    [a, b].Sublist l ∨ [b, a].Sublist l := by
  induction l with
  | nil => cases ha
  | cons z zs ih =>
    rcases List.mem_cons.1 ha with haz | ha'
    · subst haz
      rcases List.mem_cons.1 hb with hbz | hb'
      · exact absurd hbz.symm hne
      · exact .inl ((List.singleton_sublist.2 hb').cons_cons _)
    · rcases List.mem_cons.1 hb with hbz | hb'
      · subst hbz
        exact .inr ((List.singleton_sublist.2 ha').cons_cons _)
      · rcases ih ha' hb' with h | h
        · exact .inl (h.cons _)
        · exact .inr (h.cons _)

/-- Two normalised lists with the same members and the same demanded pairs accept the same solutions. -/
theorem accepts_of_same {i : InputData} {L L' red red' res res' : List Constraint}
    (h2 : Reduced i L red) (h2' : Reduced i L' red')
    (h4 : ∀ c, c ∈ res ↔ Derived i.nc red c) (h4' : ∀ c, c ∈ res' ↔ Derived i.nc red' c)
    (hmem : ∀ c, c ∈ L ↔ c ∈ L')
    (hpair : ∀ a b, [a, b].Sublist (L'.filterMap demand?) →
      [a, b].Sublist (L.filterMap demand?) ∨ [b, a].Sublist (L.filterMap demand?))
    (s : Scheduling) (a : Assignment) (hacc : Accepts i res s a) : Accepts i res' s a := by
  have hred : ∀ c, c ∈ red' → c ∈ red := by
    intro c hc
    obtain ⟨d, hd, hr, _⟩ := h2'.source c hc
    exact h2.image d ((hmem d).2 hd) c hr
  have hlink : ∀ x y, SameLink red' x y → SameLink red x y := by
    rintro x y ⟨c, hc, h⟩; exact ⟨c, hred c hc, h⟩
  intro c hc
  cases (h4' c).1 hc with
  | given h => exact hacc c ((h4 c).2 (.given (hred c h)))
  | sepDep hxy hyn hcon => exact hacc _ ((h4 _).2 (.sepDep hxy hyn (hcon.mono hlink)))
  | sepMand hs =>
    rename_i p x y
    rw [h2'.demands] at hs
    rcases hpair _ _ hs with h | h
    · rw [← h2.demands] at h
      exact hacc _ ((h4 _).2 (.sepMand h))
    · rw [← h2.demands] at h
      have := hacc _ ((h4 _).2 (.sepMand h))
      rcases this with h' | h'
      · left
        have h'' : ∀ t, ¬ (slotAt s y = some t ∧ slotAt s x = some t) := h'
        show ∀ t, ¬ (slotAt s x = some t ∧ slotAt s y = some t)
        exact fun t ht => h'' t ⟨ht.2, ht.1⟩
      · exact h'.elim
  | copy hc' hk hy hne hxn hcon => exact hacc _ ((h4 _).2 (.copy (hred _ hc') hk hy hne hxn (hcon.mono hlink)))

/-- **C28**, order: reordering the written constraints neither changes whether they are reported
unsatisfiable nor which solutions are accepted. -/
theorem C28_order_does_not_matter (i : InputData) (hn : i.nc ≤ i32Max) (L L' : List Constraint)
    (hw : ∀ c ∈ L, WrittenWF i c) (hperm : L.Perm L') :
    ∃ res res' inf, reduceAndOptimize L i.nc = .ok (res, inf) ∧ reduceAndOptimize L' i.nc = .ok (res', inf) ∧
      ∀ s a, Accepts i res s a ↔ Accepts i res' s a := by
  have hw' : ∀ c ∈ L', WrittenWF i c := fun c hc => hw c (hperm.mem_iff.2 hc)
  obtain ⟨red, res, inf, h1, h2, _, h4, h5⟩ := reduceAndOptimize_spec hn hw
  obtain ⟨red', res', inf', h1', h2', _, h4', h5'⟩ := reduceAndOptimize_spec hn hw'
  have hinf : inf = inf' := by
    rw [Bool.eq_iff_iff, h5, h5']
    constructor
    · rintro ⟨c, hc, h⟩; exact ⟨c, hperm.mem_iff.1 hc, h⟩
    · rintro ⟨c, hc, h⟩; exact ⟨c, hperm.mem_iff.2 hc, h⟩
  subst hinf
  have hpair : ∀ {A B : List Constraint}, A.Perm B → ∀ a b, [a, b].Sublist (B.filterMap demand?) →
      [a, b].Sublist (A.filterMap demand?) ∨ [b, a].Sublist (A.filterMap demand?) := by
    intro A B hAB a b hs
    have hp := hAB.filterMap demand?
    by_cases hab : a = b
    · subst hab
      left
      have h2 : 2 ≤ (B.filterMap demand?).count a := List.replicate_sublist_iff.1 hs
      rw [← hp.count_eq a] at h2
      exact List.replicate_sublist_iff.2 h2
    · exact pair_sublist_or hab (hp.mem_iff.2 (hs.subset (by simp))) (hp.mem_iff.2 (hs.subset (by simp)))
  refine ⟨res, res', inf, h1, h1', fun s a => ⟨?_, ?_⟩⟩
  · exact accepts_of_same h2 h2' h4 h4' (fun c => hperm.mem_iff) (hpair hperm) s a
  · exact accepts_of_same h2' h2 h4' h4 (fun c => hperm.symm.mem_iff) (hpair hperm.symm) s a

/-- **C28**, repetition, partial: two lists with the same members accept the same solutions as long as
neither demands a (chooser, choice) membership more than once. Missing: repeated membership demands,
for which the claim is false (`C28_repetition_changes_meaning`). -/
theorem C28_repetition_does_not_matter_partial (i : InputData) (hn : i.nc ≤ i32Max) (L L' : List Constraint)
    (hw : ∀ c ∈ L, WrittenWF i c) (hmem : ∀ c, c ∈ L ↔ c ∈ L')
    (hd : (L.filterMap demand?).Nodup) (hd' : (L'.filterMap demand?).Nodup) :
    ∃ res res' inf, reduceAndOptimize L i.nc = .ok (res, inf) ∧ reduceAndOptimize L' i.nc = .ok (res', inf) ∧
      ∀ s a, Accepts i res s a ↔ Accepts i res' s a := by
  have hw' : ∀ c ∈ L', WrittenWF i c := fun c hc => hw c ((hmem c).2 hc)
  obtain ⟨red, res, inf, h1, h2, _, h4, h5⟩ := reduceAndOptimize_spec hn hw
  obtain ⟨red', res', inf', h1', h2', _, h4', h5'⟩ := reduceAndOptimize_spec hn hw'
  have hinf : inf = inf' := by
    rw [Bool.eq_iff_iff, h5, h5']
    constructor
    · rintro ⟨c, hc, h⟩; exact ⟨c, (hmem c).1 hc, h⟩
    · rintro ⟨c, hc, h⟩; exact ⟨c, (hmem c).2 hc, h⟩
  subst hinf
  have hpair : ∀ {A B : List Constraint}, (∀ c, c ∈ A ↔ c ∈ B) → (B.filterMap demand?).Nodup →
      ∀ a b, [a, b].Sublist (B.filterMap demand?) →
      [a, b].Sublist (A.filterMap demand?) ∨ [b, a].Sublist (A.filterMap demand?) := by
    intro A B hAB hnd a b hs
    have hab : a ≠ b := by
      have := hnd.sublist hs
      rintro rfl; simp at this
    have hm : ∀ x, x ∈ B.filterMap demand? → x ∈ A.filterMap demand? := by
      intro x hx
      obtain ⟨c, hc, h⟩ := List.mem_filterMap.1 hx
      exact List.mem_filterMap.2 ⟨c, (hAB c).2 hc, h⟩
    exact pair_sublist_or hab (hm _ (hs.subset (by simp))) (hm _ (hs.subset (by simp)))
  refine ⟨res, res', inf, h1, h1', fun s a => ⟨?_, ?_⟩⟩
  · exact accepts_of_same h2 h2' h4 h4' hmem (hpair hmem hd') s a
  · exact accepts_of_same h2' h2 h4' h4 (fun c => (hmem c).symm) (hpair (fun c => (hmem c).symm) hd) s a

/-- Non-vacuity: the same list with a repeated non-demand constraint. -/
example : (∀ c, c ∈ Ex.smallCons ↔ c ∈ Ex.smallCons ++ [(⟨.choicesHaveSameChoosers, 0, .choice 1, .none⟩ : Constraint)]) ∧
    (Ex.smallCons.filterMap demand?).Nodup ∧
    ((Ex.smallCons ++ [(⟨.choicesHaveSameChoosers, 0, .choice 1, .none⟩ : Constraint)]).filterMap demand?).Nodup := by
  refine ⟨?_, by decide, by decide⟩
  intro c
  simp only [List.mem_append, List.mem_cons, List.not_mem_nil, or_false, Ex.smallCons]
  constructor
  · exact .inl
  · rintro (h | h)
    · exact h
    · exact .inl h

/-- **C28** fails in full: stating a membership demand twice makes every scheduling that holds the choice
unacceptable (the choice is required not to share its slot with itself). -/
theorem C28_repetition_changes_meaning :
    ∃ (i : InputData) (c : Constraint) (s : Scheduling) (a : Assignment) (res res' : List Constraint),
      WrittenWF i c ∧ reduceAndOptimize [c] i.nc = .ok (res, false) ∧
      reduceAndOptimize [c, c] i.nc = .ok (res', false) ∧ Accepts i res s a ∧ ¬ Accepts i res' s a := by
  refine ⟨Ex.small, ⟨.chooserIsInChoice, 0, .choice 1, .none⟩, [none, some 0, some 1], [[1, 2], [1, 2]],
    [⟨.chooserIsInChoice, 0, .choice 1, .none⟩],
    [⟨.choicesAreNotInSameSlot, 1, .choice 1, .none⟩, ⟨.chooserIsInChoice, 0, .choice 1, .none⟩],
    by decide, by decide +kernel, by decide +kernel, ?_, ?_⟩
  · intro c hc
    simp only [List.mem_singleton] at hc
    subst hc
    right
    intro _
    rw [← attendsB_iff]; decide
  · intro h
    rcases h ⟨.choicesAreNotInSameSlot, 1, .choice 1, .none⟩ (by simp) with h' | h'
    · have : ∀ t, ¬ (slotAt [none, some 0, some 1] 1 = some t ∧ slotAt [none, some 0, some 1] 1 = some t) := h'
      exact this 0 ⟨rfl, rfl⟩
    · exact h'

/-! ### C51 -/

/-- The kinds whose negation is again a constraint. -/
def Negatable : Kind → Prop
  | .invalid | .choicesHaveOffset | .slotsHaveSameChoices | .choicesHaveSameChoosers
  | .choosersHaveSameChoices => False
  | _ => True

/-- What a constraint is about takes place: the mentioned choices are scheduled. -/
def About (s : Scheduling) (c : Constraint) : Prop :=
  match c.kind, c.right with
  | .choicesAreInSameSlot, .choice y => ¬ (slotAt s c.left = none ∧ slotAt s y = none)
  | .choicesAreNotInSameSlot, .choice y => ¬ (slotAt s c.left = none ∧ slotAt s y = none)
  | .chooserIsInChoice, .choice y => slotAt s y ≠ none
  | .chooserIsNotInChoice, .choice y => slotAt s y ≠ none
  | .choiceContainsChooser, _ => slotAt s c.left ≠ none
  | .choiceNotContainsChooser, _ => slotAt s c.left ≠ none
  | _, _ => True

/-- **C51**: negating twice gives the constraint back, for every constraint of a negatable kind. -/
theorem C51_double_negation (i : InputData) (c : Constraint) (hk : Negatable c.kind) (hw : WrittenWF i c) :
    ∃ n, c.negation = .ok n ∧ WrittenWF i n ∧ Negatable n.kind ∧ n.negation = .ok c := by
  obtain ⟨k, l, r, e⟩ := c
  cases k <;> simp only [Negatable] at hk <;>
    first
    | exact hk.elim
    | (cases r <;> first
        | exact hw.elim
        | exact ⟨_, rfl, hw, trivial, rfl⟩
        | exact ⟨_, rfl, hw, hk, rfl⟩
        | (cases e <;> first
            | exact hw.elim
            | (rename_i n op
               cases op <;> exact ⟨_, rfl, hw, trivial, rfl⟩)))

/-- **C51**: the negation of a constraint of a negatable kind accepts exactly the solutions the
constraint rejects, whenever the choice it talks about is scheduled. -/
theorem C51_negation_complements_partial (i : InputData) (c n : Constraint) (hk : Negatable c.kind)
    (hw : WrittenWF i c) (h : c.negation = .ok n) (s : Scheduling) (a : Assignment) (hab : About s c) :
    Holds i s a n ↔ ¬ Holds i s a c := by
  obtain ⟨k, l, r, e⟩ := c
  cases k <;> simp only [Negatable] at hk <;> cases r <;> (try exact hw.elim) <;>
    simp only [Constraint.negation] at h
  case choicesAreInSameSlot.choice y =>
    cases h
    simp only [Holds, SchedHolds, AsgHolds, or_false, About] at hab ⊢
    constructor
    · intro h he
      cases hl : slotAt s l with
      | none => rw [← he, hl] at hab; simp at hab
      | some t => exact h t ⟨hl, by rw [← he]; exact hl⟩
    · rintro h t ⟨h1, h2⟩
      exact h (h1.trans h2.symm)
  case choicesAreNotInSameSlot.choice y =>
    cases h
    simp only [Holds, SchedHolds, AsgHolds, or_false, About] at hab ⊢
    constructor
    · intro he h
      cases hl : slotAt s l with
      | none => rw [← he, hl] at hab; simp at hab
      | some t => exact h t ⟨hl, by rw [← he]; exact hl⟩
    · intro h
      by_contra hne
      apply h
      rintro t ⟨h1, h2⟩
      exact hne (h1.trans h2.symm)
  case slotHasLimitedSize.limit n =>
    cases e <;> (try exact hw.elim)
    rename_i op
    cases op <;> (cases h; simp only [Holds, SchedHolds, AsgHolds, or_false, Rel, LimitOp.negation]; try omega)
  all_goals (cases h; simp only [Holds, SchedHolds, AsgHolds, About, or_false, false_or] at hab ⊢)
  all_goals tauto

/-- Without the proviso of `C51_negation_complements_partial` the claim is false: two unscheduled choices
are both "in the same slot" and "not in the same slot". -/
theorem C51_both_hold_when_unscheduled : ∃ (i : InputData) (c n : Constraint) (s : Scheduling) (a : Assignment),
    WrittenWF i c ∧ Negatable c.kind ∧ c.negation = .ok n ∧ Holds i s a c ∧ Holds i s a n := by
  refine ⟨Ex.small, ⟨.choicesAreInSameSlot, 0, .choice 1, .none⟩, _, [none, none, some 0], [[2], [2]],
    by decide, trivial, rfl, .inl ?_, .inl ?_⟩
  · show slotAt _ _ = slotAt _ _
    rfl
  · show ∀ t, ¬ _
    rintro t ⟨h, _⟩
    simp [slotAt] at h

/-- Non-vacuity of the partial theorem. -/
example : ∃ n, (⟨.slotHasLimitedSize, 1, .limit 2, .limitOp .leq⟩ : Constraint).negation = .ok n ∧
    WrittenWF Ex.inp ⟨.slotHasLimitedSize, 1, .limit 2, .limitOp .leq⟩ ∧
    Negatable (Kind.slotHasLimitedSize) ∧
    About Ex.sch ⟨.slotHasLimitedSize, 1, .limit 2, .limitOp .leq⟩ := ⟨⟨.slotHasLimitedSize, 1, .limit 2, .limitOp .gt⟩, rfl, by decide, trivial, trivial⟩

end Wassign
