import Verif.Instances.Search
import Verif.Props.Build
import Verif.Props.Constraints
import Verif.Props.Expr
import Verif.Props.Reader
import Verif.Props.Output
import Verif.Props.Args
/-
Concrete cases that meet the hypotheses of the theorems about inputs (Props/Build, Constraints, Expr, Reader, Args) and about the
printed tables (Props/Output).
-/
namespace Wassign.Instances
open Spec Build Wassign

/-! ### The input `BuildEx.raw`: "Hike" has two parts, "Chess" and "Go" have the same choosers, Bob goes to "Go" -/

theorem rawMax : ∀ p ∈ BuildEx.raw.choices, p.max ≤ u32Max := by decide +kernel

theorem part (k j c : Nat) (p : Proto) (h : BuildEx.raw.choices[k]? = some p) (hj : j < width p) (hc : c = offset BuildEx.raw.choices k + j) :
    IsPart BuildEx.raw.choices k j c := ⟨p, h, hj, hc⟩

/-- Which parts there are. -/
theorem parts_are {k j c : Nat} (h : IsPart BuildEx.raw.choices k j c) :
    (k = 0 ∧ j = 0 ∧ c = 0) ∨ (k = 0 ∧ j = 1 ∧ c = 1) ∨ (k = 1 ∧ j = 0 ∧ c = 2) ∨ (k = 2 ∧ j = 0 ∧ c = 3) := by
  obtain ⟨p, h1, h2, h3⟩ := h
  match k with
  | 0 =>
    have hp : p = ⟨"Hike".toList, 1, 3, 2, false⟩ := (Option.some.inj h1).symm
    subst hp
    have h2 : j < 2 := h2
    have h3 : c = 0 + j := h3
    omega
  | 1 =>
    have hp : p = ⟨"Chess".toList, 2, 5, 1, false⟩ := (Option.some.inj h1).symm
    subst hp
    have h2 : j < 1 := h2
    have h3 : c = 2 + j := h3
    omega
  | 2 =>
    have hp : p = ⟨"Go".toList, 0, 3, 0, true⟩ := (Option.some.inj h1).symm
    subst hp
    have h2 : j < 1 := h2
    have h3 : c = 3 + j := h3
    omega
  | k + 3 => cases h1

/-- What is written. -/
theorem written_is {c : Constraint} (h : IsWritten BuildEx.raw BuildEx.data c) :
    c = ⟨.choicesHaveSameChoosers, 2, .choice 3, .none⟩ ∨ c = ⟨.choiceContainsChooser, 3, .chooser 1, .none⟩ ∨
    c = ⟨.choicesHaveSameChoosers, 0, .choice 1, .none⟩ ∨ c = ⟨.choicesHaveOffset, 0, .choice 1, .offset 1⟩ := by
  cases h with
  | expr he hL hc =>
    rename_i e L
    have he' : e = ⟨⟨.choice, .chooser, "Chess".toList, 0⟩, .eq, ⟨.choice, .chooser, "Go".toList, 0⟩⟩ ∨
      e = ⟨⟨.choice, .chooser, "Go".toList, 0⟩, .contains, ⟨.chooser, .notSet, "Bob".toList, 0⟩⟩ := by
      simpa [BuildEx.raw] using he
    rcases he' with rfl | rfl
    · have : buildExpr BuildEx.data ⟨⟨.choice, .chooser, "Chess".toList, 0⟩, .eq, ⟨.choice, .chooser, "Go".toList, 0⟩⟩ =
        .ok [⟨.choicesHaveSameChoosers, 2, .choice 3, .none⟩] := by decide +kernel
      rw [this] at hL; cases hL; exact .inl (List.mem_singleton.1 hc)
    · have : buildExpr BuildEx.data ⟨⟨.choice, .chooser, "Go".toList, 0⟩, .contains, ⟨.chooser, .notSet, "Bob".toList, 0⟩⟩ =
        .ok [⟨.choiceContainsChooser, 3, .chooser 1, .none⟩] := by decide +kernel
      rw [this] at hL; cases hL; exact .inr (.inl (List.mem_singleton.1 hc))
  | sameChoosers h1 h2 hij =>
    have p1 := parts_are h1
    have p2 := parts_are h2
    right; right; left
    rename_i k i j x y
    have : x = 0 ∧ y = 1 := by omega
    rw [this.1, this.2]
  | distance h1 h2 hij =>
    have p1 := parts_are h1
    have p2 := parts_are h2
    right; right; right
    rename_i k i j x y
    have : x = 0 ∧ y = 1 ∧ j - i = 1 := by omega
    rw [this.1, this.2.1, this.2.2]
    rfl

theorem together_is {x y : Nat} (h : Together BuildEx.raw BuildEx.data x y) : x = y ∨ (x < 2 ∧ y < 2) ∨ (2 ≤ x ∧ 2 ≤ y) := by
  refine h.least (P := fun x y => x = y ∨ (x < 2 ∧ y < 2) ∨ (2 ≤ x ∧ 2 ≤ y)) ?_ ?_ ?_ ?_
  · rintro a b ⟨c, hc, hk, rfl, hb⟩
    rcases written_is hc with rfl | rfl | rfl | rfl
    · cases hb; exact .inr (.inr ⟨by decide, by decide⟩)
    · cases hk
    · cases hb; exact .inr (.inl ⟨by decide, by decide⟩)
    · cases hk
  · intros; omega
  · intros; omega
  · intros; omega

/-- C24: the internal choices are exactly the parts. -/
example := C24_blocks_tile BuildEx.raw BuildEx.data rawMax BuildEx.built

/-- C25: Bob's preference for the second part of "Hike" is what he gave for "Hike". -/
example : pref BuildEx.data 1 1 = some 100 := by
  have h := C25_final_preference BuildEx.raw BuildEx.data rawMax BuildEx.built 1 (by decide) 0 1 1 (part 0 1 1 _ rfl (by decide) rfl)
    (by
      intro y hy
      have hy' : y = 0 ∨ y = 1 := by have := together_is hy; omega
      rcases hy' with rfl | rfl
      · exact ⟨0, part 0 0 0 _ rfl (by decide) rfl⟩
      · exact ⟨1, part 0 1 1 _ rfl (by decide) rfl⟩)
    (by
      rintro ⟨y, hy, k, hk, hd⟩
      have hy := together_is hy
      rcases written_is hk with rfl | rfl | rfl | rfl
      · cases hd
      · have hd : some (1, 3) = some (1, y) := hd
        have : 3 = y := by simpa using hd
        omega
      · cases hd
      · cases hd)
  obtain ⟨given, h1, h2, h3⟩ := h
  have : given = 0 := (Option.some.inj h1).symm
  subst this
  have : BuildEx.data.maxPref = 100 := by decide +kernel
  rw [h3, this]

def prefs : Nat × List Chooser := match buildPreferences BuildEx.raw with
  | .ok r => r
  | .error _ => (0, [])

example : prefs.1 = 100 := by decide +kernel
example := C25_mirrored_and_expanded BuildEx.raw prefs.1 prefs.2 (by decide +kernel)

/-- C29: Bob must go to "Go", hence to "Chess": 0. -/
example : pref BuildEx.data 1 2 = some 0 :=
  (C29_shared_preferences BuildEx.raw BuildEx.data rawMax BuildEx.built 1 (by decide) 2 (by decide +kernel)).1
    ⟨3, .link ⟨⟨.choicesHaveSameChoosers, 2, .choice 3, .none⟩,
      .expr (e := ⟨⟨.choice, .chooser, "Chess".toList, 0⟩, .eq, ⟨.choice, .chooser, "Go".toList, 0⟩⟩)
        (L := [⟨.choicesHaveSameChoosers, 2, .choice 3, .none⟩]) (by decide) (by decide +kernel) (by simp), rfl, rfl, rfl⟩,
     ⟨.choiceContainsChooser, 3, .chooser 1, .none⟩,
      .expr (e := ⟨⟨.choice, .chooser, "Go".toList, 0⟩, .contains, ⟨.chooser, .notSet, "Bob".toList, 0⟩⟩)
        (L := [⟨.choiceContainsChooser, 3, .chooser 1, .none⟩]) (by decide) (by decide +kernel) (by simp), rfl⟩

/-- C29: "Hike" is not tied to other choices, and its second part keeps its bounds. -/
example : ∃ ch, BuildEx.data.choices[1]? = some ch ∧ ch.min = 1 ∧ ch.max = 3 ∧ ch.isOptional = false :=
  C29_independent_unchanged BuildEx.raw BuildEx.data rawMax BuildEx.built 0 1 1 ⟨"Hike".toList, 1, 3, 2, false⟩ (part 0 1 1 _ rfl (by decide) rfl) rfl
    (by
      intro y hy
      have hy' : y = 0 ∨ y = 1 := by have := together_is hy; omega
      rcases hy' with rfl | rfl
      · exact ⟨0, part 0 0 0 _ rfl (by decide) rfl⟩
      · exact ⟨1, part 0 1 1 _ rfl (by decide) rfl⟩)

/-- C40, C41: the second part of "Hike" is shown as "[2] Hike". -/
example : ∃ ch, BuildEx.data.choices[1]? = some ch ∧ shown ch.name = "[2] Hike".toList := by
  obtain ⟨ch, h1, h2⟩ := C40_shown_names_partial BuildEx.raw BuildEx.data rawMax BuildEx.built 0 1 1 ⟨"Hike".toList, 1, 3, 2, false⟩ rfl
    (part 0 1 1 _ rfl (by decide) rfl) (by intro t h; cases h)
  exact ⟨ch, h1, h2⟩

/-! ### C27, C28: the constraints of `Ex.inpCons` -/

theorem consWF : ∀ c ∈ Ex.inpCons, WrittenWF Ex.inp c := by decide

example := C27_written_constraints_enforced Ex.inp (by decide) Ex.inpCons consWF
example := C28_order_does_not_matter Ex.inp (by decide) Ex.inpCons Ex.inpCons.reverse consWF (List.reverse_perm _).symm

/-- Two different slots are to have the same choices: infeasible, and indeed no solution with choosers satisfies it. -/
def impossible : List Constraint := [⟨.choiceIsInSlot, 0, .slot 0, .none⟩, ⟨.slotsHaveSameChoices, 0, .slot 1, .none⟩]

example : ¬ ∀ c ∈ impossible, Holds Ex.inp Ex.sch Ex.asg c :=
  C27_infeasible_is_unsatisfiable Ex.inp (by decide) impossible (by decide) [⟨.choiceIsInSlot, 0, .slot 0, .none⟩] (by decide +kernel) (by decide)
    Ex.sch Ex.asg valid.onePerSlot

/-! ### C30: `choice("Swimming").slot(1) == slot("Tuesday")`, and a constraint that makes no sense -/

example : Sensible (.slotOf 1) .eq (.theSlot 1) :=
  (C30_accepted_sensible (e := ExprEx.e1) ExprEx.names.continuations ExprEx.e1_left ExprEx.e1_right (.inl rfl)
    (L := [⟨.choiceIsInSlot, 1, .slot 1, .none⟩]) (by decide +kernel)).1

example := C30_accepts_iff (e := ExprEx.e2) ExprEx.names ExprEx.e2_left ExprEx.e2_right (.inr rfl)

/-! ### C31 -/

example : findName "Swim".toList ["Swimming".toList, "Swim".toList] = .ok (some 1) :=
  C31_exact_name (by decide) rfl

/-! ### C32, C33: the script `ReadEx.script` -/

open Reader ReadEx

/-- Asking for "pool" gives the choice "Swimming pool". -/
example := C32_existing_matches (env := env) opts script .choice (.choice "pool".toList []) "pool".toList .choice 0 (by decide +kernel)
  ⟨⟨.choice "Swimming pool".toList [], some (.ref 0)⟩, by decide +kernel, _, rfl, rfl⟩

example : (namesOf (outcome env opts script).2.1.st .choice).Nodup := C33_names_unique opts script noRename .choice

example : exec env (.add .choice 1) (outcome env opts script).2.1 = (.ok (.ref 1), (outcome env opts script).2.1) :=
  C33_add_again opts script noRename .choice 1 ⟨⟨.add .choice 1, some (.ref 1)⟩, by decide +kernel, rfl, rfl⟩

/-- `+slot("Monday"); let t = slot("Tuesday"); t.name = "Monday"`, then `+t`. -/
def twice : Script :=
  given (.slot "Monday".toList) fun s => then' (.add .slot s) <|
  given (.slot "Tuesday".toList) fun t => then' (.setName .slot t "Monday".toList) .done

example : ∃ msg, exec env (.add .slot 1) (outcome env opts twice).2.1 = (.error (.error msg), (outcome env opts twice).2.1) :=
  C33_duplicate_rejected opts twice .slot 1 0 "Monday".toList ⟨⟨.add .slot 0, some (.ref 0)⟩, by decide +kernel, rfl, rfl⟩ (by decide)
    (by decide +kernel) (by decide +kernel)

/-! ### C36 -/

example (w' : World Unit) (f : Fault)
    (h : exec env (.setArguments [.str "--any".toList, .str "--timeout".toList, .str "soon".toList]) (new opts).world = (.error f, w')) : w' = (new opts).world :=
  C36_failure_changes_nothing _ _ _ f h

/-! ### C37 -/

def ninety : List TimePart := [⟨"1".toList, .hour⟩, ⟨"30".toList, .minute⟩]
theorem ninety_parts : ∀ p ∈ ninety, p.IsTimePart := by unfold TimePart.IsTimePart IsDigit; decide +kernel

example : Time.parse .panics "1h30m".toList = .ok 5400 :=
  C37_components_sum .panics ninety ninety_parts (by decide +kernel)
example : Time.parse .wraps "1h30m15".toList = .ok 5400 :=
  C37_trailing_digits_ignored .wraps ninety "15".toList ninety_parts (by decide +kernel) (by unfold IsDigit; decide +kernel) (by decide +kernel)
example (v : Int) : Time.parse .wraps "1h 30m".toList ≠ .ok v :=
  C37_rejects_other_characters .wraps _ ' ' (by decide) (by unfold IsDigit; decide) (by intro u; cases u <;> decide) v
example := C37_no_silent_overflow_partial "1h30m".toList 5400 (by decide +kernel)

/-! ### C40 -/

example := C40_assignment_table Ex.inp Ex.sch Ex.asg Ex.shape valid.onePerSlot valid.onlyScheduled

/-- Chooser "q" is assigned the choice "D", which does not take place. -/
example : ∃ msg, Output.writeAssignment Ex.inp (.complete Ex.sch [[0, 2], [0, 3], [0, 2]]) = .error (.error msg) :=
  C40_unscheduled_reported Ex.inp Ex.sch [[0, 2], [0, 3], [0, 2]] ⟨rfl, rfl, by decide⟩ inRange
    (by
      intro p k c h
      match p with
      | 0 => match k with
        | 0 => cases h; decide
        | 1 => cases h; decide
        | k + 2 => cases h
      | 1 => match k with
        | 0 => cases h; decide
        | 1 => cases h; decide
        | k + 2 => cases h
      | 2 => match k with
        | 0 => cases h; decide
        | 1 => cases h; decide
        | k + 2 => cases h
      | p + 3 => cases h) 1 1 3 rfl rfl

/-- Two tables of different size do not look the same. -/
example : csv [["a".toList], ["b".toList]] ≠ csv [["a".toList, "b".toList]] := fun h =>
  absurd (C40_readable [["a".toList], ["b".toList]] [["a".toList, "b".toList]] (by decide) (by decide) (by decide) (by decide) h) (by decide)

end Wassign.Instances
