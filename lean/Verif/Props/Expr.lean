import Verif.Proofs.Expr
import Verif.Examples
/-
Properties of name lookup (C31) and of constraint expressions (C30).
-/
namespace Wassign
open Spec

/-- C31: a lookup lists, in order and without repetition, all the names that match the key in the best way
in which any name matches it; nothing if no name contains the key. -/
theorem C31_lookup (key : Str) (values : List Str) :
    ((∃ lvl : Fin 4, (∃ v ∈ values, Matches lvl key v) ∧
        (∀ better : Fin 4, better < lvl → ∀ v ∈ values, ¬ Matches better key v) ∧
        ∀ j, j ∈ fuzzyFind key values ↔ ∃ v, values[j]? = some v ∧ Matches lvl key v) ∨
      ((∀ lvl : Fin 4, ∀ v ∈ values, ¬ Matches lvl key v) ∧ fuzzyFind key values = [])) ∧
    (fuzzyFind key values).Pairwise (· < ·) := by
  refine ⟨?_, fuzzyFind_sorted key values⟩
  rcases fuzzyFind_cases key values with ⟨lvl, h1, h2, h3⟩ | ⟨h1, h2⟩
  · left
    have hj : ∀ j, j ∈ fuzzyFind key values ↔ ∃ v, values[j]? = some v ∧ Matches lvl key v := by
      intro j; rw [h1]; exact level_spec key values lvl j
    refine ⟨lvl, ?_, h3, hj⟩
    obtain ⟨j, hj'⟩ := List.exists_mem_of_ne_nil _ h2
    obtain ⟨v, hv, hm⟩ := (hj j).1 hj'
    exact ⟨v, List.mem_of_getElem? hv, hm⟩
  · exact Or.inr ⟨h2, h1⟩

/-- C31: the full name of an object always resolves to that object, whatever other names contain it. -/
theorem C31_exact_name {name : Str} {values : List Str} {j : Nat} (hn : values.Nodup)
    (h : values[j]? = some name) : findName name values = .ok (some j) := findName_exact hn h

/-- C31: a lookup in a constraint resolves to an object only if that object is the only best match. -/
theorem C31_resolves_unique {name : Str} {values : List Str} :
    (∀ j, findName name values = .ok (some j) ↔ fuzzyFind name values = [j]) ∧
    (findName name values = .ok none ↔ fuzzyFind name values = []) := by
  unfold findName
  constructor
  · intro j
    split <;> simp_all
  · split <;> simp_all

/-- "Yoga" is found by its first word although "Hot Yoga" has that word too and "Yogaland" contains it. -/
example : fuzzyFind "Yoga".toList ["Hot Yoga".toList, "Yoga for all".toList, "Yogaland".toList] = [1] := by
  decide +kernel

/-- C30 (a): an accepted expression over existing objects makes sense and becomes one constraint about those
objects (even if other objects have the same names). -/
theorem C30_accepted_sensible {d : InputData} (hd : Continues d) {e : CExpr} {l r : Operand}
    (hl : Denotes d e.left l) (hr : Denotes d e.right r) (hc : Constructible l e.rel r)
    {L : List Constraint} (h : buildExpr d e = .ok L) :
    Sensible l e.rel r ∧ ∃ c, L = [c] ∧ WrittenWF d c := by
  obtain ⟨_, _, hlr⟩ := denotes_found hd hl
  obtain ⟨_, _, hrr⟩ := denotes_found hd hr
  rcases buildExpr_ok hd hl hr h with ⟨ke, h1, rfl⟩ | ⟨h1, ke, h2, rfl⟩
  · exact ⟨(table_sensible l r e.rel hc).1 (Or.inl (by rw [h1]; rfl)), _, rfl, (table_left d l r e.rel ke hlr hrr h1).1⟩
  · exact ⟨(table_sensible l r e.rel hc).1 (Or.inr (by rw [h2]; rfl)), _, rfl, (table_right d l r e.rel ke hlr hrr hc h1 h2).1⟩

/-- C30 (b), partial: the constraint holds in a solution iff the relation does. Missing: order comparisons
with the number on the left (see `C30_mirrored_order_wrong`). -/
theorem C30_meaning_partial {d : InputData} (hd : Continues d) {e : CExpr} {l r : Operand}
    (hl : Denotes d e.left l) (hr : Denotes d e.right r) (hc : Constructible l e.rel r)
    (hm : ¬ MirroredOrder l e.rel) {L : List Constraint} (h : buildExpr d e = .ok L) (s : Scheduling) (a : Assignment) :
    (∀ c ∈ L, Holds d s a c) ↔ Means d s a l e.rel r := by
  obtain ⟨_, _, hlr⟩ := denotes_found hd hl
  obtain ⟨_, _, hrr⟩ := denotes_found hd hr
  rcases buildExpr_ok hd hl hr h with ⟨ke, h1, rfl⟩ | ⟨h1, ke, h2, rfl⟩
  · simp only [List.mem_singleton, forall_eq]
    exact (table_left d l r e.rel ke hlr hrr h1).2 s a
  · simp only [List.mem_singleton, forall_eq]
    exact (table_right d l r e.rel ke hlr hrr hc h1 h2).2 hm s a

/-- C30 (c): every sensible expression over existing objects is accepted, every other one is rejected as
unsupported; none crashes. -/
theorem C30_accepts_iff {d : InputData} (hd : NamesOk d) {e : CExpr} {l r : Operand}
    (hl : Denotes d e.left l) (hr : Denotes d e.right r) (hc : Constructible l e.rel r) :
    ((∃ L, buildExpr d e = .ok L) ↔ Sensible l e.rel r) ∧
    (¬ Sensible l e.rel r → buildExpr d e = .error (.error "Unsupported constraint.")) := by
  have ht := table_sensible l r e.rel hc
  rw [buildExpr_eq hd hl hr]
  cases h1 : opTable l e.rel r with
  | some ke =>
    rw [h1] at ht
    have hs : Sensible l e.rel r := ht.1 (Or.inl rfl)
    exact ⟨⟨fun _ => hs, fun _ => ⟨_, rfl⟩⟩, fun hn => absurd hs hn⟩
  | none =>
    cases h2 : opTable r e.rel l with
    | some ke =>
      rw [h2] at ht
      have hs : Sensible l e.rel r := ht.1 (Or.inr rfl)
      exact ⟨⟨fun _ => hs, fun _ => ⟨_, rfl⟩⟩, fun hn => absurd hs hn⟩
    | none =>
      rw [h1, h2] at ht
      have hs : ¬ Sensible l e.rel r := fun h => by rcases ht.2 h with h | h <;> cases h
      refine ⟨⟨?_, fun h => absurd h hs⟩, fun _ => rfl⟩
      rintro ⟨L, hL⟩
      cases hL

namespace ExprEx

/-- A two-part choice, a plain choice, two slots, one chooser. -/
def inp : InputData where
  choices := [⟨"Swimming".toList, 1, 3, some 1, false⟩, ⟨"~[2] Swimming".toList, 1, 3, none, false⟩,
    ⟨"Swim".toList, 0, 3, none, true⟩]
  choosers := [⟨"Ann".toList, [0, 0, 1]⟩]
  slots := ["Monday".toList, "Tuesday".toList]
  schedCons := []
  asgCons := []
  depGroups := []
  prefLevels := [0, 1]
  maxPref := 1
  choiceConMap := []
  chooserConMap := []

theorem names : NamesOk inp := by
  refine ⟨by decide +kernel, by decide +kernel, by decide +kernel, ?_⟩
  intro c hc n hn
  simp only [inp, List.mem_cons, List.not_mem_nil, or_false] at hc
  rcases hc with rfl | rfl | rfl <;> simp at hn
  subst hn
  decide

/-- `choice("Swimming").slot(1) == slot("Tuesday")` -/
def e1 : CExpr := ⟨⟨.choice, .slot, "Swimming".toList, 1⟩, .eq, ⟨.slot, .notSet, "Tuesday".toList, 0⟩⟩

theorem e1_left : Denotes inp e1.left (.slotOf 1) :=
  .slotOf (c := 0) (by decide +kernel) (.succ (n := 1) rfl rfl (.zero 1))

theorem e1_right : Denotes inp e1.right (.theSlot 1) := .theSlot (by decide +kernel)

example : buildExpr inp e1 = .ok [⟨.choiceIsInSlot, 1, .slot 1, .none⟩] := by decide +kernel

/-- `5 >= slot("Monday").size` -/
def e2 : CExpr := ⟨⟨.integer, .notSet, intStr 5, 0⟩, .geq, ⟨.slot, .size, "Monday".toList, 0⟩⟩

theorem e2_left : Denotes inp e2.left (.number 5) := .number 5 (by decide)

theorem e2_right : Denotes inp e2.right (.sizeOf 0) := .sizeOf (by decide +kernel)

end ExprEx

/-- C30: some comparisons of the manual are refused as unsupported: lists cannot be asked to differ, and two sizes cannot be compared. -/
theorem C30_refused_though_documented {d : InputData} (hd : NamesOk d) {e : CExpr} {l r : Operand}
    (hl : Denotes d e.left l) (hr : Denotes d e.right r) (h : OnlyInManual l e.rel r) :
    buildExpr d e = .error (.error "Unsupported constraint.") := by
  refine (C30_accepts_iff hd hl hr ?_).2 ?_
  · generalize e.rel = rel at h
    cases h with
    | slotLists t u => exact .inl rfl
    | chooserLists c d => exact .inl rfl
    | choiceLists p q => exact .inl rfl
    | sizes rel t u h1 h2 => cases rel <;> first | exact .inl rfl | exact absurd rfl h1 | exact absurd rfl h2
  · generalize e.rel = rel at h
    cases h with
    | slotLists t u => exact fun h => nomatch h
    | chooserLists c d => exact fun h => nomatch h
    | choiceLists p q => exact fun h => nomatch h
    | sizes rel t u h1 h2 => exact fun h => h

/-- Asking two slots to have different choices (C30_refused_though_documented). -/
example : ∃ (e : CExpr) (l r : Operand), Denotes ExprEx.inp e.left l ∧ Denotes ExprEx.inp e.right r ∧ OnlyInManual l e.rel r :=
  ⟨⟨⟨.slot, .choice, "Monday".toList, 0⟩, .neq, ⟨.slot, .choice, "Tuesday".toList, 0⟩⟩, .choicesIn 0, .choicesIn 1, .choicesIn (by decide +kernel),
    .choicesIn (by decide +kernel), .slotLists 0 1⟩

/-- C30 is false for order comparisons with the number on the left: `5 >= slot.size` is compiled to
`slot.size >= 5`, so a scheduling with no choice in the slot (for which `5 >= 0` holds) is rejected, and
one with six would be accepted. -/
theorem C30_mirrored_order_wrong :
    ∃ (d : InputData) (e : CExpr) (l r : Operand) (L : List Constraint) (s : Scheduling) (a : Assignment),
      NamesOk d ∧ Denotes d e.left l ∧ Denotes d e.right r ∧ Constructible l e.rel r ∧
      buildExpr d e = .ok L ∧ ¬ ((∀ c ∈ L, Holds d s a c) ↔ Means d s a l e.rel r) := by
  refine ⟨ExprEx.inp, ExprEx.e2, _, _, [⟨.slotHasLimitedSize, 0, .limit 5, .limitOp .geq⟩],
    [none, none, none], [], ExprEx.names, ExprEx.e2_left, ExprEx.e2_right, Or.inr rfl, by decide +kernel, ?_⟩
  intro h
  have hm : Means ExprEx.inp [none, none, none] [] (.number 5) .geq (.sizeOf 0) := by
    show 5 ≥ slotSize ExprEx.inp [none, none, none] 0
    decide +kernel
  have h5 : slotSize ExprEx.inp [none, none, none] 0 ≥ 5 :=
    (h.2 hm _ (List.mem_singleton.2 rfl)).elim id False.elim
  revert h5
  decide +kernel

end Wassign
