import Verif.Proofs.Slots
import Verif.Props.Shuffle
/-
C93: without choices of several parts, nothing depends on the order in which the slots are listed.
-/
namespace Wassign
open Spec Build

/-- **C93**: if no choice has several parts and the slots are listed in another order, the input is accepted as before, choices, choosers
and wishes are read as before, and exactly the same timetables are valid, with the same worst preference and the same cost: only the
numbers of the slots, and so the columns of the tables, are others. -/
theorem C93_order_of_slots (g : Equiv.Perm Nat) (raw raw' : Raw) (hl : SlotsReordered g raw raw') (hsp : SingleParts raw)
    (hmax : ∀ p ∈ raw.choices, p.max ≤ u32Max) (d : InputData) (h : build raw = .ok d) :
    ∃ d', build raw' = .ok d' ∧ (∀ t : Nat, d'.slots[t]? = d.slots[g t]?) ∧ d'.choices = d.choices ∧
      d'.choosers.map (·.name) = d.choosers.map (·.name) ∧ d'.maxPref = d.maxPref ∧ d'.prefLevels = d.prefLevels ∧
      (∀ p c, pref d' p c = pref d p c) ∧
      ∀ s s' a a', TimesReordered g s s' → ColumnsReordered g a a' →
        (Valid d' s' a' ∧ Placed d' s' ↔ Valid d s a ∧ Placed d s) ∧ (∀ w, IsWorst d' a' w ↔ IsWorst d a w) ∧
        (∀ cost, totalCost d' cost a' = totalCost d cost a) := by
  obtain ⟨d', h'⟩ := slots_accepted hmax hl h
  have hmax' : ∀ p ∈ raw'.choices, p.max ≤ u32Max := by rw [hl.choices]; exact hmax
  have w1 := slots_timed hmax hsp hl h h'
  have w2 := slots_timed hmax' (hsp.of_eq hl.choices) hl.symm h' h
  have hplaced : ∀ {e e' : InputData} {s s' : Scheduling}, e'.choices = e.choices → (∀ c, slotAt s' c = none ↔ slotAt s c = none) →
      Placed e s → Placed e' s' := by
    intro e e' s s' he hs hp c hc
    have hc' : c < e.nc := by show c < e.choices.length; rw [← he]; exact hc
    have := hp c hc'
    simp only [he, ne_eq, hs]
    exact this
  have hlev : d'.prefLevels = d.prefLevels := by
    obtain ⟨s1, _, _, _, m1⟩ := C26_levels_partial raw d hmax h
    obtain ⟨s2, _, _, _, m2⟩ := C26_levels_partial raw' d' hmax' h'
    refine increasing_ext s2 s1 (fun l => ?_)
    rw [m1, m2, w1.maxPref, hl.choosers]
  refine ⟨d', h', w1.slots, w1.choices, w1.choosers, w1.maxPref, hlev, w1.prefs, ?_⟩
  intro s s' a a' hs ha
  refine ⟨⟨fun hv => ⟨w2.valid hs.symm ha.symm hv.1, hplaced w2.choices hs.symm.none hv.2⟩,
    fun hv => ⟨w1.valid hs ha hv.1, hplaced w1.choices hs.none hv.2⟩⟩, fun w => ⟨?_, ?_⟩, w1.cost ha⟩
  · exact fun hw => w2.worst ha.symm hw
  · exact fun hw => w1.worst ha hw

/-- **C93**, rejected inputs: an input is rejected in one order of the slots if it is in another one, also if there are choices of several parts. -/
theorem C93_rejected_in_any_order (g : Equiv.Perm Nat) (raw raw' : Raw) (hl : SlotsReordered g raw raw')
    (hmax : ∀ p ∈ raw.choices, p.max ≤ u32Max) : (∃ d, build raw = .ok d) ↔ ∃ d', build raw' = .ok d' := by
  have hmax' : ∀ p ∈ raw'.choices, p.max ≤ u32Max := by rw [hl.choices]; exact hmax
  constructor
  · rintro ⟨d, h⟩; exact slots_accepted hmax hl h
  · rintro ⟨d, h⟩; exact slots_accepted hmax' hl.symm h

/-- **C93**: every timetable has a counterpart in the other order. -/
theorem C93_counterpart (g : Equiv.Perm Nat) (raw raw' : Raw) (hl : SlotsReordered g raw raw')
    (d : InputData) (hmax : ∀ p ∈ raw.choices, p.max ≤ u32Max) (h : build raw = .ok d) (s : Scheduling) (a : Assignment)
    (hcols : ∀ r ∈ a, r.length = d.ns) :
    ∃ s' a', TimesReordered g s s' ∧ ColumnsReordered g a a' ∧ s'.length = s.length ∧ a'.map List.length = a.map List.length := by
  obtain ⟨m, written, hb⟩ := build_spec hmax h
  have hlt : ∀ i, g i < d.ns ↔ i < d.ns := by
    show ∀ i, g i < d.slots.length ↔ i < d.slots.length
    rw [hb.slots, slots_kept hl.some]; exact hl.lt
  refine ⟨s.map (Option.map g.symm), a.map (fun r => (List.range r.length).map (fun t => (r[g t]?).getD 0)), ?_, ?_, by simp, ?_⟩
  · intro c
    unfold slotAt
    rw [List.getElem?_map]
    cases s[c]? with
    | none => rfl
    | some x => cases x <;> rfl
  · intro p t
    unfold entry
    rw [List.getElem?_map]
    cases hr : a[p]? with
    | none => rfl
    | some r =>
      have hlen := hcols r (List.mem_of_getElem? hr)
      simp only [Option.map_some, Option.bind_some]
      by_cases ht : t < d.ns
      · rw [List.getElem?_map, List.getElem?_range (by omega), Option.map_some,
          List.getElem?_eq_getElem (show g t < r.length by rw [hlen]; exact (hlt t).2 ht)]
        rfl
      · rw [List.getElem?_eq_none (by simp; omega), List.getElem?_eq_none (by have := hlt t; omega)]
  · rw [List.map_map]
    congr 1
    funext r
    simp

/-! ### Examples -/

namespace SlotsEx

/-- Two talks, one of them on Monday. -/
def one : Raw where
  slots := ["Mon".toList, "Tue".toList]
  choices := [⟨"A".toList, 1, 1, 1, false⟩, ⟨"B".toList, 1, 1, 1, false⟩]
  choosers := [⟨"Ann".toList, [1, 0]⟩]
  exprs := [⟨⟨.choice, .slot, "B".toList, 0⟩, .eq, ⟨.slot, .notSet, "Mon".toList, 0⟩⟩]

/-- The same with Tuesday first. -/
def other : Raw := { one with
  slots := ["Tue".toList, "Mon".toList] }

theorem swap_pair {α : Type} (x y : α) (k : Nat) : [x, y][k]? = [y, x][(Equiv.swap 0 1) k]? := by
  match k with
  | 0 => rw [Equiv.swap_apply_left]; rfl
  | 1 => rw [Equiv.swap_apply_right]; rfl
  | k + 2 => rw [Equiv.swap_apply_of_ne_of_ne (by omega) (by omega)]; simp

theorem reordered : SlotsReordered (Equiv.swap 0 1) one other :=
  ⟨rfl, rfl, rfl, by decide +kernel, rfl, fun k => swap_pair _ _ k⟩

example : SingleParts one := by unfold SingleParts; decide +kernel

/-- The constraint about Monday is about the first slot in one order and about the second one in the other. -/
example : (dataOf one).schedCons = [⟨.choiceIsInSlot, 1, .slot 0, .none⟩] ∧ (dataOf other).schedCons = [⟨.choiceIsInSlot, 1, .slot 1, .none⟩] := by
  decide +kernel

example : TimesReordered (Equiv.swap 0 1) [some 1, some 0] [some 0, some 1] ∧ ColumnsReordered (Equiv.swap 0 1) [[1, 0]] [[0, 1]] := by
  constructor
  · intro c
    match c with
    | 0 => simp [slotAt]
    | 1 => simp [slotAt]
    | c + 2 => simp [slotAt]
  · intro p t
    match p with
    | 0 => exact swap_pair _ _ t
    | p + 1 => simp [entry]

example : Scoring.isFeasibleC (dataOf one) [some 1, some 0] [[1, 0]] = .ok true ∧ Scoring.isFeasibleC (dataOf other) [some 0, some 1] [[0, 1]] = .ok true := by
  decide +kernel

/-- A lecture in two parts that begins on Monday. -/
def lecture : Raw where
  slots := ["Mon".toList, "Tue".toList]
  choices := [⟨"Lecture".toList, 1, 1, 2, false⟩]
  choosers := [⟨"Ann".toList, [1]⟩]
  exprs := [⟨⟨.choice, .slot, "Lecture".toList, 0⟩, .eq, ⟨.slot, .notSet, "Mon".toList, 0⟩⟩]

def lecture' : Raw := { lecture with
  slots := ["Tue".toList, "Mon".toList] }

end SlotsEx

/-- The order of the slots matters for choices of several parts: they follow each other in the order listed. With Monday before Tuesday there
is a timetable, with Tuesday before Monday there is none. -/
theorem C93_parts_need_the_order : SlotsReordered (Equiv.swap 0 1) SlotsEx.lecture SlotsEx.lecture' ∧
    ∃ d d', build SlotsEx.lecture = .ok d ∧ build SlotsEx.lecture' = .ok d' ∧ Valid d [some 0, some 1] [[0, 1]] ∧
      ∀ s a, Shape d' s a → ¬ Valid d' s a := by
  have hd : build SlotsEx.lecture = .ok (dataOf SlotsEx.lecture) := by decide +kernel
  have hd' : build SlotsEx.lecture' = .ok (dataOf SlotsEx.lecture') := by decide +kernel
  refine ⟨⟨rfl, rfl, rfl, by decide +kernel, rfl, fun k => SlotsEx.swap_pair _ _ k⟩, _, _, hd, hd', ?_, ?_⟩
  · exact (isFeasibleC_spec (b := true) ⟨by decide +kernel, by decide +kernel, by decide +kernel⟩ (by decide +kernel)
      (C48_well_formed _ _ (by decide +kernel) hd).1 (by decide +kernel)).1 rfl
  · intro s a hsh hv
    have hin : (⟨.choiceIsInSlot, 0, .slot 1, .none⟩ : Constraint) ∈ (dataOf SlotsEx.lecture').schedCons := by decide +kernel
    have hoff : (⟨.choicesHaveOffset, 0, .choice 1, .offset 1⟩ : Constraint) ∈ (dataOf SlotsEx.lecture').schedCons := by decide +kernel
    have e0 : slotAt s 0 = some 1 := hv.sched _ hin
    have e1 : (slotAt s 0 = none ∧ slotAt s 1 = none) ∨ ∃ l r : Nat, slotAt s 0 = some l ∧ slotAt s 1 = some r ∧ (r : Int) = l + 1 := hv.sched _ hoff
    have hnp : (dataOf SlotsEx.lecture').np = 1 := by decide +kernel
    have hns : (dataOf SlotsEx.lecture').ns = 2 := by decide +kernel
    have hnc : (dataOf SlotsEx.lecture').nc = 2 := by decide +kernel
    obtain ⟨c, ⟨_, h1⟩, _⟩ := hv.onePerSlot 0 (by omega) 0 (by omega)
    have hlen := hsh.schedLen
    have hc : c < 2 := by
      by_contra hh
      unfold slotAt at h1
      rw [List.getElem?_eq_none (by omega)] at h1
      cases h1
    match c, hc with
    | 0, _ => rw [e0] at h1; cases h1
    | 1, _ =>
      rcases e1 with ⟨q, _⟩ | ⟨l, r, q1, q2, q3⟩
      · rw [q] at e0; cases e0
      · rw [q2] at h1; cases h1; omega

end Wassign
