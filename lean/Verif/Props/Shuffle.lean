import Verif.Proofs.Shuffle
import Verif.Props.Reorder
/-
C92: nothing depends on the order in which the choices are listed.
-/
namespace Wassign
open Spec Build

/-- **C92**: if the choices are listed in another order (with the wishes in the same order), the input is accepted as before, the parts
have the same names and limits under their new numbers, everybody has the same preferences as before, and exactly the same timetables are
valid, with the same worst preference and the same cost: only the numbers of the choices are others. -/
theorem C92_order_of_choices (g : Equiv.Perm Nat) (raw raw' : Raw) (hl : ChoicesReordered g raw raw') (hmax : ∀ p ∈ raw.choices, p.max ≤ u32Max)
    (d : InputData) (h : build raw = .ok d) :
    ∃ d', build raw' = .ok d' ∧ d'.slots = d.slots ∧ d'.choosers.map (·.name) = d.choosers.map (·.name) ∧ d'.maxPref = d.maxPref ∧
      d'.prefLevels = d.prefLevels ∧ (∃ π, PartsMoved g raw.choices raw'.choices π) ∧
      ∀ π, PartsMoved g raw.choices raw'.choices π →
        (∀ c x, d.choices[π c]? = some x → ∃ y, d'.choices[c]? = some y ∧ y.name = x.name ∧ y.min = x.min ∧ y.max = x.max ∧
          y.isOptional = x.isOptional) ∧
        (∀ p c, pref d' p c = pref d p (π c)) ∧
        ∀ s s' a a', SlotsMoved π s s' → EntriesMoved π a a' →
          (Valid d' s' a' ∧ Placed d' s' ↔ Valid d s a ∧ Placed d s) ∧ (∀ w, IsWorst d' a' w ↔ IsWorst d a w) ∧
          ∀ cost, totalCost d' cost a' = totalCost d cost a := by
  obtain ⟨d', h'⟩ := shuffle_accepted hmax hl h
  have hmax' : ∀ p ∈ raw'.choices, p.max ≤ u32Max := fun p hp => hmax p (hl.perm.mem_iff.1 hp)
  obtain ⟨π0, hp0⟩ := moved_exists hl
  have w0 := shuffle_moved hmax hl hp0 h h'
  have hlev : d'.prefLevels = d.prefLevels := by
    obtain ⟨s1, _, _, _, m1⟩ := C26_levels_partial raw d hmax h
    obtain ⟨s2, _, _, _, m2⟩ := C26_levels_partial raw' d' hmax' h'
    have key : ∀ {g : Equiv.Perm Nat} {p q : Raw}, ChoicesReordered g p q → ∀ l : Nat, (∃ c ∈ q.choosers, l ∈ c.prefs) → ∃ c ∈ p.choosers, l ∈ c.prefs := by
      rintro g p q hh l ⟨c', hc', e⟩
      obtain ⟨c, hc, e1, e2⟩ := hh.row hc'
      exact ⟨c, hc, (perm_of_get e1 e2).mem_iff.1 e⟩
    refine increasing_ext s2 s1 (fun l => ?_)
    rw [m1, m2, w0.maxPref]
    exact or_congr_right (or_congr_right ⟨key hl l, key hl.symm l⟩)
  refine ⟨d', h', w0.slots, w0.choosers, w0.maxPref, hlev, ⟨π0, hp0⟩, ?_⟩
  intro π hp
  have w1 := shuffle_moved hmax hl hp h h'
  have w2 := shuffle_moved hmax' hl.symm (hp.symm hl.choices) h' h
  refine ⟨?_, w1.prefs, ?_⟩
  · intro c x hx
    exact ⟨moveChoice π x, by rw [w1.choices, hx]; rfl, rfl, rfl, rfl, rfl⟩
  intro s s' a a' hs ha
  refine ⟨⟨fun hv => ⟨w2.valid hs.symm ha.symm hv.1, w2.placed hs.symm hv.2⟩, fun hv => ⟨w1.valid hs ha hv.1, w1.placed hs hv.2⟩⟩,
    fun w => ⟨fun hw => w2.worst ha.symm hw, fun hw => w1.worst ha hw⟩, w1.cost ha⟩

/-- **C92**: every timetable has a counterpart in the other order. -/
theorem C92_counterpart (g π : Equiv.Perm Nat) (raw raw' : Raw) (hl : ChoicesReordered g raw raw') (hp : PartsMoved g raw.choices raw'.choices π)
    (hmax : ∀ p ∈ raw.choices, p.max ≤ u32Max) (d : InputData) (h : build raw = .ok d) (s : Scheduling) (a : Assignment) (hs : s.length = d.nc) :
    ∃ s' a', SlotsMoved π s s' ∧ EntriesMoved π a a' ∧ s'.length = s.length ∧ a'.map List.length = a.map List.length := by
  obtain ⟨m, written, hb⟩ := build_spec hmax h
  have hlt : ∀ i, π i < d.nc ↔ i < d.nc := by rw [hb.nc]; exact hp.lt hl.choices hl.total
  refine ⟨(List.range d.nc).map (fun c => slotAt s (π c)), a.map (List.map π.symm), ?_, ?_, by simp [hs], ?_⟩
  · intro c
    unfold slotAt
    by_cases hc : c < d.nc
    · rw [List.getElem?_map, List.getElem?_range hc]; rfl
    · rw [List.getElem?_eq_none (by simpa using hc), List.getElem?_eq_none (by have := hlt c; omega)]
  · intro p k
    unfold entry
    rw [List.getElem?_map]
    cases a[p]? with
    | none => rfl
    | some r => simp
  · rw [List.map_map]
    congr 1
    funext r
    simp

/-- **C92**, rejected inputs: an input is rejected in one order if it is in another one. -/
theorem C92_rejected_in_any_order (g : Equiv.Perm Nat) (raw raw' : Raw) (hl : ChoicesReordered g raw raw')
    (hmax : ∀ p ∈ raw.choices, p.max ≤ u32Max) : (∃ d, build raw = .ok d) ↔ ∃ d', build raw' = .ok d' := by
  have hmax' : ∀ p ∈ raw'.choices, p.max ≤ u32Max := fun p hp => hmax p (hl.perm.mem_iff.1 hp)
  constructor
  · rintro ⟨d, h⟩; exact shuffle_accepted hmax hl h
  · rintro ⟨d, h⟩; exact shuffle_accepted hmax' hl.symm h

/-! ### Example -/

namespace ShuffleEx

/-- A lecture in two parts and a talk; Ann must attend the lecture. -/
def one : Raw where
  slots := ["Mon".toList, "Tue".toList]
  choices := [⟨"Talk".toList, 1, 1, 1, true⟩, ⟨"Lecture".toList, 1, 2, 2, false⟩]
  choosers := [⟨"Ann".toList, [3, 1]⟩, ⟨"Bob".toList, [0, 2]⟩]
  exprs := [⟨⟨.chooser, .choice, "Ann".toList, 0⟩, .contains, ⟨.choice, .notSet, "Lecture".toList, 0⟩⟩]

/-- The same with the lecture first. -/
def other : Raw := { one with
  choices := [⟨"Lecture".toList, 1, 2, 2, false⟩, ⟨"Talk".toList, 1, 1, 1, true⟩]
  choosers := [⟨"Ann".toList, [1, 3]⟩, ⟨"Bob".toList, [2, 0]⟩] }

theorem shuffled : ChoicesReordered (Equiv.swap 0 1) one other := by
  have key : ∀ {α : Type} (x y : α) (k : Nat), [x, y][k]? = [y, x][(Equiv.swap 0 1) k]? := by
    intro α x y k
    match k with
    | 0 => rw [Equiv.swap_apply_left]; rfl
    | 1 => rw [Equiv.swap_apply_right]; rfl
    | k + 2 => rw [Equiv.swap_apply_of_ne_of_ne (by omega) (by omega)]; simp
  refine ⟨rfl, rfl, rfl, fun k => key _ _ k, rfl, ?_⟩
  intro i c c' h1 h2
  match i with
  | 0 => cases h1; cases h2; exact ⟨rfl, fun k => key _ _ k⟩
  | 1 => cases h1; cases h2; exact ⟨rfl, fun k => key _ _ k⟩
  | i + 2 => simp [one] at h1

/-- The first part of the lecture has number 0 in the new order and 1 in the old one, the second part 1 and 2, the talk 2 and 0. -/
def moved : Equiv.Perm Nat := (Equiv.swap 0 1).trans (Equiv.swap 0 2)

example : (moved 0, moved 1, moved 2) = (1, 2, 0) := by decide +kernel

theorem partsMoved : PartsMoved (Equiv.swap 0 1) one.choices other.choices moved := by
  rintro k j c ⟨p, h1, h2, h3⟩
  match k with
  | 0 =>
    cases h1
    have hj : j < 2 := h2
    rw [Equiv.swap_apply_left]
    refine ⟨_, rfl, h2, ?_⟩
    subst h3
    match j with
    | 0 => decide +kernel
    | 1 => decide +kernel
    | j + 2 => omega
  | 1 =>
    cases h1
    have hj : j < 1 := h2
    rw [Equiv.swap_apply_right]
    refine ⟨_, rfl, h2, ?_⟩
    subst h3
    match j with
    | 0 => decide +kernel
    | j + 1 => omega
  | k + 2 => simp [other] at h1

example : (∀ p ∈ one.choices, p.max ≤ u32Max) ∧ (build one).isOk = true := by decide +kernel

/-- The numbers of the parts are others, the limits, the links to the next part and the preferences are the same. -/
example : (dataOf one).choices.map (fun x => (x.min, x.max, x.isOptional, x.continuation)) =
      [(1, 1, true, none), (1, 2, false, some 2), (1, 2, false, none)] ∧
    (dataOf other).choices.map (fun x => (x.min, x.max, x.isOptional, x.continuation)) =
      [(1, 2, false, some 1), (1, 2, false, none), (1, 1, true, none)] ∧
    (dataOf one).choosers.map (·.prefs) = [[0, 0, 0], [3, 1, 1]] ∧
    (dataOf other).choosers.map (·.prefs) = [[0, 0, 0], [1, 1, 3]] := by decide +kernel

/-- The only valid timetable in the two orders. -/
example : SlotsMoved moved [none, some 0, some 1] [some 0, some 1, none] ∧ EntriesMoved moved [[1, 2], [1, 2]] [[0, 1], [0, 1]] := by
  have h0 : moved 0 = 1 := by decide +kernel
  have h1 : moved 1 = 2 := by decide +kernel
  have h2 : moved 2 = 0 := by decide +kernel
  have s1 : moved.symm 1 = 0 := by rw [← h0]; simp
  have s2 : moved.symm 2 = 1 := by rw [← h1]; simp
  constructor
  · intro c
    match c with
    | 0 => rw [h0]; rfl
    | 1 => rw [h1]; rfl
    | 2 => rw [h2]; rfl
    | c + 3 =>
      have : moved (c + 3) = c + 3 := by
        unfold moved
        rw [Equiv.trans_apply, Equiv.swap_apply_of_ne_of_ne (x := c + 3) (by omega) (by omega),
          Equiv.swap_apply_of_ne_of_ne (x := c + 3) (by omega) (by omega)]
      rw [this]; simp [slotAt]
  · intro p k
    match p, k with
    | 0, 0 => simp [entry, s1]
    | 0, 1 => simp [entry, s2]
    | 0, k + 2 => simp [entry]
    | 1, 0 => simp [entry, s1]
    | 1, 1 => simp [entry, s2]
    | 1, k + 2 => simp [entry]
    | p + 2, k => simp [entry]

end ShuffleEx

end Wassign
