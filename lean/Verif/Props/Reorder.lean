import Verif.Proofs.Reorder
import Verif.Props.Looser
import Mathlib.Logic.Equiv.Basic
/-
C90: nobody is privileged by their place in the list of choosers.
-/
namespace Wassign
open Spec Build

theorem increasing_ext : ∀ {l l' : List Nat}, l.Pairwise (· < ·) → l'.Pairwise (· < ·) → (∀ x, x ∈ l ↔ x ∈ l') → l = l'
  | [], [], _, _, _ => rfl
  | [], y :: _, _, _, h => by simpa using (h y).2 (by simp)
  | x :: _, [], _, _, h => by simpa using (h x).1 (by simp)
  | x :: l, y :: l', h1, h2, h => by
    rw [List.pairwise_cons] at h1 h2
    have hxy : x = y := by
      have a := (h x).1 (by simp)
      have b := (h y).2 (by simp)
      rcases List.mem_cons.1 a with e | e
      · exact e
      · rcases List.mem_cons.1 b with e' | e'
        · exact e'.symm
        · have := h2.1 x e
          have := h1.1 y e'
          omega
    subst hxy
    congr 1
    refine increasing_ext h1.2 h2.2 (fun z => ?_)
    constructor
    · intro hz
      rcases List.mem_cons.1 ((h z).1 (List.mem_cons_of_mem _ hz)) with e | e
      · have := h1.1 z hz; omega
      · exact e
    · intro hz
      rcases List.mem_cons.1 ((h z).2 (List.mem_cons_of_mem _ hz)) with e | e
      · have := h2.1 z hz; omega
      · exact e

/-- **C90**: if the choosers are listed in another order, the input is accepted or not as before, everybody has the same preferences
as before, and exactly the same timetables are valid, with the same worst preference and the same cost: only the rows are in another
order. -/
theorem C90_order_of_choosers (g : Equiv.Perm Nat) (raw raw' : Raw) (hl : Reordered g raw raw') (hmax : ∀ p ∈ raw.choices, p.max ≤ u32Max)
    (d : InputData) (h : build raw = .ok d) :
    ∃ d', build raw' = .ok d' ∧ d'.slots = d.slots ∧ d'.choices = d.choices ∧ d'.maxPref = d.maxPref ∧ d'.prefLevels = d.prefLevels ∧
      (∀ p c, pref d' p c = pref d (g p) c) ∧
      ∀ s a a', RowsReordered g a a' →
        (Valid d' s a' ∧ Placed d' s ↔ Valid d s a ∧ Placed d s) ∧ (∀ w, IsWorst d' a' w ↔ IsWorst d a w) ∧
        ∀ cost, totalCost d' cost a' = totalCost d cost a := by
  obtain ⟨d', h'⟩ := reorder_accepted hmax hl h
  have hmax' : ∀ p ∈ raw'.choices, p.max ≤ u32Max := by rw [hl.choices]; exact hmax
  have w1 := reorder_alike hmax hl h h'
  have w2 := reorder_alike hmax' hl.symm h' h
  have hplaced : ∀ {e e' : InputData} (s : Scheduling), e'.choices = e.choices → Placed e s → Placed e' s := by
    intro e e' s he hp c hc
    have hc' : c < e.nc := by show c < e.choices.length; rw [← he]; exact hc
    have := hp c hc'
    simp only [he]
    exact this
  have hlev : d'.prefLevels = d.prefLevels := by
    obtain ⟨s1, _, _, _, m1⟩ := C26_levels_partial raw d hmax h
    obtain ⟨s2, _, _, _, m2⟩ := C26_levels_partial raw' d' hmax' h'
    refine increasing_ext s2 s1 (fun l => ?_)
    rw [m1, m2, w1.maxPref]
    simp only [hl.mem]
  refine ⟨d', h', w1.slots, w1.choices, w1.maxPref, hlev, w1.prefs, ?_⟩
  intro s a a' ha
  refine ⟨⟨fun hv => ⟨w2.valid ha.symm hv.1, hplaced s w2.choices hv.2⟩, fun hv => ⟨w1.valid ha hv.1, hplaced s w1.choices hv.2⟩⟩, fun w => ⟨?_, ?_⟩,
    w1.cost ha⟩
  · exact fun hw => w2.worst ha.symm hw
  · exact fun hw => w1.worst ha hw

/-- **C90**, rejected inputs: an input is rejected in one order if it is in another one. -/
theorem C90_rejected_in_any_order (g : Equiv.Perm Nat) (raw raw' : Raw) (hl : Reordered g raw raw')
    (hmax : ∀ p ∈ raw.choices, p.max ≤ u32Max) : (∃ d, build raw = .ok d) ↔ ∃ d', build raw' = .ok d' := by
  have hmax' : ∀ p ∈ raw'.choices, p.max ≤ u32Max := by rw [hl.choices]; exact hmax
  constructor
  · rintro ⟨d, h⟩; exact reorder_accepted hmax hl h
  · rintro ⟨d, h⟩; exact reorder_accepted hmax' hl.symm h

/-! ### Example -/

namespace ReorderEx

/-- The input of `LooserEx` with Bob before Ann. -/
def swapped : Raw := { LooserEx.strict with
  choosers := [⟨"Bob".toList, [1, 0]⟩, ⟨"Ann".toList, [1, 0]⟩] }

theorem reordered : Reordered (Equiv.swap 0 1) LooserEx.strict swapped := by
  refine ⟨rfl, rfl, rfl, rfl, ?_⟩
  intro i
  match i with
  | 0 => rw [Equiv.swap_apply_left]; rfl
  | 1 => rw [Equiv.swap_apply_right]; rfl
  | i + 2 =>
    rw [Equiv.swap_apply_of_ne_of_ne (by omega) (by omega)]
    simp [swapped, LooserEx.strict]

theorem rows : RowsReordered (Equiv.swap 0 1) [[0], [1]] [[1], [0]] := by
  intro i
  match i with
  | 0 => rw [Equiv.swap_apply_left]; rfl
  | 1 => rw [Equiv.swap_apply_right]; rfl
  | i + 2 =>
    rw [Equiv.swap_apply_of_ne_of_ne (by omega) (by omega)]
    simp

/-- The constraint about Bob is about the second chooser in one order and about the first one in the other. -/
example : (dataOf LooserEx.strict).asgCons = [⟨.chooserIsInChoice, 1, .choice 1, .none⟩] ∧
    (dataOf swapped).asgCons = [⟨.chooserIsInChoice, 0, .choice 1, .none⟩] := by decide +kernel

example : pref (dataOf swapped) 0 1 = some 0 ∧ pref (dataOf swapped) 1 1 = some 1 := by decide +kernel

end ReorderEx

end Wassign
