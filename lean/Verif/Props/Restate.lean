import Verif.Proofs.Restate
import Verif.Props.Reorder
/-
C91: constraints may be stated in any order.
-/
namespace Wassign
open Spec Build

/-- **C91**: if the constraints are stated in another order — and those that do not demand attendance any number of times —, the input is
accepted or not as before, choices, choosers, wishes and levels are read as before, and exactly the same timetables are valid, with the same
worst preference and the same cost. -/
theorem C91_order_of_statements (raw raw' : Raw) (hl : Restated raw raw') (hmax : ∀ p ∈ raw.choices, p.max ≤ u32Max)
    (d : InputData) (h : build raw = .ok d) :
    ∃ d', build raw' = .ok d' ∧ d'.slots = d.slots ∧ d'.choices = d.choices ∧ d'.choosers = d.choosers ∧ d'.maxPref = d.maxPref ∧
      d'.prefLevels = d.prefLevels ∧
      ∀ s a, (Valid d' s a ∧ Placed d' s ↔ Valid d s a ∧ Placed d s) ∧ (∀ w, IsWorst d' a w ↔ IsWorst d a w) ∧
        ∀ cost, totalCost d' cost a = totalCost d cost a := by
  obtain ⟨d', h'⟩ := restate_accepted hmax hl h
  have hmax' : ∀ p ∈ raw'.choices, p.max ≤ u32Max := by rw [hl.choices]; exact hmax
  have w1 := restate_same hmax hl h h'
  have w2 := restate_same hmax' hl.symm h' h
  have hplaced : ∀ {e e' : InputData} (s : Scheduling), e'.choices = e.choices → Placed e s → Placed e' s := by
    intro e e' s he hp c hc
    have hc' : c < e.nc := by show c < e.choices.length; rw [← he]; exact hc
    have := hp c hc'
    simp only [he]
    exact this
  have hlev : d'.prefLevels = d.prefLevels := by
    obtain ⟨s1, _, _, _, m1⟩ := C26_levels_partial raw d hmax h
    obtain ⟨s2, _, _, _, m2⟩ := C26_levels_partial raw' d' hmax' h'
    refine increasing_ext s2 s1 (fun l => ?_)
    rw [m1, m2, w1.maxPref, hl.choosers]
  have hch : d'.choosers = d.choosers := by
    obtain ⟨m, written, hb⟩ := build_spec hmax h
    obtain ⟨m', written', hb'⟩ := build_spec hmax' h'
    apply List.ext_getElem?
    intro p
    by_cases hp : p < raw.choosers.length
    · obtain ⟨ch, e1, e2, e3⟩ := hb.names p hp
      obtain ⟨ch', f1, f2, f3⟩ := hb'.names p (by rw [hl.choosers]; exact hp)
      simp only [hl.choosers] at f2
      rw [e1, f1]
      congr 1
      have hprefs : ch'.prefs = ch.prefs := by
        apply List.ext_getElem?
        intro c
        have := w1.prefs p c
        unfold pref at this
        rw [e1, f1] at this
        exact this
      obtain ⟨n, q⟩ := ch
      obtain ⟨n', q'⟩ := ch'
      simp only at e2 f2 hprefs
      rw [e2, f2, hprefs]
    · rw [List.getElem?_eq_none (by show d'.np ≤ p; rw [← w1.dims.np, hb.np]; omega), List.getElem?_eq_none (by show d.np ≤ p; rw [hb.np]; omega)]
  refine ⟨d', h', w1.slots, w1.choices, hch, w1.maxPref, hlev, ?_⟩
  intro s a
  refine ⟨⟨fun hv => ⟨w2.valid hv.1, hplaced s w2.choices hv.2⟩, fun hv => ⟨w1.valid hv.1, hplaced s w1.choices hv.2⟩⟩,
    fun w => ⟨w2.worst, w1.worst⟩, fun cost => ?_⟩
  unfold totalCost
  rw [← w1.dims.np, ← w1.dims.nc]
  simp only [w1.prefs]

/-- **C91**, rejected inputs: an input is rejected in one order if it is in another one. -/
theorem C91_rejected_in_any_order (raw raw' : Raw) (hl : Restated raw raw') (hmax : ∀ p ∈ raw.choices, p.max ≤ u32Max) :
    (∃ d, build raw = .ok d) ↔ ∃ d', build raw' = .ok d' := by
  have hmax' : ∀ p ∈ raw'.choices, p.max ≤ u32Max := by rw [hl.choices]; exact hmax
  constructor
  · rintro ⟨d, h⟩; exact restate_accepted hmax hl h
  · rintro ⟨d, h⟩; exact restate_accepted hmax' hl.symm h

/-- **C91**, a plain reordering is one. -/
theorem C91_permuted (raw : Raw) (exprs : List CExpr) (h : exprs.Perm raw.exprs) : Restated raw { raw with exprs := exprs } :=
  ⟨rfl, rfl, rfl, fun _ => h.mem_iff, h.filter _⟩

/-- **C91**, repeating what does not demand attendance is one. -/
theorem C91_repeated (raw : Raw) (e : CExpr) (he : e ∈ raw.exprs) (ha : asksAttendance e = false) :
    Restated raw { raw with exprs := raw.exprs ++ [e] } := by
  refine ⟨rfl, rfl, rfl, fun x => ?_, ?_⟩
  · simp only [List.mem_append, List.mem_singleton]
    exact ⟨fun h => h.elim id (fun h => by rw [h]; exact he), .inl⟩
  · simp only [List.filter_append]
    rw [List.filter_cons_of_neg (by simp [ha])]
    simp

/-- Why demands of attendance are excepted: stated twice, whoever is meant, they keep the choice from taking place at all; and if the choice
is not optional, there is no timetable. -/
theorem C91_attendance_demanded_twice (raw : Raw) (hmax : ∀ p ∈ raw.choices, p.max ≤ u32Max) (d : InputData) (h : build raw = .ok d)
    (e : CExpr) (he : [e, e].Sublist raw.exprs) (c : Constraint) (p y : Nat) (hc : buildExpr d e = .ok [c]) (hd : demand? c = some (p, y)) :
    (∀ s a, Valid d s a → slotAt s y = none) ∧
    (∀ ch, d.choices[y]? = some ch → ch.isOptional = false → ¬ ∃ s a, Valid d s a ∧ Placed d s) := by
  obtain ⟨m, written, hb⟩ := build_spec hmax h
  obtain ⟨ex, pc, h1, h2, h3⟩ := hb.lists
  obtain ⟨r, e1, e2⟩ := mapM_sublist he h1
  have hr : r = [[c], [c]] := by
    have : [e, e].mapM (buildExpr d) = .ok [[c], [c]] := by
      rw [List.mapM_cons, hc, R.bind_ok, List.mapM_cons, hc, R.bind_ok]; rfl
    rw [this] at e1
    exact (Except.ok.inj e1).symm
  subst hr
  have hdem : [(p, y), (p, y)].Sublist (written.filterMap demand?) := by
    rw [h2, demands_append h3]
    have := e2.filterMap demand?
    simpa [hd] using this
  have hmem : c ∈ written := by
    rw [h2]; exact List.mem_append_left _ (e2.subset (by simp))
  have hy : y < d.nc := by
    have := hb.writtenWF c hmem
    obtain ⟨k, l, t, x⟩ := c
    cases k <;> cases t <;> simp only [demand?, reduceCtorEq, Option.some.injEq, Prod.mk.injEq] at hd <;> simp only [WrittenWF] at this <;>
      first
      | (obtain ⟨rfl, rfl⟩ := hd; omega)
      | exact this.elim
  obtain ⟨red, hr, hs, ha⟩ := hb.reduced
  have hin : notSame (y, y) ∈ d.schedCons :=
    (hs _).2 ⟨.sepMand (by rw [hr.demands]; exact hdem), by simp only [SchedConWF, notSame]; exact ⟨hy, hy⟩⟩
  have hnone : ∀ s a, Valid d s a → slotAt s y = none := by
    intro s a hv
    have := hv.sched _ hin
    simp only [SchedHolds, notSame] at this
    cases hsl : slotAt s y with
    | none => rfl
    | some t => exact absurd ⟨hsl, hsl⟩ (this t)
  refine ⟨hnone, ?_⟩
  rintro ch hch ho ⟨s, a, hv, hpl⟩
  have := hpl y hy (by
    have : d.choices[y]'(hy) = ch := (List.getElem?_eq_some_iff.1 hch).2
    rw [this]; exact ho)
  exact this (hnone s a hv)

/-! ### Examples -/

namespace RestateEx

def bobInB : CExpr := ⟨⟨.chooser, .choice, "Bob".toList, 0⟩, .contains, ⟨.choice, .notSet, "B".toList, 0⟩⟩
def together : CExpr := ⟨⟨.choice, .slot, "A".toList, 0⟩, .eq, ⟨.choice, .slot, "B".toList, 0⟩⟩
def two : CExpr := ⟨⟨.slot, .size, "Mo".toList, 0⟩, .eq, ⟨.integer, .notSet, "2".toList, 0⟩⟩

/-- The input of `LooserEx` with two more statements; and the same in another order, with one of them repeated. -/
def raw : Raw := { LooserEx.strict with
  slots := ["Mo".toList]
  exprs := [bobInB, together, two] }

def again : Raw := { LooserEx.strict with
  slots := ["Mo".toList]
  exprs := [two, together, bobInB, two] }

theorem restated : Restated raw again := by
  refine ⟨rfl, rfl, rfl, fun e => ?_, by decide⟩
  simp only [raw, again, List.mem_cons, List.not_mem_nil, or_false]
  tauto

/-- All statements have an effect. -/
example : (dataOf raw).schedCons.length = 2 ∧ (dataOf raw).asgCons.length = 1 := by decide +kernel

example : ∃ d', build again = .ok d' ∧ Valid d' [some 0, some 0] [[0], [1]] := by
  have hb : build raw = .ok (dataOf raw) := by decide +kernel
  obtain ⟨d', h', _, _, _, _, _, hall⟩ := C91_order_of_statements raw again restated (by decide +kernel) (dataOf raw) hb
  refine ⟨d', h', ((hall _ _).1.2 ⟨?_, by unfold Placed; decide +kernel⟩).1⟩
  refine (C01_feasibility_exact _ ?_ ?_ _ _ ⟨?_, ?_, ?_⟩ true ?_).1 rfl
  all_goals decide +kernel

/-- Stated twice, the demand that Bob attends B leaves no timetable, although there is one if it is stated once. -/
example : ∃ d, build { LooserEx.strict with exprs := [bobInB, bobInB] } = .ok d ∧ ¬ ∃ s a, Valid d s a ∧ Placed d s := by
  refine ⟨dataOf { LooserEx.strict with exprs := [bobInB, bobInB] }, by decide +kernel, ?_⟩
  exact (C91_attendance_demanded_twice { LooserEx.strict with exprs := [bobInB, bobInB] } (by decide +kernel) _ (by decide +kernel) bobInB (.refl _)
    ⟨.chooserIsInChoice, 1, .choice 1, .none⟩ 1 1 (by decide +kernel) rfl).2 ⟨"B".toList, 1, 1, none, false⟩ (by decide +kernel) rfl

end RestateEx

end Wassign
