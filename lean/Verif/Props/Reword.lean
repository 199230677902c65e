import Verif.Proofs.Reword
import Verif.Props.Restate
/-
C95: a constraint may be put in other words.
-/
namespace Wassign
open Spec Build

/-- **C95**: if constraints are put in other words — the objects are called by other names that stand for them alone, the two sides are
stated in the other order (with the same sign between them, also for comparisons of sizes), or both —, an input that is accepted still is, choices, choosers, wishes and levels are read as before, and
exactly the same timetables are valid, with the same worst preference and the same cost. -/
theorem C95_in_other_words (raw raw' : Raw) (hl : InOtherWords raw raw') (hmax : ∀ p ∈ raw.choices, p.max ≤ u32Max)
    (d : InputData) (h : build raw = .ok d) :
    ∃ d', build raw' = .ok d' ∧ d'.slots = d.slots ∧ d'.choices = d.choices ∧ d'.choosers = d.choosers ∧ d'.maxPref = d.maxPref ∧
      d'.prefLevels = d.prefLevels ∧
      ∀ s a, (Valid d' s a ∧ Placed d' s ↔ Valid d s a ∧ Placed d s) ∧ (∀ w, IsWorst d' a w ↔ IsWorst d a w) ∧
        ∀ cost, totalCost d' cost a = totalCost d cost a := by
  obtain ⟨d', h'⟩ := reworded_accepted hmax hl h
  have hmax' : ∀ p ∈ raw'.choices, p.max ≤ u32Max := by rw [hl.choices]; exact hmax
  have w1 := reworded_same hmax hl h h'
  have w2 := reworded_same hmax' hl.symm h' h
  have hplaced : ∀ {e e' : InputData} (s : Scheduling), e'.choices = e.choices → Placed e s → Placed e' s := by
    intro e e' s he hp c hc
    have hc' : c < e.nc := by show c < e.choices.length; rw [← he]; exact hc
    have := hp c hc'
    simp only [he]
    exact this
  have hlev : d'.prefLevels = d.prefLevels := by
    obtain ⟨s1, _, _, _, m1⟩ := C26_levels_partial raw d hmax h
    obtain ⟨s2, _, _, _, m2⟩ := C26_levels_partial raw' d' hmax' h'
    refine increasing_ext s2 s1 (fun l => ?_)
    rw [m1, m2, w1.maxPref, hl.choosers]
  have hch : d'.choosers = d.choosers := by
    obtain ⟨m, written, hb⟩ := build_spec hmax h
    obtain ⟨m', written', hb'⟩ := build_spec hmax' h'
    apply List.ext_getElem?
    intro p
    by_cases hp : p < raw.choosers.length
    · obtain ⟨ch, e1, e2, e3⟩ := hb.names p hp
      obtain ⟨ch', f1, f2, f3⟩ := hb'.names p (by rw [hl.choosers]; exact hp)
      simp only [hl.choosers] at f2
      rw [e1, f1]
      congr 1
      have hprefs : ch'.prefs = ch.prefs := by
        apply List.ext_getElem?
        intro c
        have := w1.prefs p c
        unfold pref at this
        rw [e1, f1] at this
        exact this
      obtain ⟨n, q⟩ := ch
      obtain ⟨n', q'⟩ := ch'
      simp only at e2 f2 hprefs
      rw [e2, f2, hprefs]
    · rw [List.getElem?_eq_none (by show d'.np ≤ p; rw [← w1.dims.np, hb.np]; omega), List.getElem?_eq_none (by show d.np ≤ p; rw [hb.np]; omega)]
  refine ⟨d', h', w1.slots, w1.choices, hch, w1.maxPref, hlev, ?_⟩
  intro s a
  refine ⟨⟨fun hv => ⟨w2.valid hv.1, hplaced s w2.choices hv.2⟩, fun hv => ⟨w1.valid hv.1, hplaced s w1.choices hv.2⟩⟩,
    fun w => ⟨w2.worst, w1.worst⟩, fun cost => ?_⟩
  unfold totalCost
  rw [← w1.dims.np, ← w1.dims.nc]
  simp only [w1.prefs]

/-- **C95**, rejected inputs: an input is rejected in one wording if it is in another one. -/
theorem C95_rejected_in_any_words (raw raw' : Raw) (hl : InOtherWords raw raw') (hmax : ∀ p ∈ raw.choices, p.max ≤ u32Max) :
    (∃ d, build raw = .ok d) ↔ ∃ d', build raw' = .ok d' := by
  have hmax' : ∀ p ∈ raw'.choices, p.max ≤ u32Max := by rw [hl.choices]; exact hmax
  constructor
  · rintro ⟨d, h⟩; exact reworded_accepted hmax hl h
  · rintro ⟨d, h⟩; exact reworded_accepted hmax' hl.symm h

/-- **C95**, full names: a name that stands for one object alone may be replaced by the full name of that object. -/
theorem C95_full_name (raw : Raw) (a : Accessor) (hb : ByName a.kind) (i : Nat) (v : Str)
    (ho : OnlyName a.name (namesFor raw a.kind) i) (hv : (namesFor raw a.kind)[i]? = some v) : SameThing raw a { a with name := v } := by
  refine ⟨rfl, rfl, rfl, fun _ => ⟨i, ho, ?_⟩, fun hnb => absurd hb hnb⟩
  have hbest : ∀ j, BestMatch v (namesFor raw a.kind) j → j = i := by
    rintro j ⟨lvl, w, h1, h2, h3⟩
    have hl : lvl = 0 := by
      by_contra hne
      exact h3 0 (by omega) v (List.mem_of_getElem? hv) rfl
    subst hl
    cases (h2 : w = v)
    obtain ⟨⟨l, u, q1, q2, q3⟩, q4⟩ := ho
    rw [hv] at q1
    cases q1
    exact q4 j ⟨l, v, h1, q2, q3⟩
  exact ⟨⟨0, v, hv, rfl, fun b hlt => absurd hlt (by omega)⟩, hbest⟩

/-- **C95**, one constraint turned round. -/
theorem C95_turned_round (raw : Raw) (l₁ l₂ : List CExpr) (e : CExpr) (hl : raw.exprs = l₁ ++ e :: l₂)
    (h1 : ByName e.left.kind → ∃ i, OnlyName e.left.name (namesFor raw e.left.kind) i)
    (h2 : ByName e.right.kind → ∃ i, OnlyName e.right.name (namesFor raw e.right.kind) i) :
    InOtherWords raw { raw with exprs := l₁ ++ ⟨e.right, e.rel, e.left⟩ :: l₂ } := by
  refine ⟨rfl, rfl, rfl, ?_⟩
  have hs : ∀ l : List CExpr, List.Forall₂ (Reworded raw) l l := fun l => List.forall₂_same.2 (fun _ _ => .same)
  show List.Forall₂ (Reworded raw) raw.exprs (l₁ ++ ⟨e.right, e.rel, e.left⟩ :: l₂)
  rw [hl]
  refine List.rel_append (hs l₁) (.cons (.turned rfl ?_ ?_) (hs l₂))
  · exact ⟨rfl, rfl, rfl, fun hb => (h1 hb).imp (fun i hi => ⟨hi, hi⟩), fun _ => rfl⟩
  · exact ⟨rfl, rfl, rfl, fun hb => (h2 hb).imp (fun i hi => ⟨hi, hi⟩), fun _ => rfl⟩

/-! ### Examples -/

namespace RewordEx

/-- Two talks on two days; Biology is on Monday, Bob attends the talk on art, and the two are at different times. -/
def one : Raw where
  slots := ["Mon morning".toList, "Tue morning".toList]
  choices := [⟨"Biology today".toList, 1, 2, 1, false⟩, ⟨"Art and more".toList, 1, 2, 1, false⟩]
  choosers := [⟨"Ann Lee".toList, [1, 0]⟩, ⟨"Bob Lee".toList, [0, 1]⟩]
  exprs := [⟨⟨.choice, .slot, "Biology today".toList, 0⟩, .eq, ⟨.slot, .notSet, "Mon morning".toList, 0⟩⟩,
    ⟨⟨.chooser, .choice, "Bob Lee".toList, 0⟩, .contains, ⟨.choice, .notSet, "Art and more".toList, 0⟩⟩,
    ⟨⟨.choice, .slot, "Biology today".toList, 0⟩, .neq, ⟨.choice, .slot, "Art and more".toList, 0⟩⟩]

/-- The same, in other words. -/
def other : Raw := { one with
  exprs := [⟨⟨.slot, .notSet, "Mon".toList, 0⟩, .eq, ⟨.choice, .slot, "Bio".toList, 0⟩⟩,
    ⟨⟨.chooser, .choice, "Bob".toList, 0⟩, .contains, ⟨.choice, .notSet, "more".toList, 0⟩⟩,
    ⟨⟨.choice, .slot, "Art".toList, 0⟩, .neq, ⟨.choice, .slot, "Biology".toList, 0⟩⟩] }

/-- A key that the program finds one object for stands for it alone. -/
theorem only_of_found {key : Str} {names : List Str} {i : Nat} (h : findName key names = .ok (some i)) : OnlyName key names i := by
  rcases names_cases key names with hu | ⟨j, hj⟩ | ha
  · rw [findName_unknown hu] at h; cases h
  · rw [findName_only hj] at h; cases h; exact hj
  · rw [findName_ambiguous ha] at h; cases h

theorem in_other_words : InOtherWords one other := by
  have key : ∀ (a b : Accessor) (i : Nat), b.kind = a.kind → b.sub = a.sub → b.part = a.part → ByName a.kind →
      findName a.name (namesFor one a.kind) = .ok (some i) → findName b.name (namesFor one a.kind) = .ok (some i) → SameThing one a b :=
    fun a b i h1 h2 h3 h4 h5 h6 => ⟨h1, h2, h3, fun _ => ⟨i, only_of_found h5, only_of_found h6⟩, fun h => absurd h4 h⟩
  refine ⟨rfl, rfl, rfl, .cons (.turned rfl ?_ ?_) (.cons (.names rfl ?_ ?_) (.cons (.turned rfl ?_ ?_) .nil))⟩
  · exact key _ _ 0 rfl rfl rfl (.inr (.inl rfl)) (by decide +kernel) (by decide +kernel)
  · exact key _ _ 0 rfl rfl rfl (.inl rfl) (by decide +kernel) (by decide +kernel)
  · exact key _ _ 1 rfl rfl rfl (.inr (.inr rfl)) (by decide +kernel) (by decide +kernel)
  · exact key _ _ 1 rfl rfl rfl (.inr (.inl rfl)) (by decide +kernel) (by decide +kernel)
  · exact key _ _ 0 rfl rfl rfl (.inr (.inl rfl)) (by decide +kernel) (by decide +kernel)
  · exact key _ _ 1 rfl rfl rfl (.inr (.inl rfl)) (by decide +kernel) (by decide +kernel)

/-- All statements have an effect; the third one reads differently in the data. -/
example : (dataOf one).schedCons = [⟨.choiceIsInSlot, 0, .slot 0, .none⟩, ⟨.choicesAreNotInSameSlot, 0, .choice 1, .none⟩] ∧
    (dataOf other).schedCons = [⟨.choiceIsInSlot, 0, .slot 0, .none⟩, ⟨.choicesAreNotInSameSlot, 1, .choice 0, .none⟩] := by decide +kernel

example : ∃ d', build other = .ok d' ∧ Valid d' [some 0, some 1] [[0, 1], [0, 1]] := by
  have hb : build one = .ok (dataOf one) := by decide +kernel
  obtain ⟨d', h', _, _, _, _, _, hall⟩ := C95_in_other_words one other in_other_words (by decide +kernel) (dataOf one) hb
  refine ⟨d', h', ((hall _ _).1.2 ⟨?_, by unfold Placed; decide +kernel⟩).1⟩
  refine (C01_feasibility_exact _ ?_ ?_ _ _ ⟨?_, ?_, ?_⟩ true ?_).1 rfl
  all_goals decide +kernel

/-- "Bio" may be replaced by the full name. -/
example : SameThing one ⟨.choice, .slot, "Bio".toList, 0⟩ ⟨.choice, .slot, "Biology today".toList, 0⟩ :=
  C95_full_name one ⟨.choice, .slot, "Bio".toList, 0⟩ (.inr (.inl rfl)) 0 _ (only_of_found (by decide +kernel)) (by decide +kernel)

def unclear (l r : String) : Raw := { one with
  choices := [⟨"Art one".toList, 1, 1, 1, false⟩, ⟨"Art two".toList, 1, 1, 1, false⟩]
  exprs := [⟨⟨.choice, .slot, l.toList, 0⟩, .eq, ⟨.choice, .slot, r.toList, 0⟩⟩] }

end RewordEx

/-- Why the names are to stand for one object each: with a name nobody has on one side and a name that stands for two choices on the other,
the constraint is left out without a message in one order and the input is rejected in the other. -/
theorem C95_unknown_and_ambiguous : (∃ d, build (RewordEx.unclear "Art" "Music") = .ok d) ∧
    build (RewordEx.unclear "Music" "Art") = .error (.error "The name \"Art\" is ambiguous.") :=
  ⟨⟨dataOf (RewordEx.unclear "Art" "Music"), by decide +kernel⟩, by decide +kernel⟩

end Wassign
