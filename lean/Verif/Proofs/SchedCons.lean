import Verif.Model.Scheduling
import Verif.Spec.Solution
import Verif.Spec.WF
/-
The constraint checks of scoring.rs decide the meaning of the constraints.
-/
namespace Wassign
open Spec

theorem slotOf_eq_ok {s : Scheduling} {c : Nat} {x : Option Nat} :
    slotOf s c = .ok x ↔ s[c]? = some x := idx_eq_ok

theorem slotAt_of_get {s : Scheduling} {c : Nat} {x : Option Nat} (h : s[c]? = some x) :
    slotAt s c = x := by simp [slotAt, h]

theorem slotOf_ok {s : Scheduling} {c : Nat} (h : c < s.length) :
    slotOf s c = .ok (slotAt s c) := by
  rw [slotOf_eq_ok]; simp [slotAt, h]

theorem slotAt_none_of_ge {s : Scheduling} {c : Nat} (h : s.length ≤ c) : slotAt s c = none := by
  simp [slotAt, h]

theorem LimitOp.test_iff (op : LimitOp) (a b : Nat) : op.test a b = true ↔ Rel op a b := by
  cases op <;> simp [LimitOp.test, Rel]

theorem filterM_slot {i : InputData} {s : Scheduling} (hs : s.length = i.nc) (t : Nat) :
    (List.range i.nc).filterM (fun ch => do
        let x ← slotOf s ch
        pure (x == some t)) = Except.ok ((List.range i.nc).filter (fun c => slotAt s c == some t)) := by
  apply filterM_eq_ok_of
  intro c hc
  have : c < s.length := by simpa [hs] using hc
  simp [slotOf_ok this]

theorem filter_length_slotSize (i : InputData) (s : Scheduling) (t : Nat) :
    ((List.range i.nc).filter (fun c => slotAt s c == some t)).length = slotSize i s t := by
  simp [slotSize, List.countP_eq_length_filter]

theorem slotSize_le (i : InputData) (s : Scheduling) (t : Nat) : slotSize i s t ≤ i.nc := by
  have := List.countP_le_length (p := fun c => slotAt s c == some t) (l := List.range i.nc)
  simpa [slotSize] using this

theorem satU32_eq {n : Nat} (h : n ≤ u32Max) : satU32 n = n := by
  simp [satU32]; omega

/-- Case analysis on a well-formed scheduling constraint. -/
theorem SchedConWF.cases {i : InputData} {P : Constraint → Prop} {c : Constraint}
    (h : SchedConWF i c)
    (h1 : ∀ x t e, x < i.nc → t < i.ns → P ⟨.choiceIsInSlot, x, .slot t, e⟩)
    (h2 : ∀ x t e, x < i.nc → t < i.ns → P ⟨.choiceIsNotInSlot, x, .slot t, e⟩)
    (h3 : ∀ x y e, x < i.nc → y < i.nc → P ⟨.choicesAreInSameSlot, x, .choice y, e⟩)
    (h4 : ∀ x y e, x < i.nc → y < i.nc → P ⟨.choicesAreNotInSameSlot, x, .choice y, e⟩)
    (h5 : ∀ x y o, x < i.nc → y < i.nc → P ⟨.choicesHaveOffset, x, .choice y, .offset o⟩)
    (h6 : ∀ t n op, t < i.ns → P ⟨.slotHasLimitedSize, t, .limit n, .limitOp op⟩) : P c := by
  rcases c with ⟨kind, left, right, extra⟩
  unfold SchedConWF at h
  cases kind <;> cases right <;> try exact False.elim h
  · exact h1 _ _ _ h.1 h.2
  · exact h2 _ _ _ h.1 h.2
  · exact h3 _ _ _ h.1 h.2
  · exact h4 _ _ _ h.1 h.2
  · cases extra <;> try exact False.elim h
    exact h5 _ _ _ h.1 h.2
  · cases extra <;> try exact False.elim h
    exact h6 _ _ _ h

/-- The same as a disjunction. -/
theorem SchedConWF.elim {i : InputData} {c : Constraint} (h : SchedConWF i c) :
    (∃ x t e, c = ⟨.choiceIsInSlot, x, .slot t, e⟩ ∧ x < i.nc ∧ t < i.ns) ∨
    (∃ x t e, c = ⟨.choiceIsNotInSlot, x, .slot t, e⟩ ∧ x < i.nc ∧ t < i.ns) ∨
    (∃ x y e, c = ⟨.choicesAreInSameSlot, x, .choice y, e⟩ ∧ x < i.nc ∧ y < i.nc) ∨
    (∃ x y e, c = ⟨.choicesAreNotInSameSlot, x, .choice y, e⟩ ∧ x < i.nc ∧ y < i.nc) ∨
    (∃ x y o, c = ⟨.choicesHaveOffset, x, .choice y, .offset o⟩ ∧ x < i.nc ∧ y < i.nc) ∨
    (∃ t n op, c = ⟨.slotHasLimitedSize, t, .limit n, .limitOp op⟩ ∧ t < i.ns) := by
  refine SchedConWF.cases (P := fun c =>
    (∃ x t e, c = ⟨.choiceIsInSlot, x, .slot t, e⟩ ∧ x < i.nc ∧ t < i.ns) ∨
    (∃ x t e, c = ⟨.choiceIsNotInSlot, x, .slot t, e⟩ ∧ x < i.nc ∧ t < i.ns) ∨
    (∃ x y e, c = ⟨.choicesAreInSameSlot, x, .choice y, e⟩ ∧ x < i.nc ∧ y < i.nc) ∨
    (∃ x y e, c = ⟨.choicesAreNotInSameSlot, x, .choice y, e⟩ ∧ x < i.nc ∧ y < i.nc) ∨
    (∃ x y o, c = ⟨.choicesHaveOffset, x, .choice y, .offset o⟩ ∧ x < i.nc ∧ y < i.nc) ∨
    (∃ t n op, c = ⟨.slotHasLimitedSize, t, .limit n, .limitOp op⟩ ∧ t < i.ns)) h ?_ ?_ ?_ ?_ ?_ ?_
  · intro x t e h1 h2; exact .inl ⟨x, t, e, rfl, h1, h2⟩
  · intro x t e h1 h2; exact .inr (.inl ⟨x, t, e, rfl, h1, h2⟩)
  · intro x t e h1 h2; exact .inr (.inr (.inl ⟨x, t, e, rfl, h1, h2⟩))
  · intro x t e h1 h2; exact .inr (.inr (.inr (.inl ⟨x, t, e, rfl, h1, h2⟩)))
  · intro x t e h1 h2; exact .inr (.inr (.inr (.inr (.inl ⟨x, t, e, rfl, h1, h2⟩))))
  · intro t n op h1; exact .inr (.inr (.inr (.inr (.inr ⟨t, n, op, rfl, h1⟩))))


/-- Whenever the check of one scheduling constraint returns, it returns its meaning. -/
theorem schedConOk_spec {i : InputData} {s : Scheduling} {c : Constraint} {b : Bool}
    (hs : s.length = i.nc) (hn : i.nc ≤ u32Max) (hw : SchedConWF i c)
    (h : schedConOk i s c = .ok b) : b = true ↔ SchedHolds i s c := by
  revert h
  refine SchedConWF.cases (P := fun c => schedConOk i s c = .ok b → (b = true ↔ SchedHolds i s c)) hw ?_ ?_ ?_ ?_ ?_ ?_
  · intro x t e hx ht h
    simp [schedConOk, Constraint.slot, slotOf_ok (hs ▸ hx : x < s.length)] at h
    simp [SchedHolds, ← h]
  · intro x t e hx ht h
    simp [schedConOk, Constraint.slot, slotOf_ok (hs ▸ hx : x < s.length)] at h
    simp [SchedHolds, ← h]
  · intro x y e hx hy h
    simp [schedConOk, Constraint.otherChoice, slotOf_ok (hs ▸ hx : x < s.length),
      slotOf_ok (hs ▸ hy : y < s.length)] at h
    simp [SchedHolds, ← h]
  · intro x y e hx hy h
    simp [schedConOk, Constraint.otherChoice, slotOf_ok (hs ▸ hx : x < s.length),
      slotOf_ok (hs ▸ hy : y < s.length)] at h
    cases hxx : slotAt s x <;> cases hyy : slotAt s y <;> simp [hxx, hyy] at h <;>
      simp [SchedHolds, ← h, hxx, hyy]
    rename_i v w
    by_cases hvw : v = w
    · subst hvw; simpa using h
    · have : ¬ w = v := fun e => hvw e.symm
      have hb : (v == w) = false := by simpa using hvw
      rw [hb] at h
      have hb' : b = true := by cases b <;> simp at h <;> rfl
      simp [this, hb']
  · intro x y o hx hy h
    simp [schedConOk, Constraint.otherChoice, slotOf_ok (hs ▸ hx : x < s.length),
      slotOf_ok (hs ▸ hy : y < s.length)] at h
    cases hxx : slotAt s x <;> cases hyy : slotAt s y <;> simp [hxx, hyy] at h <;>
      simp [SchedHolds, ← h, hxx, hyy]
    simp only [R.bind_eq_ok, toI32_eq_ok, Constraint.offset] at h
    obtain ⟨r, ⟨_, rfl⟩, l, ⟨_, rfl⟩, o', ho, h⟩ := h
    simp at ho h
    rw [← h, ← ho]
    simp
    omega
  · intro t n op ht h
    simp only [schedConOk, filterM_slot hs] at h
    simp [Constraint.limit, Constraint.limitOp, filter_length_slotSize] at h
    rw [satU32_eq (Nat.le_trans (slotSize_le i s t) hn)] at h
    simp [SchedHolds, ← h, LimitOp.test_iff]

/-- The check of a well-formed scheduling constraint does not panic. -/
theorem schedConOk_total {i : InputData} {s : Scheduling} {c : Constraint}
    (hs : s.length = i.nc) (hr : SlotsInRange i s) (hi : i.ns ≤ i32Max) (hw : SchedConWF i c) :
    ∃ b, schedConOk i s c = .ok b := by
  refine SchedConWF.cases (P := fun c => ∃ b, schedConOk i s c = .ok b) hw ?_ ?_ ?_ ?_ ?_ ?_
  · intro x t e hx ht
    simp [schedConOk, Constraint.slot, slotOf_ok (hs ▸ hx : x < s.length)]
  · intro x t e hx ht
    simp [schedConOk, Constraint.slot, slotOf_ok (hs ▸ hx : x < s.length)]
  · intro x y e hx hy
    simp [schedConOk, Constraint.otherChoice, slotOf_ok (hs ▸ hx : x < s.length),
      slotOf_ok (hs ▸ hy : y < s.length)]
  · intro x y e hx hy
    simp [schedConOk, Constraint.otherChoice, slotOf_ok (hs ▸ hx : x < s.length),
      slotOf_ok (hs ▸ hy : y < s.length)]
    cases hxx : slotAt s x with
    | none => simp
    | some v => cases hyy : slotAt s y <;> simp [Decidable.em]
  · intro x y o hx hy
    simp [schedConOk, Constraint.otherChoice, slotOf_ok (hs ▸ hx : x < s.length),
      slotOf_ok (hs ▸ hy : y < s.length)]
    cases hxx : slotAt s x <;> cases hyy : slotAt s y <;> simp
    have h1 := hr _ _ hxx
    have h2 := hr _ _ hyy
    rename_i v w
    have e1 : toI32 v "slot fits in i32" = .ok (v : Int) := toI32_eq_ok.2 ⟨by omega, rfl⟩
    have e2 : toI32 w "slot fits in i32" = .ok (w : Int) := toI32_eq_ok.2 ⟨by omega, rfl⟩
    simp only [e1, e2, R.bind_ok, Constraint.offset]
    cases ((w : Int) - v == o) <;> simp
  · intro t n op ht
    simp only [schedConOk, filterM_slot hs]
    simp [Constraint.limit, Constraint.limitOp]

theorem allM_ok_iff {α : Type} {l : List α} {p : α → R Bool} {Q : α → Prop} {b : Bool}
    (hp : ∀ x ∈ l, ∀ b, p x = .ok b → (b = true ↔ Q x)) (h : l.allM p = .ok b) :
    b = true ↔ ∀ x ∈ l, Q x := by
  induction l with
  | nil => simp [List.allM] at h; simp [← h]
  | cons x xs ih =>
    simp only [List.allM, R.bind_eq_ok] at h
    obtain ⟨c, hc, h⟩ := h
    have hx := hp x (by simp) c hc
    cases c
    · simp at h; subst h
      simp at hx ⊢
      intro hq; exact absurd hq hx
    · simp at h
      have ih := ih (fun y hy => hp y (by simp [hy])) h
      simp at hx
      rw [ih]; simp [hx]

theorem allM_total {α : Type} {l : List α} {p : α → R Bool}
    (hp : ∀ x ∈ l, ∃ b, p x = .ok b) : ∃ b, l.allM p = .ok b := by
  induction l with
  | nil => exact ⟨true, rfl⟩
  | cons x xs ih =>
    obtain ⟨c, hc⟩ := hp x (by simp)
    obtain ⟨d, hd⟩ := ih (fun y hy => hp y (by simp [hy]))
    simp only [List.allM, hc, R.bind_ok]
    cases c
    · exact ⟨false, rfl⟩
    · exact ⟨d, hd⟩

/-- `satisfies_constraints_scheduling`, when it returns, decides the meaning of all constraints. -/
theorem satSched_spec {i : InputData} {s : Scheduling} {b : Bool}
    (hs : s.length = i.nc) (hn : i.nc ≤ u32Max) (hw : ∀ c ∈ i.schedCons, SchedConWF i c)
    (h : satSched i s = .ok b) : b = true ↔ ∀ c ∈ i.schedCons, SchedHolds i s c :=
  allM_ok_iff (fun c hc _ hb => schedConOk_spec hs hn (hw c hc) hb) h

theorem satSched_total {i : InputData} {s : Scheduling}
    (hs : s.length = i.nc) (hr : SlotsInRange i s) (hi : i.ns ≤ i32Max)
    (hw : ∀ c ∈ i.schedCons, SchedConWF i c) : ∃ b, satSched i s = .ok b :=
  allM_total (fun c hc => schedConOk_total hs hr hi (hw c hc))

end Wassign
