import Verif.Proofs.SchedCons
import Verif.Proofs.Pigeon
import Verif.Model.Score
/-
The assignment-constraint checks and the attendance loop of scoring.rs decide their meaning.
-/
namespace Wassign
open Spec

/-- Entry of chooser `p` in column `k`, as a total function (used in range only). -/
def ent (a : Assignment) (p k : Nat) : Nat := (entry a p k).getD 0

section
variable {i : InputData} {s : Scheduling} {a : Assignment}

theorem shape_row (h : Shape i s a) {p : Nat} (hp : p < i.np) :
    ∃ r, a[p]? = some r ∧ r.length = i.ns := by
  have hl : p < a.length := by rw [h.asgLen]; exact hp
  exact ⟨a[p], by simp [hl], h.rowLen _ (List.getElem_mem hl)⟩

theorem entry_some (h : Shape i s a) {p k : Nat} (hp : p < i.np) (hk : k < i.ns) :
    entry a p k = some (ent a p k) := by
  obtain ⟨r, hr, hl⟩ := shape_row h hp
  have : k < r.length := by omega
  simp [ent, entry, hr, this]

theorem entry_lt (h : Shape i s a) {p k c : Nat} (he : entry a p k = some c) :
    p < i.np ∧ k < i.ns := by
  unfold entry at he
  cases hr : a[p]? with
  | none => simp [hr] at he
  | some r =>
    obtain ⟨hp, hre⟩ := List.getElem?_eq_some_iff.1 hr
    have hl := h.rowLen r (hre ▸ List.getElem_mem hp)
    simp [hr] at he
    obtain ⟨hk, _⟩ := List.getElem?_eq_some_iff.1 he
    exact ⟨by rw [← h.asgLen]; exact hp, by omega⟩

theorem attends_iff (h : Shape i s a) {p c : Nat} (hp : p < i.np) :
    Attends a p c ↔ ∃ k, k < i.ns ∧ ent a p k = c := by
  constructor
  · rintro ⟨k, hk⟩
    have hk' := (entry_lt h hk).2
    refine ⟨k, hk', ?_⟩
    rw [entry_some h hp hk'] at hk; simpa using hk
  · rintro ⟨k, hk, rfl⟩
    exact ⟨k, entry_some h hp hk⟩

theorem attends_lt (h : Shape i s a) {p c : Nat} (hc : Attends a p c) : p < i.np := by
  obtain ⟨k, hk⟩ := hc; exact (entry_lt h hk).1

theorem choiceOf_ok (h : Shape i s a) {p k : Nat} (hp : p < i.np) (hk : k < i.ns) :
    choiceOf a p k = .ok (ent a p k) := by
  obtain ⟨r, hr, hl⟩ := shape_row h hp
  unfold choiceOf
  have hk' : k < r.length := by omega
  rw [idx_eq_ok.2 hr]
  simp only [R.bind_ok, idx_ok hk']
  simp [ent, entry, hr, hk']

/-- Columns of chooser `p` holding choice `c`. -/
def cols (i : InputData) (a : Assignment) (c p : Nat) : List Nat :=
  (List.range i.ns).filter (fun k => ent a p k == c)

theorem choosersOrdered_ok (h : Shape i s a) (c : Nat) :
    choosersOrdered i a c = .ok (sortNat (((List.range i.np).map (fun p =>
      (cols i a c p).map (fun _ => p))).flatten)) := by
  unfold choosersOrdered
  have : (List.range i.np).mapM (fun p => do
    let cols ← (List.range i.ns).filterM (fun k => do
      let x ← choiceOf a p k
      pure (x == c))
    pure (cols.map (fun _ => p))) = Except.ok ((List.range i.np).map (fun p =>
      (cols i a c p).map (fun _ => p))) := by
    apply mapM_eq_ok_of
    intro p hp
    have hp : p < i.np := by simpa using hp
    rw [filterM_eq_ok_of (q := fun k => ent a p k == c)]
    · simp [cols]
    · intro k hk
      have hk : k < i.ns := by simpa using hk
      simp [choiceOf_ok h hp hk]
  rw [this]; rfl

theorem choicesOrdered_ok (h : Shape i s a) {p : Nat} (hp : p < i.np) :
    choicesOrdered i a p = .ok (sortNat ((List.range i.ns).map (ent a p))) := by
  unfold choicesOrdered
  rw [mapM_eq_ok_of (g := ent a p)]
  · rfl
  · intro k hk
    exact choiceOf_ok h hp (by simpa using hk)

theorem isInChoice_ok (h : Shape i s a) {p : Nat} (hp : p < i.np) (c : Nat) :
    ∃ b, isInChoice i a p c = .ok b ∧ (b = true ↔ Attends a p c) := by
  unfold isInChoice anyRange
  rw [anyM_eq_ok_of (q := fun k => ent a p k == c)]
  · refine ⟨_, rfl, ?_⟩
    rw [attends_iff h hp]; simp
  · intro k hk
    simp [choiceOf_ok h hp (by simpa using hk)]

/-- No chooser has the same choice twice. -/
def RowNodup (i : InputData) (a : Assignment) : Prop :=
  ∀ p, p < i.np → ∀ j k, j < i.ns → k < i.ns → ent a p j = ent a p k → j = k

theorem cols_length (hr : RowNodup i a) {p : Nat} (hp : p < i.np) (c : Nat) :
    (cols i a c p).length = if (∃ k, k < i.ns ∧ ent a p k = c) then 1 else 0 := by
  have hnd : (cols i a c p).Nodup := List.Nodup.sublist List.filter_sublist List.nodup_range
  have hmem : ∀ k, k ∈ cols i a c p ↔ k < i.ns ∧ ent a p k = c := by intro k; simp [cols]
  split
  · next h =>
    obtain ⟨k, hk, hc⟩ := h
    have : (cols i a c p).Perm [k] := by
      rw [List.perm_ext_iff_of_nodup hnd (by simp)]
      intro j
      rw [hmem]; simp
      constructor
      · rintro ⟨hj, h2⟩; exact hr p hp j k hj hk (by rw [h2, hc])
      · rintro rfl; exact ⟨hk, hc⟩
    simpa using this.length_eq
  · next h =>
    rw [List.length_eq_zero_iff, List.eq_nil_iff_forall_not_mem]
    intro k hk
    rw [hmem] at hk
    exact h ⟨k, hk⟩

/-- Case analysis on a well-formed assignment constraint. -/
theorem AsgConWF.cases {i : InputData} {P : Constraint → Prop} {c : Constraint}
    (h : AsgConWF i c)
    (h1 : ∀ x y e, x < i.nc → y < i.nc → P ⟨.choicesHaveSameChoosers, x, .choice y, e⟩)
    (h2 : ∀ p y e, p < i.np → y < i.nc → P ⟨.chooserIsInChoice, p, .choice y, e⟩)
    (h3 : ∀ p y e, p < i.np → y < i.nc → P ⟨.chooserIsNotInChoice, p, .choice y, e⟩)
    (h4 : ∀ p q e, p < i.np → q < i.np → P ⟨.choosersHaveSameChoices, p, .chooser q, e⟩) : P c := by
  rcases c with ⟨kind, left, right, extra⟩
  unfold AsgConWF at h
  cases kind <;> cases right <;> try exact False.elim h
  · exact h1 _ _ _ h.1 h.2
  · exact h2 _ _ _ h.1 h.2
  · exact h3 _ _ _ h.1 h.2
  · exact h4 _ _ _ h.1 h.2

theorem choosersOrdered_eq_iff (h : Shape i s a) (hr : RowNodup i a) (x y : Nat) :
    sortNat (((List.range i.np).map (fun p => (cols i a x p).map (fun _ => p))).flatten) =
      sortNat (((List.range i.np).map (fun p => (cols i a y p).map (fun _ => p))).flatten)
    ↔ ∀ p, Attends a p x ↔ Attends a p y := by
  constructor
  · intro he p
    have key : ∀ z, (∃ l, (∃ q, q < i.np ∧ (cols i a z q).map (fun _ => q) = l) ∧ p ∈ l) ↔ Attends a p z := by
      intro z
      constructor
      · rintro ⟨l, ⟨q, hq, rfl⟩, hm⟩
        simp [cols] at hm
        obtain ⟨⟨k, hk, he⟩, rfl⟩ := hm
        exact (attends_iff h hq).2 ⟨k, hk, he⟩
      · intro ha
        have hp := attends_lt h ha
        obtain ⟨k, hk, he⟩ := (attends_iff h hp).1 ha
        refine ⟨_, ⟨p, hp, rfl⟩, ?_⟩
        simp [cols]; exact ⟨k, hk, he⟩
    have hp' := (perm_of_sortNat_eq he).mem_iff (a := p)
    rw [List.mem_flatten, List.mem_flatten] at hp'
    simp only [List.mem_map, List.mem_range] at hp'
    rw [← key x, ← key y]
    simpa using hp'
  · intro he
    congr 1
    congr 1
    apply List.map_congr_left
    intro p hp
    have hp : p < i.np := by simpa using hp
    have := he p
    rw [attends_iff h hp, attends_iff h hp] at this
    rw [List.map_const', List.map_const', cols_length hr hp, cols_length hr hp]
    simp only [this]

/-- The check of a well-formed assignment constraint returns its meaning. -/
theorem asgConOk_spec {c : Constraint} (h : Shape i s a) (hr : RowNodup i a) (hw : AsgConWF i c) :
    ∃ b, asgConOk i s a c = .ok b ∧ (b = true ↔ AsgHolds s a c) := by
  have hs := h.schedLen
  refine AsgConWF.cases (P := fun c => ∃ b, asgConOk i s a c = .ok b ∧ (b = true ↔ AsgHolds s a c)) hw ?_ ?_ ?_ ?_
  · intro x y e hx hy
    simp only [asgConOk, Constraint.otherChoice, R.bind_ok, slotOf_ok (hs ▸ hx : x < s.length),
      slotOf_ok (hs ▸ hy : y < s.length), AsgHolds, choosersOrdered_ok h]
    cases hyy : slotAt s y with
    | none => exact ⟨true, by simp, by simp⟩
    | some t =>
      cases hxx : slotAt s x with
      | none => exact ⟨true, by simp, by simp⟩
      | some u =>
        refine ⟨_, rfl, ?_⟩
        rw [beq_iff_eq, choosersOrdered_eq_iff h hr]
        simp
  · intro p y e hp hy
    simp only [asgConOk, Constraint.otherChoice, R.bind_ok, slotOf_ok (hs ▸ hy : y < s.length), AsgHolds]
    cases hyy : slotAt s y with
    | none => exact ⟨true, by simp, by simp⟩
    | some t =>
      obtain ⟨b, hb, hb'⟩ := isInChoice_ok h hp y
      exact ⟨b, by simpa using hb, by simpa using hb'⟩
  · intro p y e hp hy
    simp only [asgConOk, Constraint.otherChoice, R.bind_ok, AsgHolds]
    obtain ⟨b, hb, hb'⟩ := isInChoice_ok h hp y
    refine ⟨!b, by simp [hb], ?_⟩
    rw [← hb']; cases b <;> simp
  · intro p q e hp hq
    simp only [asgConOk, Constraint.otherChooser, R.bind_ok, AsgHolds, choicesOrdered_ok h hp,
      choicesOrdered_ok h hq]
    refine ⟨_, rfl, ?_⟩
    rw [beq_iff_eq]
    constructor
    · intro he x
      have := (perm_of_sortNat_eq he).mem_iff (a := x)
      simp at this
      rw [attends_iff h hp, attends_iff h hq]; exact this
    · intro he
      apply sortNat_eq_of_perm
      rw [List.perm_ext_iff_of_nodup (nodup_map_range (hr p hp)) (nodup_map_range (hr q hq))]
      intro x
      have := he x
      rw [attends_iff h hp, attends_iff h hq] at this
      simpa using this

end
end Wassign
