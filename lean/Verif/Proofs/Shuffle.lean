import Verif.Spec.Shuffle
import Verif.Proofs.Reorder
/-
The builder does not care about the order of the choices.
-/
namespace Wassign
open Spec Build

theorem Spec.ChoicesReordered.symm {g : Equiv.Perm Nat} {p q : Raw} (h : ChoicesReordered g p q) : ChoicesReordered g.symm q p :=
  ⟨h.slots.symm, h.exprs.symm, h.number.symm, fun i => by rw [h.choices]; simp, h.names.symm, fun i c c' h1 h2 =>
    ⟨(h.wishes i c' c h2 h1).1.symm, fun k => by rw [(h.wishes i c' c h2 h1).2]; simp⟩⟩

theorem perm_of_get {α : Type} {g : Equiv.Perm Nat} {ps qs : List α} (hl : qs.length = ps.length) (h : ∀ k, qs[k]? = ps[g k]?) : qs.Perm ps := by
  have hlt : ∀ i, g i < ps.length ↔ i < ps.length := by
    intro i
    have h1 := h i
    constructor
    · intro hi
      rw [List.getElem?_eq_getElem hi] at h1
      have := (List.getElem?_eq_some_iff.1 h1).1
      omega
    · intro hi
      rw [List.getElem?_eq_getElem (by omega)] at h1
      exact (List.getElem?_eq_some_iff.1 h1.symm).1
  have hp := (range_reorder hlt).map (fun i => ps[i]?)
  have e1 : (List.range ps.length).map (fun i => ps[i]?) = ps.map some := by
    apply List.ext_getElem?
    intro i
    by_cases hi : i < ps.length
    · simp [hi]
    · rw [List.getElem?_eq_none (by simpa using hi), List.getElem?_eq_none (by simpa using hi)]
  have e2 : ((List.range ps.length).map g).map (fun i => ps[i]?) = qs.map some := by
    rw [List.map_map]
    apply List.ext_getElem?
    intro i
    by_cases hi : i < ps.length
    · rw [List.getElem?_map, List.getElem?_range hi, List.getElem?_map, Option.map_some]
      show some ps[g i]? = _
      rw [← h, List.getElem?_eq_getElem (by omega)]
      rfl
    · rw [List.getElem?_eq_none (by simpa using hi), List.getElem?_eq_none (by simp; omega)]
  rw [e1, e2] at hp
  have := hp.filterMap id
  simpa using this

theorem Spec.ChoicesReordered.perm {g : Equiv.Perm Nat} {p q : Raw} (h : ChoicesReordered g p q) : q.choices.Perm p.choices :=
  perm_of_get h.number h.choices

theorem Spec.ChoicesReordered.total {g : Equiv.Perm Nat} {p q : Raw} (h : ChoicesReordered g p q) :
    (q.choices.map width).sum = (p.choices.map width).sum := (h.perm.map width).sum_eq

/-! ### The renumbering of the parts -/

open Classical in
/-- Where the part with number `c` of `qs` is among those of `ps`. -/
noncomputable def place (g : Equiv.Perm Nat) (ps qs : List Proto) (c : Nat) : Nat :=
  if h : ∃ kj : Nat × Nat, IsPart qs kj.1 kj.2 c then offset ps (g h.choose.1) + h.choose.2 else c

theorem place_part {g : Equiv.Perm Nat} {ps qs : List Proto} (hg : ∀ k, qs[k]? = ps[g k]?) {k j c : Nat} (h : IsPart qs k j c) :
    IsPart ps (g k) j (place g ps qs c) := by
  have hex : ∃ kj : Nat × Nat, IsPart qs kj.1 kj.2 c := ⟨(k, j), h⟩
  obtain ⟨e1, e2⟩ := isPart_unique h hex.choose_spec
  obtain ⟨p, h1, h2, h3⟩ := h
  unfold place
  rw [dif_pos hex, ← e1, ← e2]
  exact ⟨p, by rw [← hg]; exact h1, h2, rfl⟩

theorem place_place {g : Equiv.Perm Nat} {ps qs : List Proto} (hg : ∀ k, qs[k]? = ps[g k]?) (ht : (qs.map width).sum = (ps.map width).sum) (c : Nat) :
    place g.symm qs ps (place g ps qs c) = c := by
  by_cases hc : c < (qs.map width).sum
  · obtain ⟨k, j, h⟩ := isPart_exists hc
    have h1 := place_part hg h
    have h2 := place_part (g := g.symm) (ps := qs) (qs := ps) (fun k => by rw [hg]; simp) h1
    simp only [Equiv.symm_apply_apply] at h2
    obtain ⟨_, _, _, e1⟩ := h
    obtain ⟨_, _, _, e2⟩ := h2
    rw [e2]; exact e1.symm
  · have n1 : ¬ ∃ kj : Nat × Nat, IsPart qs kj.1 kj.2 c := fun ⟨kj, h⟩ => hc (isPart_lt h)
    have n2 : ¬ ∃ kj : Nat × Nat, IsPart ps kj.1 kj.2 c := fun ⟨kj, h⟩ => hc (by rw [ht]; exact isPart_lt h)
    have e1 : place g ps qs c = c := by unfold place; rw [dif_neg n1]
    rw [e1]
    unfold place; rw [dif_neg n2]

theorem moved_exists {g : Equiv.Perm Nat} {p q : Raw} (h : ChoicesReordered g p q) : ∃ π : Equiv.Perm Nat, PartsMoved g p.choices q.choices π := by
  refine ⟨⟨place g p.choices q.choices, place g.symm q.choices p.choices, place_place h.choices h.total, ?_⟩, fun k j c hc => place_part h.choices hc⟩
  intro c
  have := place_place (g := g.symm) (ps := q.choices) (qs := p.choices) h.symm.choices h.total.symm c
  simpa using this

theorem Spec.PartsMoved.symm {g π : Equiv.Perm Nat} {ps qs : List Proto} (hg : ∀ k, qs[k]? = ps[g k]?) (h : PartsMoved g ps qs π) :
    PartsMoved g.symm qs ps π.symm := by
  rintro k j c ⟨p, h1, h2, h3⟩
  have hq : IsPart qs (g.symm k) j (offset qs (g.symm k) + j) := ⟨p, by rw [hg]; simpa using h1, h2, rfl⟩
  have := h _ _ _ hq
  simp only [Equiv.apply_symm_apply] at this
  obtain ⟨_, _, _, e⟩ := this
  rw [h3, ← e]
  simpa using hq

theorem Spec.PartsMoved.lt {g π : Equiv.Perm Nat} {ps qs : List Proto} (hg : ∀ k, qs[k]? = ps[g k]?) (ht : (qs.map width).sum = (ps.map width).sum)
    (h : PartsMoved g ps qs π) (c : Nat) : π c < (ps.map width).sum ↔ c < (ps.map width).sum := by
  constructor
  · intro hc
    obtain ⟨k, j, hp⟩ := isPart_exists hc
    have := isPart_lt (h.symm hg _ _ _ hp)
    simp only [Equiv.symm_apply_apply] at this
    omega
  · intro hc
    obtain ⟨k, j, hp⟩ := isPart_exists (ps := qs) (by omega : c < _)
    exact isPart_lt (h _ _ _ hp)

/-- The data of a part in the new order. -/
def moveChoice (π : Equiv.Perm Nat) (x : Choice) : Choice := { x with continuation := x.continuation.map π.symm }

theorem moved_block {g π : Equiv.Perm Nat} {ps qs : List Proto} (hg : ∀ k, qs[k]? = ps[g k]?) (ht : (qs.map width).sum = (ps.map width).sum)
    (h : PartsMoved g ps qs π) (c : Nat) : (blocks 0 qs)[c]? = ((blocks 0 ps)[π c]?).map (moveChoice π) := by
  by_cases hc : c < (qs.map width).sum
  · obtain ⟨k, j, hp⟩ := isPart_exists hc
    have hp' := h _ _ _ hp
    obtain ⟨q, a1, a2, a3⟩ := id hp
    obtain ⟨p, b1, b2, b3⟩ := id hp'
    have : p = q := by rw [← hg, a1] at b1; exact (Option.some.inj b1).symm
    subst this
    rw [b3, blocks_get b1 b2 0, a3, blocks_get a1 a2 0]
    simp only [Option.map_some, moveChoice, Option.some.injEq, Choice.mk.injEq, true_and, and_true]
    by_cases hw : j + 1 < width p
    · rw [if_pos hw, if_pos hw]
      have hn : IsPart qs k (j + 1) (offset qs k + (j + 1)) := ⟨p, a1, hw, rfl⟩
      obtain ⟨_, _, _, e⟩ := h _ _ _ hn
      simp only [Option.map_some, Option.some.injEq]
      rw [show 0 + offset ps (g k) + j + 1 = offset ps (g k) + (j + 1) by omega, ← e, Equiv.symm_apply_apply]
      omega
    · rw [if_neg hw, if_neg hw]; rfl
  · have : ¬ π c < (ps.map width).sum := by rw [h.lt hg ht]; omega
    rw [List.getElem?_eq_none (by rw [length_blocks]; omega), List.getElem?_eq_none (by rw [length_blocks]; omega)]
    rfl

/-! ### Constraints -/

def leftIsChoice : Kind → Bool
  | .choiceIsInSlot | .choiceIsNotInSlot | .choicesAreInSameSlot | .choicesAreNotInSameSlot | .choicesHaveOffset | .choicesHaveSameChoosers
  | .choiceContainsChooser | .choiceNotContainsChooser => true
  | _ => false

def moveTarget (π : Equiv.Perm Nat) : Target → Target
  | .choice q => .choice (π.symm q)
  | t => t

/-- The same constraint about choices in another order. -/
def moveCon (π : Equiv.Perm Nat) (c : Constraint) : Constraint :=
  ⟨c.kind, if leftIsChoice c.kind then π.symm c.left else c.left, moveTarget π c.right, c.extra⟩

/-- The data agree apart from the order of the choices. -/
structure NamesMoved (π : Equiv.Perm Nat) (d d' : InputData) : Prop where
  slots : d'.slots = d.slots
  choosers : d'.choosers.map (·.name) = d.choosers.map (·.name)
  names : ∀ c : Nat, (d'.choices.map (·.name))[c]? = (d.choices.map (·.name))[π c]?
  conts : ∀ c : Nat, (d'.choices.map (·.continuation))[c]? = ((d.choices.map (·.continuation))[π c]?).map (Option.map π.symm)

section
variable {π : Equiv.Perm Nat} {d d' : InputData} (h : NamesMoved π d d')
include h

theorem walkParts_moved (asked : Nat) : ∀ k c, walkParts d' asked k c = (walkParts d asked k (π c)).map π.symm := by
  intro k
  induction k with
  | zero => intro c; show Except.ok c = Except.ok (π.symm (π c)); simp
  | succ k ih =>
    intro c
    unfold walkParts
    have hc := h.conts c
    rw [List.getElem?_map, List.getElem?_map] at hc
    cases e1 : d.choices[π c]? with
    | none =>
      rw [e1] at hc
      cases e2 : d'.choices[c]? with
      | some y => rw [e2] at hc; cases hc
      | none =>
        rw [idx, idx, e1, e2]
        rfl
    | some x =>
      rw [e1] at hc
      cases e2 : d'.choices[c]? with
      | none => rw [e2] at hc; cases hc
      | some y =>
        rw [e2] at hc
        simp only [Option.map_some, Option.some.injEq] at hc
        rw [idx, idx, e1, e2]
        show (match y.continuation with | none => _ | some next => _) = Except.map _ (match x.continuation with | none => _ | some next => _)
        rw [hc]
        cases x.continuation with
        | none => rfl
        | some n =>
          simp only [Option.map_some]
          rw [ih]; simp

theorem resolveAccessor_moved (a : Accessor) :
    resolveAccessor d' a = (resolveAccessor d a).map (Option.map (if a.kind = .choice then π.symm else id)) := by
  have hid : ∀ x : R (Option Nat), x = x.map (Option.map id) := by
    intro x; cases x with
    | error e => rfl
    | ok o => cases o <;> rfl
  cases hk : a.kind with
  | choice =>
    rw [if_pos rfl]
    unfold resolveAccessor
    rw [hk]
    simp only
    rw [findName_reorder h.names a.name]
    cases findName a.name (d.choices.map (·.name)) with
    | error e => rfl
    | ok o =>
      cases o with
      | none => rfl
      | some n =>
        show (walkParts d' a.part a.part (π.symm n) >>= _) = Except.map _ (walkParts d a.part a.part n >>= _)
        rw [walkParts_moved h]
        simp only [Equiv.apply_symm_apply]
        cases walkParts d a.part a.part n with
        | error e => rfl
        | ok m => rfl
  | _ =>
    rw [if_neg (by simp), ← hid]
    unfold resolveAccessor
    rw [hk]
    all_goals simp only [h.slots, h.choosers]

theorem resolveRight_moved (a : Accessor) : resolveRight d' a = (resolveRight d a).map (Option.map (moveTarget π)) := by
  have hr := resolveAccessor_moved h a
  unfold resolveRight
  cases hk : a.kind with
  | choice =>
    rw [hk] at hr
    simp only at hr ⊢
    rw [hr]
    cases resolveAccessor d a with
    | error e => rfl
    | ok o => cases o <;> rfl
  | integer =>
    rw [hk] at hr
    simp only [reduceCtorEq, if_false] at hr ⊢
    rw [hr]
    cases resolveAccessor d a with
    | error e => rfl
    | ok o =>
      cases o with
      | none => rfl
      | some n =>
        show (toU32 n _ >>= _) = Except.map _ (toU32 n _ >>= _)
        cases toU32 n "constraint integer must fit in u32" with
        | error e => rfl
        | ok l => rfl
  | _ =>
    rw [hk] at hr
    simp only [reduceCtorEq, if_false] at hr ⊢
    first
    | rfl
    | (rw [hr]
       cases resolveAccessor d a with
       | error e => rfl
       | ok o => cases o <;> rfl)

theorem addConstraint_moved (e : CExpr) (k : Kind) (x : Extra) (hk : leftIsChoice k = true ↔ e.left.kind = .choice) :
    addConstraint d' e k x = (addConstraint d e k x).map (List.map (moveCon π)) := by
  unfold addConstraint
  rw [resolveRight_moved h, resolveAccessor_moved h]
  cases resolveRight d e.right with
  | error e => rfl
  | ok o =>
    cases o with
    | none => rfl
    | some t =>
      show (Except.map _ (resolveAccessor d e.left) >>= _) = Except.map _ (resolveAccessor d e.left >>= _)
      cases resolveAccessor d e.left with
      | error e => rfl
      | ok o =>
        cases o with
        | none => rfl
        | some n =>
          show Except.ok [_] = Except.ok [_]
          congr 2
          unfold moveCon
          simp only [hk]
          congr 1
          split <;> rfl

theorem buildExpr_moved (e : CExpr) : buildExpr d' e = (buildExpr d e).map (List.map (moveCon π)) := by
  have key : ∀ (e : CExpr) (ke : Kind × Extra), tableKind e = some ke → (leftIsChoice ke.1 = true ↔ e.left.kind = .choice) := by
    intro e ke ht
    unfold tableKind at ht
    split at ht <;> simp only [Option.some.injEq, reduceCtorEq] at ht <;> subst ht <;> simp_all [leftIsChoice]
  unfold buildExpr
  split
  · rename_i k x ht
    exact addConstraint_moved h e k x (key e _ ht)
  · split
    · rename_i k x ht
      exact addConstraint_moved h e.swap k x (key e.swap _ ht)
    · rfl

theorem mapM_moved (l : List CExpr) : l.mapM (buildExpr d') = (l.mapM (buildExpr d)).map (List.map (List.map (moveCon π))) := by
  induction l with
  | nil => rfl
  | cons e l ih =>
    rw [List.mapM_cons, List.mapM_cons, buildExpr_moved h, ih]
    cases buildExpr d e with
    | error e => rfl
    | ok r =>
      show (Except.map _ (l.mapM (buildExpr d)) >>= _) = Except.map _ (l.mapM (buildExpr d) >>= _)
      cases l.mapM (buildExpr d) with
      | error e => rfl
      | ok rs => rfl
end

theorem moveCon_symm (π : Equiv.Perm Nat) (c : Constraint) : moveCon π.symm (moveCon π c) = c := by
  obtain ⟨k, l, r, x⟩ := c
  unfold moveCon
  simp only [Equiv.symm_symm]
  congr 1
  · split <;> simp
  · cases r <;> simp [moveTarget]

theorem moveCon_symm' (π : Equiv.Perm Nat) (c : Constraint) : moveCon π (moveCon π.symm c) = c := by
  have := moveCon_symm π.symm c
  simpa using this

theorem moveCon_kind (π : Equiv.Perm Nat) (c : Constraint) : (moveCon π c).kind = c.kind := rfl

theorem partCon_moved {g π : Equiv.Perm Nat} {ps qs : List Proto} (hg : ∀ k, qs[k]? = ps[g k]?) (h : PartsMoved g ps qs π) {c : Constraint}
    (hc : IsPartCon ps c) : IsPartCon qs (moveCon π c) := by
  obtain ⟨k, j1, j2, x, y, h1, h2, h3, h4⟩ := hc
  refine ⟨g.symm k, j1, j2, π.symm x, π.symm y, h.symm hg _ _ _ h1, h.symm hg _ _ _ h2, h3, ?_⟩
  rcases h4 with rfl | rfl
  · exact .inl rfl
  · exact .inr rfl

theorem partCon_moved' {g π : Equiv.Perm Nat} {ps qs : List Proto} (h : PartsMoved g ps qs π) {c : Constraint}
    (hc : IsPartCon qs c) : IsPartCon ps (moveCon π.symm c) := by
  obtain ⟨k, j1, j2, x, y, h1, h2, h3, h4⟩ := hc
  refine ⟨g k, j1, j2, π x, π y, h _ _ _ h1, h _ _ _ h2, h3, ?_⟩
  rcases h4 with rfl | rfl
  · exact .inl rfl
  · exact .inr rfl

theorem reduceOne_moved {π : Equiv.Perm Nat} {d : InputData} {c : Constraint} (hw : WrittenWF d c) :
    reduceOne (moveCon π c) = (reduceOne c).map (fun x => (x.1.map (moveCon π), x.2)) := by
  obtain ⟨k, l, r, x⟩ := c
  cases k <;> cases r <;> first
    | exact hw.elim
    | rfl

theorem demand_moved {π : Equiv.Perm Nat} (c : Constraint) : demand? (moveCon π c) = (demand? c).map (fun x => (x.1, π.symm x.2)) := by
  obtain ⟨k, l, r, x⟩ := c
  cases k <;> cases r <;> rfl

theorem demands_moved {π : Equiv.Perm Nat} (l : List Constraint) :
    (l.map (moveCon π)).filterMap demand? = (l.filterMap demand?).map (fun x => (x.1, π.symm x.2)) := by
  induction l with
  | nil => rfl
  | cons c l ih =>
    rw [List.map_cons, List.filterMap_cons, List.filterMap_cons, demand_moved, ih]
    cases demand? c <;> rfl

theorem link_moved {π : Equiv.Perm Nat} {l l' : List Constraint} (h : ∀ c, c ∈ l' ↔ ∃ c0 ∈ l, c = moveCon π c0) (x y : Nat) :
    SameLink l' x y ↔ SameLink l (π x) (π y) := by
  constructor
  · rintro ⟨c, hc, h1, h2, h3⟩
    obtain ⟨⟨k, l, r, e⟩, hc0, rfl⟩ := (h c).1 hc
    cases h1
    cases r with
    | choice b =>
      simp only [moveCon, leftIsChoice, if_true, moveTarget, Target.choice.injEq] at h2 h3
      subst h2 h3
      exact ⟨_, hc0, rfl, by simp, by simp⟩
    | _ => simp [moveCon, moveTarget] at h3
  · rintro ⟨⟨k, l, r, e⟩, hc, h1, h2, h3⟩
    cases h1; cases h2; cases h3
    exact ⟨_, (h _).2 ⟨_, hc, rfl⟩, rfl, by simp [moveCon, leftIsChoice], by simp [moveCon, moveTarget]⟩

theorem connected_moved {π : Equiv.Perm Nat} {E E' : Nat → Nat → Prop} (h : ∀ x y, E' x y ↔ E (π x) (π y)) (x y : Nat) :
    Connected E' x y ↔ Connected E (π x) (π y) := by
  constructor
  · intro hc
    induction hc with
    | refl a => exact .refl _
    | link h' => exact .link ((h _ _).1 h')
    | symm _ ih => exact .symm ih
    | trans _ _ i1 i2 => exact .trans i1 i2
  · intro hc
    have : ∀ a b, Connected E a b → Connected E' (π.symm a) (π.symm b) := by
      intro a b hc
      induction hc with
      | refl a => exact .refl _
      | link h' => exact .link ((h _ _).2 (by simpa using h'))
      | symm _ ih => exact .symm ih
      | trans _ _ i1 i2 => exact .trans i1 i2
    simpa using this _ _ hc

/-- What the data of two inputs have in common if they differ in the order of the choices. -/
structure Moved (π : Equiv.Perm Nat) (d d' : InputData) : Prop where
  dims : SameDims d d'
  lt : ∀ i, π i < d.nc ↔ i < d.nc
  slots : d'.slots = d.slots
  choosers : d'.choosers.map (·.name) = d.choosers.map (·.name)
  sched : ∀ c ∈ d'.schedCons, (∃ c0 ∈ d.schedCons, c = moveCon π c0) ∨ ∃ x y, notSame (π y, π x) ∈ d.schedCons ∧ c = notSame (x, y)
  asg : ∀ c ∈ d'.asgCons, ∃ c0 ∈ d.asgCons, c = moveCon π c0
  choices : ∀ c : Nat, d'.choices[c]? = (d.choices[π c]?).map (moveChoice π)
  prefs : ∀ p c, pref d' p c = pref d p (π c)
  maxPref : d'.maxPref = d.maxPref

theorem shuffle_names {g π : Equiv.Perm Nat} {raw raw' : Raw} {d d1 : InputData} {m : Nat} {written : List Constraint} (hb : Built raw d m written)
    (hl : ChoicesReordered g raw raw') (hp : PartsMoved g raw.choices raw'.choices π) (hsl : d1.slots = d.slots)
    (hch : d1.choices = blocks 0 raw'.choices) (hcs : d1.choosers.map (·.name) = raw'.choosers.map (·.name)) : NamesMoved π d d1 := by
  have hblock : ∀ {β : Type} (f : Choice → β), (∀ x y : Choice, y.name = x.name → y.continuation = x.continuation → f y = f x) →
      (blocks 0 raw.choices).map f = d.choices.map f := by
    intro β f hf
    apply List.ext_getElem?
    intro c
    rw [List.getElem?_map, List.getElem?_map]
    by_cases hc : c < d.nc
    · obtain ⟨ch, ch1, e1, e2, e3, e4, _⟩ := hb.choice c hc
      rw [e1, e2]; simp [hf _ _ e3 e4]
    · rw [List.getElem?_eq_none (by rw [length_blocks, ← hb.nc]; omega), List.getElem?_eq_none (by show d.nc ≤ c; omega)]
  have hname : d.choosers.map (·.name) = raw.choosers.map (·.name) := by
    apply List.ext_getElem?
    intro p
    rw [List.getElem?_map, List.getElem?_map]
    by_cases hp : p < raw.choosers.length
    · obtain ⟨ch, e1, e2, _⟩ := hb.names p hp
      rw [e1, List.getElem?_eq_getElem hp]; simp [e2]
    · rw [List.getElem?_eq_none (show raw.choosers.length ≤ p by omega), List.getElem?_eq_none (by show d.np ≤ p; rw [hb.np]; omega)]
  refine ⟨hsl, ?_, ?_, ?_⟩
  · rw [hcs, hname, hl.names]
  · intro c
    rw [hch, ← hblock (·.name) (fun _ _ h _ => h), List.getElem?_map, List.getElem?_map, moved_block hl.choices hl.total hp]
    cases (blocks 0 raw.choices)[π c]? <;> rfl
  · intro c
    rw [hch, ← hblock (·.continuation) (fun _ _ _ h => h), List.getElem?_map, List.getElem?_map, moved_block hl.choices hl.total hp]
    cases (blocks 0 raw.choices)[π c]? <;> rfl

theorem Spec.ChoicesReordered.count {g : Equiv.Perm Nat} {p q : Raw} (h : ChoicesReordered g p q) : q.choosers.length = p.choosers.length := by
  have := congrArg List.length h.names
  simpa using this

theorem Spec.ChoicesReordered.row {g : Equiv.Perm Nat} {p q : Raw} (h : ChoicesReordered g p q) {c' : Chooser} (hc : c' ∈ q.choosers) :
    ∃ c ∈ p.choosers, c'.prefs.length = c.prefs.length ∧ ∀ k, c'.prefs[k]? = c.prefs[g k]? := by
  obtain ⟨i, hi, rfl⟩ := List.mem_iff_getElem.1 hc
  have hi' : i < p.choosers.length := by rw [← h.count]; exact hi
  exact ⟨p.choosers[i], List.getElem_mem hi', h.wishes i _ _ (List.getElem?_eq_getElem hi') (List.getElem?_eq_getElem hi)⟩

theorem shuffle_accepted {g : Equiv.Perm Nat} {raw raw' : Raw} {d : InputData} (hmax : ∀ p ∈ raw.choices, p.max ≤ u32Max)
    (hl : ChoicesReordered g raw raw') (h : build raw = .ok d) : ∃ d', build raw' = .ok d' := by
  obtain ⟨m, written, hb⟩ := build_spec hmax h
  obtain ⟨π, hp⟩ := moved_exists hl
  obtain ⟨d1, hch, hsl, hcs, _, hok⟩ := build_outcome (raw := raw') (fun p hp => hmax p (hl.perm.mem_iff.1 hp))
    (by rw [hl.total, ← hb.nc]; exact hb.ncI32) (by
      intro c' hc'
      obtain ⟨c, hc, e, _⟩ := hl.row hc'
      rw [e, hl.number]; exact hb.prefCount c hc)
  have hn := shuffle_names hb hl hp (by rw [hsl, hb.slots, hl.slots]) hch hcs
  obtain ⟨ex, pc, h1, h2, h3⟩ := hb.lists
  have hex := mapM_moved hn raw'.exprs
  rw [hl.exprs, h1] at hex
  refine (hok _ (by rw [hl.exprs]; exact hex)).2 ?_
  rintro ⟨c, hc, hk, hne⟩
  rw [← List.map_flatten, List.mem_map] at hc
  obtain ⟨c0, hc0, rfl⟩ := hc
  rw [moveCon_kind] at hk
  have := hb.notInf c0 (by rw [h2]; exact List.mem_append_left _ hc0) hk
  refine hne ?_
  obtain ⟨k, l, r, x⟩ := c0
  simp only at hk this
  subst hk
  subst this
  rfl

theorem Smallest.moved {n : Nat} {π : Equiv.Perm Nat} (hlt : ∀ i, π i < n ↔ i < n) {C C' : Nat → Nat → Prop} (hC : ∀ x y, C' x y ↔ C (π x) (π y))
    {f f' : Nat → Nat} (hf : ∀ y, y < n → f' y = f (π y)) {c v v' : Nat} (h' : Smallest n C' f' c v') (h : Smallest n C f (π c) v) : v' = v := by
  obtain ⟨y', a1, a2, a3⟩ := h'.attained
  obtain ⟨y, b1, b2, b3⟩ := h.attained
  have e1 := h.lower (π y') ((hlt _).2 a1) ((hC _ _).1 a2)
  have hy : π.symm y < n := by rw [← hlt]; simpa using b1
  have e2 := h'.lower (π.symm y) hy ((hC _ _).2 (by simpa using b2))
  rw [hf _ hy] at e2
  rw [hf _ a1] at a3
  simp only [Equiv.apply_symm_apply] at e2
  omega

theorem Largest.moved {n : Nat} {π : Equiv.Perm Nat} (hlt : ∀ i, π i < n ↔ i < n) {C C' : Nat → Nat → Prop} (hC : ∀ x y, C' x y ↔ C (π x) (π y))
    {f f' : Nat → Nat} (hf : ∀ y, y < n → f' y = f (π y)) {c v v' : Nat} (h' : Largest n C' f' c v') (h : Largest n C f (π c) v) : v' = v := by
  obtain ⟨y', a1, a2, a3⟩ := h'.attained
  obtain ⟨y, b1, b2, b3⟩ := h.attained
  have e1 := h.upper (π y') ((hlt _).2 a1) ((hC _ _).1 a2)
  have hy : π.symm y < n := by rw [← hlt]; simpa using b1
  have e2 := h'.upper (π.symm y) hy ((hC _ _).2 (by simpa using b2))
  rw [hf _ hy] at e2
  rw [hf _ a1] at a3
  simp only [Equiv.apply_symm_apply] at e2
  omega

theorem Spec.ChoicesReordered.maximum {g : Equiv.Perm Nat} {raw raw' : Raw} (hl : ChoicesReordered g raw raw') {m m' : Nat}
    (h1 : ∀ c ∈ raw.choosers, ∀ x ∈ c.prefs, x ≤ m) (h2 : m' = 0 ∨ ∃ c ∈ raw'.choosers, m' ∈ c.prefs) : m' ≤ m := by
  rcases h2 with e | ⟨c', hc', e⟩
  · omega
  · obtain ⟨c, hc, e1, e2⟩ := hl.row hc'
    exact h1 c hc _ ((perm_of_get e1 e2).mem_iff.1 e)

theorem shuffle_moved {g π : Equiv.Perm Nat} {raw raw' : Raw} {d d' : InputData} (hmax : ∀ p ∈ raw.choices, p.max ≤ u32Max)
    (hl : ChoicesReordered g raw raw') (hp : PartsMoved g raw.choices raw'.choices π) (h : build raw = .ok d) (h' : build raw' = .ok d') :
    Moved π d d' := by
  obtain ⟨m, written, hb⟩ := build_spec hmax h
  obtain ⟨m', written', hb'⟩ := build_spec (raw := raw') (fun p hp => hmax p (hl.perm.mem_iff.1 hp)) h'
  have hdims : SameDims d d' := by
    refine ⟨?_, ?_, ?_⟩
    · rw [hb.nc, hb'.nc, hl.total]
    · rw [hb.np, hb'.np, hl.count]
    · show d.slots.length = d'.slots.length
      rw [hb.slots, hb'.slots, hl.slots]
  have hslots : d'.slots = d.slots := by rw [hb.slots, hb'.slots, hl.slots]
  have hlt : ∀ i, π i < d.nc ↔ i < d.nc := by rw [hb.nc]; exact hp.lt hl.choices hl.total
  have hlt' : ∀ i, π.symm i < d.nc ↔ i < d.nc := fun i => by rw [← hlt]; simp
  obtain ⟨d1, _, hsl1, hch1, hcs1, _⟩ := hb'.stage
  have hn : NamesMoved π d d' := by
    have := shuffle_names hb hl hp (hsl1.trans hslots) hch1 hcs1
    have h2 := shuffle_names hb' (g := Equiv.refl Nat) (π := Equiv.refl Nat) (raw' := raw') ⟨rfl, rfl, rfl, fun _ => rfl, rfl, fun i c c' a b => by
      rw [a] at b; cases b; exact ⟨rfl, fun _ => rfl⟩⟩ (fun _ _ _ hc => hc) hsl1 hch1 hcs1
    refine ⟨hslots, h2.choosers.symm.trans this.choosers, fun c => (h2.names c).symm.trans (this.names c), fun c => ?_⟩
    have e := h2.conts c
    rw [this.conts c] at e
    rw [e]
    show _ = Option.map (Option.map id) _
    rw [Option.map_id]
    simp
  obtain ⟨ex, pc, h1, h2, h3⟩ := hb.lists
  obtain ⟨ex', pc', h1', h2', h3'⟩ := hb'.lists
  have hex := mapM_moved hn raw'.exprs
  rw [h1', hl.exprs, h1] at hex
  have hex : ex' = ex.map (List.map (moveCon π)) := Except.ok.inj hex
  have hwr : ∀ c, c ∈ written' ↔ ∃ c0 ∈ written, c = moveCon π c0 := by
    intro c
    rw [h2, h2', hex, ← List.map_flatten, List.mem_append, h3', List.mem_map]
    constructor
    · rintro (⟨c0, a, rfl⟩ | hpc)
      · exact ⟨c0, List.mem_append_left _ a, rfl⟩
      · exact ⟨moveCon π.symm c, List.mem_append_right _ ((h3 _).2 (partCon_moved' hp hpc)), (moveCon_symm' π c).symm⟩
    · rintro ⟨c0, a, rfl⟩
      rcases List.mem_append.1 a with a | a
      · exact .inl ⟨c0, a, rfl⟩
      · exact .inr (partCon_moved hl.choices hp ((h3 c0).1 a))
  have hdem : written'.filterMap demand? = (written.filterMap demand?).map (fun x => (x.1, π.symm x.2)) := by
    rw [h2, h2', demands_append h3, demands_append h3', hex, ← List.map_flatten, demands_moved]
  have hlinkw := link_moved hwr
  have hconw := connected_moved hlinkw
  obtain ⟨red, hr, hs, ha⟩ := hb.reduced
  obtain ⟨red', hr', hs', ha'⟩ := hb'.reduced
  have hred : ∀ c, c ∈ red' → ∃ c0 ∈ red, c = moveCon π c0 := by
    intro c hc
    obtain ⟨k, hk, hrd, _⟩ := hr'.source c hc
    obtain ⟨k0, hk0, rfl⟩ := (hwr k).1 hk
    rw [reduceOne_moved (hb.writtenWF k0 hk0)] at hrd
    cases hx : reduceOne k0 with
    | error e => rw [hx] at hrd; cases hrd
    | ok x =>
      obtain ⟨o, b⟩ := x
      rw [hx] at hrd
      have hrd : (o.map (moveCon π), b) = (some c, false) := Except.ok.inj hrd
      cases o with
      | none => simp at hrd
      | some c0 =>
        simp only [Option.map_some, Prod.mk.injEq, Option.some.injEq] at hrd
        obtain ⟨rfl, rfl⟩ := hrd
        exact ⟨c0, hr.image k0 hk0 c0 hx, rfl⟩
  have hlink : ∀ x y, SameLink red' x y ↔ SameLink red (π x) (π y) := by
    intro x y
    rw [hr'.links, hr.links, hlinkw]
  have hcon := connected_moved hlink
  have hder : ∀ c, Derived d'.nc red' c → (∃ c0, Derived d.nc red c0 ∧ c = moveCon π c0) ∨
      ∃ x y, Derived d.nc red (notSame (π y, π x)) ∧ c = notSame (x, y) := by
    rw [← hdims.nc]
    intro c hc
    cases hc with
    | given h =>
      obtain ⟨c0, a, b⟩ := hred _ h
      exact .inl ⟨c0, .given a, b⟩
    | @sepDep x y a b e =>
      have e := (hcon _ _).1 e
      have hne : π x ≠ π y := fun hh => by have := π.injective hh; omega
      rcases Nat.lt_or_ge (π x) (π y) with hxy | hxy
      · exact .inl ⟨_, .sepDep hxy ((hlt _).2 b) e, by simp [moveCon, notSame, leftIsChoice, moveTarget]⟩
      · exact .inr ⟨x, y, .sepDep (by omega) ((hlt _).2 (by omega)) (.symm e), rfl⟩
    | @sepMand p x y e =>
      rw [hr'.demands, hdem] at e
      have e' : [(p, π x), (p, π y)].Sublist (red.filterMap inPair?) := by
        rw [hr.demands]
        have := e.map (fun z : Nat × Nat => (z.1, π z.2))
        simpa [Function.comp_def] using this
      exact .inl ⟨_, .sepMand e', by simp [moveCon, notSame, leftIsChoice, moveTarget]⟩
    | @copy c x y a b e f i j =>
      obtain ⟨⟨k, l, r, z⟩, q1, rfl⟩ := hred _ a
      have hr0 : ∃ z, r = .choice z ∧ z = π y := by
        cases r with
        | choice z => exact ⟨z, rfl, by simp only [moveCon, moveTarget, Target.choice.injEq] at e; rw [← e]; simp⟩
        | _ => simp [moveCon, moveTarget] at e
      obtain ⟨z, rfl, rfl⟩ := hr0
      refine .inl ⟨_, .copy q1 b rfl (x := π x) (fun hh => f (π.injective hh)) ((hlt _).2 i) ((hcon _ _).1 j), ?_⟩
      simp only [moveCon_kind] at b
      rcases b with rfl | rfl <;> simp [moveCon, leftIsChoice, moveTarget]
  have hm : m' = m := by
    have a1 := hl.maximum hb.maxUpper hb'.maxAttained
    have a2 := hl.symm.maximum hb'.maxUpper hb.maxAttained
    omega
  subst hm
  refine ⟨hdims, hlt, hslots, hn.choosers, ?_, ?_, ?_, ?_, by rw [hb.maxPref, hb'.maxPref]⟩
  · intro c hc
    obtain ⟨q1, q2⟩ := (hs' c).1 hc
    rw [← hdims.schedWF] at q2
    rcases hder c q1 with ⟨c0, q3, rfl⟩ | ⟨x, y, q3, rfl⟩
    · refine .inl ⟨c0, (hs c0).2 ⟨q3, ?_⟩, rfl⟩
      obtain ⟨k, l, r, x⟩ := c0
      cases k <;> cases r <;> cases x <;> first
        | exact q2.elim
        | (simpa [SchedConWF, moveCon, moveTarget, leftIsChoice, hlt'] using q2)
    · refine .inr ⟨x, y, (hs _).2 ⟨q3, ?_⟩, rfl⟩
      have q2 : x < d.nc ∧ y < d.nc := q2
      exact ⟨(hlt _).2 q2.2, (hlt _).2 q2.1⟩
  · intro c hc
    obtain ⟨q1, q2⟩ := (ha' c).1 hc
    rw [← hdims.asgWF] at q2
    rcases hder c q1 with ⟨c0, q3, rfl⟩ | ⟨x, y, q3, rfl⟩
    · refine ⟨c0, (ha c0).2 ⟨q3, ?_⟩, rfl⟩
      obtain ⟨k, l, r, x⟩ := c0
      cases k <;> cases r <;> first
        | exact q2.elim
        | (simpa [AsgConWF, moveCon, moveTarget, leftIsChoice, hlt'] using q2)
    · exact q2.elim
  · intro c
    by_cases hc : c < d.nc
    · obtain ⟨x0, x1, a1, a2, a3, a4, a5, a6, a7⟩ := hb.choice (π c) ((hlt c).2 hc)
      obtain ⟨y0, y1, b1, b2, b3, b4, b5, b6, b7⟩ := hb'.choice c (by rw [← hdims.nc]; exact hc)
      rw [moved_block hl.choices hl.total hp, a2] at b2
      cases b2
      have hfm : ∀ {β : Type} (f : Choice → Nat), (∀ z, f (moveChoice π z) = f z) → ∀ y, y < d.nc →
          ((blocks 0 raw'.choices)[y]?.map f).getD 0 = ((blocks 0 raw.choices)[π y]?.map f).getD 0 := by
        intro _ f hf y _
        rw [moved_block hl.choices hl.total hp]
        cases (blocks 0 raw.choices)[π y]? with
        | none => rfl
        | some z => simp [hf]
      rw [← hdims.nc] at b6 b7
      have m1 : y0.min = x0.min := Largest.moved hlt hconw (hfm (β := Nat) (·.min) (fun _ => rfl)) b6 a6
      have m2 : y0.max = x0.max := Smallest.moved hlt hconw (hfm (β := Nat) (·.max) (fun _ => rfl)) b7 a7
      rw [a1, b1, Option.map_some]
      congr 1
      obtain ⟨n1, n2, n3, n4, n5⟩ := x0
      obtain ⟨o1, o2, o3, o4, o5⟩ := y0
      simp only [moveChoice] at a3 a4 a5 b3 b4 b5 m1 m2 ⊢
      rw [m1, m2, a3, a4, a5, b3, b4, b5]
    · rw [List.getElem?_eq_none (by show d'.nc ≤ c; rw [← hdims.nc]; omega), List.getElem?_eq_none (by show d.nc ≤ π c; have := hlt c; omega)]
      rfl
  · intro p c
    by_cases hpp : p < raw.choosers.length
    · have hp' : p < raw'.choosers.length := by rw [hl.count]; exact hpp
      obtain ⟨ch, n1, _, n2⟩ := hb.names p hpp
      obtain ⟨ch', n1', _, n2'⟩ := hb'.names p hp'
      by_cases hc : c < d.nc
      · obtain ⟨q1, q2⟩ := hb.prefs p (π c) hpp ((hlt c).2 hc)
        obtain ⟨q1', q2'⟩ := hb'.prefs p c hp' (by rw [← hdims.nc]; exact hc)
        have hD : Demanded written' p c ↔ Demanded written p (π c) := by
          unfold Demanded
          constructor
          · rintro ⟨y, a, k, b, e⟩
            obtain ⟨k0, b0, rfl⟩ := (hwr k).1 b
            rw [demand_moved] at e
            cases hk : demand? k0 with
            | none => rw [hk] at e; cases e
            | some z =>
              rw [hk] at e
              obtain ⟨z1, z2⟩ := z
              simp only [Option.map_some, Option.some.injEq, Prod.mk.injEq] at e
              obtain ⟨rfl, rfl⟩ := e
              exact ⟨z2, by simpa using (hconw _ _).1 a, k0, b0, hk⟩
          · rintro ⟨y, a, k, b, e⟩
            exact ⟨π.symm y, (hconw _ _).2 (by simpa using a), moveCon π k, (hwr _).2 ⟨k, b, rfl⟩, by rw [demand_moved, e]; rfl⟩
        by_cases hd : Demanded written p (π c)
        · rw [q1 hd, q1' (hD.2 hd)]
        · obtain ⟨v, e1, e2⟩ := q2 hd
          obtain ⟨v', e1', e2'⟩ := q2' (fun hh => hd (hD.1 hh))
          rw [e1, e1']
          rw [← hdims.nc] at e2'
          congr 1
          refine Smallest.moved hlt hconw ?_ e2' e2
          intro y hy
          obtain ⟨w1, w2⟩ := hl.wishes p _ _ (List.getElem?_eq_getElem hpp) (List.getElem?_eq_getElem hp')
          have len : (mirrored m' raw.choosers[p]).prefs.length = raw.choices.length := by
            simp only [mirrored, List.length_map]; exact hb.prefCount _ (List.getElem_mem hpp)
          have len' : (mirrored m' raw'.choosers[p]).prefs.length = raw'.choices.length := by
            simp only [mirrored, List.length_map]; exact hb'.prefCount _ (List.getElem_mem hp')
          obtain ⟨k, j, hpt⟩ := isPart_exists (ps := raw'.choices) (c := y) (by rw [hl.total, ← hb.nc]; exact hy)
          have hpt' := hp _ _ _ hpt
          obtain ⟨u, u1, u2, u3⟩ := hpt
          obtain ⟨w, x1, x2, x3⟩ := hpt'
          rw [x3, expandAll_get len x1 x2, u3, expandAll_get len' u1 u2]
          simp only [mirrored, List.getElem?_map, w2]
      · unfold pref
        rw [n1, n1']
        simp only [Option.bind_some]
        rw [List.getElem?_eq_none (by rw [n2', ← hdims.nc]; omega), List.getElem?_eq_none (by rw [n2]; have := hlt c; omega)]
    · unfold pref
      rw [List.getElem?_eq_none (by show d'.np ≤ p; rw [← hdims.np, hb.np]; omega),
        List.getElem?_eq_none (by show d.np ≤ p; rw [hb.np]; omega)]
      rfl

/-! ### Timetables -/

theorem Spec.SlotsMoved.symm {π : Equiv.Perm Nat} {s s' : Scheduling} (h : SlotsMoved π s s') : SlotsMoved π.symm s' s := fun c => by
  rw [h]; simp

theorem Spec.EntriesMoved.symm {π : Equiv.Perm Nat} {a a' : Assignment} (h : EntriesMoved π a a') : EntriesMoved π.symm a' a := fun p k => by
  rw [h]; cases entry a p k <;> simp

theorem attends_moved {π : Equiv.Perm Nat} {a a' : Assignment} (h : EntriesMoved π a a') (p c : Nat) : Attends a' p c ↔ Attends a p (π c) := by
  unfold Attends
  constructor
  · rintro ⟨k, hk⟩
    rw [h] at hk
    cases he : entry a p k with
    | none => rw [he] at hk; cases hk
    | some x =>
      rw [he] at hk
      cases hk
      exact ⟨k, by simpa using he⟩
  · rintro ⟨k, hk⟩
    exact ⟨k, by rw [h, hk]; simp⟩

section
variable {π : Equiv.Perm Nat} {d d' : InputData} (h : Moved π d d') {s s' : Scheduling} (hs : SlotsMoved π s s')
include h hs

theorem Moved.slotSize (t : Nat) : Spec.slotSize d' s' t = Spec.slotSize d s t := by
  unfold Spec.slotSize
  rw [← h.dims.nc]
  have := (range_reorder h.lt).countP_eq (fun c => slotAt s c == some t)
  rw [← this, List.countP_map]
  congr 1
  funext c
  simp only [Function.comp, hs c]

theorem Moved.schedHolds {c : Constraint} (hh : SchedHolds d s c) : SchedHolds d' s' (moveCon π c) := by
  obtain ⟨k, l, r, x⟩ := c
  cases k <;> cases r <;> cases x <;> first
    | exact hh.elim
    | (simp only [SchedHolds, moveCon, moveTarget, leftIsChoice, if_true, Bool.false_eq_true, if_false, hs _, Equiv.apply_symm_apply,
        h.slotSize hs] at hh ⊢
       first
       | exact hh
       | exact fun z => hh (π z))

theorem Moved.placed (hp : Placed d s) : Placed d' s' := by
  intro c hc ho
  have hc' : π c < d.nc := by rw [h.lt, h.dims.nc]; exact hc
  have e := h.choices c
  rw [List.getElem?_eq_getElem hc, List.getElem?_eq_getElem hc'] at e
  have e := Option.some.inj e
  rw [hs]
  refine hp _ hc' ?_
  rw [e] at ho
  exact ho

variable {a a' : Assignment} (ha : EntriesMoved π a a')
include ha

omit h in
theorem asgHolds_moved {c : Constraint} (hh : AsgHolds s a c) : AsgHolds s' a' (moveCon π c) := by
  obtain ⟨k, l, r, x⟩ := c
  cases k <;> cases r <;> first
    | exact hh.elim
    | (simp only [AsgHolds, moveCon, moveTarget, leftIsChoice, if_true, Bool.false_eq_true, if_false, hs _, attends_moved ha, Equiv.apply_symm_apply] at hh ⊢
       first
       | exact hh
       | exact fun z => hh (π z))

omit hs in
theorem Moved.participants (c : Nat) : Spec.participants d' a' c = Spec.participants d a (π c) := by
  unfold Spec.participants
  rw [← h.dims.np]
  congr 1
  funext p
  rw [Bool.eq_iff_iff, attendsB_iff, attendsB_iff, attends_moved ha]

theorem Moved.valid (hv : Valid d s a) : Valid d' s' a' := by
  refine ⟨?_, ?_, ?_, ?_, ?_⟩
  · intro c hc
    rcases h.sched c hc with ⟨c0, h1, rfl⟩ | ⟨x, y, h1, rfl⟩
    · exact h.schedHolds hs (hv.sched c0 h1)
    · intro t ht
      have := hv.sched _ h1 t
      simp only [notSame, hs _] at ht this
      exact this ⟨ht.2, ht.1⟩
  · intro c hc
    obtain ⟨c0, h1, rfl⟩ := h.asg c hc
    exact asgHolds_moved hs ha (hv.asg c0 h1)
  · intro p hp t ht
    obtain ⟨c, ⟨e1, e2⟩, e3⟩ := hv.onePerSlot p (by rw [h.dims.np]; exact hp) t (by rw [h.dims.ns]; exact ht)
    refine ⟨π.symm c, ⟨by rw [attends_moved ha]; simpa using e1, by rw [hs]; simpa using e2⟩, ?_⟩
    intro c' q1 q2
    rw [attends_moved ha] at q1
    rw [hs] at q2
    rw [← e3 _ q1 q2]; simp
  · intro p hp c hc
    rw [attends_moved ha] at hc
    obtain ⟨t, ht, e⟩ := hv.onlyScheduled p (by rw [h.dims.np]; exact hp) _ hc
    exact ⟨t, by rw [← h.dims.ns]; exact ht, by rw [hs]; exact e⟩
  · intro c hc hn
    have hc' : π c < d.nc := by rw [h.lt, h.dims.nc]; exact hc
    have e := h.choices c
    rw [List.getElem?_eq_getElem hc, List.getElem?_eq_getElem hc'] at e
    have e := Option.some.inj e
    rw [h.participants ha, e]
    rw [hs] at hn
    exact hv.bounds _ hc' hn

omit hs in
theorem Moved.worst {w : Nat} (hw : IsWorst d a w) : IsWorst d' a' w := by
  refine ⟨?_, ?_⟩
  · intro p c x h1 h2
    rw [attends_moved ha] at h1
    rw [h.prefs] at h2
    exact hw.upper _ _ _ h1 h2
  · rcases hw.attained with e | ⟨p, c, e1, e2⟩
    · exact .inl e
    · exact .inr ⟨p, π.symm c, by rw [attends_moved ha]; simpa using e1, by rw [h.prefs]; simpa using e2⟩

omit hs in
theorem Moved.cost (cost : Nat → Int) : totalCost d' cost a' = totalCost d cost a := by
  unfold totalCost
  rw [← h.dims.np, ← h.dims.nc]
  congr 2
  funext p
  have hb : ∀ c, attendsB a' p c = attendsB a p (π c) := by
    intro c
    rw [Bool.eq_iff_iff, attendsB_iff, attendsB_iff, attends_moved ha]
  simp only [hb, h.prefs]
  have := ((range_reorder h.lt).map (fun c => if attendsB a p c = true then cost ((pref d p c).getD 0) else 0)).sum_eq
  rw [← this, List.map_map]
  rfl
end

end Wassign
