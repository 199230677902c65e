import Verif.Spec.Reword
import Verif.Proofs.Offer
import Verif.Proofs.Restate
/-
The builder does not care about the words of a constraint.
-/
namespace Wassign
open Spec Build

theorem Spec.SameThing.symm {raw : Raw} {a b : Accessor} (h : SameThing raw a b) : SameThing raw b a :=
  ⟨h.kind.symm, h.sub.symm, h.part.symm,
    fun hb => by
      rw [h.kind] at hb ⊢
      obtain ⟨i, h1, h2⟩ := h.object hb
      exact ⟨i, h2, h1⟩,
    fun hb => by rw [h.kind] at hb; exact (h.number hb).symm⟩

theorem namesFor_eq {p q : Raw} (h1 : q.slots = p.slots) (h2 : q.choices = p.choices) (h3 : q.choosers = p.choosers) (k : Acc) :
    namesFor q k = namesFor p k := by
  cases k <;> simp only [namesFor, h1, h2, h3]

theorem Spec.SameThing.other {p q : Raw} (hn : ∀ k, namesFor q k = namesFor p k) {a b : Accessor} (h : SameThing p a b) : SameThing q a b :=
  ⟨h.kind, h.sub, h.part, fun hb => by rw [hn]; exact h.object hb, h.number⟩

theorem Spec.Reworded.symm {p q : Raw} (hn : ∀ k, namesFor q k = namesFor p k) {e f : CExpr} (h : Reworded p e f) : Reworded q f e := by
  cases h with
  | same => exact .same
  | names h1 h2 h3 => exact .names h1.symm (h2.other hn).symm (h3.other hn).symm
  | turned h1 h2 h3 => exact .turned h1.symm (h3.other hn).symm (h2.other hn).symm

theorem forall₂_flip {α β : Type} {P : α → β → Prop} {Q : β → α → Prop} (hPQ : ∀ a b, P a b → Q b a) {l : List α} {l' : List β}
    (h : List.Forall₂ P l l') : List.Forall₂ Q l' l := by
  induction h with
  | nil => exact .nil
  | cons h _ ih => exact .cons (hPQ _ _ h) ih

theorem Spec.InOtherWords.symm {p q : Raw} (h : InOtherWords p q) : InOtherWords q p :=
  ⟨h.slots.symm, h.choices.symm, h.choosers.symm,
    forall₂_flip (fun _ _ hh => hh.symm (namesFor_eq h.slots h.choices h.choosers)) h.exprs⟩

/-- Two constraints that say the same of two objects in the two orders. -/
inductive Flip : Constraint → Constraint → Prop
  | same (x y : Nat) : Flip ⟨.choicesAreInSameSlot, x, .choice y, .none⟩ ⟨.choicesAreInSameSlot, y, .choice x, .none⟩
  | notSame (x y : Nat) : Flip ⟨.choicesAreNotInSameSlot, x, .choice y, .none⟩ ⟨.choicesAreNotInSameSlot, y, .choice x, .none⟩
  | slots (x y : Nat) : Flip ⟨.slotsHaveSameChoices, x, .slot y, .none⟩ ⟨.slotsHaveSameChoices, y, .slot x, .none⟩
  | choosers (x y : Nat) : Flip ⟨.choicesHaveSameChoosers, x, .choice y, .none⟩ ⟨.choicesHaveSameChoosers, y, .choice x, .none⟩
  | choices (x y : Nat) : Flip ⟨.choosersHaveSameChoices, x, .chooser y, .none⟩ ⟨.choosersHaveSameChoices, y, .chooser x, .none⟩

theorem Flip.symm {c c' : Constraint} (h : Flip c c') : Flip c' c := by cases h <;> constructor

/-- The same constraint or the same in the other order. -/
def Flipped (c c' : Constraint) : Prop := c' = c ∨ Flip c c'

theorem Flipped.symm {c c' : Constraint} (h : Flipped c c') : Flipped c' c := h.imp Eq.symm Flip.symm

section
variable {raw : Raw} {d : InputData} (hs : Stage raw d)
include hs

theorem resolveAccessor_reword {a b : Accessor} (h : SameThing raw a b) : resolveAccessor d b = resolveAccessor d a := by
  by_cases hb : ByName a.kind
  · obtain ⟨i, h1, h2⟩ := h.object hb
    by_cases hc : a.kind = .choice
    · rw [hs.resolve_choice hc, hs.resolve_choice (h.kind.trans hc)]
      rw [hc] at h1 h2
      rw [findName_only h1, findName_only h2, h.part]
    · rw [hs.resolve_name hb hc, hs.resolve_name (by rw [h.kind]; exact hb) (by rw [h.kind]; exact hc), h.kind, findName_only h1, findName_only h2]
  · have : b = a := by
      obtain ⟨k, s, n, p⟩ := a
      obtain ⟨k', s', n', p'⟩ := b
      have h1 := h.kind; have h2 := h.sub; have h3 := h.part; have h4 := h.number hb
      simp only at h1 h2 h3 h4
      rw [h1, h2, h3, h4]
    rw [this]

theorem resolveRight_reword {a b : Accessor} (h : SameThing raw a b) : resolveRight d b = resolveRight d a := by
  unfold resolveRight
  rw [h.kind, resolveAccessor_reword hs h]

theorem addConstraint_reword {e f : CExpr} (h1 : SameThing raw e.left f.left) (h2 : SameThing raw e.right f.right) (k : Kind) (x : Extra) :
    addConstraint d f k x = addConstraint d e k x := by
  unfold addConstraint
  rw [resolveRight_reword hs h2, resolveAccessor_reword hs h1]

omit hs in
theorem tableKind_reword {e f : CExpr} (hr : f.rel = e.rel) (h1 : SameThing raw e.left f.left) (h2 : SameThing raw e.right f.right) :
    tableKind f = tableKind e := by
  unfold tableKind
  rw [hr, h1.kind, h1.sub, h2.kind, h2.sub]

theorem buildExpr_names {e f : CExpr} (hr : f.rel = e.rel) (h1 : SameThing raw e.left f.left) (h2 : SameThing raw e.right f.right) :
    buildExpr d f = buildExpr d e := by
  unfold buildExpr
  rw [tableKind_reword hr h1 h2, tableKind_reword (e := e.swap) (f := f.swap) hr h2 h1]
  simp only [addConstraint_reword hs h1 h2, addConstraint_reword hs (e := e.swap) (f := f.swap) h2 h1]

theorem known_some {a : Accessor} (hb : ByName a.kind) (hk : ∃ i, OnlyName a.name (namesFor raw a.kind) i) {o : Option Nat}
    (h : resolveAccessor d a = .ok o) : ∃ n, o = some n := by
  obtain ⟨i, hi⟩ := hk
  by_cases hc : a.kind = .choice
  · rw [hs.resolve_choice hc] at h
    rw [hc] at hi
    rw [findName_only hi, R.bind_ok] at h
    simp only [R.bind_eq_ok] at h
    obtain ⟨c, _, h⟩ := h
    cases h
    exact ⟨_, rfl⟩
  · rw [hs.resolve_name hb hc, findName_only hi] at h
    cases h
    exact ⟨_, rfl⟩

omit hs in
/-- Two orders of the same sides for both of which there is a constraint. -/
theorem both_orders {e : CExpr} {k k' : Kind} {x x' : Extra} (h : tableKind e = some (k, x)) (h' : tableKind e.swap = some (k', x')) :
    k' = k ∧ x = .none ∧ x' = .none ∧
    ((k = .choicesAreInSameSlot ∧ e.left.kind = .choice ∧ e.right.kind = .choice) ∨
     (k = .choicesAreNotInSameSlot ∧ e.left.kind = .choice ∧ e.right.kind = .choice) ∨
     (k = .slotsHaveSameChoices ∧ e.left.kind = .slot ∧ e.right.kind = .slot) ∨
     (k = .choicesHaveSameChoosers ∧ e.left.kind = .choice ∧ e.right.kind = .choice) ∨
     (k = .choosersHaveSameChoices ∧ e.left.kind = .chooser ∧ e.right.kind = .chooser)) := by
  obtain ⟨⟨k1, s1, n1, p1⟩, rel, ⟨k2, s2, n2, p2⟩⟩ := e
  unfold CExpr.swap at h'
  unfold tableKind at h h'
  simp only at h h'
  split at h <;> simp only [Option.some.injEq, Prod.mk.injEq, reduceCtorEq] at h h' <;>
    (obtain ⟨rfl, rfl⟩ := h; simp_all)

theorem turn_core {e : CExpr} {k : Kind} (K : Acc) (T : Nat → Target) (hT : ∀ a : Accessor, a.kind = K → resolveRight d a =
    (resolveAccessor d a >>= fun o => pure (o.map T))) (hby : ByName K) (hl : e.left.kind = K) (hr : e.right.kind = K)
    (kl : ∃ i, OnlyName e.left.name (namesFor raw e.left.kind) i) (kr : ∃ i, OnlyName e.right.name (namesFor raw e.right.kind) i)
    {L : List Constraint} (h : addConstraint d e k .none = .ok L) :
    ∃ n m, L = [⟨k, n, T m, .none⟩] ∧ addConstraint d e.swap k .none = .ok [⟨k, m, T n, .none⟩] := by
  unfold addConstraint at h
  rw [hT _ hr] at h
  rw [R.bind_eq_ok] at h
  obtain ⟨o, h1, h⟩ := h
  rw [R.bind_eq_ok] at h1
  obtain ⟨o1, h2, h1⟩ := h1
  obtain ⟨m, rfl⟩ := known_some hs (by rw [hr]; exact hby) kr h2
  cases h1
  simp only [Option.map_some, R.bind_eq_ok] at h
  obtain ⟨o2, h3, h⟩ := h
  obtain ⟨n, rfl⟩ := known_some hs (by rw [hl]; exact hby) kl h3
  cases h
  refine ⟨n, m, rfl, ?_⟩
  unfold addConstraint CExpr.swap
  simp only [hT _ hl, h2, h3, R.bind_ok]
  rfl

theorem buildExpr_turned {e : CExpr} (kl : ByName e.left.kind → ∃ i, OnlyName e.left.name (namesFor raw e.left.kind) i)
    (kr : ByName e.right.kind → ∃ i, OnlyName e.right.name (namesFor raw e.right.kind) i) {L : List Constraint} (h : buildExpr d e = .ok L) :
    ∃ L', buildExpr d e.swap = .ok L' ∧ List.Forall₂ Flipped L L' := by
  have hss : e.swap.swap = e := rfl
  have hrefl : ∀ L : List Constraint, List.Forall₂ Flipped L L := fun L => List.forall₂_same.2 (fun _ _ => .inl rfl)
  cases h1 : tableKind e with
  | none =>
    cases h2 : tableKind e.swap with
    | none =>
      unfold buildExpr at h
      rw [h1, h2] at h
      cases h
    | some kx =>
      refine ⟨L, ?_, hrefl L⟩
      unfold buildExpr at h ⊢
      rw [h1, h2] at h
      rw [h2]
      exact h
  | some kx =>
    obtain ⟨k, x⟩ := kx
    cases h2 : tableKind e.swap with
    | none =>
      refine ⟨L, ?_, hrefl L⟩
      unfold buildExpr at h ⊢
      rw [h1] at h
      rw [h2, hss, h1]
      exact h
    | some kx' =>
      obtain ⟨k', x'⟩ := kx'
      obtain ⟨e1, e2, e3, hk⟩ := both_orders h1 h2
      subst e1; subst e2; subst e3
      have hb : buildExpr d e.swap = addConstraint d e.swap k' .none := by unfold buildExpr; rw [h2]
      have ha : addConstraint d e k' .none = .ok L := by unfold buildExpr at h; rw [h1] at h; exact h
      rw [hb]
      rcases hk with ⟨q, l, r⟩ | ⟨q, l, r⟩ | ⟨q, l, r⟩ | ⟨q, l, r⟩ | ⟨q, l, r⟩ <;> subst q
      · obtain ⟨n, m, rfl, hh⟩ := turn_core hs .choice .choice (fun a ha => by unfold resolveRight; rw [ha]) (.inr (.inl rfl)) l r
          (kl (.inr (.inl l))) (kr (.inr (.inl r))) ha
        exact ⟨_, hh, .cons (.inr (.same n m)) .nil⟩
      · obtain ⟨n, m, rfl, hh⟩ := turn_core hs .choice .choice (fun a ha => by unfold resolveRight; rw [ha]) (.inr (.inl rfl)) l r
          (kl (.inr (.inl l))) (kr (.inr (.inl r))) ha
        exact ⟨_, hh, .cons (.inr (.notSame n m)) .nil⟩
      · obtain ⟨n, m, rfl, hh⟩ := turn_core hs .slot .slot (fun a ha => by unfold resolveRight; rw [ha]) (.inl rfl) l r
          (kl (.inl l)) (kr (.inl r)) ha
        exact ⟨_, hh, .cons (.inr (.slots n m)) .nil⟩
      · obtain ⟨n, m, rfl, hh⟩ := turn_core hs .choice .choice (fun a ha => by unfold resolveRight; rw [ha]) (.inr (.inl rfl)) l r
          (kl (.inr (.inl l))) (kr (.inr (.inl r))) ha
        exact ⟨_, hh, .cons (.inr (.choosers n m)) .nil⟩
      · obtain ⟨n, m, rfl, hh⟩ := turn_core hs .chooser .chooser (fun a ha => by unfold resolveRight; rw [ha]) (.inr (.inr rfl)) l r
          (kl (.inr (.inr l))) (kr (.inr (.inr r))) ha
        exact ⟨_, hh, .cons (.inr (.choices n m)) .nil⟩

theorem buildExpr_reworded {e f : CExpr} (hf : Reworded raw e f) {L : List Constraint} (h : buildExpr d e = .ok L) :
    ∃ L', buildExpr d f = .ok L' ∧ List.Forall₂ Flipped L L' := by
  have hrefl : ∀ L : List Constraint, List.Forall₂ Flipped L L := fun L => List.forall₂_same.2 (fun _ _ => .inl rfl)
  cases hf with
  | same => exact ⟨L, h, hrefl L⟩
  | names h1 h2 h3 => exact ⟨L, by rw [buildExpr_names hs h1 h2 h3]; exact h, hrefl L⟩
  | turned h1 h2 h3 =>
    obtain ⟨L', q1, q2⟩ := buildExpr_turned hs (fun hb => by obtain ⟨i, a, _⟩ := h2.object hb; exact ⟨i, a⟩)
      (fun hb => by obtain ⟨i, a, _⟩ := h3.object hb; exact ⟨i, a⟩) h
    exact ⟨L', by rw [buildExpr_names hs (e := e.swap) h1 h3 h2]; exact q1, q2⟩

theorem mapM_reworded {l l' : List CExpr} (hl : List.Forall₂ (Reworded raw) l l') : ∀ {r : List (List Constraint)}, l.mapM (buildExpr d) = .ok r →
    ∃ r', l'.mapM (buildExpr d) = .ok r' ∧ List.Forall₂ Flipped r.flatten r'.flatten := by
  induction hl with
  | nil => intro r h; cases h; exact ⟨[], rfl, .nil⟩
  | cons hf _ ih =>
    intro r h
    rw [List.mapM_cons, R.bind_eq_ok] at h
    obtain ⟨x, h1, h⟩ := h
    rw [R.bind_eq_ok] at h
    obtain ⟨xs, h2, h⟩ := h
    cases h
    obtain ⟨y, f1, f2⟩ := buildExpr_reworded hs hf h1
    obtain ⟨ys, g1, g2⟩ := ih h2
    refine ⟨y :: ys, by rw [List.mapM_cons, f1, R.bind_ok, g1]; rfl, ?_⟩
    rw [List.flatten_cons, List.flatten_cons]
    exact List.rel_append f2 g2
end

theorem forall₂_mem {α β : Type} {P : α → β → Prop} {l : List α} {l' : List β} (h : List.Forall₂ P l l') : ∀ b ∈ l', ∃ a ∈ l, P a b := by
  induction h with
  | nil => intro b hb; cases hb
  | cons h _ ih =>
    intro b hb
    rcases List.mem_cons.1 hb with rfl | hb
    · exact ⟨_, by simp, h⟩
    · obtain ⟨a, h1, h2⟩ := ih b hb
      exact ⟨a, by simp [h1], h2⟩

theorem demands_flipped {l l' : List Constraint} (h : List.Forall₂ Flipped l l') : l'.filterMap demand? = l.filterMap demand? := by
  induction h with
  | nil => rfl
  | @cons a b _ _ h _ ih =>
    have : demand? b = demand? a := by
      rcases h with e | e
      · rw [e]
      · cases e <;> rfl
    rw [List.filterMap_cons, List.filterMap_cons, this, ih]

theorem reworded_accepted {raw raw' : Raw} {d : InputData} (hmax : ∀ p ∈ raw.choices, p.max ≤ u32Max)
    (hl : InOtherWords raw raw') (h : build raw = .ok d) : ∃ d', build raw' = .ok d' := by
  obtain ⟨m, written, hb⟩ := build_spec hmax h
  obtain ⟨d1, hch, hsl, hcs, _, hok⟩ := build_outcome (raw := raw') (by rw [hl.choices]; exact hmax)
    (by rw [hl.choices, ← hb.nc]; exact hb.ncI32) (by rw [hl.choices, hl.choosers]; exact hb.prefCount)
  have hst : Stage raw d1 := ⟨by rw [hch, hl.choices], by rw [hsl, hl.slots], by rw [hcs, hl.choosers]⟩
  have he : buildExpr d1 = buildExpr d :=
    funext (hb.exprSame (hst.slots.trans hb.slots.symm) hst.choices hst.choosers)
  obtain ⟨ex, pc, h1, h2, h3⟩ := hb.lists
  obtain ⟨ex', q1, q2⟩ := mapM_reworded hst hl.exprs (r := ex) (by rw [he]; exact h1)
  refine (hok ex' q1).2 ?_
  rintro ⟨c, hc, hk, hne⟩
  obtain ⟨c0, hc0, e | e⟩ := forall₂_mem q2 c hc
  · subst e
    exact hne (hb.notInf c (by rw [h2]; exact List.mem_append_left _ hc0) hk)
  · have := hb.notInf c0 (by rw [h2]; exact List.mem_append_left _ hc0)
    cases e with
    | slots x y =>
      have q := Target.slot.inj (this rfl)
      exact hne (by rw [q])
    | same x y => cases hk
    | notSame x y => cases hk
    | choosers x y => cases hk
    | choices x y => cases hk

/-- What the data of two inputs have in common if they state the same constraints in different words. -/
structure SameSense (d d' : InputData) : Prop where
  dims : SameDims d d'
  slots : d'.slots = d.slots
  sched : ∀ c ∈ d'.schedCons, ∃ c0 ∈ d.schedCons, Flipped c0 c
  asg : ∀ c ∈ d'.asgCons, ∃ c0 ∈ d.asgCons, Flipped c0 c
  choices : d'.choices = d.choices
  prefs : ∀ p c, pref d' p c = pref d p c
  maxPref : d'.maxPref = d.maxPref

/-- Limits and wishes depend only on who is tied together and on what is demanded. -/
theorem same_numbers {raw raw' : Raw} {d d' : InputData} {m m' : Nat} {written written' : List Constraint} (hb : Built raw d m written)
    (hb' : Built raw' d' m' written') (hch : raw'.choices = raw.choices) (hcs : raw'.choosers = raw.choosers)
    (hcon : Connected (SameLink written') = Connected (SameLink written)) (hD : ∀ p c, Demanded written' p c ↔ Demanded written p c) :
    d'.choices = d.choices ∧ (∀ p c, pref d' p c = pref d p c) ∧ d'.maxPref = d.maxPref := by
  have hnc : d'.nc = d.nc := by rw [hb.nc, hb'.nc, hch]
  have hm : m' = m := by
    have a1 : m ≤ m' := by
      rcases hb.maxAttained with e | ⟨c, hc, e⟩
      · omega
      · exact hb'.maxUpper c (by rw [hcs]; exact hc) m e
    have a2 : m' ≤ m := by
      rcases hb'.maxAttained with e | ⟨c, hc, e⟩
      · omega
      · exact hb.maxUpper c (by rw [← hcs]; exact hc) m' e
    omega
  subst hm
  refine ⟨?_, ?_, by rw [hb.maxPref, hb'.maxPref]⟩
  · apply List.ext_getElem?
    intro c
    by_cases hc : c < d.nc
    · obtain ⟨x0, x1, a1, a2, a3, a4, a5, a6, a7⟩ := hb.choice c hc
      obtain ⟨y0, y1, b1, b2, b3, b4, b5, b6, b7⟩ := hb'.choice c (by rw [hnc]; exact hc)
      rw [hch] at b2
      rw [a2] at b2; cases b2
      rw [hch, hcon, hnc] at b6 b7
      rw [a1, b1]
      congr 1
      have m1 : y0.min = x0.min := by
        obtain ⟨y, u1, u2, u3⟩ := a6.attained
        obtain ⟨y', v1, v2, v3⟩ := b6.attained
        have := a6.upper y' v1 v2
        have := b6.upper y u1 u2
        omega
      have m2 : y0.max = x0.max := by
        obtain ⟨y, u1, u2, u3⟩ := a7.attained
        obtain ⟨y', v1, v2, v3⟩ := b7.attained
        have := a7.lower y' v1 v2
        have := b7.lower y u1 u2
        omega
      obtain ⟨n1, n2, n3, n4, n5⟩ := x0
      obtain ⟨o1, o2, o3, o4, o5⟩ := y0
      simp only at a3 a4 a5 b3 b4 b5 m1 m2
      rw [m1, m2, a3, a4, a5, b3, b4, b5]
    · rw [List.getElem?_eq_none (by show d'.nc ≤ c; omega), List.getElem?_eq_none (by show d.nc ≤ c; omega)]
  · intro p c
    by_cases hp : p < raw.choosers.length
    · have hp' : p < raw'.choosers.length := by rw [hcs]; exact hp
      obtain ⟨ch, n1, _, n2⟩ := hb.names p hp
      obtain ⟨ch', n1', _, n2'⟩ := hb'.names p hp'
      by_cases hc : c < d.nc
      · obtain ⟨q1, q2⟩ := hb.prefs p c hp hc
        obtain ⟨q1', q2'⟩ := hb'.prefs p c hp' (by rw [hnc]; exact hc)
        by_cases hd : Demanded written p c
        · rw [q1 hd, q1' ((hD p c).2 hd)]
        · obtain ⟨v, e1, e2⟩ := q2 hd
          obtain ⟨v', e1', e2'⟩ := q2' (fun hh => hd ((hD p c).1 hh))
          rw [e1, e1']
          rw [hcon, hnc, hch] at e2'
          simp only [hcs] at e2'
          congr 1
          obtain ⟨y, b1, b2, b3⟩ := e2.attained
          obtain ⟨y', b1', b2', b3'⟩ := e2'.attained
          have c1 := e2.lower y' b1' b2'
          have c2 := e2'.lower y b1 b2
          omega
      · unfold pref
        rw [n1, n1']
        simp only [Option.bind_some]
        rw [List.getElem?_eq_none (by rw [n2', hnc]; omega), List.getElem?_eq_none (by rw [n2]; omega)]
    · unfold pref
      rw [List.getElem?_eq_none (by show d'.np ≤ p; rw [hb'.np, hcs]; omega),
        List.getElem?_eq_none (by show d.np ≤ p; rw [hb.np]; omega)]

theorem connected_of {E F : Nat → Nat → Prop} (h : ∀ x y, E x y → Connected F x y) {x y : Nat} (hc : Connected E x y) : Connected F x y := by
  induction hc with
  | refl => exact .refl _
  | link h' => exact h _ _ h'
  | symm _ ih => exact .symm ih
  | trans _ _ ih1 ih2 => exact .trans ih1 ih2

theorem link_flipped {l l' : List Constraint} (h : ∀ c ∈ l', ∃ c0 ∈ l, Flipped c0 c) {x y : Nat} (hc : Connected (SameLink l') x y) :
    Connected (SameLink l) x y := by
  refine connected_of ?_ hc
  rintro x y ⟨c, hc, a1, a2, a3⟩
  obtain ⟨c0, hc0, e | e⟩ := h c hc
  · subst e; exact .link ⟨c, hc0, a1, a2, a3⟩
  · cases e <;> cases a1
    cases a2; cases a3
    exact .symm (.link ⟨_, hc0, rfl, rfl, rfl⟩)

theorem reworded_same {raw raw' : Raw} {d d' : InputData} (hmax : ∀ p ∈ raw.choices, p.max ≤ u32Max)
    (hl : InOtherWords raw raw') (h : build raw = .ok d) (h' : build raw' = .ok d') : SameSense d d' := by
  obtain ⟨m, written, hb⟩ := build_spec hmax h
  obtain ⟨m', written', hb'⟩ := build_spec (raw := raw') (by rw [hl.choices]; exact hmax) h'
  have hslots : d'.slots = d.slots := by rw [hb.slots, hb'.slots, hl.slots]
  have hdims : SameDims d d' := by
    refine ⟨?_, ?_, ?_⟩
    · rw [hb.nc, hb'.nc, hl.choices]
    · rw [hb.np, hb'.np, hl.choosers]
    · show d.slots.length = d'.slots.length
      rw [hslots]
  obtain ⟨d0, hs0, he0⟩ := hb.stage'
  obtain ⟨d1, hs1, he1⟩ := hb'.stage'
  have he : buildExpr d' = buildExpr d := by
    rw [← he1, ← he0]
    funext e
    refine buildExpr_congr ?_ ?_ ?_ ?_ e
    · rw [hs0.slots, hs1.slots, hl.slots]
    · rw [hs0.choices, hs1.choices, hl.choices]
    · rw [hs0.choices, hs1.choices, hl.choices]
    · rw [hs0.choosers, hs1.choosers, hl.choosers]
  obtain ⟨ex, pc, h1, h2, h3⟩ := hb.lists
  obtain ⟨ex', pc', h1', h2', h3'⟩ := hb'.lists
  obtain ⟨ex2, q1, q2⟩ := mapM_reworded hs0 hl.exprs (r := ex) (by rw [he0]; exact h1)
  rw [he, ← he0, q1] at h1'
  cases h1'
  have hwr : ∀ c ∈ written', ∃ c0 ∈ written, Flipped c0 c := by
    intro c hc
    rw [h2', List.mem_append] at hc
    rcases hc with hc | hc
    · obtain ⟨c0, a, b⟩ := forall₂_mem q2 c hc
      exact ⟨c0, by rw [h2]; exact List.mem_append_left _ a, b⟩
    · refine ⟨c, ?_, .inl rfl⟩
      rw [h2]
      refine List.mem_append_right _ ((h3 c).2 ?_)
      rw [← hl.choices]
      exact (h3' c).1 hc
  have hwr' : ∀ c ∈ written, ∃ c0 ∈ written', Flipped c0 c := by
    intro c hc
    rw [h2, List.mem_append] at hc
    rcases hc with hc | hc
    · obtain ⟨c0, a, b⟩ := forall₂_mem (forall₂_flip (fun _ _ hh => Flipped.symm hh) q2) c hc
      exact ⟨c0, by rw [h2']; exact List.mem_append_left _ a, b⟩
    · refine ⟨c, ?_, .inl rfl⟩
      rw [h2']
      refine List.mem_append_right _ ((h3' c).2 ?_)
      rw [hl.choices]
      exact (h3 c).1 hc
  have hdem : written'.filterMap demand? = written.filterMap demand? := by
    rw [h2, h2', demands_append h3, demands_append h3', demands_flipped q2]
  have hcon : Connected (SameLink written') = Connected (SameLink written) := by
    funext x y
    exact propext ⟨link_flipped hwr, link_flipped hwr'⟩
  have hD : ∀ p c, Demanded written' p c ↔ Demanded written p c := by
    intro p c
    have hmem : ∀ y, (∃ k ∈ written', demand? k = some (p, y)) ↔ ∃ k ∈ written, demand? k = some (p, y) := by
      intro y
      rw [← List.mem_filterMap, ← List.mem_filterMap, hdem]
    unfold Demanded
    simp only [hmem, hcon]
  obtain ⟨n1, n2, n3⟩ := same_numbers hb hb' hl.choices hl.choosers hcon hD
  obtain ⟨red, hr, hs, ha⟩ := hb.reduced
  obtain ⟨red', hr', hs', ha'⟩ := hb'.reduced
  have hred : ∀ c ∈ red', ∃ c0 ∈ red, Flipped c0 c := by
    intro c hc
    obtain ⟨k, hk, hrd, _⟩ := hr'.source c hc
    obtain ⟨k0, hk0, e | e⟩ := hwr k hk
    · subst e; exact ⟨c, hr.image k hk0 c hrd, .inl rfl⟩
    · cases e with
      | slots x y => cases hrd
      | same x y => cases hrd; exact ⟨_, hr.image _ hk0 _ rfl, .inr (.same x y)⟩
      | notSame x y => cases hrd; exact ⟨_, hr.image _ hk0 _ rfl, .inr (.notSame x y)⟩
      | choosers x y => cases hrd; exact ⟨_, hr.image _ hk0 _ rfl, .inr (.choosers x y)⟩
      | choices x y => cases hrd; exact ⟨_, hr.image _ hk0 _ rfl, .inr (.choices x y)⟩
  have hder : ∀ c, Derived d'.nc red' c → ∃ c0, Derived d.nc red c0 ∧ Flipped c0 c := by
    rw [← hdims.nc]
    intro c hc
    cases hc with
    | given h =>
      obtain ⟨c0, a, b⟩ := hred _ h
      exact ⟨c0, .given a, b⟩
    | sepDep a b e => exact ⟨_, .sepDep a b (link_flipped hred e), .inl rfl⟩
    | sepMand e =>
      rw [hr'.demands, hdem, ← hr.demands] at e
      exact ⟨_, .sepMand e, .inl rfl⟩
    | copy a b e f g i =>
      obtain ⟨c0, a0, q | q⟩ := hred _ a
      · subst q
        exact ⟨_, .copy a0 b e f g (link_flipped hred i), .inl rfl⟩
      · cases q <;> rcases b with b | b <;> cases b
  have hS : ∀ c c', Flipped c c' → SchedConWF d c' → SchedConWF d c := by
    rintro c c' (e | e) hc
    · rw [← e]; exact hc
    · cases e <;> first
        | exact hc.elim
        | exact ⟨hc.2, hc.1⟩
  have hA : ∀ c c', Flipped c c' → AsgConWF d c' → AsgConWF d c := by
    rintro c c' (e | e) hc
    · rw [← e]; exact hc
    · cases e <;> first
        | exact hc.elim
        | exact ⟨hc.2, hc.1⟩
  refine ⟨hdims, hslots, ?_, ?_, n1, n2, n3⟩
  · intro c hc
    obtain ⟨q3, q4⟩ := (hs' c).1 hc
    rw [← hdims.schedWF] at q4
    obtain ⟨c0, q5, q6⟩ := hder c q3
    exact ⟨c0, (hs c0).2 ⟨q5, hS c0 c q6 q4⟩, q6⟩
  · intro c hc
    obtain ⟨q3, q4⟩ := (ha' c).1 hc
    rw [← hdims.asgWF] at q4
    obtain ⟨c0, q5, q6⟩ := hder c q3
    exact ⟨c0, (ha c0).2 ⟨q5, hA c0 c q6 q4⟩, q6⟩

section
variable {d d' : InputData} (h : SameSense d d') {s : Scheduling} {a : Assignment}
include h

theorem SameSense.valid (hv : Valid d s a) : Valid d' s a := by
  refine ⟨?_, ?_, ?_, ?_, ?_⟩
  · intro c hc
    refine (h.dims.schedHolds s c).1 ?_
    obtain ⟨c0, h1, e | e⟩ := h.sched c hc
    · rw [e]; exact hv.sched c0 h1
    · have := hv.sched _ h1
      cases e with
      | same x y => exact Eq.symm this
      | notSame x y => exact fun t ht => this t ⟨ht.2, ht.1⟩
      | slots x y => exact fun c => (this c).symm
      | choosers x y => exact this.elim
      | choices x y => exact this.elim
  · intro c hc
    obtain ⟨c0, h1, e | e⟩ := h.asg c hc
    · rw [e]; exact hv.asg c0 h1
    · have := hv.asg _ h1
      cases e with
      | same x y => exact this.elim
      | notSame x y => exact this.elim
      | slots x y => exact this.elim
      | choosers x y => exact fun q1 q2 p => (this q2 q1 p).symm
      | choices x y => exact fun c => (this c).symm
  · intro p hp t ht
    exact hv.onePerSlot p (by rw [h.dims.np]; exact hp) t (by rw [h.dims.ns]; exact ht)
  · intro p hp c hc
    obtain ⟨t, ht, e⟩ := hv.onlyScheduled p (by rw [h.dims.np]; exact hp) c hc
    exact ⟨t, by rw [← h.dims.ns]; exact ht, e⟩
  · intro c hc hs
    have hc0 : c < d.nc := by rw [h.dims.nc]; exact hc
    have hp : participants d' a c = participants d a c := by unfold participants; rw [h.dims.np]
    rw [hp]
    have := hv.bounds c hc0 hs
    simp only [h.choices]
    exact this

theorem SameSense.worst {w : Nat} (hw : IsWorst d a w) : IsWorst d' a w := by
  refine ⟨fun p c x h1 h2 => hw.upper p c x h1 (by rw [← h.prefs]; exact h2), ?_⟩
  rcases hw.attained with e | ⟨p, c, e1, e2⟩
  · exact .inl e
  · exact .inr ⟨p, c, e1, by rw [h.prefs]; exact e2⟩
end

end Wassign
