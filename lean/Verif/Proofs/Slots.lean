import Verif.Spec.Slots
import Verif.Proofs.Reorder
/-
The builder does not care about the order of the slots unless there are choices of several parts.
-/
namespace Wassign
open Spec Build

theorem Spec.SlotsReordered.lt {g : Equiv.Perm Nat} {p q : Raw} (h : SlotsReordered g p q) (i : Nat) : g i < p.slots.length ↔ i < p.slots.length := by
  have h1 := h.slots i
  have h2 := h.number
  constructor
  · intro hi
    rw [List.getElem?_eq_getElem hi] at h1
    have := (List.getElem?_eq_some_iff.1 h1).1
    omega
  · intro hi
    rw [List.getElem?_eq_getElem (by omega)] at h1
    exact (List.getElem?_eq_some_iff.1 h1.symm).1

theorem Spec.SlotsReordered.symm {g : Equiv.Perm Nat} {p q : Raw} (h : SlotsReordered g p q) : SlotsReordered g.symm q p :=
  ⟨h.choices.symm, h.choosers.symm, h.exprs.symm, by
    intro e
    have := h.number
    rw [e] at this
    exact h.some (List.eq_nil_of_length_eq_zero this.symm), h.number.symm, fun i => by rw [h.slots]; simp⟩

theorem Spec.SingleParts.of_eq {p q : Raw} (h : SingleParts p) (e : q.choices = p.choices) : SingleParts q := by
  unfold SingleParts; rw [e]; exact h

def leftIsSlot : Kind → Bool
  | .slotContainsChoice | .slotNotContainsChoice | .slotHasLimitedSize | .slotsHaveSameChoices => true
  | _ => false

def timeTarget (g : Equiv.Perm Nat) : Target → Target
  | .slot q => .slot (g.symm q)
  | t => t

/-- The same constraint about slots in another order. -/
def timeCon (g : Equiv.Perm Nat) (c : Constraint) : Constraint :=
  ⟨c.kind, if leftIsSlot c.kind then g.symm c.left else c.left, timeTarget g c.right, c.extra⟩

/-- The data agree apart from the order of the slots. -/
structure NamesTimed (g : Equiv.Perm Nat) (d d' : InputData) : Prop where
  choosers : d'.choosers.map (·.name) = d.choosers.map (·.name)
  names : d'.choices.map (·.name) = d.choices.map (·.name)
  conts : d'.choices.map (·.continuation) = d.choices.map (·.continuation)
  slots : ∀ i : Nat, d'.slots[i]? = d.slots[g i]?

section
variable {g : Equiv.Perm Nat} {d d' : InputData} (h : NamesTimed g d d')
include h

theorem resolveAccessor_timed (a : Accessor) :
    resolveAccessor d' a = (resolveAccessor d a).map (Option.map (if a.kind = .slot then g.symm else id)) := by
  have hid : ∀ x : R (Option Nat), x = x.map (Option.map id) := by
    intro x; cases x with
    | error e => rfl
    | ok o => cases o <;> rfl
  cases hk : a.kind with
  | slot =>
    rw [if_pos rfl]
    unfold resolveAccessor
    rw [hk]
    exact findName_reorder h.slots a.name
  | _ =>
    rw [if_neg (by simp), ← hid]
    unfold resolveAccessor
    rw [hk]
    all_goals simp only [h.choosers, h.names, walkParts_congr h.conts]

theorem resolveRight_timed (a : Accessor) : resolveRight d' a = (resolveRight d a).map (Option.map (timeTarget g)) := by
  have hr := resolveAccessor_timed h a
  unfold resolveRight
  cases hk : a.kind with
  | slot =>
    rw [hk] at hr
    simp only at hr ⊢
    rw [hr]
    cases resolveAccessor d a with
    | error e => rfl
    | ok o => cases o <;> rfl
  | integer =>
    rw [hk] at hr
    simp only [reduceCtorEq, if_false] at hr ⊢
    rw [hr]
    cases resolveAccessor d a with
    | error e => rfl
    | ok o =>
      cases o with
      | none => rfl
      | some n =>
        show (toU32 n _ >>= _) = Except.map _ (toU32 n _ >>= _)
        cases toU32 n "constraint integer must fit in u32" with
        | error e => rfl
        | ok l => rfl
  | _ =>
    rw [hk] at hr
    simp only [reduceCtorEq, if_false] at hr ⊢
    first
    | rfl
    | (rw [hr]
       cases resolveAccessor d a with
       | error e => rfl
       | ok o => cases o <;> rfl)

theorem addConstraint_timed (e : CExpr) (k : Kind) (x : Extra) (hk : leftIsSlot k = true ↔ e.left.kind = .slot) :
    addConstraint d' e k x = (addConstraint d e k x).map (List.map (timeCon g)) := by
  unfold addConstraint
  rw [resolveRight_timed h, resolveAccessor_timed h]
  cases resolveRight d e.right with
  | error e => rfl
  | ok o =>
    cases o with
    | none => rfl
    | some t =>
      show (Except.map _ (resolveAccessor d e.left) >>= _) = Except.map _ (resolveAccessor d e.left >>= _)
      cases resolveAccessor d e.left with
      | error e => rfl
      | ok o =>
        cases o with
        | none => rfl
        | some n =>
          show Except.ok [_] = Except.ok [_]
          congr 2
          unfold timeCon
          simp only [hk]
          congr 1
          split <;> rfl

theorem buildExpr_timed (e : CExpr) : buildExpr d' e = (buildExpr d e).map (List.map (timeCon g)) := by
  have key : ∀ (e : CExpr) (ke : Kind × Extra), tableKind e = some ke → (leftIsSlot ke.1 = true ↔ e.left.kind = .slot) := by
    intro e ke ht
    unfold tableKind at ht
    split at ht <;> simp only [Option.some.injEq, reduceCtorEq] at ht <;> subst ht <;> simp_all [leftIsSlot]
  unfold buildExpr
  split
  · rename_i k x ht
    exact addConstraint_timed h e k x (key e _ ht)
  · split
    · rename_i k x ht
      exact addConstraint_timed h e.swap k x (key e.swap _ ht)
    · rfl

theorem mapM_timed (l : List CExpr) : l.mapM (buildExpr d') = (l.mapM (buildExpr d)).map (List.map (List.map (timeCon g))) := by
  induction l with
  | nil => rfl
  | cons e l ih =>
    rw [List.mapM_cons, List.mapM_cons, buildExpr_timed h, ih]
    cases buildExpr d e with
    | error e => rfl
    | ok r =>
      show (Except.map _ (l.mapM (buildExpr d)) >>= _) = Except.map _ (l.mapM (buildExpr d) >>= _)
      cases l.mapM (buildExpr d) with
      | error e => rfl
      | ok rs => rfl
end

theorem timeCon_kind (g : Equiv.Perm Nat) (c : Constraint) : (timeCon g c).kind = c.kind := rfl

theorem timeCon_part {g : Equiv.Perm Nat} {ps : List Proto} {c : Constraint} (h : IsPartCon ps c) : timeCon g c = c := by
  obtain ⟨_, _, _, _, _, _, _, _, rfl | rfl⟩ := h <;> rfl

theorem no_partCon {raw : Raw} (h : SingleParts raw) (c : Constraint) : ¬ IsPartCon raw.choices c := by
  rintro ⟨k, j1, j2, x, y, _, ⟨p, h1, h2, _⟩, h3, _⟩
  have := h p (List.mem_of_getElem? h1)
  unfold width at h2
  omega

theorem reduceOne_timed {g : Equiv.Perm Nat} {d : InputData} {c : Constraint} (hw : WrittenWF d c) :
    reduceOne (timeCon g c) = (reduceOne c).map (fun x => (x.1.map (timeCon g), x.2)) := by
  obtain ⟨k, l, r, x⟩ := c
  cases k <;> cases r <;> first
    | exact hw.elim
    | rfl
    | (simp only [reduceOne, timeCon, timeTarget, leftIsSlot, Constraint.slot]
       by_cases e : l = ‹Nat›
       · subst e
         show Except.ok (none, _) = Except.ok (none, _)
         simp
       · show Except.ok (none, _) = Except.ok (none, _)
         simp [bne, e])

theorem demand_timed {g : Equiv.Perm Nat} (c : Constraint) : demand? (timeCon g c) = demand? c := by
  obtain ⟨k, l, r, x⟩ := c
  cases k <;> cases r <;> rfl

theorem demands_timed {g : Equiv.Perm Nat} (l : List Constraint) : (l.map (timeCon g)).filterMap demand? = l.filterMap demand? := by
  rw [List.filterMap_map]
  congr 1
  funext c
  exact demand_timed c

theorem link_timed {g : Equiv.Perm Nat} {l l' : List Constraint} (h : ∀ c, c ∈ l' ↔ ∃ c0 ∈ l, c = timeCon g c0) : SameLink l' = SameLink l := by
  funext x y
  apply propext
  constructor
  · rintro ⟨c, hc, h1, h2, h3⟩
    obtain ⟨⟨k, l, r, e⟩, hc0, rfl⟩ := (h c).1 hc
    cases h1
    cases r with
    | choice b => exact ⟨_, hc0, rfl, h2, h3⟩
    | _ => simp [timeCon, timeTarget] at h3
  · rintro ⟨⟨k, l, r, e⟩, hc, h1, h2, h3⟩
    cases h1; cases h2; cases h3
    exact ⟨_, (h _).2 ⟨_, hc, rfl⟩, rfl, rfl, rfl⟩

/-- What the data of two inputs have in common if they differ in the order of the slots. -/
structure Timed (g : Equiv.Perm Nat) (d d' : InputData) : Prop where
  dims : SameDims d d'
  lt : ∀ i, g i < d.ns ↔ i < d.ns
  slots : ∀ t : Nat, d'.slots[t]? = d.slots[g t]?
  choosers : d'.choosers.map (·.name) = d.choosers.map (·.name)
  sched : ∀ c ∈ d'.schedCons, ∃ c0 ∈ d.schedCons, c = timeCon g c0 ∧ c0.kind ≠ .choicesHaveOffset
  asg : ∀ c ∈ d'.asgCons, c ∈ d.asgCons
  choices : d'.choices = d.choices
  prefs : ∀ p c, pref d' p c = pref d p c
  maxPref : d'.maxPref = d.maxPref

theorem slots_names {g : Equiv.Perm Nat} {raw raw' : Raw} {d d1 : InputData} {m : Nat} {written : List Constraint} (hb : Built raw d m written)
    (hl : SlotsReordered g raw raw') (hsl : d1.slots = raw'.slots) (hch : d1.choices = blocks 0 raw'.choices)
    (hcs : d1.choosers.map (·.name) = raw'.choosers.map (·.name)) : NamesTimed g d d1 := by
  have hblock : ∀ {β : Type} (f : Choice → β), (∀ x y : Choice, y.name = x.name → y.continuation = x.continuation → f y = f x) →
      (blocks 0 raw.choices).map f = d.choices.map f := by
    intro β f hf
    apply List.ext_getElem?
    intro c
    rw [List.getElem?_map, List.getElem?_map]
    by_cases hc : c < d.nc
    · obtain ⟨ch, ch1, e1, e2, e3, e4, _⟩ := hb.choice c hc
      rw [e1, e2]; simp [hf _ _ e3 e4]
    · rw [List.getElem?_eq_none (by rw [length_blocks, ← hb.nc]; omega), List.getElem?_eq_none (by show d.nc ≤ c; omega)]
  have hname : d.choosers.map (·.name) = raw.choosers.map (·.name) := by
    apply List.ext_getElem?
    intro p
    rw [List.getElem?_map, List.getElem?_map]
    by_cases hp : p < raw.choosers.length
    · obtain ⟨ch, e1, e2, _⟩ := hb.names p hp
      rw [e1, List.getElem?_eq_getElem hp]; simp [e2]
    · rw [List.getElem?_eq_none (show raw.choosers.length ≤ p by omega), List.getElem?_eq_none (by show d.np ≤ p; rw [hb.np]; omega)]
  refine ⟨?_, ?_, ?_, ?_⟩
  · rw [hcs, hname, hl.choosers]
  · rw [hch, hl.choices]; exact hblock _ (fun _ _ h _ => h)
  · rw [hch, hl.choices]; exact hblock _ (fun _ _ _ h => h)
  · intro i
    rw [hsl, hb.slots, if_neg (by simpa using hl.some), hl.slots]

theorem slots_kept {raw : Raw} (h : raw.slots ≠ []) : (if raw.slots.isEmpty then [generatedSlotName] else raw.slots) = raw.slots :=
  if_neg (by simpa using h)

theorem slots_accepted {g : Equiv.Perm Nat} {raw raw' : Raw} {d : InputData} (hmax : ∀ p ∈ raw.choices, p.max ≤ u32Max)
    (hl : SlotsReordered g raw raw') (h : build raw = .ok d) : ∃ d', build raw' = .ok d' := by
  obtain ⟨m, written, hb⟩ := build_spec hmax h
  obtain ⟨d1, hch, hsl, hcs, _, hok⟩ := build_outcome (raw := raw') (by rw [hl.choices]; exact hmax)
    (by rw [hl.choices, ← hb.nc]; exact hb.ncI32) (by rw [hl.choices, hl.choosers]; exact hb.prefCount)
  have hn := slots_names hb hl (by rw [hsl, slots_kept hl.symm.some]) hch hcs
  obtain ⟨ex, pc, h1, h2, h3⟩ := hb.lists
  have hex := mapM_timed hn raw'.exprs
  rw [hl.exprs, h1] at hex
  refine (hok _ (by rw [hl.exprs]; exact hex)).2 ?_
  rintro ⟨c, hc, hk, hne⟩
  rw [← List.map_flatten, List.mem_map] at hc
  obtain ⟨c0, hc0, rfl⟩ := hc
  rw [timeCon_kind] at hk
  have := hb.notInf c0 (by rw [h2]; exact List.mem_append_left _ hc0) hk
  refine hne ?_
  obtain ⟨k, l, r, x⟩ := c0
  simp only at hk this
  subst hk
  subst this
  rfl

theorem slots_timed {g : Equiv.Perm Nat} {raw raw' : Raw} {d d' : InputData} (hmax : ∀ p ∈ raw.choices, p.max ≤ u32Max)
    (hsp : SingleParts raw) (hl : SlotsReordered g raw raw') (h : build raw = .ok d) (h' : build raw' = .ok d') : Timed g d d' := by
  obtain ⟨m, written, hb⟩ := build_spec hmax h
  obtain ⟨m', written', hb'⟩ := build_spec (raw := raw') (by rw [hl.choices]; exact hmax) h'
  have hsl : d.slots = raw.slots := by rw [hb.slots, slots_kept hl.some]
  have hsl' : d'.slots = raw'.slots := by rw [hb'.slots, slots_kept hl.symm.some]
  have hdims : SameDims d d' := by
    refine ⟨?_, ?_, ?_⟩
    · rw [hb.nc, hb'.nc, hl.choices]
    · rw [hb.np, hb'.np, hl.choosers]
    · show d.slots.length = d'.slots.length
      rw [hsl, hsl', hl.number]
  have hlt : ∀ i, g i < d.ns ↔ i < d.ns := by
    show ∀ i, g i < d.slots.length ↔ i < d.slots.length
    rw [hsl]; exact hl.lt
  have hlt' : ∀ i, g.symm i < d.ns ↔ i < d.ns := fun i => by rw [← hlt]; simp
  obtain ⟨d1, _, hsl1, hch1, hcs1, _⟩ := hb'.stage
  have hn : NamesTimed g d d' := by
    have := slots_names hb hl (hsl1.trans hsl') hch1 hcs1
    have h2 := slots_names hb' (g := Equiv.refl Nat) (raw' := raw') ⟨rfl, rfl, rfl, hl.symm.some, rfl, fun i => rfl⟩ (hsl1.trans hsl') hch1 hcs1
    exact ⟨h2.choosers.symm.trans this.choosers, h2.names.symm.trans this.names, h2.conts.symm.trans this.conts,
      fun i => (h2.slots i).symm.trans (this.slots i)⟩
  obtain ⟨ex, pc, h1, h2, h3⟩ := hb.lists
  obtain ⟨ex', pc', h1', h2', h3'⟩ := hb'.lists
  have hex := mapM_timed hn raw'.exprs
  rw [h1', hl.exprs, h1] at hex
  have hex : ex' = ex.map (List.map (timeCon g)) := Except.ok.inj hex
  have hwr : ∀ c, c ∈ written' ↔ ∃ c0 ∈ written, c = timeCon g c0 := by
    intro c
    rw [h2, h2', hex, ← List.map_flatten, List.mem_append, h3', hl.choices, List.mem_map]
    constructor
    · rintro (⟨c0, a, rfl⟩ | hp)
      · exact ⟨c0, List.mem_append_left _ a, rfl⟩
      · exact ⟨c, List.mem_append_right _ ((h3 c).2 hp), (timeCon_part hp).symm⟩
    · rintro ⟨c0, a, rfl⟩
      rcases List.mem_append.1 a with a | a
      · exact .inl ⟨c0, a, rfl⟩
      · right
        rw [timeCon_part ((h3 c0).1 a)]
        exact (h3 c0).1 a
  have hdem : written'.filterMap demand? = written.filterMap demand? := by
    rw [h2, h2', demands_append h3, demands_append h3', hex, ← List.map_flatten, demands_timed]
  have hlinkw : SameLink written' = SameLink written := link_timed hwr
  obtain ⟨red, hr, hs, ha⟩ := hb.reduced
  obtain ⟨red', hr', hs', ha'⟩ := hb'.reduced
  have hred : ∀ c, c ∈ red' → ∃ c0 ∈ red, c = timeCon g c0 := by
    intro c hc
    obtain ⟨k, hk, hrd, _⟩ := hr'.source c hc
    obtain ⟨k0, hk0, rfl⟩ := (hwr k).1 hk
    rw [reduceOne_timed (hb.writtenWF k0 hk0)] at hrd
    cases hx : reduceOne k0 with
    | error e => rw [hx] at hrd; cases hrd
    | ok x =>
      obtain ⟨o, b⟩ := x
      rw [hx] at hrd
      have hrd : (o.map (timeCon g), b) = (some c, false) := Except.ok.inj hrd
      cases o with
      | none => simp at hrd
      | some c0 =>
        simp only [Option.map_some, Prod.mk.injEq, Option.some.injEq] at hrd
        obtain ⟨rfl, rfl⟩ := hrd
        exact ⟨c0, hr.image k0 hk0 c0 hx, rfl⟩
  have hlink : SameLink red' = SameLink red := by
    funext x y
    apply propext
    rw [hr'.links, hr.links, hlinkw]
  have hder : ∀ c, Derived d'.nc red' c → ∃ c0, Derived d.nc red c0 ∧ c = timeCon g c0 := by
    rw [← hdims.nc]
    intro c hc
    cases hc with
    | given h =>
      obtain ⟨c0, a, b⟩ := hred _ h
      exact ⟨c0, .given a, b⟩
    | sepDep a b e => exact ⟨_, .sepDep a b (by rw [← hlink]; exact e), rfl⟩
    | @sepMand p x y e =>
      rw [hr'.demands, hdem, ← hr.demands] at e
      exact ⟨_, .sepMand e, rfl⟩
    | copy a b e f i j =>
      obtain ⟨⟨k, l, r, x⟩, q1, rfl⟩ := hred _ a
      have hr0 : ∃ z, r = .choice z ∧ timeTarget g r = r := by
        cases r with
        | choice z => exact ⟨z, rfl, rfl⟩
        | _ => simp [timeCon, timeTarget] at e
      obtain ⟨z, rfl, _⟩ := hr0
      refine ⟨_, .copy q1 b e f i (by rw [← hlink]; exact j), ?_⟩
      rcases b with rfl | rfl <;> rfl
  have hnooff : ∀ c, Derived d.nc red c → SchedConWF d c → c.kind ≠ .choicesHaveOffset := by
    intro c hc hw hk
    cases hc with
    | given hin =>
      obtain ⟨k, hkw, hrd, _⟩ := hr.source c hin
      have hkk : k = c := by
        have hwf := hb.writtenWF k hkw
        obtain ⟨k1, k2, k3, k4⟩ := k
        cases k1 <;> cases k3 <;> cases hrd <;> first | rfl | cases hk
      subst hkk
      obtain ⟨k1, k2, k3, k4⟩ := k
      cases hk
      cases k3 <;> cases k4 <;> first
        | exact hw.elim
        | exact no_partCon hsp _ (hb.offsets _ hkw _ rfl)
    | sepDep => cases hk
    | sepMand => cases hk
    | copy _ b => rcases b with b | b <;> rw [b] at hk <;> cases hk
  have hm : m' = m := by
    have a1 : m ≤ m' := by
      rcases hb.maxAttained with e | ⟨c, hc, e⟩
      · omega
      · exact hb'.maxUpper c (by rw [hl.choosers]; exact hc) m e
    have a2 : m' ≤ m := by
      rcases hb'.maxAttained with e | ⟨c, hc, e⟩
      · omega
      · exact hb.maxUpper c (by rw [← hl.choosers]; exact hc) m' e
    omega
  subst hm
  refine ⟨hdims, hlt, hn.slots, hn.choosers, ?_, ?_, ?_, ?_, by rw [hb.maxPref, hb'.maxPref]⟩
  · intro c hc
    obtain ⟨q1, q2⟩ := (hs' c).1 hc
    obtain ⟨c0, q3, rfl⟩ := hder c q1
    rw [← hdims.schedWF] at q2
    have hw : SchedConWF d c0 := by
      obtain ⟨k, l, r, x⟩ := c0
      cases k <;> cases r <;> cases x <;> first
        | exact q2.elim
        | (simpa [SchedConWF, timeCon, timeTarget, leftIsSlot, hlt'] using q2)
    exact ⟨c0, (hs c0).2 ⟨q3, hw⟩, rfl, hnooff c0 q3 hw⟩
  · intro c hc
    obtain ⟨q1, q2⟩ := (ha' c).1 hc
    obtain ⟨c0, q3, rfl⟩ := hder c q1
    rw [← hdims.asgWF] at q2
    have e : timeCon g c0 = c0 := by
      obtain ⟨k, l, r, x⟩ := c0
      cases k <;> cases r <;> first
        | exact q2.elim
        | rfl
    rw [e] at q2 ⊢
    exact (ha c0).2 ⟨q3, q2⟩
  · apply List.ext_getElem?
    intro c
    by_cases hc : c < d.nc
    · obtain ⟨x0, x1, a1, a2, a3, a4, a5, a6, a7⟩ := hb.choice c hc
      obtain ⟨y0, y1, b1, b2, b3, b4, b5, b6, b7⟩ := hb'.choice c (by rw [← hdims.nc]; exact hc)
      rw [hl.choices] at b2
      rw [a2] at b2; cases b2
      rw [hl.choices, hlinkw, ← hdims.nc] at b6 b7
      rw [a1, b1]
      congr 1
      have m1 : y0.min = x0.min := by
        obtain ⟨y, u1, u2, u3⟩ := a6.attained
        obtain ⟨y', v1, v2, v3⟩ := b6.attained
        have := a6.upper y' v1 v2
        have := b6.upper y u1 u2
        omega
      have m2 : y0.max = x0.max := by
        obtain ⟨y, u1, u2, u3⟩ := a7.attained
        obtain ⟨y', v1, v2, v3⟩ := b7.attained
        have := a7.lower y' v1 v2
        have := b7.lower y u1 u2
        omega
      obtain ⟨n1, n2, n3, n4, n5⟩ := x0
      obtain ⟨o1, o2, o3, o4, o5⟩ := y0
      simp only at a3 a4 a5 b3 b4 b5 m1 m2
      rw [m1, m2, a3, a4, a5, b3, b4, b5]
    · rw [List.getElem?_eq_none (by show d'.nc ≤ c; rw [← hdims.nc]; omega), List.getElem?_eq_none (by show d.nc ≤ c; omega)]
  · intro p c
    by_cases hp : p < raw.choosers.length
    · have hp' : p < raw'.choosers.length := by rw [hl.choosers]; exact hp
      obtain ⟨ch, n1, _, n2⟩ := hb.names p hp
      obtain ⟨ch', n1', _, n2'⟩ := hb'.names p hp'
      by_cases hc : c < d.nc
      · obtain ⟨q1, q2⟩ := hb.prefs p c hp hc
        obtain ⟨q1', q2'⟩ := hb'.prefs p c hp' (by rw [← hdims.nc]; exact hc)
        have hD : Demanded written' p c ↔ Demanded written p c := by
          unfold Demanded
          rw [hlinkw]
          constructor
          · rintro ⟨y, a, k, b, e⟩
            obtain ⟨k0, b0, rfl⟩ := (hwr k).1 b
            rw [demand_timed] at e
            exact ⟨y, a, k0, b0, e⟩
          · rintro ⟨y, a, k, b, e⟩
            exact ⟨y, a, timeCon g k, (hwr _).2 ⟨k, b, rfl⟩, by rw [demand_timed, e]⟩
        by_cases hd : Demanded written p c
        · rw [q1 hd, q1' (hD.2 hd)]
        · obtain ⟨v, e1, e2⟩ := q2 hd
          obtain ⟨v', e1', e2'⟩ := q2' (fun hh => hd (hD.1 hh))
          rw [e1, e1']
          have hch : raw'.choosers[p] = raw.choosers[p] := by simp only [hl.choosers]
          rw [hlinkw, ← hdims.nc, hl.choices, hch] at e2'
          congr 1
          obtain ⟨y, b1, b2, b3⟩ := e2.attained
          obtain ⟨y', b1', b2', b3'⟩ := e2'.attained
          have c1 := e2.lower y' b1' b2'
          have c2 := e2'.lower y b1 b2
          omega
      · unfold pref
        rw [n1, n1']
        simp only [Option.bind_some]
        rw [List.getElem?_eq_none (by rw [n2', ← hdims.nc]; omega), List.getElem?_eq_none (by rw [n2]; omega)]
    · unfold pref
      rw [List.getElem?_eq_none (by show d'.np ≤ p; rw [← hdims.np, hb.np]; omega),
        List.getElem?_eq_none (by show d.np ≤ p; rw [hb.np]; omega)]

/-! ### Timetables -/

theorem Spec.TimesReordered.symm {g : Equiv.Perm Nat} {s s' : Scheduling} (h : TimesReordered g s s') : TimesReordered g.symm s' s := fun c => by
  rw [h]; cases slotAt s c <;> simp

theorem Spec.ColumnsReordered.symm {g : Equiv.Perm Nat} {a a' : Assignment} (h : ColumnsReordered g a a') : ColumnsReordered g.symm a' a := fun p k => by
  rw [h]; simp

theorem attends_columns {g : Equiv.Perm Nat} {a a' : Assignment} (h : ColumnsReordered g a a') (p c : Nat) : Attends a' p c ↔ Attends a p c := by
  unfold Attends
  constructor
  · rintro ⟨k, hk⟩; rw [h] at hk; exact ⟨_, hk⟩
  · rintro ⟨k, hk⟩; exact ⟨g.symm k, by rw [h]; simpa using hk⟩

theorem Spec.TimesReordered.some {g : Equiv.Perm Nat} {s s' : Scheduling} (h : TimesReordered g s s') (c t : Nat) :
    slotAt s' c = some t ↔ slotAt s c = some (g t) := by
  rw [h]
  cases slotAt s c with
  | none => simp
  | some x => simp [Equiv.symm_apply_eq]

theorem Spec.TimesReordered.none {g : Equiv.Perm Nat} {s s' : Scheduling} (h : TimesReordered g s s') (c : Nat) :
    slotAt s' c = none ↔ slotAt s c = none := by
  rw [h]; simp

section
variable {g : Equiv.Perm Nat} {d d' : InputData} (h : Timed g d d') {s s' : Scheduling} (hs : TimesReordered g s s')
include h hs

theorem Timed.slotSize (t : Nat) : Spec.slotSize d' s' t = Spec.slotSize d s (g t) := by
  unfold Spec.slotSize
  rw [← h.dims.nc]
  congr 1
  funext c
  rw [Bool.eq_iff_iff, beq_iff_eq, beq_iff_eq, hs.some]

theorem Timed.schedHolds {c : Constraint} (hk : c.kind ≠ .choicesHaveOffset) (hh : SchedHolds d s c) : SchedHolds d' s' (timeCon g c) := by
  obtain ⟨k, l, r, x⟩ := c
  cases k <;> cases r <;> cases x <;> first
    | exact hh.elim
    | exact absurd rfl hk
    | (simp only [SchedHolds, timeCon, timeTarget, leftIsSlot, if_true, Bool.false_eq_true, if_false, hs.some, Equiv.apply_symm_apply,
        h.slotSize hs, ne_eq] at hh ⊢
       first
       | exact hh
       | exact fun t => hh (g t)
       | (rw [hs, hs, hh]))

variable {a a' : Assignment} (ha : ColumnsReordered g a a')
include ha

omit hs in
theorem Timed.participants (c : Nat) : Spec.participants d' a' c = Spec.participants d a c := by
  unfold Spec.participants
  rw [← h.dims.np]
  congr 1
  funext p
  rw [Bool.eq_iff_iff, attendsB_iff, attendsB_iff, attends_columns ha]

theorem Timed.valid (hv : Valid d s a) : Valid d' s' a' := by
  refine ⟨?_, ?_, ?_, ?_, ?_⟩
  · intro c hc
    obtain ⟨c0, h1, rfl, h2⟩ := h.sched c hc
    exact h.schedHolds hs h2 (hv.sched c0 h1)
  · intro c hc
    have hh := hv.asg c (h.asg c hc)
    obtain ⟨k, l, r, x⟩ := c
    cases k <;> cases r <;> first
      | exact hh.elim
      | (simp only [AsgHolds, attends_columns ha, ne_eq, hs.none] at hh ⊢
         exact hh)
  · intro p hp t ht
    obtain ⟨c, ⟨e1, e2⟩, e3⟩ := hv.onePerSlot p (by rw [h.dims.np]; exact hp) (g t) ((h.lt t).2 (by rw [h.dims.ns]; exact ht))
    refine ⟨c, ⟨by rw [attends_columns ha]; exact e1, by rw [hs.some]; exact e2⟩, ?_⟩
    intro c' q1 q2
    rw [attends_columns ha] at q1
    rw [hs.some] at q2
    exact e3 _ q1 q2
  · intro p hp c hc
    rw [attends_columns ha] at hc
    obtain ⟨t, ht, e⟩ := hv.onlyScheduled p (by rw [h.dims.np]; exact hp) _ hc
    refine ⟨g.symm t, ?_, by rw [hs.some]; simpa using e⟩
    rw [← h.dims.ns, ← h.lt]; simpa using ht
  · intro c hc hn
    have hc0 : c < d.nc := by rw [h.dims.nc]; exact hc
    rw [h.participants ha]
    have := hv.bounds c hc0 (fun e => hn ((hs.none c).2 e))
    simp only [h.choices]
    exact this

omit hs in
theorem Timed.worst {w : Nat} (hw : IsWorst d a w) : IsWorst d' a' w := by
  refine ⟨?_, ?_⟩
  · intro p c x h1 h2
    rw [attends_columns ha] at h1
    rw [h.prefs] at h2
    exact hw.upper _ _ _ h1 h2
  · rcases hw.attained with e | ⟨p, c, e1, e2⟩
    · exact .inl e
    · exact .inr ⟨p, c, by rw [attends_columns ha]; exact e1, by rw [h.prefs]; exact e2⟩

omit hs in
theorem Timed.cost (cost : Nat → Int) : totalCost d' cost a' = totalCost d cost a := by
  unfold totalCost
  rw [← h.dims.np, ← h.dims.nc]
  have hb : ∀ p c, attendsB a' p c = attendsB a p c := by
    intro p c
    rw [Bool.eq_iff_iff, attendsB_iff, attendsB_iff, attends_columns ha]
  simp only [hb, h.prefs]
end

end Wassign
