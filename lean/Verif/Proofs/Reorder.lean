import Verif.Spec.Reorder
import Verif.Proofs.Looser
import Verif.Proofs.Rejected
import Verif.Spec.Assign
import Mathlib.Data.List.Perm.Basic
import Mathlib.Algebra.BigOperators.Group.List.Basic
/-
The builder does not care about the order of the choosers.
-/
namespace Wassign
open Spec Build

theorem Spec.Reordered.symm {g : Equiv.Perm Nat} {p q : Raw} (h : Reordered g p q) : Reordered g.symm q p :=
  ⟨h.slots.symm, h.choices.symm, h.exprs.symm, h.number.symm, fun i => by rw [h.choosers]; simp⟩

theorem Spec.RowsReordered.symm {g : Equiv.Perm Nat} {a a' : Assignment} (h : RowsReordered g a a') : RowsReordered g.symm a' a :=
  fun i => by rw [h]; simp

theorem Spec.Reordered.lt {g : Equiv.Perm Nat} {p q : Raw} (h : Reordered g p q) (i : Nat) : g i < p.choosers.length ↔ i < p.choosers.length := by
  have h1 := h.choosers i
  have h2 := h.number
  constructor
  · intro hi
    rw [List.getElem?_eq_getElem hi] at h1
    have := (List.getElem?_eq_some_iff.1 h1).1
    omega
  · intro hi
    rw [List.getElem?_eq_getElem (by omega)] at h1
    exact (List.getElem?_eq_some_iff.1 h1.symm).1

section
variable {g : Equiv.Perm Nat} {names names' : List Str} (h : ∀ i, names'[i]? = names[g i]?)
include h

theorem names_mem (w : Str) : w ∈ names' ↔ w ∈ names := by
  rw [List.mem_iff_getElem?, List.mem_iff_getElem?]
  constructor
  · rintro ⟨i, hi⟩; exact ⟨g i, by rw [← h]; exact hi⟩
  · rintro ⟨i, hi⟩; exact ⟨g.symm i, by rw [h]; simpa using hi⟩

theorem bestMatch_reorder (key : Str) (i : Nat) : BestMatch key names' i ↔ BestMatch key names (g i) := by
  unfold BestMatch
  simp only [h, names_mem h]

theorem findName_reorder (key : Str) : findName key names' = (findName key names).map (Option.map g.symm) := by
  by_cases hu : Unknown key names
  · rw [findName_unknown hu, findName_unknown (names := names')]
    · rfl
    · intro i; rw [bestMatch_reorder h]; exact hu _
  · unfold Unknown at hu
    push Not at hu
    obtain ⟨i, hi⟩ := hu
    by_cases ho : ∀ j, BestMatch key names j → j = i
    · rw [findName_only ⟨hi, ho⟩, findName_only (names := names') (i := g.symm i)]
      · rfl
      · refine ⟨by rw [bestMatch_reorder h]; simpa using hi, fun j hj => ?_⟩
        rw [bestMatch_reorder h] at hj
        rw [← ho _ hj]; simp
    · push Not at ho
      obtain ⟨j, hj, hne⟩ := ho
      rw [findName_ambiguous ⟨j, i, hne, hj, hi⟩, findName_ambiguous (names := names') ⟨g.symm j, g.symm i, ?_, ?_, ?_⟩]
      · rfl
      · simpa using hne
      · rw [bestMatch_reorder h]; simpa using hj
      · rw [bestMatch_reorder h]; simpa using hi
end

/-- The kinds of constraints whose left side is a chooser. -/
def leftIsChooser : Kind → Bool
  | .chooserIsInChoice | .chooserIsNotInChoice | .choosersHaveSameChoices => true
  | _ => false

def relabelTarget (g : Equiv.Perm Nat) : Target → Target
  | .chooser q => .chooser (g.symm q)
  | t => t

/-- The same constraint about choosers in another order. -/
def relabel (g : Equiv.Perm Nat) (c : Constraint) : Constraint :=
  ⟨c.kind, if leftIsChooser c.kind then g.symm c.left else c.left, relabelTarget g c.right, c.extra⟩

/-- The data agree apart from the order of the choosers. -/
structure NamesReordered (g : Equiv.Perm Nat) (d d' : InputData) : Prop where
  slots : d'.slots = d.slots
  names : d'.choices.map (·.name) = d.choices.map (·.name)
  conts : d'.choices.map (·.continuation) = d.choices.map (·.continuation)
  choosers : ∀ i : Nat, (d'.choosers.map (·.name))[i]? = (d.choosers.map (·.name))[g i]?

section
variable {g : Equiv.Perm Nat} {d d' : InputData} (h : NamesReordered g d d')
include h

theorem resolveAccessor_reorder (a : Accessor) :
    resolveAccessor d' a = (resolveAccessor d a).map (Option.map (if a.kind = .chooser then g.symm else id)) := by
  have hid : ∀ x : R (Option Nat), x = x.map (Option.map id) := by
    intro x; cases x with
    | error e => rfl
    | ok o => cases o <;> rfl
  cases hk : a.kind with
  | chooser =>
    rw [if_pos rfl]
    unfold resolveAccessor
    rw [hk]
    exact findName_reorder h.choosers a.name
  | _ =>
    rw [if_neg (by simp), ← hid]
    unfold resolveAccessor
    rw [hk]
    all_goals simp only [h.slots, h.names, walkParts_congr h.conts]

theorem resolveRight_reorder (a : Accessor) : resolveRight d' a = (resolveRight d a).map (Option.map (relabelTarget g)) := by
  have hr := resolveAccessor_reorder h a
  unfold resolveRight
  cases hk : a.kind with
  | chooser =>
    rw [hk] at hr
    simp only at hr ⊢
    rw [hr]
    cases resolveAccessor d a with
    | error e => rfl
    | ok o => cases o <;> rfl
  | integer =>
    rw [hk] at hr
    simp only [reduceCtorEq, if_false] at hr ⊢
    rw [hr]
    cases resolveAccessor d a with
    | error e => rfl
    | ok o =>
      cases o with
      | none => rfl
      | some n =>
        show (toU32 n _ >>= _) = Except.map _ (toU32 n _ >>= _)
        cases toU32 n "constraint integer must fit in u32" with
        | error e => rfl
        | ok l => rfl
  | _ =>
    rw [hk] at hr
    simp only [reduceCtorEq, if_false] at hr ⊢
    first
    | rfl
    | (rw [hr]
       cases resolveAccessor d a with
       | error e => rfl
       | ok o => cases o <;> rfl)

theorem addConstraint_reorder (e : CExpr) (k : Kind) (x : Extra) (hk : leftIsChooser k = true ↔ e.left.kind = .chooser) :
    addConstraint d' e k x = (addConstraint d e k x).map (List.map (relabel g)) := by
  unfold addConstraint
  rw [resolveRight_reorder h, resolveAccessor_reorder h]
  cases resolveRight d e.right with
  | error e => rfl
  | ok o =>
    cases o with
    | none => rfl
    | some t =>
      show (Except.map _ (resolveAccessor d e.left) >>= _) = Except.map _ (resolveAccessor d e.left >>= _)
      cases resolveAccessor d e.left with
      | error e => rfl
      | ok o =>
        cases o with
        | none => rfl
        | some n =>
          show Except.ok [_] = Except.ok [_]
          congr 2
          unfold relabel
          simp only [hk]
          congr 1
          split <;> rfl

theorem buildExpr_reorder (e : CExpr) : buildExpr d' e = (buildExpr d e).map (List.map (relabel g)) := by
  have key : ∀ (e : CExpr) (ke : Kind × Extra), tableKind e = some ke → (leftIsChooser ke.1 = true ↔ e.left.kind = .chooser) := by
    intro e ke ht
    unfold tableKind at ht
    split at ht <;> simp only [Option.some.injEq, reduceCtorEq] at ht <;> subst ht <;> simp_all [leftIsChooser]
  unfold buildExpr
  split
  · rename_i k x ht
    exact addConstraint_reorder h e k x (key e _ ht)
  · split
    · rename_i k x ht
      exact addConstraint_reorder h e.swap k x (key e.swap _ ht)
    · rfl

theorem mapM_reorder (l : List CExpr) : l.mapM (buildExpr d') = (l.mapM (buildExpr d)).map (List.map (List.map (relabel g))) := by
  induction l with
  | nil => rfl
  | cons e l ih =>
    rw [List.mapM_cons, List.mapM_cons, buildExpr_reorder h, ih]
    cases buildExpr d e with
    | error e => rfl
    | ok r =>
      show (Except.map _ (l.mapM (buildExpr d)) >>= _) = Except.map _ (l.mapM (buildExpr d) >>= _)
      cases l.mapM (buildExpr d) with
      | error e => rfl
      | ok rs => rfl
end

theorem relabel_symm (g : Equiv.Perm Nat) (c : Constraint) : relabel g.symm (relabel g c) = c := by
  obtain ⟨k, l, r, x⟩ := c
  unfold relabel
  simp only [Equiv.symm_symm]
  congr 1
  · split <;> simp
  · cases r <;> simp [relabelTarget]

theorem relabel_kind (g : Equiv.Perm Nat) (c : Constraint) : (relabel g c).kind = c.kind := rfl

theorem relabel_part {g : Equiv.Perm Nat} {ps : List Proto} {c : Constraint} (h : IsPartCon ps c) : relabel g c = c := by
  obtain ⟨_, _, _, _, _, _, _, _, rfl | rfl⟩ := h <;> rfl

theorem reduceOne_relabel {g : Equiv.Perm Nat} {d : InputData} {c : Constraint} (hw : WrittenWF d c) :
    reduceOne (relabel g c) = (reduceOne c).map (fun x => (x.1.map (relabel g), x.2)) := by
  obtain ⟨k, l, r, x⟩ := c
  cases k <;> cases r <;> first
    | exact hw.elim
    | rfl

theorem demand_relabel {g : Equiv.Perm Nat} (c : Constraint) :
    demand? (relabel g c) = (demand? c).map (fun x => (g.symm x.1, x.2)) := by
  obtain ⟨k, l, r, x⟩ := c
  cases k <;> cases r <;> rfl

theorem demands_relabel {g : Equiv.Perm Nat} (l : List Constraint) :
    (l.map (relabel g)).filterMap demand? = (l.filterMap demand?).map (fun x => (g.symm x.1, x.2)) := by
  induction l with
  | nil => rfl
  | cons c l ih =>
    rw [List.map_cons, List.filterMap_cons, List.filterMap_cons, demand_relabel, ih]
    cases demand? c <;> rfl

theorem link_relabel {g : Equiv.Perm Nat} {l l' : List Constraint} (h : ∀ c, c ∈ l' ↔ ∃ c0 ∈ l, c = relabel g c0) : SameLink l' = SameLink l := by
  funext x y
  apply propext
  constructor
  · rintro ⟨c, hc, h1, h2, h3⟩
    obtain ⟨⟨k, l, r, e⟩, hc0, rfl⟩ := (h c).1 hc
    cases h1
    cases r with
    | choice b => exact ⟨_, hc0, rfl, h2, h3⟩
    | _ => simp [relabel, relabelTarget] at h3
  · rintro ⟨⟨k, l, r, e⟩, hc, h1, h2, h3⟩
    cases h1; cases h2; cases h3
    exact ⟨_, (h _).2 ⟨_, hc, rfl⟩, rfl, rfl, rfl⟩

theorem attends_reorder {g : Equiv.Perm Nat} {a a' : Assignment} (h : RowsReordered g a a') (p c : Nat) : Attends a' p c ↔ Attends a (g p) c := by
  unfold Attends entry
  rw [h]

theorem holds_relabel {g : Equiv.Perm Nat} {s : Scheduling} {a a' : Assignment} (h : RowsReordered g a a') {c : Constraint} (hh : AsgHolds s a c) :
    AsgHolds s a' (relabel g c) := by
  obtain ⟨k, l, r, x⟩ := c
  cases k <;> cases r <;> first
    | exact hh.elim
    | (simp only [AsgHolds, relabel, relabelTarget, leftIsChooser, if_true, Bool.false_eq_true, if_false, attends_reorder h, Equiv.apply_symm_apply] at hh ⊢
       first
       | exact hh
       | exact fun h1 h2 p => hh h1 h2 _)

theorem sched_relabel {g : Equiv.Perm Nat} {d : InputData} {c : Constraint} (h : SchedConWF d c) : relabel g c = c := by
  obtain ⟨k, l, r, x⟩ := c
  cases k <;> cases r <;> first
    | exact h.elim
    | rfl

theorem range_reorder {n : Nat} {g : Equiv.Perm Nat} (h : ∀ i, g i < n ↔ i < n) : ((List.range n).map g).Perm (List.range n) := by
  rw [List.perm_ext_iff_of_nodup (List.Nodup.map g.injective List.nodup_range) List.nodup_range]
  intro i
  simp only [List.mem_map, List.mem_range]
  constructor
  · rintro ⟨j, hj, rfl⟩; exact (h j).2 hj
  · intro hi; exact ⟨g.symm i, by rw [← h]; simpa using hi, by simp⟩

/-- What the data of two inputs have in common if they differ in the order of the choosers. -/
structure Alike (g : Equiv.Perm Nat) (d d' : InputData) : Prop where
  dims : SameDims d d'
  lt : ∀ i, g i < d.np ↔ i < d.np
  slots : d'.slots = d.slots
  sched : ∀ c ∈ d'.schedCons, c ∈ d.schedCons
  asg : ∀ c ∈ d'.asgCons, ∃ c0 ∈ d.asgCons, c = relabel g c0
  choices : d'.choices = d.choices
  prefs : ∀ p c, pref d' p c = pref d (g p) c
  maxPref : d'.maxPref = d.maxPref

theorem reorder_names {g : Equiv.Perm Nat} {raw raw' : Raw} {d d1 : InputData} {m : Nat} {written : List Constraint} (hb : Built raw d m written)
    (hl : Reordered g raw raw') (hsl : d1.slots = d.slots) (hch : d1.choices = blocks 0 raw'.choices)
    (hcs : d1.choosers.map (·.name) = raw'.choosers.map (·.name)) : NamesReordered g d d1 := by
  obtain ⟨d0, _, hsl0, hch0, hcs0, _⟩ := hb.stage
  have hblock : ∀ {β : Type} (f : Choice → β), (∀ x y : Choice, y.name = x.name → y.continuation = x.continuation → f y = f x) →
      (blocks 0 raw.choices).map f = d.choices.map f := by
    intro β f hf
    apply List.ext_getElem?
    intro c
    rw [List.getElem?_map, List.getElem?_map]
    by_cases hc : c < d.nc
    · obtain ⟨ch, ch1, e1, e2, e3, e4, _⟩ := hb.choice c hc
      rw [e1, e2]; simp [hf _ _ e3 e4]
    · rw [List.getElem?_eq_none (by rw [length_blocks, ← hb.nc]; omega), List.getElem?_eq_none (by show d.nc ≤ c; omega)]
  have hname : d.choosers.map (·.name) = raw.choosers.map (·.name) := by
    apply List.ext_getElem?
    intro p
    rw [List.getElem?_map, List.getElem?_map]
    by_cases hp : p < raw.choosers.length
    · obtain ⟨ch, e1, e2, _⟩ := hb.names p hp
      rw [e1, List.getElem?_eq_getElem hp]; simp [e2]
    · rw [List.getElem?_eq_none (show raw.choosers.length ≤ p by omega), List.getElem?_eq_none (by show d.np ≤ p; rw [hb.np]; omega)]
  refine ⟨hsl, ?_, ?_, ?_⟩
  · rw [hch, hl.choices]; exact hblock _ (fun _ _ h _ => h)
  · rw [hch, hl.choices]; exact hblock _ (fun _ _ _ h => h)
  · intro i
    rw [hcs, hname, List.getElem?_map, List.getElem?_map, hl.choosers]

theorem Spec.Reordered.mem {g : Equiv.Perm Nat} {p q : Raw} (h : Reordered g p q) (c : Chooser) : c ∈ q.choosers ↔ c ∈ p.choosers := by
  rw [List.mem_iff_getElem?, List.mem_iff_getElem?]
  constructor
  · rintro ⟨i, hi⟩; exact ⟨g i, by rw [← h.choosers]; exact hi⟩
  · rintro ⟨i, hi⟩; exact ⟨g.symm i, by rw [h.choosers]; simpa using hi⟩

theorem reorder_accepted {g : Equiv.Perm Nat} {raw raw' : Raw} {d : InputData} (hmax : ∀ p ∈ raw.choices, p.max ≤ u32Max)
    (hl : Reordered g raw raw') (h : build raw = .ok d) : ∃ d', build raw' = .ok d' := by
  obtain ⟨m, written, hb⟩ := build_spec hmax h
  obtain ⟨d1, hch, hsl, hcs, _, hok⟩ := build_outcome (raw := raw') (by rw [hl.choices]; exact hmax)
    (by rw [hl.choices, ← hb.nc]; exact hb.ncI32) (by rw [hl.choices]; intro c hc; exact hb.prefCount c ((hl.mem c).1 hc))
  have hn := reorder_names hb hl (by rw [hsl, hb.slots, hl.slots]) hch hcs
  obtain ⟨ex, pc, h1, h2, h3⟩ := hb.lists
  have hex := mapM_reorder hn raw'.exprs
  rw [hl.exprs, h1] at hex
  refine (hok _ (by rw [hl.exprs]; exact hex)).2 ?_
  rintro ⟨c, hc, hk, hne⟩
  rw [← List.map_flatten, List.mem_map] at hc
  obtain ⟨c0, hc0, rfl⟩ := hc
  rw [relabel_kind] at hk
  have := hb.notInf c0 (by rw [h2]; exact List.mem_append_left _ hc0) hk
  refine hne ?_
  obtain ⟨k, l, r, x⟩ := c0
  simp only at hk this
  subst hk
  subst this
  rfl

theorem reorder_alike {g : Equiv.Perm Nat} {raw raw' : Raw} {d d' : InputData} (hmax : ∀ p ∈ raw.choices, p.max ≤ u32Max)
    (hl : Reordered g raw raw') (h : build raw = .ok d) (h' : build raw' = .ok d') : Alike g d d' := by
  obtain ⟨m, written, hb⟩ := build_spec hmax h
  obtain ⟨m', written', hb'⟩ := build_spec (raw := raw') (by rw [hl.choices]; exact hmax) h'
  have hdims : SameDims d d' := by
    refine ⟨?_, ?_, ?_⟩
    · rw [hb.nc, hb'.nc, hl.choices]
    · rw [hb.np, hb'.np, hl.number]
    · show d.slots.length = d'.slots.length
      rw [hb.slots, hb'.slots, hl.slots]
  have hslots : d'.slots = d.slots := by rw [hb.slots, hb'.slots, hl.slots]
  obtain ⟨d1, _, hsl1, hch1, hcs1, _⟩ := hb'.stage
  have hn : NamesReordered g d d' := by
    have := reorder_names hb hl (hsl1.trans hslots) hch1 hcs1
    have h2 := reorder_names hb' (g := Equiv.refl Nat) (raw' := raw') ⟨rfl, rfl, rfl, rfl, fun i => rfl⟩ hsl1 hch1 hcs1
    exact ⟨hslots, h2.names.symm.trans this.names, h2.conts.symm.trans this.conts, fun i => (h2.choosers i).symm.trans (this.choosers i)⟩
  obtain ⟨ex, pc, h1, h2, h3⟩ := hb.lists
  obtain ⟨ex', pc', h1', h2', h3'⟩ := hb'.lists
  have hex := mapM_reorder hn raw'.exprs
  rw [h1', hl.exprs, h1] at hex
  have hex : ex' = ex.map (List.map (relabel g)) := Except.ok.inj hex
  have hwr : ∀ c, c ∈ written' ↔ ∃ c0 ∈ written, c = relabel g c0 := by
    intro c
    rw [h2, h2', hex, ← List.map_flatten, List.mem_append, h3', hl.choices, List.mem_map]
    constructor
    · rintro (⟨c0, a, rfl⟩ | hp)
      · exact ⟨c0, List.mem_append_left _ a, rfl⟩
      · exact ⟨c, List.mem_append_right _ ((h3 c).2 hp), (relabel_part hp).symm⟩
    · rintro ⟨c0, a, rfl⟩
      rcases List.mem_append.1 a with a | a
      · exact .inl ⟨c0, a, rfl⟩
      · right
        rw [relabel_part ((h3 c0).1 a)]
        exact (h3 c0).1 a
  have hdem : written'.filterMap demand? = (written.filterMap demand?).map (fun x => (g.symm x.1, x.2)) := by
    rw [h2, h2', demands_append h3, demands_append h3', hex, ← List.map_flatten, demands_relabel]
  have hlinkw : SameLink written' = SameLink written := link_relabel hwr
  obtain ⟨red, hr, hs, ha⟩ := hb.reduced
  obtain ⟨red', hr', hs', ha'⟩ := hb'.reduced
  have hred : ∀ c, c ∈ red' → ∃ c0 ∈ red, c = relabel g c0 := by
    intro c hc
    obtain ⟨k, hk, hrd, _⟩ := hr'.source c hc
    obtain ⟨k0, hk0, rfl⟩ := (hwr k).1 hk
    rw [reduceOne_relabel (hb.writtenWF k0 hk0)] at hrd
    cases hx : reduceOne k0 with
    | error e => rw [hx] at hrd; cases hrd
    | ok x =>
      obtain ⟨o, b⟩ := x
      rw [hx] at hrd
      have hrd : (o.map (relabel g), b) = (some c, false) := Except.ok.inj hrd
      cases o with
      | none => simp at hrd
      | some c0 =>
        simp only [Option.map_some, Prod.mk.injEq, Option.some.injEq] at hrd
        obtain ⟨rfl, rfl⟩ := hrd
        exact ⟨c0, hr.image k0 hk0 c0 hx, rfl⟩
  have hlink : SameLink red' = SameLink red := by
    funext x y
    apply propext
    rw [hr'.links, hr.links, hlinkw]
  have hder : ∀ c, Derived d'.nc red' c → ∃ c0, Derived d.nc red c0 ∧ c = relabel g c0 := by
    rw [← hdims.nc]
    intro c hc
    cases hc with
    | given h =>
      obtain ⟨c0, a, b⟩ := hred _ h
      exact ⟨c0, .given a, b⟩
    | sepDep a b e => exact ⟨_, .sepDep a b (by rw [← hlink]; exact e), rfl⟩
    | @sepMand p x y e =>
      rw [hr'.demands, hdem] at e
      have e' : [(g p, x), (g p, y)].Sublist (red.filterMap inPair?) := by
        rw [hr.demands]
        have := e.map (fun z : Nat × Nat => (g z.1, z.2))
        simpa [Function.comp_def] using this
      exact ⟨_, .sepMand e', rfl⟩
    | copy a b e f i j =>
      obtain ⟨⟨k, l, r, x⟩, q1, rfl⟩ := hred _ a
      have hr0 : ∃ z, r = .choice z ∧ relabelTarget g r = r := by
        cases r with
        | choice z => exact ⟨z, rfl, rfl⟩
        | _ => simp [relabel, relabelTarget] at e
      obtain ⟨z, rfl, _⟩ := hr0
      refine ⟨_, .copy q1 b e f i (by rw [← hlink]; exact j), ?_⟩
      rfl
  have hlt : ∀ i, g i < d.np ↔ i < d.np := by rw [hb.np]; exact hl.lt
  have hm : m' = m := by
    have a1 : m ≤ m' := by
      rcases hb.maxAttained with e | ⟨c, hc, e⟩
      · omega
      · exact hb'.maxUpper c ((hl.mem c).2 hc) m e
    have a2 : m' ≤ m := by
      rcases hb'.maxAttained with e | ⟨c, hc, e⟩
      · omega
      · exact hb.maxUpper c ((hl.mem c).1 hc) m' e
    omega
  subst hm
  refine ⟨hdims, hlt, hslots, ?_, ?_, ?_, ?_, by rw [hb.maxPref, hb'.maxPref]⟩
  · intro c hc
    obtain ⟨q1, q2⟩ := (hs' c).1 hc
    obtain ⟨c0, q3, q4⟩ := hder c q1
    have hc0 : c0 = c := by rw [← relabel_symm g c0, ← q4]; exact sched_relabel q2
    subst hc0
    exact (hs c0).2 ⟨q3, (hdims.schedWF c0).2 q2⟩
  · intro c hc
    obtain ⟨q1, q2⟩ := (ha' c).1 hc
    obtain ⟨c0, q3, q4⟩ := hder c q1
    refine ⟨c0, (ha c0).2 ⟨q3, ?_⟩, q4⟩
    subst q4
    have hlt' : ∀ i, g.symm i < d.np ↔ i < d.np := fun i => by rw [← hlt]; simp
    rw [← hdims.asgWF] at q2
    obtain ⟨k, l, r, x⟩ := c0
    cases k <;> cases r <;> first
      | exact q2.elim
      | (simpa [AsgConWF, relabel, relabelTarget, leftIsChooser, hlt'] using q2)
  · apply List.ext_getElem?
    intro c
    by_cases hc : c < d.nc
    · obtain ⟨x0, x1, a1, a2, a3, a4, a5, a6, a7⟩ := hb.choice c hc
      obtain ⟨y0, y1, b1, b2, b3, b4, b5, b6, b7⟩ := hb'.choice c (by rw [← hdims.nc]; exact hc)
      rw [hl.choices] at b2
      rw [a2] at b2; cases b2
      rw [hl.choices, hlinkw, ← hdims.nc] at b6 b7
      rw [a1, b1]
      congr 1
      have m1 : y0.min = x0.min := by
        obtain ⟨y, u1, u2, u3⟩ := a6.attained
        obtain ⟨y', v1, v2, v3⟩ := b6.attained
        have := a6.upper y' v1 v2
        have := b6.upper y u1 u2
        omega
      have m2 : y0.max = x0.max := by
        obtain ⟨y, u1, u2, u3⟩ := a7.attained
        obtain ⟨y', v1, v2, v3⟩ := b7.attained
        have := a7.lower y' v1 v2
        have := b7.lower y u1 u2
        omega
      obtain ⟨n1, n2, n3, n4, n5⟩ := x0
      obtain ⟨o1, o2, o3, o4, o5⟩ := y0
      simp only at a3 a4 a5 b3 b4 b5 m1 m2
      rw [m1, m2, a3, a4, a5, b3, b4, b5]
    · rw [List.getElem?_eq_none (by show d'.nc ≤ c; rw [← hdims.nc]; omega), List.getElem?_eq_none (by show d.nc ≤ c; omega)]
  · intro p c
    by_cases hp : p < raw.choosers.length
    · have hgp : g p < raw.choosers.length := (hl.lt p).2 hp
      have hp' : p < raw'.choosers.length := by rw [hl.number]; exact hp
      obtain ⟨ch, n1, _, n2⟩ := hb.names (g p) hgp
      obtain ⟨ch', n1', _, n2'⟩ := hb'.names p hp'
      by_cases hc : c < d.nc
      · obtain ⟨q1, q2⟩ := hb.prefs (g p) c hgp hc
        obtain ⟨q1', q2'⟩ := hb'.prefs p c hp' (by rw [← hdims.nc]; exact hc)
        have hD : Demanded written' p c ↔ Demanded written (g p) c := by
          unfold Demanded
          rw [hlinkw]
          constructor
          · rintro ⟨y, a, k, b, e⟩
            obtain ⟨k0, b0, rfl⟩ := (hwr k).1 b
            rw [demand_relabel] at e
            cases hk : demand? k0 with
            | none => rw [hk] at e; cases e
            | some z =>
              rw [hk] at e
              obtain ⟨z1, z2⟩ := z
              simp only [Option.map_some, Option.some.injEq, Prod.mk.injEq] at e
              obtain ⟨rfl, rfl⟩ := e
              exact ⟨z2, a, k0, b0, by rw [hk]; simp⟩
          · rintro ⟨y, a, k, b, e⟩
            exact ⟨y, a, relabel g k, (hwr _).2 ⟨k, b, rfl⟩, by rw [demand_relabel, e]; simp⟩
        by_cases hd : Demanded written (g p) c
        · rw [q1 hd, q1' (hD.2 hd)]
        · obtain ⟨v, e1, e2⟩ := q2 hd
          obtain ⟨v', e1', e2'⟩ := q2' (fun hh => hd (hD.1 hh))
          rw [e1, e1']
          have hch : raw'.choosers[p] = raw.choosers[g p] := by
            have := hl.choosers p
            rw [List.getElem?_eq_getElem hp', List.getElem?_eq_getElem hgp] at this
            exact Option.some.inj this
          rw [hlinkw, ← hdims.nc, hl.choices, hch] at e2'
          congr 1
          obtain ⟨y, b1, b2, b3⟩ := e2.attained
          obtain ⟨y', b1', b2', b3'⟩ := e2'.attained
          have c1 := e2.lower y' b1' b2'
          have c2 := e2'.lower y b1 b2
          omega
      · unfold pref
        rw [n1, n1']
        simp only [Option.bind_some]
        rw [List.getElem?_eq_none (by rw [n2', ← hdims.nc]; omega), List.getElem?_eq_none (by rw [n2]; omega)]
    · unfold pref
      rw [List.getElem?_eq_none (by show d'.np ≤ p; rw [← hdims.np, hb.np]; omega),
        List.getElem?_eq_none (by show d.np ≤ g p; have := hl.lt p; rw [hb.np]; omega)]

section
variable {g : Equiv.Perm Nat} {d d' : InputData} (h : Alike g d d') {s : Scheduling} {a a' : Assignment} (ha : RowsReordered g a a')
include h ha

theorem Alike.participants (c : Nat) : Spec.participants d' a' c = Spec.participants d a c := by
  unfold Spec.participants
  rw [← h.dims.np]
  have hb : ∀ p, attendsB a' p c = attendsB a (g p) c := by
    intro p
    rw [Bool.eq_iff_iff, attendsB_iff, attendsB_iff, attends_reorder ha]
  simp only [hb]
  have := (range_reorder h.lt).countP_eq (fun p => attendsB a p c)
  rw [← this, List.countP_map]
  rfl

theorem Alike.valid (hv : Valid d s a) : Valid d' s a' := by
  refine ⟨fun c hc => (h.dims.schedHolds s c).1 (hv.sched c (h.sched c hc)), ?_, ?_, ?_, ?_⟩
  · intro c hc
    obtain ⟨c0, h1, rfl⟩ := h.asg c hc
    exact holds_relabel ha (hv.asg c0 h1)
  · intro p hp t ht
    simp only [attends_reorder ha]
    exact hv.onePerSlot (g p) ((h.lt p).2 (by rw [h.dims.np]; exact hp)) t (by rw [h.dims.ns]; exact ht)
  · intro p hp c hc
    rw [attends_reorder ha] at hc
    obtain ⟨t, ht, e⟩ := hv.onlyScheduled (g p) ((h.lt p).2 (by rw [h.dims.np]; exact hp)) c hc
    exact ⟨t, by rw [← h.dims.ns]; exact ht, e⟩
  · intro c hc hs
    have hc0 : c < d.nc := by rw [h.dims.nc]; exact hc
    rw [h.participants ha]
    have := hv.bounds c hc0 hs
    simp only [h.choices]
    exact this

theorem Alike.worst {w : Nat} (hw : IsWorst d a w) : IsWorst d' a' w := by
  refine ⟨?_, ?_⟩
  · intro p c x h1 h2
    rw [attends_reorder ha] at h1
    rw [h.prefs] at h2
    exact hw.upper _ _ _ h1 h2
  · rcases hw.attained with e | ⟨p, c, e1, e2⟩
    · exact .inl e
    · exact .inr ⟨g.symm p, c, by rw [attends_reorder ha]; simpa using e1, by rw [h.prefs]; simpa using e2⟩

theorem Alike.cost (cost : Nat → Int) : totalCost d' cost a' = totalCost d cost a := by
  unfold totalCost
  rw [← h.dims.np, ← h.dims.nc]
  have hb : ∀ p c, attendsB a' p c = attendsB a (g p) c := by
    intro p c
    rw [Bool.eq_iff_iff, attendsB_iff, attendsB_iff, attends_reorder ha]
  simp only [hb, h.prefs]
  have := ((range_reorder h.lt).map (fun p => ((List.range d.nc).map (fun c =>
    if attendsB a p c = true then cost ((pref d p c).getD 0) else 0)).sum)).sum_eq
  rw [← this, List.map_map]
  rfl
end

end Wassign
