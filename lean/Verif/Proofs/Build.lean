import Verif.Proofs.Limits
import Verif.Proofs.ConMap
import Verif.Proofs.ExprWF
import Verif.Proofs.Reduce
/-
process_input_reader: everything known about the data it returns.
-/
namespace Wassign
open Spec Build

/-- Same numbers of choices, choosers and slots. -/
structure SameDims (d d' : InputData) : Prop where
  nc : d.nc = d'.nc
  np : d.np = d'.np
  ns : d.ns = d'.ns

theorem SameDims.schedWF {d d' : InputData} (h : SameDims d d') (c : Constraint) : SchedConWF d c ↔ SchedConWF d' c := by
  unfold SchedConWF; rw [h.nc, h.ns]

theorem SameDims.asgWF {d d' : InputData} (h : SameDims d d') (c : Constraint) : AsgConWF d c ↔ AsgConWF d' c := by
  unfold AsgConWF; rw [h.nc, h.np]

theorem SameDims.writtenWF {d d' : InputData} (h : SameDims d d') (c : Constraint) : WrittenWF d c ↔ WrittenWF d' c := by
  unfold WrittenWF; rw [h.nc, h.np, h.ns]

theorem SameDims.slotSize {d d' : InputData} (h : SameDims d d') (s : Scheduling) (t : Nat) :
    Spec.slotSize d s t = Spec.slotSize d' s t := by unfold Spec.slotSize; rw [h.nc]

theorem SameDims.schedHolds {d d' : InputData} (h : SameDims d d') (s : Scheduling) (c : Constraint) :
    SchedHolds d s c ↔ SchedHolds d' s c := by
  unfold SchedHolds
  simp only [h.slotSize]

theorem SameDims.holds {d d' : InputData} (h : SameDims d d') (s : Scheduling) (a : Assignment) (c : Constraint) :
    Holds d s a c ↔ Holds d' s a c := by
  unfold Holds; rw [h.schedHolds]

theorem SameDims.reduced {d d' : InputData} (h : SameDims d d') {L red : List Constraint} (hr : Reduced d L red) :
    Reduced d' L red where
  wf := fun c hc => by rw [← h.schedWF, ← h.asgWF]; exact hr.wf c hc
  kept := fun c hc hk => by
    obtain ⟨c', h1, h2⟩ := hr.kept c hc hk
    exact ⟨c', h1, fun s a => by rw [← h.holds, ← h.holds]; exact h2 s a⟩
  source := fun c' hc' => by
    obtain ⟨c, h1, h2, h3⟩ := hr.source c' hc'
    exact ⟨c, h1, h2, fun s a => by rw [← h.holds, ← h.holds]; exact h3 s a⟩
  image := hr.image
  demands := hr.demands
  links := hr.links

/-- A solver-form constraint is of exactly one sort. -/
theorem schedWF_iff {d : InputData} {c : Constraint} (h : SchedConWF d c ∨ AsgConWF d c) :
    (c.isScheduling = true ↔ SchedConWF d c) ∧ (c.isAssignment = true ↔ AsgConWF d c) := by
  obtain ⟨k, l, r, e⟩ := c
  cases k <;> simp [SchedConWF, AsgConWF, Constraint.isScheduling, Constraint.isAssignment, Kind.toNat] at h ⊢ <;> exact h

theorem sameLink_mono {L L' : List Constraint} (h : ∀ a b, SameLink L a b ↔ SameLink L' a b) : SameLink L = SameLink L' := by
  funext a b; exact propext (h a b)

theorem derived_links {n : Nat} {red res : List Constraint} (h : ∀ c, c ∈ res ↔ Derived n red c) :
    SameLink res = SameLink red := by
  apply sameLink_mono
  intro a b
  constructor
  · rintro ⟨c, hc, hk, hl⟩
    rcases (h c).1 hc with hg | _ | _ | ⟨_, hk', _⟩
    · exact ⟨c, hg, hk, hl⟩
    · cases hk
    · cases hk
    · rcases hk' with e | e <;> (simp only at hk; rw [e] at hk; cases hk)
  · rintro ⟨c, hc, hk⟩
    exact ⟨c, (h c).2 (.given hc), hk⟩

/-- Being required in a choice, by what is written: the demand concerns a choice with the same choosers. -/
def Demanded (written : List Constraint) (p c : Nat) : Prop :=
  ∃ y, Connected (SameLink written) c y ∧ ∃ k ∈ written, demand? k = some (p, y)

theorem required_iff {i : InputData} {n : Nat} {written red res : List Constraint} (hr : Reduced i written red)
    (h : ∀ c, c ∈ res ↔ Derived n red c) {p c : Nat} (hc : c < n) : Required res p c ↔ Demanded written p c := by
  have hlink : SameLink red = SameLink written := sameLink_mono hr.links
  have hdem : ∀ y, (p, y) ∈ red.filterMap inPair? ↔ ∃ k ∈ written, demand? k = some (p, y) := by
    intro y; rw [hr.demands, List.mem_filterMap]
  have hin : ∀ y, (p, y) ∈ red.filterMap inPair? ↔ Required red p y := by
    intro y
    rw [List.mem_filterMap]
    constructor
    · rintro ⟨k, hk, he⟩
      unfold inPair? at he
      split at he
      · rename_i z hk1 hk2
        cases he
        exact ⟨k, hk, hk1, rfl, hk2⟩
      · cases he
    · rintro ⟨k, hk, h1, h2, h3⟩
      exact ⟨k, hk, by unfold inPair?; rw [h1, h3, h2]⟩
  constructor
  · rintro ⟨k, hk, h1, h2, h3⟩
    have hd := (h k).1 hk
    generalize hk0 : k = k0 at hd
    cases hd with
    | given hg =>
      subst hk0
      exact ⟨c, .refl _, (hdem c).1 ((hin c).2 ⟨k, hg, h1, h2, h3⟩)⟩
    | sepDep _ _ _ => subst hk0; cases h1
    | sepMand _ => subst hk0; cases h1
    | @copy c0 x y hg hk' hy _ _ hcon =>
      subst hk0
      simp only at h1 h2 h3
      cases h3
      rw [hlink] at hcon
      exact ⟨y, hcon, (hdem y).1 ((hin y).2 ⟨c0, hg, h1, h2, hy⟩)⟩
  · rintro ⟨y, hcon, hk⟩
    obtain ⟨k, hk1, h1, h2, h3⟩ := (hin y).1 ((hdem y).2 hk)
    by_cases hcy : c = y
    · subst hcy
      exact ⟨k, (h k).2 (.given hk1), h1, h2, h3⟩
    · refine ⟨_, (h _).2 (.copy hk1 (.inl h1) h3 hcy hc (hlink ▸ hcon)), h1, h2, rfl⟩

/-- The mirrored chooser. -/
def mirrored (m : Nat) (c : Chooser) : Chooser := ⟨c.name, c.prefs.map (fun x => m - x)⟩

theorem foldl_max_spec : ∀ (l : List Nat) (m : Nat), (m ≤ l.foldl max m ∧ ∀ x ∈ l, x ≤ l.foldl max m) ∧
    (l.foldl max m = m ∨ l.foldl max m ∈ l) := by
  intro l
  induction l with
  | nil => intro m; simp
  | cons x l ih =>
    intro m
    obtain ⟨⟨h1, h2⟩, h3⟩ := ih (max m x)
    rw [List.foldl_cons]
    refine ⟨⟨by omega, ?_⟩, ?_⟩
    · intro y hy
      rcases List.mem_cons.1 hy with e | e
      · omega
      · exact h2 y e
    · rcases h3 with h3 | h3
      · rcases Nat.le_total m x with h | h
        · right; rw [h3, Nat.max_eq_right h]; simp
        · left; rw [h3, Nat.max_eq_left h]
      · right; simp [h3]

theorem prefCheck_fold {n : Nat} : ∀ (cs : List Chooser) (m0 m : Nat), cs.foldlM (prefCheck n) m0 = .ok m →
    (∀ c ∈ cs, c.prefs.length = n) ∧ m0 ≤ m ∧ (∀ c ∈ cs, ∀ x ∈ c.prefs, x ≤ m) ∧ (m = m0 ∨ ∃ c ∈ cs, m ∈ c.prefs) := by
  intro cs
  induction cs with
  | nil => intro m0 m h; cases h; simp
  | cons c cs ih =>
    intro m0 m h
    rw [List.foldlM_cons, R.bind_eq_ok] at h
    obtain ⟨m1, h1, h2⟩ := h
    unfold prefCheck at h1
    split at h1
    · cases h1
    · rename_i hl
      cases h1
      obtain ⟨q1, q2, q3, q4⟩ := ih _ m h2
      obtain ⟨⟨f1, f2⟩, f3⟩ := foldl_max_spec c.prefs m0
      refine ⟨?_, by omega, ?_, ?_⟩
      · intro c' hc'
        rcases List.mem_cons.1 hc' with e | e
        · rw [e]; omega
        · exact q1 c' e
      · intro c' hc' x hx
        rcases List.mem_cons.1 hc' with e | e
        · have := f2 x (e ▸ hx); omega
        · exact q3 c' e x hx
      · rcases q4 with q4 | ⟨c', hc', hm⟩
        · rcases f3 with f3 | f3
          · left; omega
          · right; exact ⟨c, by simp, by rw [q4]; exact f3⟩
        · right; exact ⟨c', by simp [hc'], hm⟩

theorem buildPreferences_spec {raw : Raw} {m : Nat} {cs : List Chooser} (h : buildPreferences raw = .ok (m, cs)) :
    (∀ c ∈ raw.choosers, c.prefs.length = raw.choices.length) ∧ (∀ c ∈ raw.choosers, ∀ x ∈ c.prefs, x ≤ m) ∧
    (m = 0 ∨ ∃ c ∈ raw.choosers, m ∈ c.prefs) ∧ cs = raw.choosers.map (mirrored m) := by
  unfold buildPreferences at h
  rw [R.bind_eq_ok] at h
  obtain ⟨m', h1, h⟩ := h
  obtain ⟨q1, _, q3, q4⟩ := prefCheck_fold _ _ _ h1
  have hm : raw.choosers.mapM (mirror m') = .ok (raw.choosers.map (mirrored m')) := by
    apply mapM_eq_ok_of
    intro c hc
    unfold mirror
    rw [mapM_eq_ok_of (g := fun x => m' - x)]
    · rfl
    · intro x hx
      exact subU_eq_ok.2 ⟨q3 c hc x hx, rfl⟩
  rw [hm, R.bind_ok] at h
  cases h
  exact ⟨q1, q3, q4, rfl⟩

/-- Everything the builder guarantees. `m` is the largest preference given, `written` the constraints as
written (including those of the parts). -/
structure Built (raw : Raw) (d : InputData) (m : Nat) (written : List Constraint) : Prop where
  prefCount : ∀ c ∈ raw.choosers, c.prefs.length = raw.choices.length
  maxUpper : ∀ c ∈ raw.choosers, ∀ x ∈ c.prefs, x ≤ m
  maxAttained : m = 0 ∨ ∃ c ∈ raw.choosers, m ∈ c.prefs
  maxPref : d.maxPref = m
  slots : d.slots = if raw.slots.isEmpty then [generatedSlotName] else raw.slots
  levels : d.prefLevels = buildLevels raw m
  nc : d.nc = (raw.choices.map width).sum
  ncI32 : d.nc ≤ i32Max
  np : d.np = raw.choosers.length
  names : ∀ p (h : p < raw.choosers.length), ∃ ch, d.choosers[p]? = some ch ∧ ch.name = raw.choosers[p].name ∧
    ch.prefs.length = d.nc
  stage : ∃ d1, SameDims d1 d ∧ d1.slots = d.slots ∧ d1.choices = blocks 0 raw.choices ∧
    d1.choosers.map (·.name) = raw.choosers.map (·.name) ∧
    writtenConstraints raw d1 = .ok written
  writtenWF : ∀ c ∈ written, WrittenWF d c
  notInf : ∀ c ∈ written, c.kind = .slotsHaveSameChoices → c.right = .slot c.left
  parts : ∀ c, IsPartCon raw.choices c → c ∈ written
  offsets : ∀ c ∈ written, ∀ o, c.extra = .offset o → IsPartCon raw.choices c
  reduced : ∃ red, Reduced d written red ∧ (∀ c, c ∈ d.schedCons ↔ Derived d.nc red c ∧ SchedConWF d c) ∧
    (∀ c, c ∈ d.asgCons ↔ Derived d.nc red c ∧ AsgConWF d c)
  choice : ∀ c, c < d.nc → ∃ ch ch1, d.choices[c]? = some ch ∧ (blocks 0 raw.choices)[c]? = some ch1 ∧
    ch.name = ch1.name ∧ ch.continuation = ch1.continuation ∧ ch.isOptional = ch1.isOptional ∧
    Largest d.nc (Connected (SameLink written)) (fun y => ((blocks 0 raw.choices)[y]?.map (·.min)).getD 0) c ch.min ∧
    Smallest d.nc (Connected (SameLink written)) (fun y => ((blocks 0 raw.choices)[y]?.map (·.max)).getD 0) c ch.max
  prefs : ∀ p c, (hp : p < raw.choosers.length) → c < d.nc →
    (Demanded written p c → pref d p c = some 0) ∧
    (¬ Demanded written p c → ∃ v, pref d p c = some v ∧ Smallest d.nc (Connected (SameLink written))
      (fun y => ((expandAll raw.choices (mirrored m raw.choosers[p]).prefs)[y]?).getD 0) c v)
  groups : Partition d.nc d.depGroups ∧ ∀ a b, a < d.nc → b < d.nc →
    ((∃ g ∈ d.depGroups, a ∈ g ∧ b ∈ g) ↔ Connected (SameLink written) a b)
  conMap : ∀ c < d.nc, ∀ k, k ∈ d.schedConsFor c ↔ k ∈ d.schedCons ∧ Concerns k c

theorem mapM_flatten_mem {α β : Type} {f : α → R (List β)} : ∀ {l : List α} {ls : List (List β)}, l.mapM f = .ok ls →
    ∀ x, x ∈ ls.flatten ↔ ∃ a ∈ l, ∃ r, f a = .ok r ∧ x ∈ r := by
  intro l
  induction l with
  | nil => intro ls h x; simp at h; subst h; simp
  | cons a l ih =>
    intro ls h x
    rw [List.mapM_cons, R.bind_eq_ok] at h
    obtain ⟨r, h1, h⟩ := h
    rw [R.bind_eq_ok] at h
    obtain ⟨rs, h2, h⟩ := h
    cases h
    rw [List.flatten_cons, List.mem_append, ih h2]
    constructor
    · rintro (h | ⟨b, hb, q⟩)
      · exact ⟨a, by simp, r, h1, h⟩
      · exact ⟨b, by simp [hb], q⟩
    · rintro ⟨b, hb, r', q1, q2⟩
      rcases List.mem_cons.1 hb with e | e
      · subst e; rw [h1] at q1; cases q1; exact .inl q2
      · exact .inr ⟨b, e, r', q1, q2⟩

theorem buildExpr_extra {d : InputData} {e : CExpr} {L : List Constraint} (h : buildExpr d e = .ok L) :
    ∀ c ∈ L, ∀ o, c.extra ≠ .offset o := by
  have key : ∀ (e : CExpr) (ke : Kind × Extra), tableKind e = some ke → ∀ o, ke.2 ≠ .offset o := by
    intro e ke ht o
    unfold tableKind at ht
    split at ht <;> simp only [Option.some.injEq, reduceCtorEq] at ht <;> subst ht <;> simp
  have add : ∀ (e : CExpr) (k : Kind) (x : Extra), (∀ o, x ≠ .offset o) → addConstraint d e k x = .ok L →
      ∀ c ∈ L, ∀ o, c.extra ≠ .offset o := by
    intro e k x hx h
    unfold addConstraint at h
    rw [R.bind_eq_ok] at h
    obtain ⟨r, _, h⟩ := h
    cases r with
    | none => cases h; simp
    | some t =>
      simp only [R.bind_eq_ok] at h
      obtain ⟨l, _, h⟩ := h
      cases l with
      | none => cases h; simp
      | some n => cases h; simpa using hx
  unfold buildExpr at h
  split at h
  · rename_i k x ht
    exact add e k x (key e _ ht) h
  · split at h
    · rename_i k x ht
      exact add e.swap k x (key e.swap _ ht) h
    · cases h

theorem partCon_wf {ps : List Proto} {d : InputData} (hd : d.nc = (ps.map width).sum) {c : Constraint}
    (h : IsPartCon ps c) : WrittenWF d c := by
  obtain ⟨k, j1, j2, x, y, h1, h2, _, h3⟩ := h
  have a := isPart_lt h1
  have b := isPart_lt h2
  rw [← hd] at a b
  rcases h3 with e | e
  · subst e; exact ⟨a, b⟩
  · subst e; exact ⟨a, b⟩

theorem build_spec {raw : Raw} {d : InputData} (hmax : ∀ p ∈ raw.choices, p.max ≤ u32Max) (h : build raw = .ok d) :
    ∃ m written, Built raw d m written := by
  unfold build at h
  rw [R.bind_eq_ok] at h
  obtain ⟨⟨m, cs⟩, hp, h⟩ := h
  obtain ⟨p1, p2, p3, rfl⟩ := buildPreferences_spec hp
  have hcl : ∀ c ∈ raw.choosers.map (mirrored m), c.prefs.length = raw.choices.length := by
    intro c hc
    obtain ⟨c', hc', rfl⟩ := List.mem_map.1 hc
    simp only [mirrored, List.length_map]
    exact p1 c' hc'
  simp only [R.bind_eq_ok] at h
  obtain ⟨d2, hb, maps, hm, h⟩ := h
  cases h
  have hstage : stage1 raw m (raw.choosers.map (mirrored m)) =
      { choices := blocks 0 raw.choices
        choosers := (raw.choosers.map (mirrored m)).map (fun c => ⟨c.name, expandAll raw.choices c.prefs⟩)
        slots := if raw.slots.isEmpty then [generatedSlotName] else raw.slots
        schedCons := [], asgCons := [], depGroups := []
        prefLevels := buildLevels raw m
        maxPref := m
        choiceConMap := [], chooserConMap := [] } := by
    unfold stage1
    rw [compileChoices_eq hcl]
  unfold buildConstraints at hb
  rw [R.bind_eq_ok] at hb
  obtain ⟨written, hwr, hb⟩ := hb
  generalize hd1 : stage1 raw m (raw.choosers.map (mirrored m)) = d1 at hb hwr hstage
  have hch : d1.choices = blocks 0 raw.choices := by rw [hstage]
  have hcs : d1.choosers = (raw.choosers.map (mirrored m)).map (fun c => ⟨c.name, expandAll raw.choices c.prefs⟩) := by rw [hstage]
  have hsl : d1.slots = if raw.slots.isEmpty then [generatedSlotName] else raw.slots := by rw [hstage]
  have hpl : d1.prefLevels = buildLevels raw m := by rw [hstage]
  have hmp : d1.maxPref = m := by rw [hstage]
  have hnc1 : d1.nc = (raw.choices.map width).sum := by
    show d1.choices.length = _
    rw [hch, length_blocks]
  -- written constraints
  have hwr' := hwr
  unfold writtenConstraints at hwr
  rw [R.bind_eq_ok] at hwr
  obtain ⟨ex, hex, hwr⟩ := hwr
  rw [R.bind_eq_ok] at hwr
  obtain ⟨pc, hpc, hwr⟩ := hwr
  have hi32 : d1.nc ≤ i32Max := by
    unfold partConstraints at hpc
    rw [R.bind_eq_ok] at hpc
    obtain ⟨u, hu, _⟩ := hpc
    unfold UF.new at hu
    rw [R.bind_eq_ok] at hu
    obtain ⟨x, hx, _⟩ := hu
    exact (toI32_eq_ok.1 hx).1
  obtain ⟨pc', hpc1, hpc2⟩ := partConstraints_spec (ps := raw.choices) (by rw [← hnc1]; exact hi32)
  rw [hch, hpc1] at hpc
  cases hpc
  cases hwr
  have hcont : ∀ c ∈ d1.choices, ∀ n, c.continuation = some n → n < d1.nc := by
    intro c hc n hn
    rw [hch] at hc
    obtain ⟨a, ha⟩ := List.mem_iff_getElem?.1 hc
    obtain ⟨k, j, _, hp2⟩ := blocks_link.1 ⟨c, ha, hn⟩
    rw [hnc1]
    exact isPart_lt hp2
  have hww : ∀ c ∈ ex.flatten ++ pc, WrittenWF d1 c := by
    intro c hc
    rcases List.mem_append.1 hc with hc | hc
    · obtain ⟨e, _, r, h1, h2⟩ := (mapM_flatten_mem hex c).1 hc
      exact buildExpr_wf hcont h1 c h2
    · exact partCon_wf hnc1 ((hpc2 c).1 hc)
  generalize hwrit : ex.flatten ++ pc = written at hb hwr' hww
  obtain ⟨red, res, inf, hr1, hr2, _, hr4, hr5⟩ := reduceAndOptimize_spec hi32 hww
  rw [hr1, R.bind_ok] at hb
  simp only at hb
  cases hinf : inf with
  | true => rw [hinf] at hb; cases hb
  | false =>
  rw [hinf] at hb
  simp only [Bool.false_eq_true, if_false] at hb
  have hreswf : ∀ c ∈ res, SchedConWF d1 c ∨ AsgConWF d1 c := fun c hc => derived_wf hr2.wf ((hr4 c).1 hc)
  obtain ⟨hdep, hinw, hinr⟩ := depWF_of hreswf
  have hlinks : SameLink res = SameLink written := (derived_links hr4).trans (sameLink_mono hr2.links)
  have hcmax : ∀ ch ∈ d1.choices, ch.max ≤ u32Max := by
    intro ch hc
    rw [hch] at hc
    obtain ⟨a, ha⟩ := List.mem_iff_getElem?.1 hc
    have hlt := (List.getElem?_eq_some_iff.1 ha).1
    rw [length_blocks] at hlt
    obtain ⟨k, j, p, q1, q2, q3⟩ := isPart_exists hlt
    rw [q3, blocks_get q1 q2 0] at ha
    cases ha
    exact hmax p (List.mem_of_getElem? q1)
  obtain ⟨limits, hl1, hl2, hl3⟩ := dependentLimits_spec hi32 hdep hcmax
  have hin : ∀ k ∈ res, k.kind = .chooserIsInChoice → k.left < d1.choosers.length ∧ ∃ y, k.right = .choice y ∧ y < d1.nc := by
    intro k hk hkk
    obtain ⟨y, hy⟩ := hinw k hk (.inl hkk)
    rcases hreswf k hk with hw | hw
    · unfold SchedConWF at hw; rw [hkk] at hw; simp at hw
    · unfold AsgConWF at hw; rw [hkk, hy] at hw; exact ⟨hw.1, y, hy, hw.2⟩
  have hpl1 : ∀ c ∈ d1.choosers, c.prefs.length = d1.nc := by
    intro c hc
    rw [hcs] at hc
    obtain ⟨c', hc', rfl⟩ := List.mem_map.1 hc
    rw [hnc1]
    exact length_expandAll (hcl c' hc')
  obtain ⟨prefs, hf1, hf2, hf3, hf4⟩ := dependentPreferences_spec hi32 hdep hin hpl1
  rw [hl1, R.bind_ok, hf1, R.bind_ok] at hb
  have hwl : d1.choices.zipIdx.mapM (withLimits limits) = .ok (d1.choices.zipIdx.map (fun e =>
      { e.1 with min := ((limits[e.2]?).getD (0, 0)).1, max := ((limits[e.2]?).getD (0, 0)).2 })) := by
    apply mapM_eq_ok_of
    rintro ⟨c, k⟩ hk
    rw [List.mk_mem_zipIdx_iff_getElem?] at hk
    have hlt := (List.getElem?_eq_some_iff.1 hk).1
    unfold withLimits
    rw [idx_ok (by rw [hl2]; exact hlt), R.bind_ok]
    simp [List.getElem?_eq_getElem (show k < limits.length by rw [hl2]; exact hlt)]
  have hwp : d1.choosers.zipIdx.mapM (withPrefs prefs) = .ok (d1.choosers.zipIdx.map (fun e =>
      ⟨e.1.name, (prefs[e.2]?).getD []⟩)) := by
    apply mapM_eq_ok_of
    rintro ⟨c, k⟩ hk
    rw [List.mk_mem_zipIdx_iff_getElem?] at hk
    have hlt := (List.getElem?_eq_some_iff.1 hk).1
    unfold withPrefs
    rw [idx_ok (by rw [hf2]; exact hlt), R.bind_ok]
    simp [List.getElem?_eq_getElem (show k < prefs.length by rw [hf2]; exact hlt)]
  rw [hwl, R.bind_ok, hwp, R.bind_ok] at hb
  obtain ⟨gs, hg1, hg2, _, hg4⟩ := getDependentChoices_spec (n := d1.nc) hi32 hdep
  have hlen2 : (d1.choices.zipIdx.map (fun e : Choice × Nat =>
      ({ e.1 with min := ((limits[e.2]?).getD (0, 0)).1, max := ((limits[e.2]?).getD (0, 0)).2 } : Choice))).length = d1.nc := by simp
  rw [hlen2, hg1, R.bind_ok] at hb
  cases hb
  simp only at hm
  simp only [List.length_map, List.length_zipIdx] at hm
  have hschedwf : ∀ k ∈ res.filter (·.isScheduling), SchedConWF d1 k := by
    intro k hk
    obtain ⟨hk1, hk2⟩ := List.mem_filter.1 hk
    exact ((schedWF_iff (hreswf k hk1)).1).1 hk2
  obtain ⟨g, b, hm1, hm2⟩ := constraintMaps_spec (np := d1.choosers.length) hschedwf
  have hmaps : maps = (asMap d1.nc g, b) := by
    have := hm1.symm.trans hm
    cases this; rfl
  subst hmaps
  refine ⟨m, written, ?_⟩
  have hdims : SameDims d1 { d1 with
      choices := d1.choices.zipIdx.map (fun e : Choice × Nat =>
        ({ e.1 with min := ((limits[e.2]?).getD (0, 0)).1, max := ((limits[e.2]?).getD (0, 0)).2 } : Choice))
      choosers := d1.choosers.zipIdx.map (fun e : Chooser × Nat => (⟨e.1.name, (prefs[e.2]?).getD []⟩ : Chooser))
      schedCons := res.filter (·.isScheduling)
      asgCons := res.filter (·.isAssignment)
      depGroups := gs
      choiceConMap := asMap d1.nc g, chooserConMap := b } := ⟨by simp [InputData.nc], by simp [InputData.np], rfl⟩
  have hnc := hdims.nc
  have hnp := hdims.np
  generalize hdd : ({ d1 with
      choices := d1.choices.zipIdx.map (fun e : Choice × Nat =>
        ({ e.1 with min := ((limits[e.2]?).getD (0, 0)).1, max := ((limits[e.2]?).getD (0, 0)).2 } : Choice))
      choosers := d1.choosers.zipIdx.map (fun e : Chooser × Nat => (⟨e.1.name, (prefs[e.2]?).getD []⟩ : Chooser))
      schedCons := res.filter (·.isScheduling)
      asgCons := res.filter (·.isAssignment)
      depGroups := gs
      choiceConMap := asMap d1.nc g, chooserConMap := b } : InputData) = d at hdims hnc hnp
  have hnpraw : d1.np = raw.choosers.length := by show d1.choosers.length = _; rw [hcs]; simp
  have hdch : d.choices = d1.choices.zipIdx.map (fun e : Choice × Nat =>
        ({ e.1 with min := ((limits[e.2]?).getD (0, 0)).1, max := ((limits[e.2]?).getD (0, 0)).2 } : Choice)) := by rw [← hdd]
  have hdcs : d.choosers = d1.choosers.zipIdx.map (fun e : Chooser × Nat => (⟨e.1.name, (prefs[e.2]?).getD []⟩ : Chooser)) := by
    rw [← hdd]
  have hdp : ∀ p, p < d1.np → ∃ ch, d1.choosers[p]? = some ch ∧ d.choosers[p]? = some ⟨ch.name, (prefs[p]?).getD []⟩ := by
    intro p hp
    refine ⟨d1.choosers[p], List.getElem?_eq_getElem hp, ?_⟩
    rw [hdcs, List.getElem?_map, List.getElem?_zipIdx, List.getElem?_eq_getElem hp]
    simp
  have hlinkeq : SameLink res = SameLink written := hlinks
  exact {
    prefCount := p1
    maxUpper := p2
    maxAttained := p3
    maxPref := by rw [← hdd]; exact hmp
    slots := by rw [← hdd]; exact hsl
    levels := by rw [← hdd]; exact hpl
    nc := by rw [← hnc]; exact hnc1
    ncI32 := by rw [← hnc]; exact hi32
    np := by rw [← hnp]; exact hnpraw
    names := by
      intro p hp
      obtain ⟨ch, e1, e2⟩ := hdp p (by rw [hnpraw]; exact hp)
      refine ⟨_, e2, ?_, ?_⟩
      · rw [hcs] at e1
        simp only [List.getElem?_map, List.getElem?_eq_getElem hp, Option.map_some, Option.some.injEq] at e1
        rw [← e1]; rfl
      · have hp' : p < prefs.length := by rw [hf2]; show p < d1.np; rw [hnpraw]; exact hp
        simp only [List.getElem?_eq_getElem hp', Option.getD_some]
        rw [hf3 _ (List.getElem_mem hp'), ← hnc]
    stage := ⟨d1, hdims, by rw [← hdd], hch, by rw [hcs]; simp [mirrored], hwr'⟩
    writtenWF := fun c hc => (hdims.writtenWF c).1 (hww c hc)
    notInf := by
      intro c hc hk
      apply Classical.byContradiction
      intro hne
      have := hr5.2 ⟨c, hc, hk, hne⟩
      rw [hinf] at this; cases this
    parts := by
      intro c hc
      rw [← hwrit]
      exact List.mem_append.2 (.inr ((hpc2 c).2 hc))
    offsets := by
      intro c hc o ho
      rw [← hwrit] at hc
      rcases List.mem_append.1 hc with hc | hc
      · obtain ⟨e, _, r, h1, h2⟩ := (mapM_flatten_mem hex c).1 hc
        exact absurd ho (buildExpr_extra h1 c h2 o)
      · exact (hpc2 c).1 hc
    reduced := by
      refine ⟨red, hdims.reduced hr2, ?_, ?_⟩
      · intro c
        have hd : d.schedCons = res.filter (·.isScheduling) := by rw [← hdd]
        rw [hd, List.mem_filter, hr4, ← hnc, ← hdims.schedWF]
        constructor
        · rintro ⟨h1, h2⟩
          exact ⟨h1, ((schedWF_iff (hreswf c ((hr4 c).2 h1))).1).1 h2⟩
        · rintro ⟨h1, h2⟩
          exact ⟨h1, ((schedWF_iff (.inl h2)).1).2 h2⟩
      · intro c
        have hd : d.asgCons = res.filter (·.isAssignment) := by rw [← hdd]
        rw [hd, List.mem_filter, hr4, ← hnc, ← hdims.asgWF]
        constructor
        · rintro ⟨h1, h2⟩
          exact ⟨h1, ((schedWF_iff (hreswf c ((hr4 c).2 h1))).2).1 h2⟩
        · rintro ⟨h1, h2⟩
          exact ⟨h1, ((schedWF_iff (.inr h2)).2).2 h2⟩
    choice := by
      intro c hc
      rw [← hnc] at hc
      have hl : c < limits.length := by rw [hl2]; exact hc
      obtain ⟨q1, q2⟩ := hl3 c _ (List.getElem?_eq_getElem hl)
      refine ⟨{ d1.choices[c] with min := ((limits[c]?).getD (0, 0)).1, max := ((limits[c]?).getD (0, 0)).2 },
        d1.choices[c], by rw [hdch, List.getElem?_map, List.getElem?_zipIdx, List.getElem?_eq_getElem hc]; simp,
        by rw [← hch]; exact List.getElem?_eq_getElem hc, rfl, rfl, rfl, ?_, ?_⟩
      · rw [hlinkeq, hch] at q1
        rw [← hnc]
        have : d1.nc = (blocks 0 raw.choices).length := by show d1.choices.length = _; rw [hch]
        rw [this]
        simpa [List.getElem?_eq_getElem hl] using q1
      · rw [hlinkeq, hch] at q2
        rw [← hnc]
        have : d1.nc = (blocks 0 raw.choices).length := by show d1.choices.length = _; rw [hch]
        rw [this]
        simpa [List.getElem?_eq_getElem hl] using q2
    prefs := by
      intro p c hp hc
      rw [← hnc] at hc
      have hpd : p < d1.choosers.length := by show p < d1.np; rw [hnpraw]; exact hp
      obtain ⟨q1, q2⟩ := hf4 p c hpd hc
      have hpref : pref d p c = prefs[p]?.bind (·[c]?) := by
        obtain ⟨ch, e1, e2⟩ := hdp p hpd
        unfold pref
        rw [e2]
        have hp' : p < prefs.length := by rw [hf2]; exact hpd
        simp [List.getElem?_eq_getElem hp']
      have hrd := required_iff (p := p) hr2 hr4 hc
      rw [hpref, ← hrd]
      refine ⟨q1, fun hn => ?_⟩
      obtain ⟨v, e1, e2⟩ := q2 hn
      refine ⟨v, e1, ?_⟩
      rw [hlinkeq] at e2
      rw [← hnc]
      have hrow : d1.choosers[p].prefs = expandAll raw.choices (mirrored m raw.choosers[p]).prefs := by
        simp only [hcs, List.getElem_map]
      rw [hrow] at e2
      exact e2
    groups := by
      have hd : d.depGroups = gs := by rw [← hdd]
      rw [hd, ← hnc]
      refine ⟨hg2, ?_⟩
      rw [hlinkeq] at hg4
      exact hg4
    conMap := by
      intro c hc k
      rw [← hnc] at hc
      have hd : d.schedConsFor c = g c := by
        unfold InputData.schedConsFor
        have : d.choiceConMap = asMap d1.nc g := by rw [← hdd]
        rw [this, asMap_lookup hc]
      have hd' : d.schedCons = res.filter (·.isScheduling) := by rw [← hdd]
      rw [hd, hd']
      exact hm2 c hc k }

end Wassign
