import Verif.Proofs.Built
import Verif.Proofs.ReadInput
import Verif.Spec.Manageable
/-
Building the input data never panics.
-/
namespace Wassign

open Spec Build

theorem findName_noPanic (name : Str) (values : List Str) : NoPanic (findName name values) := by
  unfold findName
  split
  · exact NoPanic.ok _
  · exact NoPanic.ok _
  · exact NoPanic.err _

theorem walkParts_noPanic {d : InputData} (hc : ∀ c ∈ d.choices, ∀ n, c.continuation = some n → n < d.nc) {asked : Nat} :
    ∀ (k c : Nat), c < d.nc → NoPanic (walkParts d asked k c) := by
  intro k
  induction k with
  | zero => intro c _; exact NoPanic.ok _
  | succ k ih =>
    intro c h
    unfold walkParts
    refine NoPanic.bind (NoPanic.idx h) (fun ch hch => ?_)
    have hm : ch ∈ d.choices := List.mem_of_getElem? (idx_eq_ok.1 hch)
    cases e : ch.continuation with
    | none => exact NoPanic.err _
    | some n => exact ih n (hc ch hm n e)

theorem resolveAccessor_noPanic {d : InputData} (hc : ∀ c ∈ d.choices, ∀ n, c.continuation = some n → n < d.nc)
    (a : Accessor) : NoPanic (resolveAccessor d a) := by
  unfold resolveAccessor
  split
  · exact findName_noPanic _ _
  · exact findName_noPanic _ _
  · refine NoPanic.bind (findName_noPanic _ _) (fun r hr => ?_)
    cases r with
    | none => exact NoPanic.ok _
    | some c =>
      have := findName_lt hr
      exact NoPanic.bind (walkParts_noPanic hc _ _ (by simpa [InputData.nc] using this)) (fun _ _ => NoPanic.ok _)
  · split
    · exact NoPanic.ok _
    · exact NoPanic.err _
  · exact NoPanic.err _

theorem addConstraint_noPanic {d : InputData} (hc : ∀ c ∈ d.choices, ∀ n, c.continuation = some n → n < d.nc)
    {e : CExpr} (hr : e.right.kind = .integer → ∀ n, parseUsize e.right.name = some n → n ≤ u32Max) (k : Kind) (x : Extra) :
    NoPanic (addConstraint d e k x) := by
  unfold addConstraint
  refine NoPanic.bind ?_ (fun r _ => ?_)
  · unfold resolveRight
    split
    · exact NoPanic.bind (resolveAccessor_noPanic hc _) (fun _ _ => NoPanic.ok _)
    · exact NoPanic.bind (resolveAccessor_noPanic hc _) (fun _ _ => NoPanic.ok _)
    · exact NoPanic.bind (resolveAccessor_noPanic hc _) (fun _ _ => NoPanic.ok _)
    · rename_i hk
      refine NoPanic.bind (resolveAccessor_noPanic hc _) (fun r hres => ?_)
      unfold resolveAccessor at hres
      rw [hk] at hres
      simp only at hres
      cases hp : parseUsize e.right.name with
      | none => rw [hp] at hres; cases hres
      | some n =>
        rw [hp] at hres
        cases hres
        simp only
        rw [toU32_eq_ok.2 ⟨hr hk n hp, rfl⟩]
        exact NoPanic.ok _
    · exact NoPanic.ok _
  · cases r with
    | none => exact NoPanic.ok _
    | some t =>
      refine NoPanic.bind (resolveAccessor_noPanic hc _) (fun r _ => ?_)
      cases r with
      | none => exact NoPanic.ok _
      | some _ => exact NoPanic.ok _

theorem buildExpr_noPanic {d : InputData} (hc : ∀ c ∈ d.choices, ∀ n, c.continuation = some n → n < d.nc)
    {e : CExpr} (hn : ∀ a, (a = e.left ∨ a = e.right) → a.kind = .integer → ∀ n, parseUsize a.name = some n → n ≤ u32Max) :
    NoPanic (buildExpr d e) := by
  unfold buildExpr
  split
  · exact addConstraint_noPanic hc (hn _ (.inr rfl)) _ _
  · split
    · exact addConstraint_noPanic (e := e.swap) hc (hn _ (.inl rfl)) _ _
    · exact NoPanic.err _

theorem NoPanic.of_ok {α : Type} {x : R α} (h : ∃ a, x = .ok a) : NoPanic x := by
  obtain ⟨a, h⟩ := h; rw [h]; exact NoPanic.ok _

theorem buildPreferences_noPanic (raw : Raw) : NoPanic (buildPreferences raw) := by
  unfold buildPreferences
  refine NoPanic.bind (NoPanic.foldlM (fun b a _ => ?_) 0) (fun m hm => NoPanic.bind (NoPanic.mapM (fun c hc => ?_)) (fun _ _ => NoPanic.ok _))
  · unfold prefCheck
    exact NoPanic.ite (NoPanic.err _) (NoPanic.ok _)
  · obtain ⟨_, _, h3, _⟩ := prefCheck_fold _ _ _ hm
    unfold mirror
    refine NoPanic.bind (NoPanic.mapM (fun p hp => ?_)) (fun _ _ => NoPanic.ok _)
    exact NoPanic.of_ok ⟨_, subU_eq_ok.2 ⟨h3 c hc p hp, rfl⟩⟩

/-- A chooser with the wrong number of preferences stops the build. -/
theorem build_wrongCount {raw : Raw} (h : ∃ c ∈ raw.choosers, c.prefs.length ≠ raw.choices.length) :
    ∃ c ∈ raw.choosers, c.prefs.length ≠ raw.choices.length ∧
      build raw = .error (.error (String.ofList ("Wrong number of preferences given for chooser \"".toList ++ c.name ++ "\".".toList))) := by
  have key : ∀ (cs : List Chooser) (m : Nat), (∃ c ∈ cs, c.prefs.length ≠ raw.choices.length) →
      ∃ c ∈ cs, c.prefs.length ≠ raw.choices.length ∧ cs.foldlM (prefCheck raw.choices.length) m =
        .error (.error (String.ofList ("Wrong number of preferences given for chooser \"".toList ++ c.name ++ "\".".toList))) := by
    intro cs
    induction cs with
    | nil => rintro m ⟨c, hc, _⟩; cases hc
    | cons c cs ih =>
      intro m hex
      rw [List.foldlM_cons]
      by_cases hl : c.prefs.length = raw.choices.length
      · have : prefCheck raw.choices.length m c = .ok (c.prefs.foldl max m) := by unfold prefCheck; rw [if_neg (by simpa using hl)]; rfl
        rw [this]
        obtain ⟨c', hc', hn⟩ := hex
        rcases List.mem_cons.1 hc' with rfl | hc'
        · exact absurd hl hn
        · obtain ⟨c2, h2, h3, h4⟩ := ih (c.prefs.foldl max m) ⟨c', hc', hn⟩
          exact ⟨c2, List.mem_cons_of_mem _ h2, h3, h4⟩
      · refine ⟨c, by simp, hl, ?_⟩
        have : prefCheck raw.choices.length m c =
            .error (.error (String.ofList ("Wrong number of preferences given for chooser \"".toList ++ c.name ++ "\".".toList))) := by
          unfold prefCheck; rw [if_pos hl]
        rw [this]
        rfl
  obtain ⟨c, h1, h2, h3⟩ := key _ 0 h
  refine ⟨c, h1, h2, ?_⟩
  unfold build buildPreferences
  rw [h3]
  rfl

/-- What comes of the build if the numbers of preferences are right: an expression fails, or two different slots are to have the
same choices, or all is well. -/
theorem build_outcome {raw : Raw} (hmax : ∀ p ∈ raw.choices, p.max ≤ u32Max) (hi : (raw.choices.map width).sum ≤ i32Max)
    (hcount : ∀ c ∈ raw.choosers, c.prefs.length = raw.choices.length) :
    ∃ d1 : InputData, d1.choices = blocks 0 raw.choices ∧ d1.slots = (if raw.slots.isEmpty then [generatedSlotName] else raw.slots) ∧
      d1.choosers.map (·.name) = raw.choosers.map (·.name) ∧
      (∀ f, raw.exprs.mapM (buildExpr d1) = .error f → build raw = .error f) ∧
      ∀ ex, raw.exprs.mapM (buildExpr d1) = .ok ex →
        ((∃ c ∈ ex.flatten, c.kind = .slotsHaveSameChoices ∧ c.right ≠ .slot c.left) →
          build raw = .error (.error "The given constraints are not satisfiable.")) ∧
        ((¬ ∃ c ∈ ex.flatten, c.kind = .slotsHaveSameChoices ∧ c.right ≠ .slot c.left) → ∃ d, build raw = .ok d) := by
  have hbp : ∃ mc, buildPreferences raw = .ok mc := by
    have : ∀ (cs : List Chooser) (m : Nat), (∀ c ∈ cs, c.prefs.length = raw.choices.length) →
        ∃ m', cs.foldlM (prefCheck raw.choices.length) m = .ok m' := by
      intro cs
      induction cs with
      | nil => intro m _; exact ⟨m, rfl⟩
      | cons c cs ih =>
        intro m h
        rw [List.foldlM_cons]
        have : prefCheck raw.choices.length m c = .ok (c.prefs.foldl max m) := by
          unfold prefCheck; rw [if_neg (by simpa using h c (by simp))]; rfl
        rw [this]
        exact ih _ (fun c hc => h c (by simp [hc]))
    obtain ⟨m, hm⟩ := this raw.choosers 0 hcount
    have np := buildPreferences_noPanic raw
    unfold buildPreferences at np ⊢
    rw [hm, R.bind_ok] at np ⊢
    obtain ⟨_, _, h3, _⟩ := prefCheck_fold _ _ _ hm
    have hmm : raw.choosers.mapM (mirror m) = .ok (raw.choosers.map (mirrored m)) := by
      apply mapM_eq_ok_of
      intro c hc
      unfold mirror
      rw [mapM_eq_ok_of (g := fun x => m - x)]
      · rfl
      · intro x hx
        exact subU_eq_ok.2 ⟨h3 c hc x hx, rfl⟩
    rw [hmm, R.bind_ok]
    exact ⟨_, rfl⟩
  obtain ⟨⟨m, cs⟩, hp⟩ := hbp
  unfold build
  rw [hp, R.bind_ok]
  obtain ⟨p1, p2, p3, rfl⟩ := buildPreferences_spec hp
  have hcl : ∀ c ∈ raw.choosers.map (mirrored m), c.prefs.length = raw.choices.length := by
    intro c hc
    obtain ⟨c', hc', rfl⟩ := List.mem_map.1 hc
    simp only [mirrored, List.length_map]
    exact p1 c' hc'
  have hstage : stage1 raw m (raw.choosers.map (mirrored m)) =
      { choices := blocks 0 raw.choices
        choosers := (raw.choosers.map (mirrored m)).map (fun c => ⟨c.name, expandAll raw.choices c.prefs⟩)
        slots := if raw.slots.isEmpty then [generatedSlotName] else raw.slots
        schedCons := [], asgCons := [], depGroups := []
        prefLevels := buildLevels raw m
        maxPref := m
        choiceConMap := [], chooserConMap := [] } := by
    unfold stage1
    rw [compileChoices_eq hcl]
  simp only
  generalize stage1 raw m (raw.choosers.map (mirrored m)) = d1 at hstage
  have hch : d1.choices = blocks 0 raw.choices := by rw [hstage]
  have hcs : d1.choosers = (raw.choosers.map (mirrored m)).map (fun c => ⟨c.name, expandAll raw.choices c.prefs⟩) := by rw [hstage]
  have hnc1 : d1.nc = (raw.choices.map width).sum := by
    show d1.choices.length = _
    rw [hch, length_blocks]
  have hi32 : d1.nc ≤ i32Max := by omega
  have hcont : ∀ c ∈ d1.choices, ∀ n, c.continuation = some n → n < d1.nc := by
    intro c hc n hn
    rw [hch] at hc
    obtain ⟨a, ha⟩ := List.mem_iff_getElem?.1 hc
    obtain ⟨k, j, _, hp2⟩ := blocks_link.1 ⟨c, ha, hn⟩
    rw [hnc1]
    exact isPart_lt hp2
  obtain ⟨pc, hpc1, hpc2⟩ := partConstraints_spec (ps := raw.choices) hi
  refine ⟨d1, hch, by rw [hstage], by rw [hcs]; simp [mirrored], ?_, ?_⟩
  · intro f hf
    unfold buildConstraints writtenConstraints
    rw [hf]
    rfl
  · intro ex hex
    have hwr : writtenConstraints raw d1 = .ok (ex.flatten ++ pc) := by
      unfold writtenConstraints
      rw [hex, R.bind_ok, hch, hpc1]
      rfl
    have hww : ∀ c ∈ ex.flatten ++ pc, WrittenWF d1 c := by
      intro c hc
      rcases List.mem_append.1 hc with hc | hc
      · obtain ⟨e, _, r, h1, h2⟩ := (mapM_flatten_mem hex c).1 hc
        exact buildExpr_wf hcont h1 c h2
      · exact partCon_wf hnc1 ((hpc2 c).1 hc)
    unfold buildConstraints
    rw [hwr, R.bind_ok]
    obtain ⟨red, res, inf, hr1, hr2, _, hr4, hr5⟩ := reduceAndOptimize_spec hi32 hww
    have hr5' : inf = true ↔ ∃ c ∈ ex.flatten, c.kind = .slotsHaveSameChoices ∧ c.right ≠ .slot c.left := by
      rw [hr5]
      constructor
      · rintro ⟨c, hc, hk, hne⟩
        rcases List.mem_append.1 hc with hc | hc
        · exact ⟨c, hc, hk, hne⟩
        · exfalso
          obtain ⟨_, _, _, _, _, _, _, _, rfl | rfl⟩ := (hpc2 c).1 hc
          · cases hk
          · cases hk
      · rintro ⟨c, hc, h⟩
        exact ⟨c, List.mem_append_left _ hc, h⟩
    have hr1' : reduceAndOptimize (ex.flatten ++ pc) d1.choices.length = .ok (res, inf) := hr1
    rw [hr1', R.bind_ok]
    simp only
    cases inf with
    | true => exact ⟨fun _ => rfl, fun h => absurd (hr5'.1 rfl) h⟩
    | false =>
    simp only [Bool.false_eq_true, if_false]
    have hreswf : ∀ c ∈ res, SchedConWF d1 c ∨ AsgConWF d1 c := fun c hc => derived_wf hr2.wf ((hr4 c).1 hc)
    obtain ⟨hdep, hinw, hinr⟩ := depWF_of hreswf
    have hcmax : ∀ ch ∈ d1.choices, ch.max ≤ u32Max := by
      intro ch hc
      rw [hch] at hc
      obtain ⟨a, ha⟩ := List.mem_iff_getElem?.1 hc
      have hlt := (List.getElem?_eq_some_iff.1 ha).1
      rw [length_blocks] at hlt
      obtain ⟨k, j, p, q1, q2, q3⟩ := isPart_exists hlt
      rw [q3, blocks_get q1 q2 0] at ha
      cases ha
      exact hmax p (List.mem_of_getElem? q1)
    obtain ⟨limits, hl1, hl2, hl3⟩ := dependentLimits_spec hi32 hdep hcmax
    have hin : ∀ k ∈ res, k.kind = .chooserIsInChoice → k.left < d1.choosers.length ∧ ∃ y, k.right = .choice y ∧ y < d1.nc := by
      intro k hk hkk
      obtain ⟨y, hy⟩ := hinw k hk (.inl hkk)
      rcases hreswf k hk with hw | hw
      · unfold SchedConWF at hw; rw [hkk] at hw; simp at hw
      · unfold AsgConWF at hw; rw [hkk, hy] at hw; exact ⟨hw.1, y, hy, hw.2⟩
    have hpl1 : ∀ c ∈ d1.choosers, c.prefs.length = d1.nc := by
      intro c hc
      rw [hcs] at hc
      obtain ⟨c', hc', rfl⟩ := List.mem_map.1 hc
      rw [hnc1]
      exact length_expandAll (hcl c' hc')
    obtain ⟨prefs, hf1, hf2, hf3, hf4⟩ := dependentPreferences_spec hi32 hdep hin hpl1
    rw [hl1, R.bind_ok, show dependentPreferences d1.choices.length d1.choosers res = .ok prefs from hf1, R.bind_ok]
    have hwl : d1.choices.zipIdx.mapM (withLimits limits) = .ok (d1.choices.zipIdx.map (fun e =>
        { e.1 with min := ((limits[e.2]?).getD (0, 0)).1, max := ((limits[e.2]?).getD (0, 0)).2 })) := by
      apply mapM_eq_ok_of
      rintro ⟨c, k⟩ hk
      rw [List.mk_mem_zipIdx_iff_getElem?] at hk
      have hlt := (List.getElem?_eq_some_iff.1 hk).1
      unfold withLimits
      rw [idx_ok (by rw [hl2]; exact hlt), R.bind_ok]
      simp [List.getElem?_eq_getElem (show k < limits.length by rw [hl2]; exact hlt)]
    have hwp : d1.choosers.zipIdx.mapM (withPrefs prefs) = .ok (d1.choosers.zipIdx.map (fun e =>
        ⟨e.1.name, (prefs[e.2]?).getD []⟩)) := by
      apply mapM_eq_ok_of
      rintro ⟨c, k⟩ hk
      rw [List.mk_mem_zipIdx_iff_getElem?] at hk
      have hlt := (List.getElem?_eq_some_iff.1 hk).1
      unfold withPrefs
      rw [idx_ok (by rw [hf2]; exact hlt), R.bind_ok]
      simp [List.getElem?_eq_getElem (show k < prefs.length by rw [hf2]; exact hlt)]
    rw [hwl, R.bind_ok, hwp, R.bind_ok]
    obtain ⟨gs, hg1, hg2, _, hg4⟩ := getDependentChoices_spec (n := d1.nc) hi32 hdep
    have hlen2 : (d1.choices.zipIdx.map (fun e : Choice × Nat =>
        ({ e.1 with min := ((limits[e.2]?).getD (0, 0)).1, max := ((limits[e.2]?).getD (0, 0)).2 } : Choice))).length = d1.nc := by simp
    rw [hlen2, hg1, R.bind_ok]
    refine ⟨fun h => (by cases hr5'.2 h), fun _ => ?_⟩
    have hschedwf : ∀ k ∈ res.filter (·.isScheduling), SchedConWF d1 k := by
      intro k hk
      obtain ⟨hk1, hk2⟩ := List.mem_filter.1 hk
      exact ((schedWF_iff (hreswf k hk1)).1).1 hk2
    obtain ⟨g, b, hm1, hm2⟩ := constraintMaps_spec (np := d1.choosers.length) hschedwf
    simp only [pure_bind, List.length_map, List.length_zipIdx]
    rw [show d1.choices.length = d1.nc from rfl, hm1]
    exact ⟨_, rfl⟩

/-- Building never panics if there are not too many choices and numbers in expressions are not too large. -/
theorem build_noPanic {raw : Raw} (hmax : ∀ p ∈ raw.choices, p.max ≤ u32Max) (hi : (raw.choices.map width).sum ≤ i32Max)
    (hnum : NumbersFit u32Max raw) : NoPanic (build raw) := by
  by_cases hcount : ∀ c ∈ raw.choosers, c.prefs.length = raw.choices.length
  · obtain ⟨d1, hch, _, _, hf, hok⟩ := build_outcome hmax hi hcount
    have hnc1 : d1.nc = (raw.choices.map width).sum := by
      show d1.choices.length = _
      rw [hch, length_blocks]
    have hcont : ∀ c ∈ d1.choices, ∀ n, c.continuation = some n → n < d1.nc := by
      intro c hc n hn
      rw [hch] at hc
      obtain ⟨a, ha⟩ := List.mem_iff_getElem?.1 hc
      obtain ⟨k, j, _, hp2⟩ := blocks_link.1 ⟨c, ha, hn⟩
      rw [hnc1]
      exact isPart_lt hp2
    have hw : NoPanic (raw.exprs.mapM (buildExpr d1)) := NoPanic.mapM (fun e he => buildExpr_noPanic hcont (hnum e he))
    cases hm : raw.exprs.mapM (buildExpr d1) with
    | error f => rw [hm] at hw; rw [hf f hm]; intro s h; cases h; exact hw s rfl
    | ok ex =>
      by_cases hs : ∃ c ∈ ex.flatten, c.kind = .slotsHaveSameChoices ∧ c.right ≠ .slot c.left
      · rw [(hok ex hm).1 hs]; exact NoPanic.err _
      · exact NoPanic.of_ok ((hok ex hm).2 hs)
  · obtain ⟨_, _, _, hb⟩ := build_wrongCount (raw := raw) (by simpa using hcount)
    rw [hb]
    exact NoPanic.err _

end Wassign
