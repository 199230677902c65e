import Verif.Proofs.SearchCritical
/-
Pruning is sound: a feasible scheduling that agrees with the decisions so far is never cut off.
-/
namespace Wassign
namespace Search
open Spec
variable {σ : Type}

theorem listSum_le {α : Type} {l : List α} {f g : α → Nat} (h : ∀ x ∈ l, f x ≤ g x) :
    (l.map f).sum ≤ (l.map g).sum := by
  induction l with
  | nil => simp
  | cons x xs ih =>
    have := h x (by simp)
    have := ih (fun y hy => h y (by simp [hy]))
    simp; omega

theorem listSum_zero {α : Type} {l : List α} {f : α → Nat} (h : ∀ x ∈ l, f x = 0) :
    (l.map f).sum = 0 := by
  induction l with
  | nil => simp
  | cons x xs ih => simp [h x (by simp), ih (fun y hy => h y (by simp [hy]))]

theorem listSum_congr {α : Type} {l : List α} {f g : α → Nat} (h : ∀ x ∈ l, f x = g x) :
    (l.map f).sum = (l.map g).sum := by
  rw [List.map_congr_left h]

theorem rsum_scr {n : Nat} {scr : List Nat} (hp : scr.Perm (List.range n)) (f : Nat → Nat) (d : Nat) :
    rsum n f = ((scr.take d).map f).sum + ((scr.drop d).map f).sum := by
  unfold rsum
  rw [← (hp.map f).sum_nat, ← List.sum_append, ← List.map_append, List.take_append_drop]

/-- The value of `f` at a choice. -/
def valOf (i : InputData) (f : Choice → Nat) (c : Nat) : Nat := (i.choices[c]?.map f).getD 0

theorem rsum_valOf (i : InputData) (f : Choice → Nat) : rsum i.nc (valOf i f) = (i.choices.map f).sum :=
  rsum_eq_list_sum _ _ _ (fun k hk => by simp [valOf, hk])

theorem maxSuffix_spec {i : InputData} : ∀ (scr : List Nat), (∀ c ∈ scr, c < i.nc) →
    (scr.map (valOf i (·.max))).sum ≤ u32Max →
    ∃ suf, maxSuffix i scr = .ok suf ∧
      ∀ d, d ≤ scr.length → suf[d]? = some (((scr.drop d).map (valOf i (·.max))).sum) := by
  intro scr
  induction scr with
  | nil =>
    intro _ _
    refine ⟨[0], rfl, ?_⟩
    intro d hd
    simp at hd; subst hd; rfl
  | cons c cs ih =>
    intro hc hsum
    simp only [List.map_cons, List.sum_cons] at hsum
    obtain ⟨suf, h1, h2⟩ := ih (fun x hx => hc x (by simp [hx])) (by omega)
    have hcl := hc c (by simp)
    have h0 := h2 0 (by omega)
    simp only [List.drop_zero] at h0
    have hv : valOf i (·.max) c = i.choices[c].max := by simp [valOf, hcl]
    refine ⟨(((cs.map (valOf i (·.max))).sum) + i.choices[c].max) :: suf, ?_, ?_⟩
    · unfold maxSuffix
      rw [h1, R.bind_ok, idx_eq_ok.2 h0, R.bind_ok, idx_ok hcl, R.bind_ok,
        addU32_eq_ok.2 ⟨by rw [← hv]; omega, rfl⟩]
      rfl
    · intro d hd
      cases d with
      | zero => simp [hv]; omega
      | succ d =>
        simp only [List.getElem?_cons_succ, List.drop_succ_cons]
        exact h2 d (by simpa using hd)

/-- The decided choices are the first `depth` of the scramble. -/
structure OrdInv (i : InputData) (scr : List Nat) (depth : Nat) (D : List Decision) : Prop where
  perm : scr.Perm (List.range i.nc)
  und : ∀ c, c < i.nc → (Und D c ↔ c ∉ scr.take depth)

theorem slotAt_of_und {D : List Decision} {c : Nat} (h : Und D c) : slotAt (decS D) c = none := by
  rw [slotAt_decS, h]; rfl

theorem contrib_und {i : InputData} {D : List Decision} {f : Choice → Nat} {t c : Nat} (h : Und D c) :
    contrib i (decS D) f t c = 0 := contrib_miss (by rw [slotAt_of_und h]; simp)

theorem contrib_le_valOf {i : InputData} {s f t c} : contrib i s f t c ≤ valOf i f c := contrib_le

theorem nodup_take_drop {l : List Nat} (h : l.Nodup) {d x : Nat} (hx : x ∈ l.drop d) :
    x ∉ l.take d := by
  intro hx'
  rw [← List.take_append_drop d l, List.nodup_append] at h
  exact h.2.2 x hx' x hx rfl

theorem OrdInv.nodup {i scr depth D} (h : OrdInv i scr depth D) : scr.Nodup :=
  h.perm.nodup_iff.2 List.nodup_range

theorem OrdInv.lt {i scr depth D} (h : OrdInv i scr depth D) {c : Nat} (hc : c ∈ scr) : c < i.nc := by
  simpa using (h.perm.mem_iff.1 hc)

theorem OrdInv.und_drop {i scr depth D} (h : OrdInv i scr depth D) {c : Nat}
    (hc : c ∈ scr.drop depth) : Und D c :=
  (h.und c (h.lt (List.mem_of_mem_drop hc))).2 (nodup_take_drop h.nodup hc)

theorem OrdInv.drop_zero {i scr depth D} (h : OrdInv i scr depth D) (f : Choice → Nat) (t : Nat) :
    ((scr.drop depth).map (contrib i (decS D) f t)).sum = 0 :=
  listSum_zero (fun _ hc => contrib_und (h.und_drop hc))

theorem avail_bound {i scr depth D} (h : OrdInv i scr depth D) (f : Choice → Nat) (t : Nat) :
    ((scr.drop depth).map (valOf i f)).sum + slotSum i (decS D) f t ≤ (i.choices.map f).sum := by
  rw [slotSum_eq, ← rsum_valOf, rsum_scr h.perm (contrib i (decS D) f t) depth,
    rsum_scr h.perm (valOf i f) depth, h.drop_zero]
  have : ((scr.take depth).map (contrib i (decS D) f t)).sum ≤ ((scr.take depth).map (valOf i f)).sum :=
    listSum_le (fun _ _ => contrib_le_valOf)
  omega

theorem target_eq_of_decided {i : InputData} {D : List Decision} (hlen : D.length = i.nc)
    {T : Scheduling} (hT : Ext D T) {c : Nat} (hc : c < i.nc) (hd : ¬ Und D c) :
    slotAt (decS D) c = slotAt T c := by
  have hget : D[c]? = some (D[c]'(by omega)) := by simp [hlen, hc]
  rw [slotAt_decS, hget]
  exact (hT c _ hget (fun he => hd (by unfold Und; rw [hget, he]))).symm

theorem target_bound {i scr depth D} (h : OrdInv i scr depth D) (hlen : D.length = i.nc)
    {T : Scheduling} (hT : Ext D T) (f : Choice → Nat) (t : Nat) :
    slotSum i T f t = slotSum i (decS D) f t + ((scr.drop depth).map (contrib i T f t)).sum := by
  rw [slotSum_eq, slotSum_eq, rsum_scr h.perm (contrib i (decS D) f t) depth,
    rsum_scr h.perm (contrib i T f t) depth, h.drop_zero]
  have : ((scr.take depth).map (contrib i (decS D) f t)).sum =
      ((scr.take depth).map (contrib i T f t)).sum := by
    apply listSum_congr
    intro c hc
    have hcl := h.lt (List.mem_of_mem_take hc)
    have := target_eq_of_decided hlen hT hcl (fun hu => (h.und c hcl).1 hu hc)
    simp only [contrib, this]
  omega

theorem ext_set {D : List Decision} {T : Scheduling} (hT : Ext D T) {c : Nat} {x : Option Nat}
    (hx : slotAt T c = x) : Ext (D.set c (ofSlot x)) T := by
  intro k d hk hd
  by_cases hck : c = k
  · subst hck
    by_cases hl : c < D.length
    · rw [List.getElem?_set_self hl] at hk
      cases hk
      simpa using hx
    · rw [List.getElem?_eq_none (by simp; omega)] at hk; cases hk
  · rw [List.getElem?_set_ne hck] at hk
    exact hT k d hk hd

theorem ext_sum_le {i : InputData} {D : List Decision} (hlen : D.length = i.nc) {T : Scheduling}
    (hT : Ext D T) (f : Choice → Nat) (t : Nat) : slotSum i (decS D) f t ≤ slotSum i T f t := by
  rw [slotSum_eq, slotSum_eq]
  apply rsum_le_rsum
  intro c hc
  by_cases hu : Und D c
  · rw [contrib_und hu]; exact Nat.zero_le _
  · simp only [contrib, target_eq_of_decided hlen hT hc hu]; exact Nat.le_refl _

/-- Adding an undecided choice adds its value to its slot. -/
theorem slotSum_set {i : InputData} {D : List Decision} (hlen : D.length = i.nc) {c : Nat}
    (hc : c < i.nc) (hu : Und D c) (x : Option Nat) (f : Choice → Nat) (t : Nat) :
    slotSum i (decS (D.set c (ofSlot x))) f t =
      slotSum i (decS D) f t + if x = some t then f i.choices[c] else 0 := by
  have h1 := rsum_contrib_set (i := i) (s := decS D) (f := f) hc x t
  rw [contrib_und hu] at h1
  rw [slotSum_eq, slotSum_eq, decS_set, ofSlot_slot?]
  have h2 : contrib i ((decS D).set c x) f t c = if x = some t then f i.choices[c] else 0 := by
    unfold contrib
    rw [slotAt_set_self (by simp; omega)]
    simp [hc]
  omega

theorem slotSize_eq_slotSum (i : InputData) (s : Scheduling) (t : Nat) :
    slotSize i s t = slotSum i s (fun _ => 1) t := by rw [slotSize_eq_rsum, slotSum_eq]

theorem conSpec_of_target {i : InputData} {D : List Decision} (hlen : D.length = i.nc)
    {T : Scheduling} (hT : Ext D T) {choice : Nat} (hc : choice < i.nc) (hu : Und D choice)
    {k : Constraint} (hw : SchedConWF i k) (hk : SchedHolds i T k) (hm : Concerns k choice) :
    ConSpec i D choice (slotAt T choice) k := by
  rcases Wassign.SchedConWF.elim hw with ⟨x, t, e, rfl, hx, ht⟩ | ⟨x, t, e, rfl, hx, ht⟩ | ⟨x, y, e, rfl, hx, hy⟩ |
    ⟨x, y, e, rfl, hx, hy⟩ | ⟨x, y, o, rfl, hx, hy⟩ | ⟨t, n, op, rfl, ht⟩
  · simp only [SchedHolds, ConSpec, Concerns] at *
    rw [← hm]; exact hk
  · simp only [SchedHolds, ConSpec, Concerns] at *
    rw [← hm]; exact hk
  · simp only [SchedHolds, ConSpec, Concerns] at *
    by_cases h1 : x = choice
    · subst h1
      simp only [if_true]
      by_cases hy' : Und D y
      · exact .inl hy'
      · exact .inr (by rw [target_eq_of_decided hlen hT hy hy', hk])
    · simp only [if_neg h1]
      have : y = choice := by
        rcases hm with hm | hm
        · exact absurd hm h1
        · cases hm; rfl
      subst this
      by_cases hx' : Und D x
      · exact .inl hx'
      · exact .inr (by rw [target_eq_of_decided hlen hT hx hx', hk])
  · simp only [SchedHolds, ConSpec, Concerns] at *
    by_cases h1 : x = choice
    · subst h1
      simp only [if_true]
      by_cases hy' : Und D y
      · exact .inl hy'
      · refine .inr ?_
        rw [target_eq_of_decided hlen hT hy hy']
        rintro ⟨h2, h3⟩
        obtain ⟨t, ht⟩ := Option.ne_none_iff_exists'.1 h3
        exact hk t ⟨ht, h2.trans ht⟩
    · simp only [if_neg h1]
      have : y = choice := by
        rcases hm with hm | hm
        · exact absurd hm h1
        · cases hm; rfl
      subst this
      by_cases hx' : Und D x
      · exact .inl hx'
      · refine .inr ?_
        rw [target_eq_of_decided hlen hT hx hx']
        rintro ⟨h2, h3⟩
        obtain ⟨t, ht⟩ := Option.ne_none_iff_exists'.1 h3
        exact hk t ⟨h2.trans ht, ht⟩
  · simp only [SchedHolds, ConSpec, Concerns] at *
    by_cases h1 : x = choice
    · subst h1
      simp only [if_true]
      by_cases hy' : Und D y
      · exact .inl hy'
      · refine .inr ?_
        rw [target_eq_of_decided hlen hT hy hy']
        have hne : y ≠ x := by rintro rfl; exact hy' hu
        rw [if_neg hne]
        rcases hk with ⟨h2, h3⟩ | ⟨l, r, h2, h3, h4⟩
        · exact .inl ⟨h3, h2⟩
        · exact .inr ⟨r, l, h3, h2, by omega⟩
    · simp only [if_neg h1]
      have : y = choice := by
        rcases hm with hm | hm
        · exact absurd hm h1
        · cases hm; rfl
      subst this
      by_cases hx' : Und D x
      · exact .inl hx'
      · refine .inr ?_
        rw [target_eq_of_decided hlen hT hx hx']
        rw [if_true]
        rcases hk with ⟨h2, h3⟩ | ⟨l, r, h2, h3, h4⟩
        · exact .inl ⟨h2, h3⟩
        · exact .inr ⟨l, r, h2, h3, by omega⟩
  · simp only [SchedHolds, ConSpec] at *
    intro hs
    have h1 := ext_sum_le (D := D.set choice (ofSlot (slotAt T choice))) (by simpa using hlen)
      (ext_set hT rfl) (fun _ => 1) t
    rw [slotSum_set hlen hc hu, if_pos hs, ← slotSize_eq_slotSum, ← slotSize_eq_slotSum] at h1
    constructor
    · rintro rfl; simp only [Rel] at hk; omega
    · rintro (rfl | rfl) <;> simp only [Rel] at hk <;> omega

theorem all_decided_of_count {D : List Decision} {c : Nat} (hu : Und D c)
    (h : D.countP (fun d => d != .undecided) + 1 = D.length) {k : Nat} (hk : k ≠ c) : ¬ Und D k := by
  intro hk'
  have hcl := (List.getElem?_eq_some_iff.1 hu).1
  have hkl := (List.getElem?_eq_some_iff.1 hk').1
  have e1 : D[c] = .undecided := (List.getElem?_eq_some_iff.1 hu).2
  have e2 : D[k] = .undecided := (List.getElem?_eq_some_iff.1 hk').2
  have h1 := List.countP_set (p := fun d => d != Decision.undecided) (l := D) (i := c)
    (a := .omitted) hcl
  have hkl' : k < (D.set c .omitted).length := by simpa using hkl
  have h2 := List.countP_set (p := fun d => d != Decision.undecided) (l := D.set c .omitted) (i := k)
    (a := .omitted) hkl'
  rw [List.getElem_set_ne (Ne.symm hk)] at h2
  simp [e1] at h1
  simp [e2] at h2
  have h3 := List.countP_le_length (p := fun d => d != Decision.undecided)
    (l := (D.set c .omitted).set k .omitted)
  simp only [List.length_set] at h3
  omega

theorem slotSum_congr {i : InputData} {s s' : Scheduling} (h : ∀ c, c < i.nc → slotAt s c = slotAt s' c)
    (f : Choice → Nat) (t : Nat) : slotSum i s f t = slotSum i s' f t := by
  rw [slotSum_eq, slotSum_eq]
  apply rsum_congr
  intro c hc
  simp only [contrib, h c hc]

theorem satSpec_of_target {i : InputData} (hw : WF i) (hr : SearchReady i) {st : SearchState}
    (h : StInv i st) {T : Scheduling} (hT : Ext st.decisions T) {choice : Nat} (hc : choice < i.nc)
    (hu : Und st.decisions choice) (hv : ∀ k ∈ i.schedCons, SchedHolds i T k) :
    SatSpec i st.decisions choice (slotAt T choice) := by
  refine ⟨?_, ?_⟩
  · intro k hk
    obtain ⟨hk', hm⟩ := (hr.conMap choice hc k).1 hk
    exact conSpec_of_target h.len hT hc hu (hw.sched k hk') (hv k hk') hm
  · intro hcnt t n op hk
    have hk' := hv _ hk
    simp only [SchedHolds] at hk'
    have he : slotSize i (decS st.decisions) t + (if slotAt T choice = some t then 1 else 0) =
        slotSize i T t := by
      rw [slotSize_eq_slotSum, slotSize_eq_slotSum, ← slotSum_set h.len hc hu]
      apply slotSum_congr
      intro c hcl
      refine target_eq_of_decided (by simpa using h.len) (ext_set hT rfl) hcl ?_
      by_cases hcc : c = choice
      · subst hcc
        unfold Und
        rw [List.getElem?_set_self (by rw [h.len]; exact hcl)]
        simp [ofSlot_ne]
      · unfold Und
        rw [List.getElem?_set_ne (Ne.symm hcc)]
        exact all_decided_of_count hu (by rw [h.len]; exact hcnt) hcc
    rw [he]
    exact hk'

/-- What every candidate `x` for the choice at position `depth` satisfies, given the decisions `D`
on the earlier positions. -/
structure Good (i : InputData) (scr : List Nat) (depth : Nat) (D : List Decision) (choice : Nat)
    (x : Option Nat) : Prop where
  range : ∀ t, x = some t → t < i.ns
  sat : SatSpec i D choice x
  opt : x = none → ∀ ch, i.choices[choice]? = some ch → ch.isOptional = true
  max : ∀ t, t < i.ns →
    i.np ≤ ((scr.drop (depth + 1)).map (valOf i (·.max))).sum + slotSum i (decS D) (·.max) t ∨
    x = some t ∧ i.np ≤ ((scr.drop depth).map (valOf i (·.max))).sum + slotSum i (decS D) (·.max) t
  min : ∀ t, x = some t → valOf i (·.min) choice + slotSum i (decS D) (·.min) t ≤ i.np ∨
    slotSum i (decS D) (·.max) t < i.np

/-- The candidates at a new depth: never a fault; all of them are admissible; and a feasible
scheduling consistent with the decisions and the critical sets has its slot among them. -/
theorem candidates_spec {g : RngOps σ} (hg : g.Lawful) {i : InputData} (hw : WF i) (hz : Sizes i)
    (hr : SearchReady i) {cs : List CriticalSet} (hcs : ∀ set ∈ cs, ∀ e ∈ set.data, e < i.nc)
    {scr : List Nat} {depth : Nat} {st : SearchState} (h : StInv i st)
    (ho : OrdInv i scr depth st.decisions) {choice : Nat} (hd : scr[depth]? = some choice) (rs : σ) :
    ∃ r, candidates g i cs (((scr.drop depth).map (valOf i (·.max))).sum) choice st rs = .ok r ∧
      (∀ x ∈ r.1, Good i scr depth st.decisions choice x) ∧
      (∀ T, SchedValid i T → SlotsInRange i T → Ext st.decisions T → (∀ set ∈ cs, Covers i T set) →
        slotAt T choice ∈ r.1) := by
  obtain ⟨hdl, hde⟩ := List.getElem?_eq_some_iff.1 hd
  have hmem : choice ∈ scr.drop depth := by
    rw [List.drop_eq_getElem_cons hdl, hde]; simp
  have hdrop : scr.drop depth = choice :: scr.drop (depth + 1) := by
    rw [List.drop_eq_getElem_cons hdl, hde]
  have hc : choice < i.nc := ho.lt (List.mem_of_mem_drop hmem)
  have hu : Und st.decisions choice := ho.und_drop hmem
  have hch : i.choices[choice]? = some i.choices[choice] := by simp [hc]
  have hval : valOf i (·.max) choice = i.choices[choice].max := by simp [valOf, hc]
  have hvalm : valOf i (·.min) choice = i.choices[choice].min := by simp [valOf, hc]
  have hsplit : ((scr.drop depth).map (valOf i (·.max))).sum =
      i.choices[choice].max + ((scr.drop (depth + 1)).map (valOf i (·.max))).sum := by
    rw [hdrop, List.map_cons, List.sum_cons, hval]
  have ha : ∀ t, t < i.ns → ((scr.drop depth).map (valOf i (·.max))).sum +
      slotSum i (decS st.decisions) (·.max) t ≤ u32Max := fun t _ =>
    Nat.le_trans (avail_bound ho _ t) hz.sumMax
  have hmin : ∀ t, t < i.ns → i.choices[choice].min + slotSum i (decS st.decisions) (·.min) t ≤ u32Max := by
    intro t _
    have h1 := avail_bound ho (·.min) t
    have h2 : i.choices[choice].min ≤ ((scr.drop depth).map (valOf i (·.min))).sum := by
      rw [hdrop, List.map_cons, List.sum_cons]; simp [valOf, hc]
    have := hz.sumMin
    omega
  obtain ⟨b, himp, himpi⟩ := hasImpossibilities_spec hz h ha
  -- facts about a target
  have hTmax : ∀ T, SchedValid i T → Ext st.decisions T → ∀ t, t < i.ns →
      i.np ≤ slotSum i (decS st.decisions) (·.max) t +
        ((scr.drop depth).map (contrib i T (·.max) t)).sum := by
    intro T hv hT t ht
    rw [← target_bound ho h.len hT]
    exact hv.maximum t ht
  unfold candidates
  rw [himp, R.bind_ok]
  cases b
  · simp only [Bool.false_eq_true, false_iff] at himpi
    simp only [Bool.false_eq_true, if_false]
    obtain ⟨okc, hokc⟩ := satCritical_total (D := st.decisions) h.len h.range hcs
    rw [hokc, R.bind_ok]
    cases okc
    · refine ⟨_, rfl, by simp, ?_⟩
      intro T hv hTr hT hcov
      rw [satCritical_of_covers h.len h.range hT hcs hcov] at hokc
      cases hokc
    · simp only [Bool.not_true, Bool.false_eq_true, if_false]
      rw [criticalSlots_spec hz h hch (by omega) ha, R.bind_ok]
      have hav : ((scr.drop depth).map (valOf i (·.max))).sum - i.choices[choice].max =
          ((scr.drop (depth + 1)).map (valOf i (·.max))).sum := by omega
      simp only [hav]
      -- a target uses every critical slot
      have hforce : ∀ T, SchedValid i T → Ext st.decisions T → ∀ t, t < i.ns →
          ((scr.drop (depth + 1)).map (valOf i (·.max))).sum +
            slotSum i (decS st.decisions) (·.max) t < i.np → slotAt T choice = some t := by
        intro T hv hT t ht hlt
        have h1 := hTmax T hv hT t ht
        rw [hdrop, List.map_cons, List.sum_cons] at h1
        have h2 : ((scr.drop (depth + 1)).map (contrib i T (·.max) t)).sum ≤
            ((scr.drop (depth + 1)).map (valOf i (·.max))).sum :=
          listSum_le (fun _ _ => contrib_le_valOf)
        refine Classical.byContradiction fun hne => ?_
        rw [contrib_miss hne] at h1
        omega
      generalize hcrit : (List.range i.ns).filter (fun t => decide
        (((scr.drop (depth + 1)).map (valOf i (·.max))).sum +
          slotSum i (decS st.decisions) (·.max) t < i.np)) = crit
      have hcm : ∀ t, t ∈ crit ↔ t < i.ns ∧ ((scr.drop (depth + 1)).map (valOf i (·.max))).sum +
          slotSum i (decS st.decisions) (·.max) t < i.np := by
        intro t; rw [← hcrit]; simp
      have hcn : crit.Nodup := by rw [← hcrit]; exact List.nodup_range.filter _
      match crit, hcm, hcn with
      | [], hcm, _ =>
        simp only [List.map_nil]
        obtain ⟨r, hr1, hr2⟩ := feasibleSlots_spec hg hw hz hr h hch hmin rs
        refine ⟨r, hr1, ?_, ?_⟩
        · intro x hx
          refine ⟨?_, ?_, ?_, ?_, ?_⟩
          · rcases (hr2 x).1 hx with ⟨rfl, _⟩ | ⟨t, rfl, ht, _⟩
            · simp
            · intro t' h'; cases h'; exact ht
          · rcases (hr2 x).1 hx with ⟨rfl, _, hs⟩ | ⟨t, rfl, ht, _, hs⟩ <;> exact hs
          · intro hxn ch hch'
            rw [hch] at hch'; cases hch'
            rcases (hr2 x).1 hx with ⟨_, ho, _⟩ | ⟨t, rfl, _⟩
            · exact ho
            · cases hxn
          · intro t ht
            left
            refine Nat.le_of_not_lt fun hlt => ?_
            have := (hcm t).2 ⟨ht, hlt⟩
            simp at this
          · intro t hxt
            left
            rw [hvalm]
            rcases (hr2 x).1 hx with ⟨rfl, _⟩ | ⟨t', rfl, ht, hm, _⟩
            · cases hxt
            · cases hxt; exact hm
        · intro T hv hTr hT hcov
          rw [hr2]
          cases hTc : slotAt T choice with
          | none =>
            left
            refine ⟨rfl, ?_, ?_⟩
            · cases hopt : i.choices[choice].isOptional with
              | true => rfl
              | false => exact absurd hTc (hv.mandatory choice hc hopt)
            · have := satSpec_of_target hw hr h hT hc hu hv.cons
              rwa [hTc] at this
          | some t =>
            right
            refine ⟨t, rfl, hTr choice t hTc, ?_, ?_⟩
            · have h1 := ext_sum_le (D := st.decisions.set choice (ofSlot (slotAt T choice)))
                (by simpa using h.len) (ext_set hT rfl) (·.min) t
              rw [slotSum_set h.len hc hu, if_pos hTc] at h1
              have := hv.minimum t (hTr choice t hTc)
              omega
            · have := satSpec_of_target hw hr h hT hc hu hv.cons
              rwa [hTc] at this
      | [t], hcm, _ =>
        simp only [List.map_cons, List.map_nil]
        have ht := (hcm t).1 (by simp)
        obtain ⟨b, hb, hbi⟩ := satCons_spec hw hz hr h hc (slot := some t)
          (by intro t' h'; cases h'; exact ht.1)
        rw [hb, R.bind_ok]
        refine ⟨_, rfl, ?_, ?_⟩
        · cases b
          · simp
          · intro x hx
            simp only [if_true, List.mem_singleton] at hx
            subst hx
            refine ⟨by intro t' h'; cases h'; exact ht.1, hbi.1 rfl, by simp, ?_,
              by intro t' h'; cases h'; right; omega⟩
            intro t' ht'
            by_cases htt : t = t'
            · subst htt
              right
              refine ⟨rfl, ?_⟩
              refine Nat.le_of_not_lt fun hlt => himpi ⟨t, ht', hlt⟩
            · left
              refine Nat.le_of_not_lt fun hlt => ?_
              have := (hcm t').2 ⟨ht', hlt⟩
              simp at this
              exact htt this.symm
        · intro T hv hTr hT hcov
          have h1 := hforce T hv hT t ht.1 ht.2
          have h2 := satSpec_of_target hw hr h hT hc hu hv.cons
          rw [h1] at h2
          rw [hbi.2 h2, h1]
          simp
      | t :: t' :: rest, hcm, hcn =>
        simp only [List.map_cons]
        refine ⟨_, rfl, by simp, ?_⟩
        intro T hv hTr hT hcov
        have m1 := (hcm t).1 (by simp)
        have m2 := (hcm t').1 (by simp)
        have h1 := hforce T hv hT t m1.1 m1.2
        have h2 := hforce T hv hT t' m2.1 m2.2
        rw [h1] at h2
        cases h2
        simp at hcn
  · simp only [true_iff] at himpi
    refine ⟨_, rfl, by simp, ?_⟩
    intro T hv hTr hT hcov
    obtain ⟨t, ht, hlt⟩ := himpi
    have h1 := hTmax T hv hT t ht
    have h2 : ((scr.drop depth).map (contrib i T (·.max) t)).sum ≤
        ((scr.drop depth).map (valOf i (·.max))).sum := listSum_le (fun _ _ => contrib_le_valOf)
    omega

end Search
end Wassign
