import Verif.Proofs.SearchLeaf
/-
When a complete leaf of the search is always feasible; the loop over preference limits.
-/
namespace Wassign
namespace Search
open Spec
variable {σ : Type}

/-- No constraint separates or offsets a choice from itself. -/
def NoSelf (i : InputData) : Prop :=
  ∀ k ∈ i.schedCons, (k.kind = .choicesAreNotInSameSlot ∨ k.kind = .choicesHaveOffset) →
    k.right ≠ .choice k.left

/-- Minima cannot make a forced decision infeasible. -/
def MinimaSmall (i : InputData) : Prop :=
  (∀ c ∈ i.choices, c.min ≤ 1 ∧ c.min ≤ c.max) ∨ (i.choices.map (·.min)).sum ≤ i.np

theorem ext_pre {i : InputData} {scr : List Nat} {D : List Decision} (hlen : D.length = i.nc) (d : Nat) :
    Ext (pre scr d D) (decS D) := by
  intro c x hc hx
  have hcl : c < D.length := by
    have := (List.getElem?_eq_some_iff.1 hc).1; simpa using this
  rw [pre_get hcl] at hc
  split at hc
  · cases hc
    rw [slotAt_decS]; simp [hcl]
  · cases hc; exact absurd rfl hx

theorem slotAt_pre {scr : List Nat} {D : List Decision} {d c : Nat} (hc : c ∈ scr.take d)
    (hl : c < D.length) : slotAt (decS (pre scr d D)) c = slotAt (decS D) c := by
  rw [slotAt_decS, slotAt_decS, pre_get hl, if_pos hc]
  simp [hl]

theorem und_pre {scr : List Nat} {D : List Decision} {d c : Nat} (hc : c ∉ scr.take d)
    (hl : c < D.length) : Und (pre scr d D) c := by
  unfold Und; rw [pre_get hl, if_neg hc]

/-- Sums over the first `d+1` decisions. -/
theorem slotSum_pre_succ {i : InputData} {scr : List Nat} {D : List Decision} (hlen : D.length = i.nc)
    (hn : scr.Nodup) {d c : Nat} (hd : scr[d]? = some c) (hc : c < i.nc) (f : Choice → Nat) (t : Nat) :
    slotSum i (decS (pre scr (d + 1) D)) f t = slotSum i (decS (pre scr d D)) f t +
      if slotAt (decS D) c = some t then valOf i f c else 0 := by
  have hv : valOf i f c = f i.choices[c] := by simp [valOf, hc]
  rw [hv, ← slotSum_set (by simpa using hlen) hc (und_pre (not_mem_take_of_get hn (Nat.le_refl _) hd)
    (by omega)) (slotAt (decS D) c) f t]
  apply slotSum_congr
  intro k hk
  by_cases hkc : c = k
  · subst hkc
    rw [slotAt_pre (mem_take_iff.2 ⟨d, by omega, hd⟩) (by omega), decS_set,
      slotAt_set_self (by simp; omega), ofSlot_slot?]
  · rw [decS_set, slotAt_set_ne hkc]
    by_cases hm : k ∈ scr.take d
    · rw [slotAt_pre hm (by omega)]
      obtain ⟨j, hj, hs⟩ := mem_take_iff.1 hm
      rw [slotAt_pre (mem_take_iff.2 ⟨j, by omega, hs⟩) (by omega)]
    · rw [slotAt_of_und (und_pre hm (by omega)), slotAt_of_und (und_pre ?_ (by omega))]
      intro hm'
      obtain ⟨j, hj, hs⟩ := mem_take_iff.1 hm'
      by_cases hjd : j = d
      · subst hjd; rw [hd] at hs; cases hs; exact hkc rfl
      · exact hm (mem_take_iff.2 ⟨j, by omega, hs⟩)

theorem slotSum_pre_le {i : InputData} {scr : List Nat} {D : List Decision} (hlen : D.length = i.nc)
    (d : Nat) (f : Choice → Nat) (t : Nat) :
    slotSum i (decS (pre scr d D)) f t ≤ slotSum i (decS D) f t :=
  ext_sum_le (by simpa using hlen) (ext_pre hlen d) f t

theorem slotSum_min_le_max {i : InputData} (h : ∀ c ∈ i.choices, c.min ≤ 1 ∧ c.min ≤ c.max)
    (s : Scheduling) (t : Nat) : slotSum i s (·.min) t ≤ slotSum i s (·.max) t := by
  rw [slotSum_eq, slotSum_eq]
  apply rsum_le_rsum
  intro c hc
  unfold contrib
  split
  · simp only [List.getElem?_eq_getElem hc, Option.map_some, Option.getD_some]
    exact (h _ (List.getElem_mem hc)).2
  · simp

theorem leaf_valid {i : InputData} (hw : WF i) (hr : SearchReady i) (hself : NoSelf i)
    (hmin : MinimaSmall i) (hnc : 0 < i.nc) {scr : List Nat} {m : Machine σ} (hm : MInv i scr m)
    (hd : m.depth = scr.length) : SchedValid i (decS m.st.decisions) := by
  have hlen := hm.st.len
  have hn := hm.ord.nodup
  have hsl : scr.length = i.nc := by simpa using hm.ord.perm.length_eq
  have hpos : ∀ c, c < i.nc → ∃ d, d < scr.length ∧ scr[d]? = some c := by
    intro c hc
    have : c ∈ scr := hm.ord.perm.mem_iff.2 (by simpa using hc)
    obtain ⟨d, hd1, hd2⟩ := List.mem_iff_getElem.1 this
    exact ⟨d, hd1, by rw [List.getElem?_eq_getElem hd1, hd2]⟩
  have hlt : ∀ d c, scr[d]? = some c → c < i.nc := fun d c h => hm.ord.lt (List.mem_of_getElem? h)
  generalize hD : m.st.decisions = D at *
  have hgood : ∀ d c, scr[d]? = some c → Good i scr d (pre scr d D) c (slotAt (decS D) c) := by
    intro d c hc
    have := hm.dec d (by have := (List.getElem?_eq_some_iff.1 hc).1; omega) c hc
    rw [hD] at this
    exact this
  have hpreN : pre scr scr.length D = D := by
    have := hm.ord
    rw [hD, hd] at this
    exact pre_eq this hlen
  -- the last position
  obtain ⟨l, hl⟩ : ∃ l, scr.length = l + 1 := ⟨scr.length - 1, by omega⟩
  have hlast : scr[l]? = some (scr[l]'(by omega)) := List.getElem?_eq_getElem (by omega)
  generalize scr[l]'(by omega) = cl at hlast
  have hcl := hlt l cl hlast
  have hsumlast : ∀ (f : Choice → Nat) t, slotSum i (decS D) f t = slotSum i (decS (pre scr l D)) f t +
      if slotAt (decS D) cl = some t then valOf i f cl else 0 := by
    intro f t
    have := slotSum_pre_succ hlen hn hlast hcl f t
    rw [← hl, hpreN] at this
    exact this
  refine ⟨?_, ?_, ?_, ?_⟩
  · intro c hc hopt hnone
    obtain ⟨d, _, hd2⟩ := hpos c hc
    have := (hgood d c hd2).opt hnone i.choices[c] (by simp [hc])
    rw [hopt] at this; cases this
  · intro t ht
    rcases hmin with hmin | hmin
    · have key : ∀ d, d ≤ scr.length → slotSum i (decS (pre scr d D)) (·.min) t ≤ i.np := by
        intro d
        induction d with
        | zero =>
          intro _
          have h0 : slotSum i (decS (pre scr 0 D)) (·.min) t = 0 := by
            rw [slotSum_eq, rsum_congr (g := fun _ => 0)]
            · simp
            · intro c hc
              exact contrib_und (und_pre (by simp) (by omega))
          omega
        | succ d ih =>
          intro hds
          have ih := ih (by omega)
          have hds' : scr[d]? = some (scr[d]'(by omega)) := List.getElem?_eq_getElem (by omega)
          generalize scr[d]'(by omega) = c at hds'
          have hc := hlt d c hds'
          rw [slotSum_pre_succ hlen hn hds' hc]
          split
          · rename_i hx
            have hg := (hgood d c hds').min t hx
            have hb := hmin i.choices[c] (List.getElem_mem hc)
            have hv : valOf i (·.min) c = i.choices[c].min := by simp [valOf, hc]
            have := slotSum_min_le_max hmin (decS (pre scr d D)) t
            rcases hg with hg | hg <;> omega
          · omega
      have := key scr.length (Nat.le_refl _)
      rwa [hpreN] at this
    · refine Nat.le_trans ?_ hmin
      rw [slotSum_eq]
      exact rsum_contrib_le (Nat.le_refl _)
  · intro t ht
    have hg := (hgood l cl hlast).max t ht
    have hdr : scr.drop (l + 1) = [] := by rw [← hl]; simp
    have hdr' : scr.drop l = [cl] := by
      obtain ⟨h1, h2⟩ := List.getElem?_eq_some_iff.1 hlast
      rw [List.drop_eq_getElem_cons h1, hdr, h2]
    rw [hdr, hdr'] at hg
    simp only [List.map_nil, List.sum_nil, List.map_cons, List.sum_cons, Nat.zero_add, Nat.add_zero] at hg
    rw [hsumlast]
    rcases hg with hg | ⟨hx, hg⟩
    · omega
    · rw [if_pos hx]; omega
  · intro k hk
    have hsat : ∀ d c, scr[d]? = some c → Concerns k c →
        ConSpec i (pre scr d D) c (slotAt (decS D) c) k := by
      intro d c hc hcon
      exact (hgood d c hc).sat.1 k ((hr.conMap c (hlt d c hc) k).2 ⟨hk, hcon⟩)
    -- for two different choices, the later one is checked against the earlier one
    have hpair : ∀ x y, x < i.nc → y < i.nc → x ≠ y → ∃ d,
        (scr[d]? = some x ∧ ¬ Und (pre scr d D) y ∧ slotAt (decS (pre scr d D)) y = slotAt (decS D) y) ∨
        (scr[d]? = some y ∧ ¬ Und (pre scr d D) x ∧ slotAt (decS (pre scr d D)) x = slotAt (decS D) x) := by
      intro x y hx hy hxy
      obtain ⟨dx, hdx1, hdx2⟩ := hpos x hx
      obtain ⟨dy, hdy1, hdy2⟩ := hpos y hy
      have hund : ∀ c, c < i.nc → ¬ Und D c := by
        intro c hc
        have := hm.ord.und c hc
        rw [hD, hd] at this
        rw [this]
        obtain ⟨d, h1, h2⟩ := hpos c hc
        intro hmm
        exact hmm (mem_take_iff.2 ⟨d, h1, h2⟩)
      have hnu : ∀ e c, c < i.nc → c ∈ scr.take e → ¬ Und (pre scr e D) c := by
        intro e c hc hmm hu
        unfold Und at hu
        rw [pre_get (by omega), if_pos hmm] at hu
        apply hund c hc
        unfold Und
        simp only [Option.some.injEq] at hu
        rw [List.getElem?_eq_getElem (by omega)] at hu ⊢
        simpa using hu
      rcases Nat.lt_trichotomy dx dy with hlt' | heq | hgt
      · refine ⟨dy, .inr ⟨hdy2, ?_, ?_⟩⟩
        · exact hnu dy x hx (mem_take_iff.2 ⟨dx, hlt', hdx2⟩)
        · exact slotAt_pre (mem_take_iff.2 ⟨dx, hlt', hdx2⟩) (by omega)
      · subst heq; rw [hdx2] at hdy2; cases hdy2; exact absurd rfl hxy
      · refine ⟨dx, .inl ⟨hdx2, ?_, ?_⟩⟩
        · exact hnu dx y hy (mem_take_iff.2 ⟨dy, hgt, hdy2⟩)
        · exact slotAt_pre (mem_take_iff.2 ⟨dy, hgt, hdy2⟩) (by omega)
    rcases Wassign.SchedConWF.elim (hw.sched k hk) with ⟨x, t, e, rfl, hx, ht⟩ | ⟨x, t, e, rfl, hx, ht⟩ |
      ⟨x, y, e, rfl, hx, hy⟩ | ⟨x, y, e, rfl, hx, hy⟩ | ⟨x, y, o, rfl, hx, hy⟩ | ⟨t, n, op, rfl, ht⟩
    · obtain ⟨d, _, hd2⟩ := hpos x hx
      exact hsat d x hd2 rfl
    · obtain ⟨d, _, hd2⟩ := hpos x hx
      exact hsat d x hd2 rfl
    · by_cases hxy : x = y
      · subst hxy; simp [SchedHolds]
      · obtain ⟨d, ⟨h1, h2, h3⟩ | ⟨h1, h2, h3⟩⟩ := hpair x y hx hy hxy
        · have := hsat d x h1 (.inl rfl)
          simp only [ConSpec, if_true] at this
          simp only [SchedHolds]
          rcases this with h | h
          · exact absurd h h2
          · rw [← h, h3]
        · have := hsat d y h1 (.inr rfl)
          simp only [ConSpec, if_neg hxy] at this
          simp only [SchedHolds]
          rcases this with h | h
          · exact absurd h h2
          · rw [← h, h3]
    · have hxy : x ≠ y := by
        rintro rfl
        exact hself _ hk (.inl rfl) rfl
      obtain ⟨d, ⟨h1, h2, h3⟩ | ⟨h1, h2, h3⟩⟩ := hpair x y hx hy hxy
      · have := hsat d x h1 (.inl rfl)
        simp only [ConSpec, if_true] at this
        simp only [SchedHolds]
        rcases this with h | h
        · exact absurd h h2
        · rintro t ⟨e1, e2⟩
          exact h ⟨by rw [h3, e1, e2], by rw [e1]; simp⟩
      · have := hsat d y h1 (.inr rfl)
        simp only [ConSpec, if_neg hxy] at this
        simp only [SchedHolds]
        rcases this with h | h
        · exact absurd h h2
        · rintro t ⟨e1, e2⟩
          exact h ⟨by rw [h3, e1, e2], by rw [e2]; simp⟩
    · have hxy : x ≠ y := by
        rintro rfl
        exact hself _ hk (.inr rfl) rfl
      obtain ⟨d, ⟨h1, h2, h3⟩ | ⟨h1, h2, h3⟩⟩ := hpair x y hx hy hxy
      · have := hsat d x h1 (.inl rfl)
        simp only [ConSpec, if_true, if_neg (Ne.symm hxy)] at this
        simp only [SchedHolds]
        rcases this with h | ⟨h, h'⟩ | ⟨u, v, e1, e2, e3⟩
        · exact absurd h h2
        · exact .inl ⟨h', by rw [← h3]; exact h⟩
        · exact .inr ⟨v, u, e2, by rw [← h3]; exact e1, by omega⟩
      · have := hsat d y h1 (.inr rfl)
        simp only [ConSpec, if_neg hxy, if_true] at this
        simp only [SchedHolds]
        rcases this with h | ⟨h, h'⟩ | ⟨u, v, e1, e2, e3⟩
        · exact absurd h h2
        · exact .inl ⟨by rw [← h3]; exact h, h'⟩
        · exact .inr ⟨u, v, by rw [← h3]; exact e1, e2, by omega⟩
    · have hcnt : (pre scr l D).countP (fun d => d != .undecided) + 1 = i.nc := by
        have hcln : cl ∉ scr.take l := not_mem_take_of_get hn (Nat.le_refl _) hlast
        have hu : Und (pre scr l D) cl := und_pre hcln (by omega)
        obtain ⟨hcl', hue⟩ := List.getElem?_eq_some_iff.1 hu
        have h1 := List.countP_set (p := fun d => d != Decision.undecided) (l := pre scr l D) (i := cl)
          (a := .omitted) hcl'
        simp [hue] at h1
        have h2 : ((pre scr l D).set cl .omitted).countP (fun d => d != Decision.undecided) =
            ((pre scr l D).set cl .omitted).length := by
          rw [List.countP_eq_length]
          intro a ha
          obtain ⟨j, hj1, hj2⟩ := List.mem_iff_getElem.1 ha
          have hjl : j < i.nc := by simp at hj1; omega
          by_cases hjc : cl = j
          · subst hjc; rw [List.getElem_set_self] at hj2; rw [← hj2]; rfl
          · rw [List.getElem_set_ne hjc] at hj2
            obtain ⟨dj, hdj1, hdj2⟩ := hpos j hjl
            have hdjl : dj < l := by
              refine Nat.lt_of_le_of_ne (by omega) ?_
              rintro rfl; rw [hlast] at hdj2; cases hdj2; exact hjc rfl
            have hund := hm.ord.und j hjl
            rw [hD, hd] at hund
            have hnu : ¬ Und D j := by
              rw [hund]; intro hmm; exact hmm (mem_take_iff.2 ⟨dj, hdj1, hdj2⟩)
            have hge := pre_get (scr := scr) (d := l) (D := D) (c := j) (by omega)
            rw [if_pos (mem_take_iff.2 ⟨dj, hdjl, hdj2⟩)] at hge
            rw [List.getElem?_eq_getElem (by simp; omega), List.getElem?_eq_getElem (by omega)] at hge
            simp only [Option.getD_some, Option.some.injEq] at hge
            rw [hge] at hj2
            simp only [bne_iff_ne, ne_eq]
            intro hae
            apply hnu
            unfold Und
            rw [List.getElem?_eq_getElem (by omega), hj2, hae]
        simp only [List.length_set, pre_length] at h2
        omega
      have := (hgood l cl hlast).sat.2 hcnt t n op hk
      simp only [SchedHolds]
      have he : slotSize i (decS (pre scr l D)) t + (if slotAt (decS D) cl = some t then 1 else 0) =
          slotSize i (decS D) t := by
        rw [slotSize_eq_slotSum, slotSize_eq_slotSum, hsumlast (fun _ => 1) t]
        simp [valOf, hcl]
      rwa [he] at this

theorem solve_never_rejects {g : RngOps σ} (hg : g.Lawful) {i : InputData} (hw : WF i) (hz : Sizes i)
    (hr : SearchReady i) (hself : NoSelf i) (hmin : MinimaSmall i) (hnc : 0 < i.nc)
    {cs : List CriticalSet} (hcs : ∀ set ∈ cs, ∀ e ∈ set.data, e < i.nc)
    (late : Nat → Bool) (rs : σ) (s : Scheduling) (r : σ) :
    solve g i cs late rs ≠ .ok (.rejected s, r) := by
  intro h
  obtain ⟨o, r', h1, h2⟩ := solve_total hg hw hz hr hcs late rs
  rw [h1] at h
  cases h
  obtain ⟨hns, scr, m', hm, hd, rfl⟩ := h2
  exact hns (leaf_valid hw hr hself hmin hnc hm hd)

/-- Number of preference levels above a limit. -/
def above (i : InputData) (limit : Nat) : Nat := i.prefLevels.countP (fun l => decide (limit < l))

theorem preferenceAfter_spec {i : InputData} (hs : i.prefLevels.Pairwise (· ≤ ·))
    (hmem : i.maxPref ∈ i.prefLevels) {limit : Nat} (hl : limit < i.maxPref) :
    limit < i.preferenceAfter limit ∧ i.preferenceAfter limit ≤ i.maxPref ∧
      i.preferenceAfter limit ∈ i.prefLevels := by
  unfold InputData.preferenceAfter
  cases hf : i.prefLevels.find? (fun l => decide (limit < l)) with
  | none =>
    have := List.find?_eq_none.1 hf i.maxPref hmem
    simp at this; omega
  | some l =>
    have h1 := List.find?_some hf
    simp only [decide_eq_true_eq] at h1
    refine ⟨h1, ?_, List.mem_of_find?_eq_some hf⟩
    rw [List.find?_eq_some_iff_append] at hf
    obtain ⟨_, as, bs, hab, hbefore⟩ := hf
    rw [hab] at hmem hs
    rw [List.mem_append] at hmem
    rcases hmem with hmem | hmem
    · have := hbefore _ hmem; simp at this; omega
    · rw [List.pairwise_append] at hs
      rcases List.mem_cons.1 hmem with rfl | hmem
      · exact Nat.le_refl _
      · exact (List.pairwise_cons.1 hs.2.1).1 _ hmem

theorem above_lt {i : InputData} {a b : Nat} (h : a < b) (hb : b ∈ i.prefLevels) :
    above i b < above i a := by
  unfold above
  have hmono : ∀ (l : List Nat), l.countP (fun l => decide (b < l)) ≤ l.countP (fun l => decide (a < l)) :=
    fun l => List.countP_mono_left (by intro x _ hx; simp at hx ⊢; omega)
  obtain ⟨as, bs, hab⟩ := List.append_of_mem hb
  rw [hab]
  simp only [List.countP_append, List.countP_cons]
  have h1 := hmono as
  have h2 := hmono bs
  simp [h]
  omega

theorem limitLoop_total {g : RngOps σ} (hg : g.Lawful) {i : InputData} (hw : WF i) (hz : Sizes i)
    (hr : SearchReady i) (hns : 0 < i.ns) (hs : i.prefLevels.Pairwise (· ≤ ·))
    (hmem : i.maxPref ∈ i.prefLevels) {sets : Nat → List CriticalSet}
    (hcs : ∀ l, ∀ set ∈ sets l, ∀ e ∈ set.data, e < i.nc) {late : Nat → Nat → Bool} :
    ∀ (fuel limit : Nat) (rs : σ), limit ≤ i.maxPref → above i limit < fuel →
      ∃ x r, limitLoop g i sets late fuel limit rs = .ok (x, r) ∧
        (x = none → ∃ rs' o r', solve g i (sets i.maxPref) (late i.maxPref) rs' = .ok (o, r') ∧
          ((∃ s, o = .rejected s) ∨ o = .exhausted ∨ o = .timeout)) := by
  intro fuel
  induction fuel with
  | zero => intro limit rs _ h; omega
  | succ fuel ih =>
    intro limit rs hle hab
    unfold limitLoop
    obtain ⟨o, r, h1, h2⟩ := solve_total hg hw hz hr (hcs limit) (late limit) rs
    rw [h1, R.bind_ok]
    by_cases he : o.slots.isEmpty = false
    · simp only [he, if_true]
      exact ⟨_, _, rfl, by simp⟩
    · simp only [if_neg he]
      by_cases hm : limit = i.maxPref
      · rw [if_pos hm]
        refine ⟨_, _, rfl, ?_⟩
        intro _
        subst hm
        refine ⟨rs, o, r, h1, ?_⟩
        cases o with
        | found res =>
          obtain ⟨s, _, hl, _⟩ := h2
          exfalso; apply he
          cases res with
          | nil => simp at hl; omega
          | cons _ _ => rfl
        | rejected s => exact .inl ⟨s, rfl⟩
        | exhausted => exact .inr (.inl rfl)
        | timeout => exact .inr (.inr rfl)
      · rw [if_neg hm]
        obtain ⟨p1, p2, p3⟩ := preferenceAfter_spec hs hmem (Nat.lt_of_le_of_ne hle hm)
        have := above_lt p1 p3
        exact ih _ _ p2 (by omega)

theorem nextScheduling_total {g : RngOps σ} (hg : g.Lawful) {i : InputData} (hw : WF i) (hz : Sizes i)
    (hr : SearchReady i) (hns : 0 < i.ns) (hs : i.prefLevels.Pairwise (· ≤ ·))
    (hmem : i.maxPref ∈ i.prefLevels) {bound : Nat} (hb : bound ≤ i.maxPref)
    {sets : Nat → List CriticalSet} (hcs : ∀ l, ∀ set ∈ sets l, ∀ e ∈ set.data, e < i.nc)
    (late : Nat → Nat → Bool) (rs : σ) :
    ∃ x r, nextScheduling g i bound sets late rs = .ok (x, r) ∧
      (x = none → ∃ rs' o r', solve g i (sets i.maxPref) (late i.maxPref) rs' = .ok (o, r') ∧
          ((∃ s, o = .rejected s) ∨ o = .exhausted ∨ o = .timeout)) := by
  obtain ⟨v, hv, _⟩ := nextInRange_spec hg rs 0 prefRelaxation (by decide) (by decide) (by decide) (by decide)
  unfold nextScheduling
  rw [hv, R.bind_ok]
  have hlim : (if v = 0 then i.maxPref else bound) ≤ i.maxPref := by split <;> omega
  have hab : above i (if v = 0 then i.maxPref else bound) < i.prefLevels.length + 2 := by
    have : above i (if v = 0 then i.maxPref else bound) ≤ i.prefLevels.length := List.countP_le_length
    omega
  obtain ⟨x, r, h1, h2⟩ := limitLoop_total hg hw hz hr hns hs hmem hcs (late := late) _ _ (g.sample rs).2 hlim hab
  simp only [h1, R.bind_ok]
  cases x with
  | none => exact ⟨none, r, rfl, fun _ => h2 rfl⟩
  | some slots =>
    obtain ⟨s, e1, e2, _⟩ := limitLoop_found _ _ _ _ _ h1
    simp only [e1, R.bind_ok]
    unfold Scheduling.withData
    rw [if_pos e2, R.bind_ok]
    exact ⟨some s, r, rfl, by simp⟩

end Search
end Wassign
