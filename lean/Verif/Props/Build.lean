import Verif.Proofs.Built
import Mathlib.Data.List.Nodup
/-
Properties of building the input data: C24, C25, C26, C29, C46, C48.
-/
namespace Wassign
open Spec Build

namespace BuildEx

/-- Two days; a two-part choice and two others that are forced to have the same choosers; two choosers,
one of whom must attend the last choice. -/
def raw : Raw where
  slots := ["Mo".toList, "Tu".toList, "We".toList]
  choices := [⟨"Hike".toList, 1, 3, 2, false⟩, ⟨"Chess".toList, 2, 5, 1, false⟩, ⟨"Go".toList, 0, 3, 0, true⟩]
  choosers := [⟨"Ann".toList, [100, 60, 20]⟩, ⟨"Bob".toList, [0, 20, 100]⟩]
  exprs := [⟨⟨.choice, .chooser, "Chess".toList, 0⟩, .eq, ⟨.choice, .chooser, "Go".toList, 0⟩⟩,
    ⟨⟨.choice, .chooser, "Go".toList, 0⟩, .contains, ⟨.chooser, .notSet, "Bob".toList, 0⟩⟩]

/-- The resulting data. -/
def data : InputData := match build raw with | .ok d => d | .error _ => default

theorem built : build raw = .ok data := by decide +kernel

example : data.choices.map (·.name) = ["Hike".toList, "~[2] Hike".toList, "Chess".toList, "Go".toList] := by decide +kernel
example : data.choosers.map (·.prefs) = [[0, 0, 40, 40], [100, 100, 0, 0]] := by decide +kernel
example : data.choices.map (fun c => (c.min, c.max)) = [(1, 3), (1, 3), (2, 3), (2, 3)] := by decide +kernel

end BuildEx

/-! ### C24 -/

/-- **C24**: in every valid solution of the data built from an input, a registered choice is either
entirely left out, or its parts take place in consecutive slots in order; and all of its parts have the same
participants. (`offset` is the index of its first part, `width` the number of its parts.) -/
theorem C24_parts_consecutive (raw : Raw) (d : InputData) (hmax : ∀ p ∈ raw.choices, p.max ≤ u32Max)
    (h : build raw = .ok d) (s : Scheduling) (a : Assignment) (hv : Valid d s a)
    (k : Nat) (p : Proto) (hp : raw.choices[k]? = some p) :
    ((∀ j, j < width p → slotAt s (offset raw.choices k + j) = none) ∨
      ∃ t, ∀ j, j < width p → slotAt s (offset raw.choices k + j) = some (t + j)) ∧
    ∀ q, q < d.np → ∀ j, j < width p →
      (Attends a q (offset raw.choices k + j) ↔ Attends a q (offset raw.choices k)) := by
  obtain ⟨m, written, hb⟩ := build_spec hmax h
  have hen := hb.enforced hv.sched hv.asg
  have hpart : ∀ j, j < width p → IsPart raw.choices k j (offset raw.choices k + j) := fun j hj => ⟨p, hp, hj, rfl⟩
  have h0 : IsPart raw.choices k 0 (offset raw.choices k) := ⟨p, hp, width_pos p, rfl⟩
  have hoff : ∀ j, j < width p → 0 < j →
      (slotAt s (offset raw.choices k) = none ∧ slotAt s (offset raw.choices k + j) = none) ∨
      ∃ l r : Nat, slotAt s (offset raw.choices k) = some l ∧ slotAt s (offset raw.choices k + j) = some r ∧ (r : Int) = l + (j : Nat) := by
    intro j hj h0j
    have hc := hen _ ((hb.isWritten _).2 (.distance h0 (hpart j hj) h0j))
    rcases hc with hc | hc
    · simpa [SchedHolds] using hc
    · simp [AsgHolds] at hc
  have hslots : (∀ j, j < width p → slotAt s (offset raw.choices k + j) = none) ∨
      ∃ t, ∀ j, j < width p → slotAt s (offset raw.choices k + j) = some (t + j) := by
    cases hs : slotAt s (offset raw.choices k) with
    | none =>
      left
      intro j hj
      rcases Nat.eq_zero_or_pos j with e | e
      · subst e; exact hs
      · rcases hoff j hj e with h1 | ⟨l, r, h1, _⟩
        · exact h1.2
        · rw [hs] at h1; cases h1
    | some t =>
      right
      refine ⟨t, fun j hj => ?_⟩
      rcases Nat.eq_zero_or_pos j with e | e
      · subst e; exact hs
      · rcases hoff j hj e with h1 | ⟨l, r, h1, h2, h3⟩
        · rw [hs] at h1; cases h1.1
        · rw [hs] at h1; cases h1
          rw [h2]; congr 1; omega
  refine ⟨hslots, ?_⟩
  intro q hq j hj
  rcases Nat.eq_zero_or_pos j with e | e
  · subst e; exact Iff.rfl
  · rcases hslots with hnone | ⟨t, ht⟩
    · have hno : ∀ j, j < width p → ¬ Attends a q (offset raw.choices k + j) := by
        intro j hj hatt
        obtain ⟨t, _, h1⟩ := hv.onlyScheduled q hq _ hatt
        rw [hnone j hj] at h1; cases h1
      exact ⟨fun hh => absurd hh (hno j hj), fun hh => absurd hh (hno 0 (width_pos p))⟩
    · have hc := hen _ ((hb.isWritten _).2 (.sameChoosers h0 (hpart j hj) e))
      rcases hc with hc | hc
      · simp [SchedHolds] at hc
      · simp only [AsgHolds] at hc
        have e0 := ht 0 (width_pos p)
        rw [Nat.add_zero] at e0
        exact (hc (by rw [e0]; simp) (by rw [ht j hj]; simp) q).symm

/-- **C24**: the parts of different registered choices are different internal choices, and every internal
choice is a part: the blocks tile the internal choices. -/
theorem C24_blocks_tile (raw : Raw) (d : InputData) (hmax : ∀ p ∈ raw.choices, p.max ≤ u32Max)
    (h : build raw = .ok d) : ∀ c, c < d.nc ↔ ∃ k j, IsPart raw.choices k j c ∧
      ∀ k' j', IsPart raw.choices k' j' c → k' = k ∧ j' = j := by
  obtain ⟨m, written, hb⟩ := build_spec hmax h
  intro c
  rw [hb.nc]
  constructor
  · intro hc
    obtain ⟨k, j, hk⟩ := isPart_exists hc
    exact ⟨k, j, hk, fun k' j' h' => isPart_unique h' hk⟩
  · rintro ⟨k, j, hk, _⟩
    exact isPart_lt hk

/-- A valid solution of the example in which the two-part choice runs on Monday and Tuesday, and the
dependent pair does not fit any more; the hypotheses of C24 are met by smaller inputs too. -/
def BuildEx.raw2 : Raw where
  slots := ["Mo".toList, "Tu".toList]
  choices := [⟨"Hike".toList, 1, 3, 2, false⟩]
  choosers := [⟨"Ann".toList, [1]⟩, ⟨"Bob".toList, [0]⟩]
  exprs := []

def BuildEx.data2 : InputData := match build BuildEx.raw2 with | .ok d => d | .error _ => default

example : build BuildEx.raw2 = .ok BuildEx.data2 := by decide +kernel

theorem BuildEx.valid2 : Valid BuildEx.data2 [some 0, some 1] [[0, 1], [0, 1]] := by
  have hc : BuildEx.data2.schedCons = [⟨.choicesAreNotInSameSlot, 0, .choice 1, .none⟩, ⟨.choicesHaveOffset, 0, .choice 1, .offset 1⟩] := by
    decide +kernel
  have ha : BuildEx.data2.asgCons = [⟨.choicesHaveSameChoosers, 0, .choice 1, .none⟩] := by decide +kernel
  have hnp : BuildEx.data2.np = 2 := by decide +kernel
  have hns : BuildEx.data2.ns = 2 := by decide +kernel
  have hch : BuildEx.data2.choices = [⟨"Hike".toList, 1, 3, some 1, false⟩, ⟨"~[2] Hike".toList, 1, 3, none, false⟩] := by decide +kernel
  have hatt : ∀ p c, Attends [[0, 1], [0, 1]] p c ↔ p < 2 ∧ c < 2 := by
    intro p c
    rw [← attendsB_iff]
    unfold attendsB
    match p with
    | 0 => simp; omega
    | 1 => simp; omega
    | p + 2 => simp; omega
  refine ⟨?_, ?_, ?_, ?_, ?_⟩
  · rw [hc]
    intro c hc
    simp only [List.mem_cons, List.not_mem_nil, or_false] at hc
    rcases hc with rfl | rfl
    · simp [SchedHolds, slotAt]
    · simp [SchedHolds, slotAt]
  · rw [ha]
    intro c hc
    simp only [List.mem_cons, List.not_mem_nil, or_false] at hc
    subst hc
    simp only [AsgHolds, hatt]
    intro _ _ p; omega
  · intro p hp t ht
    rw [hnp] at hp; rw [hns] at ht
    refine ⟨t, ⟨(hatt p t).2 ⟨hp, ht⟩, ?_⟩, ?_⟩
    · match t with
      | 0 => rfl
      | 1 => rfl
      | t + 2 => omega
    · intro c hc hs
      have := ((hatt p c).1 hc).2
      match c with
      | 0 => simp [slotAt] at hs; omega
      | 1 => simp [slotAt] at hs; omega
      | c + 2 => omega
  · intro p _ c hc
    have := ((hatt p c).1 hc).2
    match c with
    | 0 => exact ⟨0, by rw [hns]; omega, rfl⟩
    | 1 => exact ⟨1, by rw [hns]; omega, rfl⟩
    | c + 2 => omega
  · intro c hlt _
    have hl : BuildEx.data2.nc = 2 := by decide +kernel
    rw [hl] at hlt
    have hpart : participants BuildEx.data2 [[0, 1], [0, 1]] c = 2 := by
      unfold participants; rw [hnp]
      match c with
      | 0 => decide
      | 1 => decide
      | c + 2 => omega
    rw [hpart]
    match c with
    | 0 => simp [hch]
    | 1 => simp [hch]
    | c + 2 => omega

/-! ### C25 -/

/-- **C25**: after the preferences have been read and the parts expanded (before dependency adjustments),
every chooser has one preference per internal choice, and the preference for each part of a registered choice
is the largest preference anybody gave minus the preference given for that choice. -/
theorem C25_mirrored_and_expanded (raw : Raw) (m : Nat) (cs : List Chooser) (h : buildPreferences raw = .ok (m, cs)) :
    (∀ c ∈ raw.choosers, ∀ x ∈ c.prefs, x ≤ m) ∧ (m = 0 ∨ ∃ c ∈ raw.choosers, m ∈ c.prefs) ∧
    (stage1 raw m cs).np = raw.choosers.length ∧
    ∀ q (hq : q < raw.choosers.length), ∃ ch, (stage1 raw m cs).choosers[q]? = some ch ∧
      ch.name = raw.choosers[q].name ∧ ch.prefs.length = (stage1 raw m cs).nc ∧
      ∀ k j c, IsPart raw.choices k j c → ∃ given, raw.choosers[q].prefs[k]? = some given ∧ ch.prefs[c]? = some (m - given) := by
  obtain ⟨p1, p2, p3, rfl⟩ := buildPreferences_spec h
  have hcl : ∀ c ∈ raw.choosers.map (mirrored m), c.prefs.length = raw.choices.length := by
    intro c hc
    obtain ⟨c', hc', rfl⟩ := List.mem_map.1 hc
    simp only [mirrored, List.length_map]
    exact p1 c' hc'
  have hst : (stage1 raw m (raw.choosers.map (mirrored m))).choosers =
      (raw.choosers.map (mirrored m)).map (fun c => ⟨c.name, expandAll raw.choices c.prefs⟩) := by
    unfold stage1; rw [compileChoices_eq hcl]
  have hnc : (stage1 raw m (raw.choosers.map (mirrored m))).nc = (raw.choices.map width).sum := by
    unfold InputData.nc stage1; rw [compileChoices_eq hcl]; exact length_blocks 0 _
  refine ⟨p2, p3, by unfold InputData.np; rw [hst]; simp, ?_⟩
  intro q hq
  have hlen : (mirrored m raw.choosers[q]).prefs.length = raw.choices.length :=
    hcl _ (List.mem_map.2 ⟨_, List.getElem_mem hq, rfl⟩)
  refine ⟨⟨raw.choosers[q].name, expandAll raw.choices (mirrored m raw.choosers[q]).prefs⟩, ?_, rfl, ?_, ?_⟩
  · rw [hst]; simp [hq, mirrored]
  · rw [hnc]; exact length_expandAll hlen
  · rintro k j c ⟨p, h1, h2, h3⟩
    have hk : k < raw.choosers[q].prefs.length := by
      rw [p1 _ (List.getElem_mem hq)]; exact (List.getElem?_eq_some_iff.1 h1).1
    refine ⟨raw.choosers[q].prefs[k], List.getElem?_eq_getElem hk, ?_⟩
    rw [h3]
    simp only
    rw [expandAll_get hlen h1 h2]
    simp [mirrored, hk]

/-- **C25**, end to end: in the data returned, the preference of a chooser for a part of a choice on which
nothing depends and which nobody demands of the chooser is the mirrored one. -/
theorem C25_final_preference (raw : Raw) (d : InputData) (hmax : ∀ p ∈ raw.choices, p.max ≤ u32Max)
    (h : build raw = .ok d) (q : Nat) (hq : q < raw.choosers.length) (k j c : Nat) (hc : IsPart raw.choices k j c)
    (hfree : ∀ y, Together raw d c y → ∃ j', IsPart raw.choices k j' y) (hm : ¬ MustAttend raw d q c) :
    ∃ given, raw.choosers[q].prefs[k]? = some given ∧ given ≤ d.maxPref ∧ pref d q c = some (d.maxPref - given) := by
  obtain ⟨m, written, hb⟩ := build_spec hmax h
  have hlt : c < d.nc := by rw [hb.nc]; exact isPart_lt hc
  obtain ⟨v, h1, h2⟩ := (hb.prefs q c hq hlt).2 (by rw [hb.demanded]; exact hm)
  obtain ⟨y, _, hy, hv⟩ := h2.attained
  rw [hb.together] at hy
  obtain ⟨j', p, r1, r2, r3⟩ := hfree y hy
  have hlen : (mirrored m raw.choosers[q]).prefs.length = raw.choices.length := by
    simp only [mirrored, List.length_map]; exact hb.prefCount _ (List.getElem_mem hq)
  have hk : k < raw.choosers[q].prefs.length := by
    rw [hb.prefCount _ (List.getElem_mem hq)]; exact (List.getElem?_eq_some_iff.1 r1).1
  refine ⟨raw.choosers[q].prefs[k], List.getElem?_eq_getElem hk, ?_, ?_⟩
  · rw [hb.maxPref]; exact hb.maxUpper _ (List.getElem_mem hq) _ (List.getElem_mem hk)
  · rw [h1, hb.maxPref]
    rw [r3, expandAll_get hlen r1 r2] at hv
    simp [mirrored, hk] at hv
    rw [hv]

example : pref BuildEx.data 1 1 = some 100 ∧ pref BuildEx.data 0 1 = some 0 := by decide +kernel

/-! ### C26 -/

theorem dedup_increasing {l : List Nat} (h : l.Pairwise (· ≤ ·)) : (dedup l).Pairwise (· < ·) := by
  fun_induction dedup l with
  | case1 => simp
  | case2 => simp
  | case3 y t ih => exact ih (List.pairwise_cons.1 h).2
  | case4 a b t hne ih =>
    rw [List.pairwise_cons] at h ⊢
    refine ⟨?_, ih h.2⟩
    intro z hz
    have hz' := mem_dedup.1 hz
    have h1 := h.1 b (by simp)
    rcases List.mem_cons.1 hz' with e | e
    · subst e; omega
    · have := (List.pairwise_cons.1 h.2).1 z e
      omega

/-- **C26**, partial: the levels are strictly increasing, contain 0 and the maximum, and nothing above it;
apart from these two they are the values as *given*. Missing: that they are the values after mirroring,
which is false (`C26_levels_not_normalized`). -/
theorem C26_levels_partial (raw : Raw) (d : InputData) (hmax : ∀ p ∈ raw.choices, p.max ≤ u32Max)
    (h : build raw = .ok d) : d.prefLevels.Pairwise (· < ·) ∧ 0 ∈ d.prefLevels ∧ d.maxPref ∈ d.prefLevels ∧
      (∀ l ∈ d.prefLevels, l ≤ d.maxPref) ∧
      ∀ l, l ∈ d.prefLevels ↔ l = 0 ∨ l = d.maxPref ∨ ∃ c ∈ raw.choosers, l ∈ c.prefs := by
  obtain ⟨m, written, hb⟩ := build_spec hmax h
  have hmem : ∀ l, l ∈ d.prefLevels ↔ l = 0 ∨ l = d.maxPref ∨ ∃ c ∈ raw.choosers, l ∈ c.prefs := by
    intro l
    rw [hb.levels, hb.maxPref]
    unfold buildLevels
    rw [mem_dedup, mem_sortNat, List.mem_append, List.mem_flatMap]
    simp only [List.mem_cons, List.not_mem_nil, or_false]
    constructor
    · rintro (h1 | h1 | h1)
      · exact .inr (.inr h1)
      · exact .inr (.inl h1)
      · exact .inl h1
    · rintro (h1 | h1 | h1)
      · exact .inr (.inr h1)
      · exact .inr (.inl h1)
      · exact .inl h1
  refine ⟨?_, (hmem 0).2 (.inl rfl), (hmem _).2 (.inr (.inl rfl)), ?_, hmem⟩
  · rw [hb.levels]
    exact dedup_increasing (sortNat_pairwise _)
  · intro l hl
    rcases (hmem l).1 hl with e | e | ⟨c, hc, hx⟩
    · omega
    · omega
    · rw [hb.maxPref]; exact hb.maxUpper c hc l hx

/-- C26 is false: with given preferences 100, 60, 20 and 0 the normalized value 40 is no level, and the level
20 is nobody's normalized preference. -/
theorem C26_levels_not_normalized :
    ∃ (raw : Raw) (d : InputData), (∀ p ∈ raw.choices, p.max ≤ u32Max) ∧ build raw = .ok d ∧
      (∃ p c x, pref d p c = some x ∧ x ∉ d.prefLevels) ∧
      (∃ l ∈ d.prefLevels, l ≠ 0 ∧ l ≠ d.maxPref ∧ ∀ ch ∈ d.choosers, l ∉ ch.prefs) := by
  refine ⟨BuildEx.raw, BuildEx.data, by decide +kernel, BuildEx.built, ⟨0, 2, 40, by decide +kernel, by decide +kernel⟩,
    20, by decide +kernel, by decide, by decide +kernel, by decide +kernel⟩

/-! ### C29 -/

/-- **C29**, limits: the minimum of an internal choice is the largest of the minima of the registered choices
whose parts are forced to have the same choosers, its maximum the smallest of their maxima. -/
theorem C29_shared_limits (raw : Raw) (d : InputData) (hmax : ∀ p ∈ raw.choices, p.max ≤ u32Max)
    (h : build raw = .ok d) (c : Nat) (ch : Choice) (hc : d.choices[c]? = some ch) :
    (∀ k j y p, IsPart raw.choices k j y → raw.choices[k]? = some p → Together raw d c y →
      p.min ≤ ch.min ∧ ch.max ≤ p.max) ∧
    (∃ k j y p, IsPart raw.choices k j y ∧ raw.choices[k]? = some p ∧ Together raw d c y ∧ p.min = ch.min) ∧
    (∃ k j y p, IsPart raw.choices k j y ∧ raw.choices[k]? = some p ∧ Together raw d c y ∧ p.max = ch.max) := by
  obtain ⟨m, written, hb⟩ := build_spec hmax h
  have hlt : c < d.nc := (List.getElem?_eq_some_iff.1 hc).1
  obtain ⟨ch', ch1, e1, _, _, _, _, h1, h2⟩ := hb.choice c hlt
  rw [hc] at e1; cases e1
  rw [hb.together] at h1 h2
  refine ⟨?_, ?_, ?_⟩
  · intro k j y p hy hp ht
    have hyl : y < d.nc := by rw [hb.nc]; exact isPart_lt hy
    have a := h1.upper y hyl ht
    have b := h2.lower y hyl ht
    rw [(blocks_min hy hp).1] at a
    rw [(blocks_min hy hp).2] at b
    exact ⟨a, b⟩
  · obtain ⟨y, hyl, ht, hv⟩ := h1.attained
    rw [hb.nc] at hyl
    obtain ⟨k, j, hy⟩ := isPart_exists hyl
    obtain ⟨p, hp, _⟩ := id hy
    rw [(blocks_min hy hp).1] at hv
    exact ⟨k, j, y, p, hy, hp, ht, hv⟩
  · obtain ⟨y, hyl, ht, hv⟩ := h2.attained
    rw [hb.nc] at hyl
    obtain ⟨k, j, hy⟩ := isPart_exists hyl
    obtain ⟨p, hp, _⟩ := id hy
    rw [(blocks_min hy hp).2] at hv
    exact ⟨k, j, y, p, hy, hp, ht, hv⟩

/-- **C29**, preferences: a choice a chooser must attend costs 0; otherwise the preference is the best
(smallest mirrored) of those for the choices forced to have the same choosers. -/
theorem C29_shared_preferences (raw : Raw) (d : InputData) (hmax : ∀ p ∈ raw.choices, p.max ≤ u32Max)
    (h : build raw = .ok d) (q : Nat) (hq : q < raw.choosers.length) (c : Nat) (hc : c < d.nc) :
    (MustAttend raw d q c → pref d q c = some 0) ∧
    (¬ MustAttend raw d q c → ∃ v, pref d q c = some v ∧
      (∀ k j y given, IsPart raw.choices k j y → raw.choosers[q].prefs[k]? = some given → Together raw d c y →
        v ≤ d.maxPref - given) ∧
      (∃ k j y given, IsPart raw.choices k j y ∧ raw.choosers[q].prefs[k]? = some given ∧ Together raw d c y ∧
        v = d.maxPref - given)) := by
  obtain ⟨m, written, hb⟩ := build_spec hmax h
  obtain ⟨h1, h2⟩ := hb.prefs q c hq hc
  rw [hb.demanded] at h1 h2
  refine ⟨h1, fun hn => ?_⟩
  obtain ⟨v, e1, e2⟩ := h2 hn
  rw [hb.together] at e2
  have hlen : (mirrored m raw.choosers[q]).prefs.length = raw.choices.length := by
    simp only [mirrored, List.length_map]; exact hb.prefCount _ (List.getElem_mem hq)
  have hval : ∀ k j y given, IsPart raw.choices k j y → raw.choosers[q].prefs[k]? = some given →
      ((expandAll raw.choices (mirrored m raw.choosers[q]).prefs)[y]?).getD 0 = m - given := by
    rintro k j y given ⟨p, r1, r2, r3⟩ hg
    rw [r3, expandAll_get hlen r1 r2]
    simp [mirrored, hg]
  refine ⟨v, e1, ?_, ?_⟩
  · intro k j y given hy hg ht
    have := e2.lower y (by rw [hb.nc]; exact isPart_lt hy) ht
    rw [hval k j y given hy hg] at this
    rw [hb.maxPref]; exact this
  · obtain ⟨y, hyl, ht, hv⟩ := e2.attained
    rw [hb.nc] at hyl
    obtain ⟨k, j, hy⟩ := isPart_exists hyl
    obtain ⟨p, hp, _⟩ := id hy
    have hk : k < raw.choosers[q].prefs.length := by
      rw [hb.prefCount _ (List.getElem_mem hq)]; exact (List.getElem?_eq_some_iff.1 hp).1
    have hg := List.getElem?_eq_getElem hk
    rw [hval k j y _ hy hg] at hv
    exact ⟨k, j, y, _, hy, hg, ht, by rw [hb.maxPref]; exact hv.symm⟩

/-- **C29**: a choice that is not forced to share choosers with another one keeps its limits. -/
theorem C29_independent_unchanged (raw : Raw) (d : InputData) (hmax : ∀ p ∈ raw.choices, p.max ≤ u32Max)
    (h : build raw = .ok d) (k j c : Nat) (p : Proto) (hc : IsPart raw.choices k j c) (hp : raw.choices[k]? = some p)
    (hfree : ∀ y, Together raw d c y → ∃ j', IsPart raw.choices k j' y) :
    ∃ ch, d.choices[c]? = some ch ∧ ch.min = p.min ∧ ch.max = p.max ∧ ch.isOptional = p.optional := by
  obtain ⟨m, written, hb⟩ := build_spec hmax h
  have hlt : c < d.nc := by rw [hb.nc]; exact isPart_lt hc
  obtain ⟨ch, ch1, e1, e2, _, _, e3, _⟩ := hb.choice c hlt
  obtain ⟨_, h2, h3⟩ := C29_shared_limits raw d hmax h c ch e1
  refine ⟨ch, e1, ?_, ?_, ?_⟩
  · obtain ⟨k', j', y, p', hy, hp', ht, hv⟩ := h2
    obtain ⟨j'', hy'⟩ := hfree y ht
    obtain ⟨ek, _⟩ := isPart_unique hy hy'
    subst ek
    rw [hp] at hp'; cases hp'; exact hv.symm
  · obtain ⟨k', j', y, p', hy, hp', ht, hv⟩ := h3
    obtain ⟨j'', hy'⟩ := hfree y ht
    obtain ⟨ek, _⟩ := isPart_unique hy hy'
    subst ek
    rw [hp] at hp'; cases hp'; exact hv.symm
  · obtain ⟨p', r1, r2, r3⟩ := hc
    rw [hp] at r1; cases r1
    rw [r3, blocks_get hp r2 0] at e2
    cases e2
    exact e3

/-! ### C46 -/

/-- **C46**: the scheduling constraints looked up for a choice are exactly those that mention it or limit a
slot's size. -/
theorem C46_lookup_exact (raw : Raw) (d : InputData) (hmax : ∀ p ∈ raw.choices, p.max ≤ u32Max)
    (h : build raw = .ok d) (c : Nat) (hc : c < d.nc) (k : Constraint) :
    k ∈ d.schedConsFor c ↔ k ∈ d.schedCons ∧ Concerns k c := by
  obtain ⟨m, written, hb⟩ := build_spec hmax h
  exact hb.conMap c hc k

example : (BuildEx.data.schedConsFor 0).length = 2 ∧ (BuildEx.data.schedConsFor 2).length = 1 ∧
    BuildEx.data.schedCons.length = 3 := by decide +kernel

/-! ### C48 -/

/-- **C48**: the data of every accepted input is well formed: constraints are in solver form and refer to
existing objects of the right kind, every chooser has one preference per internal choice, none above the
maximum, continuations point to the next part, there is at least one slot, groups partition the choices,
and levels, constraint lookup are as C26, C46 say. -/
theorem C48_well_formed (raw : Raw) (d : InputData) (hmax : ∀ p ∈ raw.choices, p.max ≤ u32Max)
    (h : build raw = .ok d) :
    WF d ∧ d.nc ≤ i32Max ∧ 0 < d.ns ∧ d.np = raw.choosers.length ∧
    (∀ k j c p, IsPart raw.choices k j c → raw.choices[k]? = some p → ∃ ch, d.choices[c]? = some ch ∧
      ch.isOptional = p.optional ∧ (j = 0 → ch.name = p.name) ∧
      ch.continuation = if j + 1 < width p then some (c + 1) else none) ∧
    Partition d.nc d.depGroups ∧
    (∀ a b, a < d.nc → b < d.nc → ((∃ g ∈ d.depGroups, a ∈ g ∧ b ∈ g) ↔ Together raw d a b)) ∧
    (∀ c < d.nc, ∀ k, k ∈ d.schedConsFor c ↔ k ∈ d.schedCons ∧ Concerns k c) := by
  obtain ⟨m, written, hb⟩ := build_spec hmax h
  refine ⟨hb.wf, hb.ncI32, ?_, hb.np, ?_, hb.groups.1, ?_, hb.conMap⟩
  · show 0 < d.slots.length
    rw [hb.slots]
    split
    · simp
    · rename_i hne
      cases hs : raw.slots with
      | nil => simp [hs] at hne
      | cons _ _ => simp
  · intro k j c p hc hp
    have hlt : c < d.nc := by rw [hb.nc]; exact isPart_lt hc
    obtain ⟨ch, ch1, e1, e2, e3, e4, e5, _⟩ := hb.choice c hlt
    obtain ⟨p', r1, r2, r3⟩ := hc
    rw [hp] at r1; cases r1
    rw [r3, blocks_get hp r2 0] at e2
    cases e2
    refine ⟨ch, e1, e5, ?_, ?_⟩
    · intro hj; subst hj; simpa using e3
    · rw [e4]; simp only; split
      · congr 1; omega
      · rfl
  · rw [← hb.together]; exact hb.groups.2

/-- Everything written is enforced: a solution that satisfies the constraints of the data satisfies every
constraint the expressions of the input say, and those of the parts (C27 for whole inputs). -/
theorem C48_written_enforced (raw : Raw) (d : InputData) (hmax : ∀ p ∈ raw.choices, p.max ≤ u32Max)
    (h : build raw = .ok d) (s : Scheduling) (a : Assignment) (hv : Valid d s a) :
    ∀ c, IsWritten raw d c → WrittenWF d c ∧ Holds d s a c := by
  obtain ⟨m, written, hb⟩ := build_spec hmax h
  intro c hc
  have := (hb.isWritten c).2 hc
  exact ⟨hb.writtenWF c this, hb.enforced hv.sched hv.asg c this⟩

end Wassign
