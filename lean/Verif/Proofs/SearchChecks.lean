import Verif.Proofs.SearchState
import Verif.Proofs.Decides
/-
What the local checks of the scheduling search compute.
-/
namespace Wassign
namespace Search
open Spec
variable {σ : Type}

/-- Choice `c` has not been decided. -/
def Und (D : List Decision) (c : Nat) : Prop := D[c]? = some .undecided

/-- The meaning of the check of one constraint when `choice` is about to get `slot`. -/
def ConSpec (i : InputData) (D : List Decision) (choice : Nat) (slot : Option Nat) (k : Constraint) :
    Prop :=
  match k.kind, k.right, k.extra with
  | .choiceIsInSlot, .slot t, _ => slot = some t
  | .choiceIsNotInSlot, .slot t, _ => slot ≠ some t
  | .choicesAreInSameSlot, .choice y, _ =>
      let o := if k.left = choice then y else k.left
      Und D o ∨ slotAt (decS D) o = slot
  | .choicesAreNotInSameSlot, .choice y, _ =>
      let o := if k.left = choice then y else k.left
      Und D o ∨ ¬ (slotAt (decS D) o = slot ∧ slot ≠ none)
  | .choicesHaveOffset, .choice y, .offset d =>
      let o := if k.left = choice then y else k.left
      let d' := if o = k.left then -d else d
      Und D o ∨ (slotAt (decS D) o = none ∧ slot = none) ∨
        ∃ u v : Nat, slotAt (decS D) o = some u ∧ slot = some v ∧ (u : Int) - v = d'
  | .slotHasLimitedSize, .limit n, .limitOp op =>
      slot = some k.left → (op = .lt → slotSize i (decS D) k.left + 1 < n) ∧
        (op = .leq ∨ op = .eq → slotSize i (decS D) k.left + 1 ≤ n)
  | _, _, _ => True

theorem slotCnt_get {i : InputData} {st : SearchState} (h : StInv i st) {t : Nat} (ht : t < i.ns) :
    st.slotCnt[t]? = some (slotSize i (decS st.decisions) t) := by
  rw [h.scnt, psums_get ht, slotSize_eq_rsum]

theorem conOk_spec {i : InputData} (hz : Sizes i) (hns : i.ns ≤ 1073741824) {st : SearchState}
    (h : StInv i st) {choice : Nat} {slot : Option Nat} (hslot : ∀ t, slot = some t → t < i.ns)
    {k : Constraint} (hk : SchedConWF i k) (hlim : ∀ n, k.right = .limit n → n ≤ i32Max)
    (hoff : ∀ o, k.extra = .offset o → -1073741824 < o ∧ o < 1073741824) :
    Decides (conOk i choice slot st k) (ConSpec i st.decisions choice slot k) := by
  revert hlim hoff
  have hget : ∀ c, c < i.nc → ∃ d, st.decisions[c]? = some d := by
    intro c hc; exact ⟨_, List.getElem?_eq_getElem (by rw [h.len]; exact hc)⟩
  refine SchedConWF.cases (P := fun k => (∀ n, k.right = .limit n → n ≤ i32Max) →
    (∀ o, k.extra = .offset o → -1073741824 < o ∧ o < 1073741824) →
    Decides (conOk i choice slot st k) (ConSpec i st.decisions choice slot k))
    hk ?_ ?_ ?_ ?_ ?_ ?_
  · intro x t e _ _ _ _
    refine ⟨_, rfl, ?_⟩
    simp [ConSpec]
  · intro x t e _ _ _ _
    refine ⟨_, rfl, ?_⟩
    simp [ConSpec]
  · intro x y e hx hy _ _
    have ho : (if x = choice then y else x) < i.nc := by split <;> assumption
    obtain ⟨d, hd⟩ := hget _ ho
    have hoo : otherOf ⟨.choicesAreInSameSlot, x, .choice y, e⟩ choice
        = .ok (if x = choice then y else x) := by
      unfold otherOf; simp only [Constraint.otherChoice]; split <;> rfl
    simp only [conOk, hoo, R.bind_ok, idx_eq_ok.2 hd]
    refine ⟨_, rfl, ?_⟩
    simp only [ConSpec, Und, slotAt_decS, hd]
    cases d <;> simp [Decision.slot?]
  · intro x y e hx hy _ _
    have ho : (if x = choice then y else x) < i.nc := by split <;> assumption
    obtain ⟨d, hd⟩ := hget _ ho
    have hoo : otherOf ⟨.choicesAreNotInSameSlot, x, .choice y, e⟩ choice
        = .ok (if x = choice then y else x) := by
      unfold otherOf; simp only [Constraint.otherChoice]; split <;> rfl
    simp only [conOk, hoo, R.bind_ok, idx_eq_ok.2 hd]
    refine ⟨_, rfl, ?_⟩
    simp only [ConSpec, Und, slotAt_decS, hd]
    cases d <;> cases slot <;> simp [Decision.slot?]
  · intro x y o hx hy _ hoff
    have hof := hoff o rfl
    have ho : (if x = choice then y else x) < i.nc := by split <;> assumption
    obtain ⟨d, hd⟩ := hget _ ho
    have hoo : otherOf ⟨.choicesHaveOffset, x, .choice y, .offset o⟩ choice
        = .ok (if x = choice then y else x) := by
      unfold otherOf; simp only [Constraint.otherChoice]; split <;> rfl
    have hoffs : offsetOf ⟨.choicesHaveOffset, x, .choice y, .offset o⟩ (if x = choice then y else x)
        = Except.ok (if (if x = choice then y else x) = x then -o else o) := by
      unfold offsetOf
      simp only [Constraint.offset, R.bind_ok]
      by_cases hh : (if x = choice then y else x) = x
      · rw [if_pos hh, if_pos hh]; exact chkI32_eq_ok.2 ⟨⟨by omega, by omega⟩, rfl⟩
      · rw [if_neg hh, if_neg hh]; rfl
    simp only [conOk, hoo, R.bind_ok, hoffs, idx_eq_ok.2 hd]
    generalize hoo2 : (if (if x = choice then y else x) = x then -o else o) = off
    have hoff2 : -1073741824 < off ∧ off < 1073741824 := by
      rw [← hoo2]; split <;> omega
    have hur : ∀ u, slotAt (decS st.decisions) (if x = choice then y else x) = some u → u < i.ns :=
      fun u hu => h.range _ u hu
    simp only [ConSpec, Und, hoo2]
    rw [slotAt_decS, hd] at hur ⊢
    cases d with
    | undecided => refine ⟨_, rfl, ?_⟩; simp
    | omitted =>
      cases slot with
      | none => refine ⟨_, rfl, ?_⟩; simp [Decision.slot?]
      | some v => refine ⟨_, rfl, ?_⟩; simp [Decision.slot?]
    | slot u =>
      have hu : u < i.ns := hur u rfl
      cases slot with
      | none => refine ⟨_, rfl, ?_⟩; simp [Decision.slot?]
      | some v =>
        have hv := hslot v rfl
        have e1 : toI32 u "slot index must fit in i32" = .ok (u : Int) :=
          toI32_eq_ok.2 ⟨by simp only [i32Max]; omega, rfl⟩
        have e2 : toI32 v "slot index must fit in i32" = .ok (v : Int) :=
          toI32_eq_ok.2 ⟨by simp only [i32Max]; omega, rfl⟩
        have e3 : toI32 i.ns "slot count must fit in i32" = .ok (i.ns : Int) :=
          toI32_eq_ok.2 ⟨by simp only [i32Max]; omega, rfl⟩
        have e4 : chkI32 (-off) "-offset" = .ok (-off) :=
          chkI32_eq_ok.2 ⟨⟨by omega, by omega⟩, rfl⟩
        have e5 : chkI32 ((i.ns : Int) - off) "slots - offset" = .ok ((i.ns : Int) - off) :=
          chkI32_eq_ok.2 ⟨⟨by omega, by omega⟩, rfl⟩
        simp only [Decision.slot?, e1, e2, e3, e4, e5, R.bind_ok]
        rw [if_pos (by simp)]
        by_cases hh : (u : Int) - v = off
        · rw [if_neg (by simp [hh])]
          refine ⟨_, rfl, ?_⟩
          have hL : (!(decide ((v : Int) < max 0 (-off)) || decide (min (i.ns : Int) (i.ns - off) ≤ v))) = true := by
            simp only [Bool.not_eq_true', Bool.or_eq_false_iff, decide_eq_false_iff_not]
            omega
          simp only [hL, true_iff]
          exact .inr (.inr ⟨u, v, rfl, rfl, hh⟩)
        · rw [if_pos (by simp [hh])]
          refine ⟨_, rfl, ?_⟩
          constructor
          · intro hc; cases hc
          · rintro (hc | hc | ⟨u', v', h1, h2, h3⟩)
            · cases hc
            · cases hc.1
            · cases h1; cases h2; exact absurd h3 hh
  · intro t n op ht hlim _
    have hn := hlim n rfl
    have hsz := slotSize_le i (decS st.decisions) t
    have hzc := hz.choices
    simp only [conOk, ConSpec]
    by_cases hs : slot = some t
    · rw [if_pos hs]
      simp only [hs, true_implies, Constraint.limitOp, R.bind_ok]
      have e1 : toI32 n "limit must fit in i32" = .ok (n : Int) := toI32_eq_ok.2 ⟨hn, rfl⟩
      have e2 : idx st.slotCnt t "slot_choice_count[slot]" = .ok (slotSize i (decS st.decisions) t) :=
        idx_eq_ok.2 (slotCnt_get h ht)
      have e3 : toI32 (slotSize i (decS st.decisions) t) "slot choice count must fit in i32"
          = .ok ((slotSize i (decS st.decisions) t : Nat) : Int) := toI32_eq_ok.2 ⟨by omega, rfl⟩
      cases op <;> simp only [Constraint.limit, R.bind_ok, e1, e2, e3] <;> refine ⟨_, rfl, ?_⟩ <;>
        simp <;> omega
    · rw [if_neg hs]
      exact ⟨_, rfl, by simp [hs]⟩

/-- All size limits hold once `slot` is added. -/
def SizeSpec (i : InputData) (D : List Decision) (slot : Option Nat) : Prop :=
  ∀ t n op, (⟨.slotHasLimitedSize, t, .limit n, .limitOp op⟩ : Constraint) ∈ i.schedCons →
    Rel op (slotSize i (decS D) t + if slot = some t then 1 else 0) n

theorem checkSizes_spec {i : InputData} (hw : WF i) (hz : Sizes i) {st : SearchState}
    (h : StInv i st) (slot : Option Nat) :
    Decides (checkSizes i slot st.slotCnt) (SizeSpec i st.decisions slot) := by
  have key : ∀ k ∈ i.schedCons, Decides (if k.kind = .slotHasLimitedSize then do
      let n ← idx st.slotCnt k.left "slot_choice_count[left]"
      let n' ← addU32 n (if slot = some k.left then 1 else 0) "slot_choice_count + 1"
      let op ← k.limitOp
      let lim ← k.limit
      pure (op.test n' lim)
    else pure true)
      (∀ t n op, k = ⟨.slotHasLimitedSize, t, .limit n, .limitOp op⟩ →
        Rel op (slotSize i (decS st.decisions) t + if slot = some t then 1 else 0) n) := by
    intro k hk
    refine SchedConWF.cases (P := fun k => Decides (if k.kind = .slotHasLimitedSize then do
      let n ← idx st.slotCnt k.left "slot_choice_count[left]"
      let n' ← addU32 n (if slot = some k.left then 1 else 0) "slot_choice_count + 1"
      let op ← k.limitOp
      let lim ← k.limit
      pure (op.test n' lim)
    else pure true)
      (∀ t n op, k = ⟨.slotHasLimitedSize, t, .limit n, .limitOp op⟩ →
        Rel op (slotSize i (decS st.decisions) t + if slot = some t then 1 else 0) n))
      (hw.sched k hk) ?_ ?_ ?_ ?_ ?_ ?_
    case refine_6 =>
      intro t n op ht
      have hsz := slotSize_le i (decS st.decisions) t
      have hzc := hz.choices
      simp only [i32Max] at hzc
      simp only [if_true]
      rw [idx_eq_ok.2 (slotCnt_get h ht), R.bind_ok]
      rw [addU32_eq_ok.2 ⟨by simp only [u32Max]; split <;> omega, rfl⟩, R.bind_ok]
      simp only [Constraint.limitOp, Constraint.limit, R.bind_ok]
      refine ⟨_, rfl, ?_⟩
      rw [LimitOp.test_iff]
      constructor
      · intro h' t' n' op' he
        cases he
        exact h'
      · intro h'
        exact h' t n op rfl
    all_goals
      intros
      refine ⟨_, if_neg (by simp), ?_⟩
      simp
  refine (Decides.allM key).congr ?_
  unfold SizeSpec
  constructor
  · intro h' t n op hm
    exact h' _ hm t n op rfl
  · intro h' k hk t n op he
    subst he
    exact h' t n op hk

/-- The meaning of `satisfies_scheduling_constraints`. -/
def SatSpec (i : InputData) (D : List Decision) (choice : Nat) (slot : Option Nat) : Prop :=
  (∀ k ∈ i.schedConsFor choice, ConSpec i D choice slot k) ∧
    (D.countP (fun d => d != .undecided) + 1 = i.nc → SizeSpec i D slot)

theorem satCons_spec {i : InputData} (hw : WF i) (hz : Sizes i) (hr : SearchReady i)
    {st : SearchState} (h : StInv i st) {choice : Nat} (hc : choice < i.nc) {slot : Option Nat}
    (hslot : ∀ t, slot = some t → t < i.ns) :
    Decides (satCons i choice slot st) (SatSpec i st.decisions choice slot) := by
  have hall : Decides ((i.schedConsFor choice).allM (conOk i choice slot st))
      (∀ k ∈ i.schedConsFor choice, ConSpec i st.decisions choice slot k) := by
    apply Decides.allM
    intro k hk
    have hk' := ((hr.conMap choice hc k).1 hk).1
    exact conOk_spec hz hr.slots h hslot (hw.sched k hk') (hr.limits k hk') (hr.offsets k hk')
  obtain ⟨b, hb, hbi⟩ := hall
  unfold satCons SatSpec
  rw [hb, R.bind_ok]
  cases b
  · refine ⟨false, rfl, ?_⟩
    simp at hbi
    simp only [Bool.false_eq_true, false_iff]
    rintro ⟨h1, _⟩
    obtain ⟨k, h2, h3⟩ := hbi
    exact h3 (h1 k h2)
  · simp only [true_iff] at hbi
    by_cases hd : decidedCount st + 1 = i.nc
    · simp only [if_true, if_pos hd]
      refine (checkSizes_spec hw hz h slot).congr ⟨fun h1 => ⟨hbi, fun _ => h1⟩, fun h1 => h1.2 hd⟩
    · simp only [if_true, if_neg hd]
      exact ⟨true, rfl, by simp only [true_iff]; exact ⟨hbi, fun h1 => absurd h1 hd⟩⟩

theorem slotMin_get {i : InputData} {st : SearchState} (h : StInv i st) {t : Nat} (ht : t < i.ns) :
    st.slotMin[t]? = some (slotSum i (decS st.decisions) (·.min) t) := by
  rw [h.smin, psums_get ht, slotSum_eq]

theorem slotMax_get {i : InputData} {st : SearchState} (h : StInv i st) {t : Nat} (ht : t < i.ns) :
    st.slotMax[t]? = some (slotSum i (decS st.decisions) (·.max) t) := by
  rw [h.smax, psums_get ht, slotSum_eq]

theorem hasImpossibilities_spec {i : InputData} (hz : Sizes i) {st : SearchState} (h : StInv i st)
    {avail : Nat} (ha : ∀ t, t < i.ns → avail + slotSum i (decS st.decisions) (·.max) t ≤ u32Max) :
    Decides (hasImpossibilities i st avail)
      (∃ t, t < i.ns ∧ avail + slotSum i (decS st.decisions) (·.max) t < i.np) := by
  unfold hasImpossibilities anyRange
  refine (Decides.anyM (Q := fun t => avail + slotSum i (decS st.decisions) (·.max) t < i.np) ?_).congr
    (by simp)
  intro t ht
  have ht : t < i.ns := by simpa using ht
  have hzp := hz.choosers
  simp only [i32Max] at hzp
  rw [idx_eq_ok.2 (slotMax_get h ht), R.bind_ok, addU32_eq_ok.2 ⟨ha t ht, rfl⟩, R.bind_ok,
    toU32_eq_ok.2 ⟨by simp only [u32Max]; omega, rfl⟩, R.bind_ok]
  exact ⟨_, rfl, by simp⟩

theorem criticalSlots_spec {i : InputData} (hz : Sizes i) {st : SearchState} (h : StInv i st)
    {avail choice : Nat} {ch : Choice} (hch : i.choices[choice]? = some ch) (hle : ch.max ≤ avail)
    (ha : ∀ t, t < i.ns → avail + slotSum i (decS st.decisions) (·.max) t ≤ u32Max) :
    criticalSlots i st avail choice = .ok (((List.range i.ns).filter (fun t =>
      decide (avail - ch.max + slotSum i (decS st.decisions) (·.max) t < i.np))).map some) := by
  unfold criticalSlots
  rw [Decides.filterM (Q := fun t => avail - ch.max + slotSum i (decS st.decisions) (·.max) t < i.np)]
  · rfl
  · intro t ht
    have ht : t < i.ns := by simpa using ht
    have hzp := hz.choosers
    simp only [i32Max] at hzp
    have := ha t ht
    rw [idx_eq_ok.2 hch, R.bind_ok, subU_eq_ok.2 ⟨hle, rfl⟩, R.bind_ok,
      idx_eq_ok.2 (slotMax_get h ht), R.bind_ok, addU32_eq_ok.2 ⟨by omega, rfl⟩, R.bind_ok,
      toU32_eq_ok.2 ⟨by simp only [u32Max]; omega, rfl⟩, R.bind_ok]
    exact ⟨_, rfl, by simp⟩

theorem slotCandidate_spec {i : InputData} (hw : WF i) (hz : Sizes i) (hr : SearchReady i)
    {st : SearchState} (h : StInv i st) {choice : Nat} {ch : Choice}
    (hch : i.choices[choice]? = some ch) {t : Nat} (ht : t < i.ns)
    (ha : ch.min + slotSum i (decS st.decisions) (·.min) t ≤ u32Max) :
    Decides (slotCandidate i st choice t)
      (ch.min + slotSum i (decS st.decisions) (·.min) t ≤ i.np ∧ SatSpec i st.decisions choice (some t)) := by
  have hc : choice < i.nc := (List.getElem?_eq_some_iff.1 hch).1
  have hzp := hz.choosers
  simp only [i32Max] at hzp
  unfold slotCandidate
  rw [idx_eq_ok.2 hch, R.bind_ok, idx_eq_ok.2 (slotMin_get h ht), R.bind_ok,
    addU32_eq_ok.2 ⟨ha, rfl⟩, R.bind_ok, toU32_eq_ok.2 ⟨by simp only [u32Max]; omega, rfl⟩, R.bind_ok]
  by_cases hlt : i.np < ch.min + slotSum i (decS st.decisions) (·.min) t
  · rw [if_pos hlt]
    exact ⟨false, rfl, by simp; omega⟩
  · rw [if_neg hlt]
    exact (satCons_spec hw hz hr h hc (by intro t' h'; cases h'; exact ht)).congr
      ⟨fun h1 => ⟨by omega, h1⟩, fun h1 => h1.2⟩

theorem mem_isort {α : Type} {le : α → α → Bool} {l : List α} {x : α} :
    x ∈ isort le l ↔ x ∈ l := (isort_perm le l).mem_iff

open Classical in
theorem feasibleSlots_spec {g : RngOps σ} (hg : g.Lawful) {i : InputData} (hw : WF i) (hz : Sizes i)
    (hr : SearchReady i) {st : SearchState} (h : StInv i st) {choice : Nat} {ch : Choice}
    (hch : i.choices[choice]? = some ch)
    (ha : ∀ t, t < i.ns → ch.min + slotSum i (decS st.decisions) (·.min) t ≤ u32Max) (rs : σ) :
    ∃ r, feasibleSlots g rs i st choice = .ok r ∧ ∀ x, x ∈ r.1 ↔
      (x = none ∧ ch.isOptional = true ∧ SatSpec i st.decisions choice none) ∨
      (∃ t, x = some t ∧ t < i.ns ∧ ch.min + slotSum i (decS st.decisions) (·.min) t ≤ i.np ∧
        SatSpec i st.decisions choice (some t)) := by
  have hc : choice < i.nc := (List.getElem?_eq_some_iff.1 hch).1
  have hlow : ∃ low, omitCandidate i st choice = .ok low ∧
      ∀ x, x ∈ low ↔ x = none ∧ ch.isOptional = true ∧ SatSpec i st.decisions choice none := by
    unfold omitCandidate
    rw [idx_eq_ok.2 hch, R.bind_ok]
    by_cases ho : ch.isOptional = true
    · rw [if_pos ho]
      obtain ⟨b, h1, h2⟩ := satCons_spec hw hz hr h hc (slot := none) (by simp)
      rw [h1, R.bind_ok]
      refine ⟨_, rfl, ?_⟩
      intro x
      cases b
      · simp at h2; simp [h2]
      · simp at h2; simp [h2, ho]
    · rw [if_neg ho]
      exact ⟨_, rfl, by simp [ho]⟩
  obtain ⟨low, hlow, hlowm⟩ := hlow
  have hnorm := Decides.filterM (l := List.range i.ns) (p := slotCandidate i st choice)
    (Q := fun t => ch.min + slotSum i (decS st.decisions) (·.min) t ≤ i.np ∧ SatSpec i st.decisions choice (some t))
    (h := fun t ht => slotCandidate_spec hw hz hr h hch (by simpa using ht) (ha t (by simpa using ht)))
  have hkey := mapM_eq_ok_of (l := (List.range i.ns).filter (fun t => decide
      (ch.min + slotSum i (decS st.decisions) (·.min) t ≤ i.np ∧ SatSpec i st.decisions choice (some t))))
    (f := fun t => do
      let m ← idx st.slotMax t "slot_max[slot]"
      pure (m, t))
    (g := fun t => (slotSum i (decS st.decisions) (·.max) t, t))
    (by
      intro t ht
      have ht : t < i.ns := by
        have := List.mem_of_mem_filter ht
        simpa using this
      rw [idx_eq_ok.2 (slotMax_get h ht)]
      rfl)
  obtain ⟨out, s', ho, hi⟩ := riffleShuffle_spec hg rs
    ((isort (fun (a b : Nat × Nat) => decide (a.1 < b.1 ∨ (a.1 = b.1 ∧ a.2 ≤ b.2)))
      (((List.range i.ns).filter (fun t => decide
      (ch.min + slotSum i (decS st.decisions) (·.min) t ≤ i.np ∧ SatSpec i st.decisions choice (some t)))).map
        (fun t => (slotSum i (decS st.decisions) (·.max) t, t)))).map
      (fun (e : Nat × Nat) => some e.2)) low
  refine ⟨(out, s'), ?_, ?_⟩
  · unfold feasibleSlots
    rw [hlow, R.bind_ok, hnorm, R.bind_ok, hkey, R.bind_ok]
    exact ho
  · intro x
    rw [hi.perm.mem_iff, List.mem_append, hlowm, List.mem_map]
    constructor
    · rintro (⟨e, he, rfl⟩ | h1)
      · rw [mem_isort, List.mem_map] at he
        obtain ⟨t, ht, rfl⟩ := he
        simp only [List.mem_filter, List.mem_range, decide_eq_true_eq] at ht
        exact .inr ⟨t, rfl, ht.1, ht.2⟩
      · exact .inl h1
    · rintro (h1 | ⟨t, rfl, h1, h2⟩)
      · exact .inr h1
      · refine .inl ⟨(slotSum i (decS st.decisions) (·.max) t, t), ?_, rfl⟩
        rw [mem_isort, List.mem_map]
        refine ⟨t, ?_, rfl⟩
        simp only [List.mem_filter, List.mem_range, decide_eq_true_eq]
        exact ⟨h1, h2⟩

end Search
end Wassign
