import Verif.Proofs.SearchTarget
/-
The loop of the scheduling search: no faults, and nothing feasible is lost.
-/
namespace Wassign
namespace Search
open Spec
variable {σ : Type}

/-- The decisions on the first `d` positions of the scramble only. -/
def pre (scr : List Nat) (d : Nat) (D : List Decision) : List Decision :=
  (List.range D.length).map (fun c => if c ∈ scr.take d then D[c]?.getD .undecided else .undecided)

@[simp] theorem pre_length (scr : List Nat) (d : Nat) (D : List Decision) :
    (pre scr d D).length = D.length := by simp [pre]

theorem pre_get {scr : List Nat} {d : Nat} {D : List Decision} {c : Nat} (hc : c < D.length) :
    (pre scr d D)[c]? = some (if c ∈ scr.take d then D[c]?.getD .undecided else .undecided) := by
  simp [pre, hc]

theorem pre_eq {i : InputData} {scr : List Nat} {depth : Nat} {D : List Decision}
    (h : OrdInv i scr depth D) (hlen : D.length = i.nc) : pre scr depth D = D := by
  apply List.ext_getElem?
  intro c
  by_cases hc : c < D.length
  · rw [pre_get hc]
    by_cases hm : c ∈ scr.take depth
    · rw [if_pos hm]; simp [hc]
    · rw [if_neg hm]
      exact ((h.und c (by omega)).2 hm).symm
  · rw [List.getElem?_eq_none (by simp; omega), List.getElem?_eq_none (by omega)]

theorem not_mem_take_of_get {scr : List Nat} (hn : scr.Nodup) {d e c : Nat} (hde : d ≤ e)
    (he : scr[e]? = some c) : c ∉ scr.take d := by
  apply nodup_take_drop hn
  obtain ⟨hl, h⟩ := List.getElem?_eq_some_iff.1 he
  rw [List.mem_iff_getElem]
  refine ⟨e - d, by simp; omega, ?_⟩
  simp only [List.getElem_drop]
  rw [← h]
  congr 1
  omega

theorem pre_set {scr : List Nat} (hn : scr.Nodup) {d e c : Nat} (hde : d ≤ e)
    (he : scr[e]? = some c) (D : List Decision) (x : Decision) :
    pre scr d (D.set c x) = pre scr d D := by
  apply List.ext_getElem?
  intro k
  by_cases hk : k < D.length
  · rw [pre_get (by simpa using hk), pre_get hk]
    by_cases hm : k ∈ scr.take d
    · have : c ≠ k := by
        rintro rfl; exact not_mem_take_of_get hn hde he hm
      rw [if_pos hm, if_pos hm, List.getElem?_set_ne this]
    · rw [if_neg hm, if_neg hm]
  · rw [List.getElem?_eq_none (by simp; omega), List.getElem?_eq_none (by simp; omega)]

/-- The invariant of the loop. -/
structure MInv (i : InputData) (scr : List Nat) (m : Machine σ) : Prop where
  bt : BtInv scr.length m
  st : StInv i m.st
  ord : OrdInv i scr m.depth m.st.decisions
  cand : ∀ (d : Nat) (b : List (Option Nat)), m.bt[d]? = some b → ∀ c, scr[d]? = some c → ∀ x ∈ b,
    Good i scr d (pre scr d m.st.decisions) c x
  dec : ∀ (d : Nat), d < m.depth → ∀ c, scr[d]? = some c →
    Good i scr d (pre scr d m.st.decisions) c (slotAt (decS m.st.decisions) c)

def Agree (scr : List Nat) (D : List Decision) (T : Scheduling) (d : Nat) : Prop :=
  ∀ k, k < d → ∀ c, scr[k]? = some c → slotAt (decS D) c = slotAt T c

/-- The scheduling `T` can still be reached. -/
def Alive (scr : List Nat) (T : Scheduling) (m : Machine σ) : Prop :=
  ∃ d, d ≤ m.depth ∧ Agree scr m.st.decisions T d ∧
    ((∃ b c, m.bt[d]? = some b ∧ scr[d]? = some c ∧ slotAt T c ∈ b) ∨
      (d = m.depth ∧ m.bt.length = m.depth))

/-- The schedulings that must not be lost. -/
structure Goal (i : InputData) (cs : List CriticalSet) (T : Scheduling) : Prop where
  valid : SchedValid i T
  range : SlotsInRange i T
  covers : ∀ set ∈ cs, Covers i T set

theorem mem_take_iff {scr : List Nat} {d c : Nat} : c ∈ scr.take d ↔ ∃ k, k < d ∧ scr[k]? = some c := by
  rw [List.mem_iff_getElem?]
  constructor
  · rintro ⟨k, hk⟩
    rw [List.getElem?_take] at hk
    split at hk
    · exact ⟨k, by assumption, hk⟩
    · cases hk
  · rintro ⟨k, h1, h2⟩
    exact ⟨k, by rw [List.getElem?_take, if_pos h1]; exact h2⟩

theorem ext_of_agree {i : InputData} {scr : List Nat} {depth : Nat} {D : List Decision}
    (h : OrdInv i scr depth D) (hlen : D.length = i.nc) {T : Scheduling} (ha : Agree scr D T depth) :
    Ext D T := by
  intro c d hc hd
  have hcl : c < i.nc := by
    have := (List.getElem?_eq_some_iff.1 hc).1
    omega
  have hm : c ∈ scr.take depth := by
    refine Classical.byContradiction fun hn => ?_
    have := (h.und c hcl).2 hn
    unfold Und at this
    rw [hc] at this
    cases this
    exact hd rfl
  obtain ⟨k, hk, hs⟩ := mem_take_iff.1 hm
  have := ha k hk c hs
  rw [slotAt_decS, hc] at this
  exact this.symm

theorem minv_start {i : InputData} {scr : List Nat} (hp : scr.Perm (List.range i.nc)) (rs : σ) :
    MInv i scr (start i rs) := by
  refine ⟨btInv_start _ _ _, stInv_new i, ⟨hp, ?_⟩, ?_, ?_⟩
  · intro c hc
    simp [start, Und, SearchState.new, hc]
  · intro d b hb; simp [start] at hb
  · intro d hd; simp [start] at hd

theorem alive_start {i : InputData} {scr : List Nat} (T : Scheduling) (rs : σ) :
    Alive scr T (start i rs) :=
  ⟨0, Nat.zero_le _, fun k hk => by omega, .inr ⟨rfl, rfl⟩⟩

/-- The suffix sums the loop is given. -/
def SufOk (i : InputData) (scr suf : List Nat) : Prop :=
  ∀ d, d ≤ scr.length → suf[d]? = some (((scr.drop d).map (valOf i (·.max))).sum)

theorem pushStep_total {g : RngOps σ} (hg : g.Lawful) {i : InputData} (hw : WF i) (hz : Sizes i)
    (hr : SearchReady i) {cs : List CriticalSet} (hcs : ∀ set ∈ cs, ∀ e ∈ set.data, e < i.nc)
    {scr suf : List Nat} (hsuf : SufOk i scr suf) {m : Machine σ} (hm : MInv i scr m)
    {choice : Nat} (hd : scr[m.depth]? = some choice) :
    ∃ m', pushStep g i cs suf choice m = .ok m' ∧ m'.depth = m.depth ∧ m'.st = m.st ∧
      m'.bt.length = m.depth + 1 ∧
      (∀ (d : Nat) (b : List (Option Nat)), m'.bt[d]? = some b → ∀ c, scr[d]? = some c → ∀ x ∈ b,
        Good i scr d (pre scr d m.st.decisions) c x) ∧
      (∀ T, Goal i cs T → Alive scr T m → ∃ d, d ≤ m.depth ∧ Agree scr m.st.decisions T d ∧
        ∃ b c, m'.bt[d]? = some b ∧ scr[d]? = some c ∧ slotAt T c ∈ b) := by
  have hdl := (List.getElem?_eq_some_iff.1 hd).1
  unfold pushStep
  by_cases hle : m.bt.length ≤ m.depth
  · rw [if_pos hle]
    have hlen : m.bt.length = m.depth := by rcases hm.bt.len with h | h <;> omega
    rw [idx_eq_ok.2 (hsuf m.depth (by omega)), R.bind_ok]
    obtain ⟨r, hr1, hr2, hr3⟩ := candidates_spec hg hw hz hr hcs hm.st hm.ord hd m.rng
    rw [hr1, R.bind_ok]
    refine ⟨_, rfl, rfl, rfl, by simp [hlen], ?_, ?_⟩
    · intro d b hb c hc x hx
      simp only at hb
      by_cases hdd : d < m.bt.length
      · rw [List.getElem?_append_left hdd] at hb
        exact hm.cand d b hb c hc x hx
      · rw [List.getElem?_append_right (by omega)] at hb
        have hdz : d - m.bt.length = 0 := by
          have := (List.getElem?_eq_some_iff.1 hb).1
          simp at this
          omega
        have hde : d = m.depth := by omega
        rw [hdz] at hb
        simp at hb
        subst hb
        rw [hde] at hc ⊢
        rw [hd] at hc
        cases hc
        rw [pre_eq hm.ord hm.st.len]
        exact hr2 x (by simpa using hx)
    · intro T hT hal
      obtain ⟨d, hd1, hd2, hd3⟩ := hal
      rcases hd3 with ⟨b, c, hb, hc, hx⟩ | ⟨hdd, _⟩
      · refine ⟨d, hd1, hd2, b, c, ?_, hc, hx⟩
        simp only
        rw [List.getElem?_append_left (List.getElem?_eq_some_iff.1 hb).1]
        exact hb
      · subst hdd
        refine ⟨m.depth, Nat.le_refl _, hd2, r.1.reverse, choice, ?_, hd, ?_⟩
        · simp only
          rw [List.getElem?_append_right (by omega), hlen]
          simp
        · rw [List.mem_reverse]
          exact hr3 T hT.valid hT.range (ext_of_agree hm.ord hm.st.len hd2) hT.covers
  · rw [if_neg hle]
    have hlen : m.bt.length = m.depth + 1 := by rcases hm.bt.len with h | h <;> omega
    refine ⟨m, rfl, rfl, rfl, hlen, hm.cand, ?_⟩
    intro T hT hal
    obtain ⟨d, hd1, hd2, hd3⟩ := hal
    rcases hd3 with ⟨b, c, hb, hc, hx⟩ | ⟨_, hl⟩
    · exact ⟨d, hd1, hd2, b, c, hb, hc, hx⟩
    · omega

theorem ordInv_push {i : InputData} {scr : List Nat} {depth : Nat} {D : List Decision}
    (h : OrdInv i scr depth D) (hlen : D.length = i.nc) {c : Nat} (hc : scr[depth]? = some c)
    (x : Option Nat) : OrdInv i scr (depth + 1) (D.set c (ofSlot x)) := by
  refine ⟨h.perm, ?_⟩
  intro k hk
  have htk : k ∈ scr.take (depth + 1) ↔ k ∈ scr.take depth ∨ k = c := by
    rw [mem_take_iff, mem_take_iff]
    constructor
    · rintro ⟨j, hj, hs⟩
      by_cases hjd : j = depth
      · subst hjd; rw [hc] at hs; cases hs; exact .inr rfl
      · exact .inl ⟨j, by omega, hs⟩
    · rintro (⟨j, hj, hs⟩ | rfl)
      · exact ⟨j, by omega, hs⟩
      · exact ⟨depth, by omega, hc⟩
  rw [htk]
  by_cases hkc : c = k
  · subst hkc
    unfold Und
    rw [List.getElem?_set_self (by omega)]
    simp [ofSlot_ne]
  · unfold Und
    rw [List.getElem?_set_ne hkc]
    have := h.und k hk
    unfold Und at this
    rw [this]
    simp [Ne.symm hkc]

theorem ordInv_pop {i : InputData} {scr : List Nat} {depth : Nat} {D : List Decision}
    (h : OrdInv i scr (depth + 1) D) (hlen : D.length = i.nc) {c : Nat} (hc : scr[depth]? = some c) :
    OrdInv i scr depth (D.set c .undecided) := by
  refine ⟨h.perm, ?_⟩
  intro k hk
  have htk : k ∈ scr.take (depth + 1) ↔ k ∈ scr.take depth ∨ k = c := by
    rw [mem_take_iff, mem_take_iff]
    constructor
    · rintro ⟨j, hj, hs⟩
      by_cases hjd : j = depth
      · subst hjd; rw [hc] at hs; cases hs; exact .inr rfl
      · exact .inl ⟨j, by omega, hs⟩
    · rintro (⟨j, hj, hs⟩ | rfl)
      · exact ⟨j, by omega, hs⟩
      · exact ⟨depth, by omega, hc⟩
  by_cases hkc : c = k
  · subst hkc
    unfold Und
    rw [List.getElem?_set_self (by omega)]
    simp only [true_iff]
    exact not_mem_take_of_get h.nodup (Nat.le_refl _) hc
  · unfold Und
    rw [List.getElem?_set_ne hkc]
    have := h.und k hk
    unfold Und at this
    rw [this, htk]
    simp [Ne.symm hkc]

theorem agree_set {scr : List Nat} (hn : scr.Nodup) {d e c : Nat} (hde : d ≤ e)
    (he : scr[e]? = some c) {D : List Decision} {T : Scheduling} (h : Agree scr D T d) (x : Decision) :
    Agree scr (D.set c x) T d := by
  intro k hk c' hc'
  have hne : c ≠ c' := by
    rintro rfl
    exact not_mem_take_of_get hn hde he (mem_take_iff.2 ⟨k, hk, hc'⟩)
  rw [decS_set, slotAt_set_ne hne]
  exact h k hk c' hc'

theorem iter_spec {g : RngOps σ} (hg : g.Lawful) {i : InputData} (hw : WF i) (hz : Sizes i)
    (hr : SearchReady i) {cs : List CriticalSet} (hcs : ∀ set ∈ cs, ∀ e ∈ set.data, e < i.nc)
    {scr suf : List Nat} (hsuf : SufOk i scr suf) {m : Machine σ} (hm : MInv i scr m)
    (hd : m.depth < scr.length) :
    (∃ r, iter g i cs scr suf m = .ok (.exhausted r) ∧ ∀ T, Goal i cs T → ¬ Alive scr T m) ∨
    (∃ m', iter g i cs scr suf m = .ok (.next m') ∧ MInv i scr m' ∧
      ∀ T, Goal i cs T → Alive scr T m → Alive scr T m') := by
  have hget : scr[m.depth]? = some scr[m.depth] := by simp [hd]
  generalize hch : scr[m.depth] = choice at hget
  obtain ⟨m1, h1, hdep, hst, hlen, hcand, halive⟩ := pushStep_total hg hw hz hr hcs hsuf hm hget
  have hn := hm.ord.nodup
  have hbl : m.depth < m1.bt.length := by omega
  have hbk : m1.bt[m1.depth]? = some m1.bt[m.depth] := by simp [hdep, hbl]
  generalize hbd : m1.bt[m.depth] = bucket at hbk
  have hbk' : m1.bt[m.depth]? = some bucket := by rw [← hdep]; exact hbk
  have hbtinv : ∀ m', iter g i cs scr suf m = .ok (.next m') → BtInv scr.length m' :=
    fun m' h => (iter_decreases hg hd hm.bt h).1
  unfold iter at hbtinv ⊢
  rw [idx_eq_ok.2 hget, R.bind_ok, h1, R.bind_ok, idx_eq_ok.2 hbk, R.bind_ok] at hbtinv ⊢
  cases hlast : bucket.getLast? with
  | none =>
    have hbnil : bucket = [] := List.getLast?_eq_none_iff.1 hlast
    have hlt : ∀ T, Goal i cs T → Alive scr T m → ∃ d, d < m.depth ∧ Agree scr m.st.decisions T d ∧
        ∃ b c, m1.bt[d]? = some b ∧ scr[d]? = some c ∧ slotAt T c ∈ b := by
      intro T hT hal
      obtain ⟨d, e1, e2, b, c, e3, e4, e5⟩ := halive T hT hal
      refine ⟨d, ?_, e2, b, c, e3, e4, e5⟩
      refine Nat.lt_of_le_of_ne e1 ?_
      rintro rfl
      rw [hbk', hbnil] at e3
      cases e3
      simp at e5
    simp only [hlast] at hbtinv ⊢
    by_cases h0 : m1.depth = 0
    · left
      rw [if_pos h0]
      refine ⟨_, rfl, ?_⟩
      intro T hT hal
      obtain ⟨d, hd', _⟩ := hlt T hT hal
      omega
    · right
      rw [if_neg h0] at hbtinv ⊢
      have hprev : scr[m1.depth - 1]? = some (scr[m1.depth - 1]'(by omega)) := by
        rw [List.getElem?_eq_getElem]
      generalize scr[m1.depth - 1]'(by omega) = prev at hprev
      have hpl : prev < i.nc := hm.ord.lt (List.mem_of_getElem? hprev)
      obtain ⟨st', hc1, hc2, hc3⟩ := clearDecision_spec (i := i) (st := m1.st) (by rw [hst]; exact hm.st) hpl
      rw [idx_eq_ok.2 hprev, R.bind_ok, hc1, R.bind_ok] at hbtinv ⊢
      have hde : m.depth = (m1.depth - 1) + 1 := by omega
      refine ⟨_, rfl, ⟨hbtinv _ rfl, hc2, ?_, ?_, ?_⟩, ?_⟩
      · simp only
        rw [hc3, hst]
        refine ordInv_pop ?_ hm.st.len hprev
        rw [← hde]; exact hm.ord
      · intro d b hb c hc x hx
        simp only at hb ⊢
        have hdl : d < m1.depth := by
          have := (List.getElem?_eq_some_iff.1 hb).1
          simp at this; omega
        rw [hc3, hst, pre_set hn (by omega) hprev]
        refine hcand d b ?_ c hc x hx
        rw [List.getElem?_dropLast] at hb
        split at hb
        · exact hb
        · cases hb
      · intro d hd' c hc
        simp only at hd' ⊢
        have hne : prev ≠ c := by
          rintro rfl
          exact not_mem_take_of_get hn (Nat.le_refl _) hprev (mem_take_iff.2 ⟨d, hd', hc⟩)
        rw [hc3, hst, pre_set hn (by omega) hprev, decS_set, slotAt_set_ne hne]
        exact hm.dec d (by omega) c hc
      · intro T hT hal
        obtain ⟨d, e1, e2, b, c, e3, e4, e5⟩ := hlt T hT hal
        refine ⟨d, by simp only; omega, ?_, .inl ⟨b, c, ?_, e4, e5⟩⟩
        · simp only
          rw [hc3, hst]
          exact agree_set hn (by omega) hprev e2 _
        · simp only
          rw [List.getElem?_dropLast, if_pos (by omega)]
          exact e3
  | some x =>
    right
    simp only [hlast] at hbtinv ⊢
    have hxm : x ∈ bucket := List.mem_of_getLast? hlast
    have hgood := hcand m.depth bucket hbk' choice hget x hxm
    have hund : m1.st.decisions[choice]? = some .undecided := by
      rw [hst]
      exact (hm.ord.und choice (hm.ord.lt (List.mem_of_getElem? hget))).2
        (not_mem_take_of_get hn (Nat.le_refl _) hget)
    obtain ⟨st', hc1, hc2, hc3⟩ := applyDecision_spec hz (i := i) (st := m1.st)
      (by rw [hst]; exact hm.st) hund hgood.range
    rw [hc1, R.bind_ok] at hbtinv ⊢
    refine ⟨_, rfl, ⟨hbtinv _ rfl, hc2, ?_, ?_, ?_⟩, ?_⟩
    · simp only
      rw [hc3, hst, hdep]
      exact ordInv_push hm.ord hm.st.len hget x
    · intro d b hb c hc y hy
      simp only at hb ⊢
      have hdl : d ≤ m.depth := by
        have := (List.getElem?_eq_some_iff.1 hb).1
        simp at this; omega
      rw [hc3, hst, pre_set hn hdl hget]
      by_cases hdd : d = m.depth
      · rw [hdd, hdep] at hb
        rw [List.getElem?_set_self hbl] at hb
        cases hb
        rw [hdd] at hc ⊢
        exact hcand m.depth bucket hbk' c hc y ((List.dropLast_sublist bucket).subset hy)
      · rw [hdep, List.getElem?_set_ne (Ne.symm hdd)] at hb
        exact hcand d b hb c hc y hy
    · intro d hd' c hc
      simp only at hd' ⊢
      rw [hc3, hst, pre_set hn (by omega) hget, decS_set, ofSlot_slot?]
      by_cases hdd : d = m.depth
      · rw [hdd] at hc ⊢
        rw [hget] at hc
        cases hc
        rw [slotAt_set_self (by simp [hm.st.len]; exact hm.ord.lt (List.mem_of_getElem? hget))]
        exact hgood
      · have hne : choice ≠ c := by
          rintro rfl
          exact not_mem_take_of_get hn (Nat.le_refl _) hget (mem_take_iff.2 ⟨d, by omega, hc⟩)
        rw [slotAt_set_ne hne]
        exact hm.dec d (by omega) c hc
    · intro T hT hal
      obtain ⟨d, e1, e2, b, c, e3, e4, e5⟩ := halive T hT hal
      by_cases hdd : d = m.depth
      · subst hdd
        rw [hbk'] at e3
        cases e3
        rw [hget] at e4
        cases e4
        by_cases hx : slotAt T choice = x
        · refine ⟨m.depth + 1, by simp only; omega, ?_, .inr ⟨by simp only; omega, by simp; omega⟩⟩
          simp only
          rw [hc3, hst]
          intro k hk c hc
          by_cases hkd : k = m.depth
          · subst hkd
            rw [hget] at hc
            cases hc
            rw [decS_set, slotAt_set_self (by simp [hm.st.len]; exact hm.ord.lt (List.mem_of_getElem? hget)),
              ofSlot_slot?, hx]
          · exact agree_set hn (Nat.le_refl _) hget e2 _ k (by omega) c hc
        · refine ⟨m.depth, by simp only; omega, ?_, .inl ⟨bucket.dropLast, choice, ?_, hget, ?_⟩⟩
          · simp only
            rw [hc3, hst]
            exact agree_set hn (Nat.le_refl _) hget e2 _
          · simp only
            rw [hdep, List.getElem?_set_self hbl]
          · have hne : bucket ≠ [] := by rintro rfl; simp at hlast
            have hb := List.dropLast_concat_getLast hne
            rw [List.getLast?_eq_some_getLast hne] at hlast
            cases hlast
            rw [← hb, List.mem_append] at e5
            rcases e5 with e5 | e5
            · exact e5
            · simp at e5; exact absurd e5 hx
      · refine ⟨d, by simp only; omega, ?_, .inl ⟨b, c, ?_, e4, e5⟩⟩
        · simp only
          rw [hc3, hst]
          exact agree_set hn e1 hget e2 _
        · simp only
          rw [hdep, List.getElem?_set_ne (Ne.symm hdd)]
          exact e3

end Search
end Wassign
