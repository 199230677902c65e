import Verif.Proofs.First
import Verif.Spec.Levels
import Verif.Spec.Attain
/-
What a scheduling found at a preference level has to do with the critical sets of that level.
-/
namespace Wassign
namespace Search
open Spec
variable {σ : Type}

/-- The test of the critical sets, in terms of numbers of slots and choices. -/
def CsAt (i : InputData) (cs : List CriticalSet) (D : List Decision) : Prop :=
  ∀ set ∈ cs, i.ns ≤ covered i.ns D set.data + missing D set.data

/-- The critical sets were tested at every depth with a decision or a candidate. -/
structure Tested (i : InputData) (cs : List CriticalSet) (scr : List Nat) (m : Machine σ) : Prop where
  dec : ∀ d, d < m.depth → CsAt i cs (pre scr d m.st.decisions)
  cand : ∀ (d : Nat) (b : List (Option Nat)), m.bt[d]? = some b → b ≠ [] → CsAt i cs (pre scr d m.st.decisions)

/-- Candidates exist only if the critical sets pass. -/
theorem candidates_tested {g : RngOps σ} {i : InputData} {cs : List CriticalSet} {avail choice : Nat} {st : SearchState} {rs : σ}
    {r : List (Option Nat) × σ} (h : candidates g i cs avail choice st rs = .ok r) (hr : r.1 ≠ []) :
    satCritical i st.decisions cs = .ok true := by
  unfold candidates at h
  rw [R.bind_eq_ok] at h
  obtain ⟨imp, _, h⟩ := h
  split at h
  · cases h; exact absurd rfl hr
  rw [R.bind_eq_ok] at h
  obtain ⟨okc, hc, h⟩ := h
  split at h
  · cases h; exact absurd rfl hr
  · rename_i hn
    cases okc
    · exact absurd rfl hn
    · exact hc

theorem csAt_of_sat {i : InputData} {D : List Decision} (hlen : D.length = i.nc) (hr : SlotsInRange i (decS D)) {cs : List CriticalSet}
    (hs : ∀ set ∈ cs, ∀ e ∈ set.data, e < i.nc) (h : satCritical i D cs = .ok true) : CsAt i cs D := by
  obtain ⟨b, h1, h2⟩ := Decides.allM (p := csOk i D) (fun set hset => csOk_spec hlen hr (hs set hset))
  have h1' : satCritical i D cs = .ok b := h1
  rw [h] at h1'
  cases h1'
  exact h2.1 rfl

/-- A step forward from a new depth has tested the critical sets. -/
theorem iter_tests {g : RngOps σ} {i : InputData} {cs : List CriticalSet} {scr suf : List Nat} {m m' : Machine σ}
    (hl : m.bt.length = m.depth) (hd : m'.depth = m.depth + 1) (h : iter g i cs scr suf m = .ok (.next m')) :
    satCritical i m.st.decisions cs = .ok true := by
  unfold iter at h
  simp only [R.bind_eq_ok] at h
  obtain ⟨choice, _, m1, hp, bucket, hb, h⟩ := h
  unfold pushStep at hp
  rw [if_pos (by omega)] at hp
  simp only [R.bind_eq_ok] at hp
  obtain ⟨avail, _, c, hc, hp⟩ := hp
  cases hp
  have hb := idx_eq_ok.1 hb
  simp only [← hl] at hb
  simp at hb
  subst hb
  refine candidates_tested hc ?_
  intro he
  rw [he] at h
  simp only [List.reverse_nil, List.getLast?_nil] at h
  split at h
  · cases h
  · simp only [R.bind_eq_ok] at h
    obtain ⟨prev, _, st, _, h⟩ := h
    cases h
    simp only at hd
    omega

section
variable {g : RngOps σ} (hg : g.Lawful) {i : InputData} (hw : WF i) (hz : Sizes i) (hr : SearchReady i)
  {cs : List CriticalSet} (hcs : ∀ set ∈ cs, ∀ e ∈ set.data, e < i.nc) {scr suf : List Nat} (hsuf : SufOk i scr suf)
include hg hw hz hr hcs hsuf

theorem iter_tested {m m' : Machine σ} (hm : MInv i scr m) (ht : Tested i cs scr m) (hd : m.depth < scr.length)
    (h : iter g i cs scr suf m = .ok (.next m')) : Tested i cs scr m' := by
  obtain ⟨bt, bucket, hl, hb, hold, hlow, -, hc⟩ := iter_cases hg hw hz hr hcs hsuf hm hd h
  have hn := hm.ord.nodup
  rcases hc with ⟨_, hc⟩ | ⟨choice, x, hget, hc⟩
  · obtain ⟨prev, hprev, hdec⟩ := hc.dec
    have hdp := hc.depth
    have key : ∀ d, d ≤ m'.depth → CsAt i cs (pre scr d m'.st.decisions) := by
      intro d hd'
      rw [hdec, pre_set hn hd' hprev]
      exact ht.dec d (by omega)
    refine ⟨fun d hd' => key d (by omega), fun d b hb' hne => key d ?_⟩
    have := (List.getElem?_eq_some_iff.1 hb').1
    rw [hc.bts, List.length_dropLast] at this
    omega
  · have hdp := hc.depth
    have hcur : CsAt i cs (pre scr m.depth m.st.decisions) := by
      by_cases hlt : m.depth < m.bt.length
      · refine ht.cand m.depth bucket (by rw [← hold hlt]; exact hb) ?_
        rintro rfl
        have := hc.last
        simp at this
      · have hml : m.bt.length = m.depth := by rcases hm.bt.len with h | h <;> omega
        rw [pre_eq hm.ord hm.st.len]
        exact csAt_of_sat hm.st.len hm.st.range hcs (iter_tests hml hdp h)
    have key : ∀ d, d ≤ m.depth → CsAt i cs (pre scr d m'.st.decisions) := by
      intro d hd'
      rw [hc.dec, pre_set hn hd' hget]
      by_cases he : d = m.depth
      · rw [he]; exact hcur
      · exact ht.dec d (by omega)
    refine ⟨fun d hd' => key d (by omega), fun d b hb' hne => key d ?_⟩
    have := (List.getElem?_eq_some_iff.1 hb').1
    rw [hc.bts, List.length_set] at this
    omega

end

/-- What the test before the last decision says about the finished scheduling. -/
theorem covers_of_tested {i : InputData} {scr : List Nat} {D : List Decision} (ho : OrdInv i scr scr.length D) (hlen : D.length = i.nc)
    {set : CriticalSet} (hnd : set.data.Nodup) (hs : ∀ e ∈ set.data, e < i.nc) {last : Nat} (hlast : scr[scr.length - 1]? = some last)
    (h : i.ns ≤ covered i.ns (pre scr (scr.length - 1) D) set.data + missing (pre scr (scr.length - 1) D) set.data) :
    CoversSlots i (decS D) set.data ∨ (last ∈ set.data ∧ ∃ t, t < i.ns ∧ CoversBut i (decS D) set.data t) := by
  have hpos : 0 < scr.length := by
    have := (List.getElem?_eq_some_iff.1 hlast).1
    omega
  -- the undecided element of the set is the last choice
  have hund : ∀ e ∈ set.data, (pre scr (scr.length - 1) D)[e]? = some .undecided → e = last := by
    intro e he hu
    rw [pre_get (by rw [hlen]; exact hs e he)] at hu
    by_cases hm : e ∈ scr.take (scr.length - 1)
    · rw [if_pos hm] at hu
      exfalso
      have hnu := mt (ho.und e (hs e he)).1 (by
        rw [List.take_length]
        exact fun h => h (List.mem_of_mem_take hm))
      apply hnu
      have hel : e < D.length := by rw [hlen]; exact hs e he
      have hg : D[e]? = some D[e] := by simp [hel]
      rw [hg] at hu
      simp at hu
      show D[e]? = _
      rw [hg, hu]
    · have hmem : e ∈ scr := ho.perm.mem_iff.2 (by simpa using hs e he)
      obtain ⟨k, hk⟩ := List.mem_iff_getElem?.1 hmem
      have hkl := (List.getElem?_eq_some_iff.1 hk).1
      have : ¬ k < scr.length - 1 := fun hlt => hm (mem_take_iff.2 ⟨k, hlt, hk⟩)
      have : k = scr.length - 1 := by omega
      rw [this, hlast] at hk
      exact (Option.some.inj hk).symm
  have hcov : ∀ t, covB (pre scr (scr.length - 1) D) set.data t = true → ∃ c ∈ set.data, slotAt (decS D) c = some t := by
    intro t ht
    unfold covB at ht
    rw [List.any_eq_true] at ht
    obtain ⟨e, he, ht⟩ := ht
    refine ⟨e, he, ?_⟩
    have ht := eq_of_beq ht
    rw [pre_get (by rw [hlen]; exact hs e he)] at ht
    split at ht
    · have hel : e < D.length := by rw [hlen]; exact hs e he
      have hg : D[e]? = some D[e] := by simp [hel]
      rw [hg] at ht
      simp at ht
      rw [slotAt_decS, hg, ht]
      rfl
    · cases ht
  have hcount : missing (pre scr (scr.length - 1) D) set.data ≤ set.data.count last := by
    unfold missing List.count
    apply List.countP_mono_left
    intro e he hu
    have := hund e he (eq_of_beq hu)
    simp [this]
  have hle1 := List.nodup_iff_count.1 hnd last
  have hsplit := List.length_eq_countP_add_countP (covB (pre scr (scr.length - 1) D) set.data) (l := List.range i.ns)
  simp only [List.length_range] at hsplit
  by_cases hfull : ∀ t, t < i.ns → covB (pre scr (scr.length - 1) D) set.data t = true
  · exact .inl fun t ht => hcov t (hfull t ht)
  · right
    simp only [not_forall] at hfull
    obtain ⟨t, ht, htc⟩ := hfull
    have hge : 1 ≤ (List.range i.ns).countP (fun a => decide ¬ covB (pre scr (scr.length - 1) D) set.data a = true) :=
      List.countP_pos_iff.2 ⟨t, by simpa using ht, by simpa using htc⟩
    unfold covered at h
    constructor
    · by_contra hmem
      rw [List.count_eq_zero.2 hmem] at hcount
      omega
    · refine ⟨t, ht, fun u hu hne => ?_⟩
      by_contra hnone
      have huc : covB (pre scr (scr.length - 1) D) set.data u ≠ true := fun hc => hnone (hcov u hc)
      have hnd2 : ([t, u] : List Nat).Nodup := by simp [Ne.symm hne]
      have hss : [t, u] ⊆ (List.range i.ns).filter (fun a => decide ¬ covB (pre scr (scr.length - 1) D) set.data a = true) := by
        intro x hx
        rcases List.mem_cons.1 hx with rfl | hx
        · simp [ht, htc]
        · rw [List.mem_singleton.1 hx]; simp [hu, huc]
      have h2 := hnd2.length_le_of_subset hss
      rw [← List.countP_eq_length_filter] at h2
      simp only [List.length_cons, List.length_nil] at h2
      omega

section
variable {g : RngOps σ} (hg : g.Lawful) {i : InputData} (hw : WF i) (hz : Sizes i) (hr : SearchReady i)
include hg hw hz hr

theorem loop_covers {cs : List CriticalSet} (hcs : ∀ set ∈ cs, ∀ e ∈ set.data, e < i.nc) (hnd : ∀ set ∈ cs, set.data.Nodup)
    {scr suf : List Nat} (hsuf : SufOk i scr suf) {last : Nat} (hlast : scr[scr.length - 1]? = some last) {late : Nat → Bool} :
    ∀ (fuel k : Nat) (m : Machine σ) (res : List (List Nat)) (r : σ), MInv i scr m → Tested i cs scr m →
      loop g i cs scr suf late fuel k m = .ok (.found res, r) →
      ∃ s, toScheduling i res = .ok s ∧
        ∀ set ∈ cs, CoversSlots i s set.data ∨ (last ∈ set.data ∧ ∃ t, t < i.ns ∧ CoversBut i s set.data t) := by
  intro fuel
  induction fuel with
  | zero => intro k m res r _ _ h; simp [loop, panic'] at h
  | succ fuel ih =>
    intro k m res r hm ht h
    unfold loop at h
    by_cases hd : m.depth < scr.length
    · rw [if_pos hd] at h
      cases hl : late k with
      | true => rw [hl] at h; cases h
      | false =>
        rw [hl] at h
        simp only [Bool.false_eq_true, if_false] at h
        rcases iter_spec hg hw hz hr hcs hsuf hm hd with ⟨r', h1, h2⟩ | ⟨m', h1, h2, h3⟩
        · rw [h1, R.bind_ok] at h; cases h
        · rw [h1, R.bind_ok] at h
          exact ih (k + 1) m' res r h2 (iter_tested hg hw hz hr hcs hsuf hm ht hd h1) h
    · rw [if_neg hd] at h
      have hde : m.depth = scr.length := Nat.le_antisymm hm.bt.depth (by omega)
      have hpos := (List.getElem?_eq_some_iff.1 hlast).1
      rcases finish_total hw hz hm.st with ⟨res', h1, h2, h3, h4⟩ | ⟨h1, h2⟩
      · rw [h1, R.bind_ok] at h
        cases h
        refine ⟨_, h2, fun set hset => ?_⟩
        exact covers_of_tested (hde ▸ hm.ord) hm.st.len (hnd set hset) (hcs set hset) hlast (ht.dec _ (by omega) set hset)
      · rw [h1, R.bind_ok] at h; cases h

theorem solve_covers {cs : List CriticalSet} (hcs : ∀ set ∈ cs, ∀ e ∈ set.data, e < i.nc) (hnd : ∀ set ∈ cs, set.data.Nodup)
    {last : Nat} {late : Nat → Bool} {rs r : σ} {res : List (List Nat)} (hlast : (choiceScramble g rs i).1.getLast? = some last)
    (h : solve g i cs late rs = .ok (.found res, r)) :
    ∃ s, toScheduling i res = .ok s ∧
      ∀ set ∈ cs, CoversSlots i s set.data ∨ (last ∈ set.data ∧ ∃ t, t < i.ns ∧ CoversBut i s set.data t) := by
  have hp := choiceScramble_perm hg rs i
  have hsum : ((choiceScramble g rs i).1.map (valOf i (·.max))).sum ≤ u32Max := by
    have := rsum_scr hp (valOf i (·.max)) 0
    rw [rsum_valOf] at this
    simp only [List.take_zero, List.map_nil, List.sum_nil, Nat.zero_add, List.drop_zero] at this
    rw [← this]
    exact hz.sumMax
  obtain ⟨suf, hs1, hs2⟩ := maxSuffix_spec (i := i) (choiceScramble g rs i).1
    (fun c hc => by simpa using hp.mem_iff.1 hc) hsum
  unfold solve at h
  simp only at h
  rw [hs1, R.bind_ok] at h
  exact loop_covers hg hw hz hr hcs hnd hs2 (by rw [← List.getLast?_eq_getElem?]; exact hlast) _ _
    (start i (choiceScramble g rs i).2) res r (minv_start hp _)
    ⟨fun d hd => by simp [start] at hd, fun d b hb => by simp [start] at hb⟩ h

end

end Search
end Wassign
