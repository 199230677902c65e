import Verif.Proofs.Order
import Verif.Proofs.SearchComplete
/-
Which of the valid schedulings the search finds.
-/
namespace Wassign

theorem isort_sorted {α : Type} {le : α → α → Bool} {l : List α} (h : l.Pairwise (fun a b => le a b = true)) : isort le l = l := by
  induction l with
  | nil => rfl
  | cons x l ih =>
    rw [List.pairwise_cons] at h
    simp only [isort, ih h.2]
    cases l with
    | nil => rfl
    | cons y l => simp only [insertBy, h.1 y (by simp), if_true]

namespace Search
open Spec
variable {σ : Type}

/-- Every decision comes before the candidates still untried at its depth. -/
def Ahead (i : InputData) (scr : List Nat) (m : Machine σ) : Prop :=
  ∀ (d c : Nat) (b : List (Option Nat)), d < m.depth → scr[d]? = some c → m.bt[d]? = some b → ∀ y ∈ b,
    Before i (pre scr d m.st.decisions) (slotAt (decS m.st.decisions) c) y

theorem decS_pre {scr : List Nat} {k : Nat} {D : List Decision} : decS (pre scr k D) = decidedFirst scr k (decS D) := by
  apply slotAt_ext
  · simp [decidedFirst]
  · intro c hc
    have hc' : c < D.length := by simpa using hc
    have h1 : slotAt (decidedFirst scr k (decS D)) c = if c ∈ scr.take k then slotAt (decS D) c else none := by
      unfold decidedFirst
      rw [slotAt]
      simp [hc']
    rw [h1]
    by_cases hm : c ∈ scr.take k
    · rw [if_pos hm, slotAt_pre hm hc']
    · rw [if_neg hm, slotAt_of_und (und_pre hm hc')]

section
variable {g : RngOps σ} (hg : g.Lawful) {i : InputData} (hw : WF i) (hz : Sizes i) (hr : SearchReady i)
  {cs : List CriticalSet} (hcs : ∀ set ∈ cs, ∀ e ∈ set.data, e < i.nc) {scr suf : List Nat} (hsuf : SufOk i scr suf)
include hg hw hz hr hcs hsuf

theorem iter_ahead {m m' : Machine σ} (hm : MInv i scr m) (ho : Ordered i scr m) (ha : Ahead i scr m) (hd : m.depth < scr.length)
    (h : iter g i cs scr suf m = .ok (.next m')) : Ahead i scr m' := by
  obtain ⟨bt, bucket, hl, hb, _, hlow, hord, hc⟩ := iter_cases hg hw hz hr hcs hsuf hm hd h
  have hn := hm.ord.nodup
  rcases hc with ⟨_, hc⟩ | ⟨choice, x, hget, hc⟩
  · obtain ⟨prev, hprev, hdec⟩ := hc.dec
    have hdp := hc.depth
    intro d c b hd' hcd hb' y hy
    rw [hc.bts, List.getElem?_dropLast] at hb'
    split at hb'
    · rw [hlow d (by omega)] at hb'
      have hne : prev ≠ c := by
        rintro rfl
        exact not_mem_take_of_get hn (Nat.le_refl _) hprev (mem_take_iff.2 ⟨d, hd', hcd⟩)
      rw [hdec, pre_set hn (by omega) hprev, decS_set, slotAt_set_ne hne]
      exact ha d c b (by omega) hcd hb' y hy
    · cases hb'
  · have hdp := hc.depth
    intro d c b hd' hcd hb' y hy
    rw [hc.bts] at hb'
    rw [hc.dec, pre_set hn (by omega) hget, decS_set]
    by_cases hdd : d = m.depth
    · rw [hdd, List.getElem?_set_self (by omega)] at hb'
      cases hb'
      rw [hdd] at hcd ⊢
      rw [hget] at hcd
      cases hcd
      rw [slotAt_set_self (by simp [hm.st.len]; exact hm.ord.lt (List.mem_of_getElem? hget)), ofSlot_slot?, pre_eq hm.ord hm.st.len]
      have hsplit : bucket = bucket.dropLast ++ [x] := by
        have hne : bucket ≠ [] := by rintro rfl; have := hc.last; simp at this
        have := List.dropLast_concat_getLast hne
        have hl := hc.last
        rw [List.getLast?_eq_some_getLast hne] at hl
        cases hl
        exact this.symm
      have hpair := hord ho
      rw [hsplit, List.reverse_append, List.reverse_singleton, List.singleton_append, List.pairwise_cons] at hpair
      exact hpair.1 y (by simpa using hy)
    · have hne : choice ≠ c := by
        rintro rfl
        exact not_mem_take_of_get hn (Nat.le_refl _) hget (mem_take_iff.2 ⟨d, by omega, hcd⟩)
      rw [List.getElem?_set_ne (Ne.symm hdd), hlow d (by omega)] at hb'
      rw [slotAt_set_ne hne]
      exact ha d c b (by omega) hcd hb' y hy

theorem loop_first {late : Nat → Bool} : ∀ (fuel k : Nat) (m : Machine σ) (res : List (List Nat)) (r : σ), MInv i scr m →
    Ordered i scr m → Ahead i scr m → loop g i cs scr suf late fuel k m = .ok (.found res, r) →
    ∃ s, toScheduling i res = .ok s ∧ s.length = i.nc ∧ SlotsInRange i s ∧ SchedValid i s ∧
      ∀ T, T.length = i.nc → Goal i cs T → Alive scr T m → T = s ∨ SearchedFirst i scr s T := by
  intro fuel
  induction fuel with
  | zero => intro k m res r _ _ _ h; simp [loop, panic'] at h
  | succ fuel ih =>
    intro k m res r hm ho ha h
    unfold loop at h
    by_cases hd : m.depth < scr.length
    · rw [if_pos hd] at h
      cases hl : late k with
      | true => rw [hl] at h; cases h
      | false =>
        rw [hl] at h
        simp only [Bool.false_eq_true, if_false] at h
        rcases iter_spec hg hw hz hr hcs hsuf hm hd with ⟨r', h1, h2⟩ | ⟨m', h1, h2, h3⟩
        · rw [h1, R.bind_ok] at h; cases h
        · rw [h1, R.bind_ok] at h
          obtain ⟨s, e1, e2, e3, e4, e5⟩ := ih (k + 1) m' res r h2 (iter_ordered hg hw hz hr hcs hsuf hm ho hd h1)
            (iter_ahead hg hw hz hr hcs hsuf hm ho ha hd h1) h
          exact ⟨s, e1, e2, e3, e4, fun T hl hT hal => e5 T hl hT (h3 T hT hal)⟩
    · rw [if_neg hd] at h
      have hde : m.depth = scr.length := Nat.le_antisymm hm.bt.depth (by omega)
      have hsl : scr.length = i.nc := by simpa using hm.ord.perm.length_eq
      rcases finish_total hw hz hm.st with ⟨res', h1, h2, h3, h4⟩ | ⟨h1, h2⟩
      · rw [h1, R.bind_ok] at h
        cases h
        refine ⟨_, h2, by simp [hm.st.len], hm.st.range, h4, ?_⟩
        intro T hl hT hal
        obtain ⟨d, hd1, hd2, hd3⟩ := hal
        rcases hd3 with ⟨b, c, hb, hc, hx⟩ | ⟨hdd, _⟩
        · right
          have hdl := (List.getElem?_eq_some_iff.1 hc).1
          obtain ⟨hne, hem⟩ := ha d c b (by omega) hc hb _ hx
          refine ⟨d, c, hc, fun j c' hj hc' => hd2 j hj c' hc', hne, ?_⟩
          rw [← decS_pre]
          exact hem
        · left
          apply slotAt_ext (by simp [hl, hm.st.len])
          intro c hc
          have hmem : c ∈ scr := hm.ord.perm.mem_iff.2 (by simp; omega)
          obtain ⟨j, hj⟩ := List.mem_iff_getElem?.1 hmem
          have hjl := (List.getElem?_eq_some_iff.1 hj).1
          exact (hd2 j (by omega) c hj).symm
      · rw [h1, R.bind_ok] at h; cases h

end

theorem solve_first {g : RngOps σ} (hg : g.Lawful) {i : InputData} (hw : WF i) (hz : Sizes i) (hr : SearchReady i)
    {cs : List CriticalSet} (hcs : ∀ set ∈ cs, ∀ e ∈ set.data, e < i.nc) {late : Nat → Bool} {rs r : σ} {res : List (List Nat)}
    (h : solve g i cs late rs = .ok (.found res, r)) :
    ∃ s, toScheduling i res = .ok s ∧ s.length = i.nc ∧ SlotsInRange i s ∧ SchedValid i s ∧
      ∀ T, T.length = i.nc → Goal i cs T → T = s ∨ SearchedFirst i (choiceScramble g rs i).1 s T := by
  have hp := choiceScramble_perm hg rs i
  have hsum : ((choiceScramble g rs i).1.map (valOf i (·.max))).sum ≤ u32Max := by
    have := rsum_scr hp (valOf i (·.max)) 0
    rw [rsum_valOf] at this
    simp only [List.take_zero, List.map_nil, List.sum_nil, Nat.zero_add, List.drop_zero] at this
    rw [← this]
    exact hz.sumMax
  obtain ⟨suf, hs1, hs2⟩ := maxSuffix_spec (i := i) (choiceScramble g rs i).1
    (fun c hc => by simpa using hp.mem_iff.1 hc) hsum
  unfold solve at h
  simp only at h
  rw [hs1, R.bind_ok] at h
  obtain ⟨s, e1, e2, e3, e4, e5⟩ := loop_first hg hw hz hr hcs hs2 _ _ (start i (choiceScramble g rs i).2) res r (minv_start hp _)
    (fun d b hb => by simp [start] at hb) (fun d c b hd => by simp [start] at hd) h
  exact ⟨s, e1, e2, e3, e4, fun T hl hT => e5 T hl hT (alive_start T _)⟩

theorem limitLoop_first {g : RngOps σ} (hg : g.Lawful) {i : InputData} (hw : WF i) (hz : Sizes i) (hr : SearchReady i)
    {sets : Nat → List CriticalSet} (hcs : ∀ l, ∀ set ∈ sets l, ∀ e ∈ set.data, e < i.nc) {late : Nat → Nat → Bool} :
    ∀ (fuel limit : Nat) (rs : σ) (slots : List (List Nat)) (r : σ), limitLoop g i sets late fuel limit rs = .ok (some slots, r) →
      ∃ s rs' l, toScheduling i slots = .ok s ∧
        ∀ T, T.length = i.nc → Goal i (sets l) T → T = s ∨ SearchedFirst i (choiceScramble g rs' i).1 s T := by
  intro fuel
  induction fuel with
  | zero => intro limit rs slots r h; simp [limitLoop, panic'] at h
  | succ fuel ih =>
    intro limit rs slots r h
    unfold limitLoop at h
    simp only [R.bind_eq_ok] at h
    obtain ⟨o, ho, h⟩ := h
    split at h
    · cases h
      obtain ⟨o1, o2⟩ := o
      cases o1 with
      | found slots =>
        obtain ⟨s, e1, _, _, _, e5⟩ := solve_first hg hw hz hr (hcs limit) ho
        exact ⟨s, rs, limit, e1, e5⟩
      | rejected _ => rename_i he; simp [Outcome.slots] at he
      | exhausted => rename_i he; simp [Outcome.slots] at he
      | timeout => rename_i he; simp [Outcome.slots] at he
    · split at h
      · cases h
      · exact ih _ _ _ _ h

/-- What `next_scheduling` finds. -/
theorem nextScheduling_first {g : RngOps σ} (hg : g.Lawful) {i : InputData} (hw : WF i) (hz : Sizes i) (hr : SearchReady i)
    {bound : Nat} {sets : Nat → List CriticalSet} (hcs : ∀ l, ∀ set ∈ sets l, ∀ e ∈ set.data, e < i.nc) {late : Nat → Nat → Bool}
    {rs r : σ} {s : Scheduling} (h : nextScheduling g i bound sets late rs = .ok (some s, r)) :
    ∃ rs' l, ∀ T, T.length = i.nc → Goal i (sets l) T → T = s ∨ SearchedFirst i (choiceScramble g rs' i).1 s T := by
  unfold nextScheduling at h
  simp only [R.bind_eq_ok] at h
  obtain ⟨x, _, res, hres, h⟩ := h
  obtain ⟨slots?, r'⟩ := res
  cases slots? with
  | none => cases h
  | some slots =>
    simp only [R.bind_eq_ok] at h
    obtain ⟨d, hd, sch, hsch, h⟩ := h
    obtain ⟨s', rs', l, h1, h4⟩ := limitLoop_first hg hw hz hr hcs _ _ _ _ _ hres
    obtain ⟨s'', h5, h6, _⟩ := limitLoop_found _ _ _ _ _ hres
    rw [h1] at hd h5
    cases hd
    cases h5
    unfold Scheduling.withData at hsch
    rw [if_pos h6] at hsch
    cases hsch
    cases h
    exact ⟨rs', l, h4⟩

end Search
end Wassign
