import Verif.Proofs.SearchLoop
/-
The end of the scheduling search: conversion of the decisions, the final check, and the whole run.
-/
namespace Wassign
namespace Search
open Spec
variable {σ : Type}

theorem convertDecisions_spec {i : InputData} {D : List Decision} (hlen : D.length = i.nc)
    (hr : SlotsInRange i (decS D)) :
    convertDecisions i D = .ok ((List.range i.ns).map
      (fun t => (List.range i.nc).filter (fun c => slotAt (decS D) c == some t))) := by
  obtain ⟨r, h1, h2⟩ := foldlM_total (l := D.zipIdx)
    (f := fun res e => convStep res e)
    (s := List.replicate i.ns [])
    (Inv := fun k res => res = (List.range i.ns).map
      (fun t => (List.range k).filter (fun c => slotAt (decS D) c == some t))) (by
    intro k hk res hres
    have hk' : k < D.length := by simpa using hk
    rw [zipIdx_get]
    have hsl : slotAt (decS D) k = D[k].slot? := by rw [slotAt_decS]; simp [hk']
    have hfil : ∀ t, (List.range (k + 1)).filter (fun c => slotAt (decS D) c == some t) =
        (List.range k).filter (fun c => slotAt (decS D) c == some t) ++
          (if D[k].slot? = some t then [k] else []) := by
      intro t
      rw [List.range_succ, List.filter_append]
      congr 1
      rw [List.filter_cons, hsl]
      by_cases h : D[k].slot? = some t <;> simp [h]
    unfold convStep
    subst hres
    cases hd : D[k] with
    | undecided => exact ⟨_, rfl, by simp [hfil, hd, Decision.slot?]⟩
    | omitted => exact ⟨_, rfl, by simp [hfil, hd, Decision.slot?]⟩
    | slot t =>
      have ht : t < i.ns := hr k t (by rw [hsl, hd]; rfl)
      simp only
      rw [idx_ok (by simpa using ht), R.bind_ok]
      refine ⟨_, rfl, ?_⟩
      apply List.ext_getElem
      · simp
      · intro n h1 h2
        rw [List.getElem_set]
        simp only [List.getElem_map, List.getElem_range, hfil, hd, Decision.slot?]
        by_cases htn : t = n
        · subst htn; simp
        · simp [htn])
    (by apply List.ext_getElem <;> simp)
  unfold convertDecisions
  rw [h1, h2]
  simp [hlen]

theorem setAll_spec {t : Nat} (l : List Nat) (n : Nat) (hl : ∀ c ∈ l, c < n) (sch : Scheduling)
    (hs : sch.length = n) :
    ∃ sch', l.foldlM (fun sch c => setIdx sch c (some t) "scheduling[choice]") sch = .ok sch' ∧
      sch'.length = n ∧ ∀ c, c < n → slotAt sch' c = if c ∈ l then some t else slotAt sch c := by
  induction l generalizing sch with
  | nil => exact ⟨sch, rfl, hs, by simp⟩
  | cons x xs ih =>
    have hx := hl x (by simp)
    obtain ⟨sch', h1, h2, h3⟩ := ih (fun c hc => hl c (by simp [hc])) (sch.set x (some t)) (by simpa using hs)
    refine ⟨sch', ?_, h2, ?_⟩
    · rw [List.foldlM_cons, setIdx_eq_ok.2 ⟨by omega, rfl⟩, R.bind_ok]
      exact h1
    · intro c hc
      rw [h3 c hc]
      by_cases hcx : x = c
      · subst hcx
        rw [slotAt_set_self (by omega)]
        simp
      · rw [slotAt_set_ne hcx]
        simp [Ne.symm hcx]

theorem slotAt_ext {s s' : Scheduling} (hl : s.length = s'.length)
    (h : ∀ c, c < s.length → slotAt s c = slotAt s' c) : s = s' := by
  apply List.ext_getElem hl
  intro n h1 h2
  have := h n h1
  rwa [slotAt_get h1, slotAt_get h2] at this

theorem toScheduling_spec {i : InputData} {s : Scheduling} (hs : s.length = i.nc)
    (hr : SlotsInRange i s) :
    toScheduling i ((List.range i.ns).map
      (fun t => (List.range i.nc).filter (fun c => slotAt s c == some t))) = .ok s := by
  obtain ⟨r, h1, h2⟩ := foldlM_total
    (l := ((List.range i.ns).map
      (fun t => (List.range i.nc).filter (fun c => slotAt s c == some t))).zipIdx)
    (f := fun (sch : Scheduling) e =>
      e.1.foldlM (fun sch c => setIdx sch c (some e.2) "scheduling[choice]") sch)
    (s := List.replicate i.nc none)
    (Inv := fun k sch => sch.length = i.nc ∧ ∀ c, c < i.nc →
      slotAt sch c = if (∃ t, t < k ∧ slotAt s c = some t) then slotAt s c else none) (by
    intro k hk sch hinv
    have hk' : k < i.ns := by simpa using hk
    rw [zipIdx_get]
    simp only [List.getElem_map, List.getElem_range]
    obtain ⟨sch', e1, e2, e3⟩ := setAll_spec (t := k)
      ((List.range i.nc).filter (fun c => slotAt s c == some k)) i.nc
      (by intro c hc; have := List.mem_of_mem_filter hc; simpa using this) sch hinv.1
    refine ⟨sch', e1, e2, ?_⟩
    intro c hc
    rw [e3 c hc, hinv.2 c hc]
    by_cases hck : slotAt s c = some k
    · rw [if_pos (by simp [hc, hck]), if_pos ⟨k, by omega, hck⟩, hck]
    · rw [if_neg (by simp [hck])]
      by_cases hex : ∃ t, t < k ∧ slotAt s c = some t
      · obtain ⟨t, ht, hst⟩ := hex
        rw [if_pos ⟨t, ht, hst⟩, if_pos ⟨t, by omega, hst⟩]
      · rw [if_neg hex, if_neg]
        rintro ⟨t, ht, hst⟩
        refine hex ⟨t, ?_, hst⟩
        refine Nat.lt_of_le_of_ne (by omega) ?_
        rintro rfl
        exact hck hst)
    (by
      refine ⟨by simp, ?_⟩
      intro c hc
      simp [slotAt, hc])
  unfold toScheduling
  rw [h1]
  congr 1
  refine slotAt_ext (by rw [h2.1, hs]) ?_
  intro c hc
  rw [h2.1] at hc
  rw [h2.2 c hc]
  cases hsc : slotAt s c with
  | none => simp
  | some t =>
    have := hr c t hsc
    rw [if_pos ⟨t, by simpa using this, rfl⟩]

theorem finish_total {i : InputData} (hw : WF i) (hz : Sizes i) {st : SearchState} (h : StInv i st) :
    (∃ res, finish i st = .ok (.found res) ∧ toScheduling i res = .ok (decS st.decisions) ∧
      res.length = i.ns ∧ SchedValid i (decS st.decisions)) ∨
    (finish i st = .ok (.rejected (decS st.decisions)) ∧ ¬ SchedValid i (decS st.decisions)) := by
  have hl : (decS st.decisions).length = i.nc := by simp [h.len]
  have hzc := hz.choices
  have hzp := hz.choosers
  simp only [i32Max] at hzc hzp
  obtain ⟨b, hb⟩ := schedFeasible_total hl h.range hz hw.sched
  have hbs := schedFeasible_spec hl (by simp only [u32Max]; omega) (by simp only [u32Max]; omega) hw.sched hb
  have hts := toScheduling_spec hl h.range
  unfold finish
  rw [convertDecisions_spec h.len h.range, R.bind_ok, hts, R.bind_ok]
  unfold Scheduling.withData
  rw [if_pos hl, R.bind_ok, hb, R.bind_ok]
  cases b
  · right
    simp only [Bool.false_eq_true, false_iff] at hbs
    exact ⟨rfl, hbs⟩
  · left
    simp only [true_iff] at hbs
    exact ⟨_, rfl, hts, by simp, hbs⟩

/-- What a run of the loop from `m` can end with. -/
def LoopPost (i : InputData) (cs : List CriticalSet) (scr : List Nat) (late : Nat → Bool)
    (m : Machine σ) : Outcome → Prop
  | .found res => ∃ s, toScheduling i res = .ok s ∧ res.length = i.ns ∧ SchedValid i s
  | .rejected s => ¬ SchedValid i s ∧
      ∃ m' : Machine σ, MInv i scr m' ∧ m'.depth = scr.length ∧ decS m'.st.decisions = s
  | .exhausted => ∀ T, Goal i cs T → ¬ Alive scr T m
  | .timeout => ∃ k, late k = true

theorem loop_total {g : RngOps σ} (hg : g.Lawful) {i : InputData} (hw : WF i) (hz : Sizes i)
    (hr : SearchReady i) {cs : List CriticalSet} (hcs : ∀ set ∈ cs, ∀ e ∈ set.data, e < i.nc)
    {scr suf : List Nat} (hsuf : SufOk i scr suf) {late : Nat → Bool} :
    ∀ (fuel k : Nat) (m : Machine σ), MInv i scr m → pot i.ns scr.length m < fuel →
      ∃ o r, loop g i cs scr suf late fuel k m = .ok (o, r) ∧ LoopPost i cs scr late m o := by
  intro fuel
  induction fuel with
  | zero => intro k m _ h; omega
  | succ fuel ih =>
    intro k m hm hp
    unfold loop
    by_cases hd : m.depth < scr.length
    · rw [if_pos hd]
      cases hl : late k with
      | true => exact ⟨.timeout, _, rfl, ⟨k, hl⟩⟩
      | false =>
        simp only [Bool.false_eq_true, if_false]
        rcases iter_spec hg hw hz hr hcs hsuf hm hd with ⟨r, h1, h2⟩ | ⟨m', h1, h2, h3⟩
        · rw [h1, R.bind_ok]
          exact ⟨.exhausted, _, rfl, h2⟩
        · have hdec := (iter_decreases hg hd hm.bt h1).2
          rw [h1, R.bind_ok]
          obtain ⟨o, r, e1, e2⟩ := ih (k + 1) m' h2 (by omega)
          refine ⟨o, r, e1, ?_⟩
          cases o with
          | exhausted => exact fun T hT hal => e2 T hT (h3 T hT hal)
          | found _ => exact e2
          | rejected _ => exact e2
          | timeout => exact e2
    · rw [if_neg hd]
      have hde : m.depth = scr.length := Nat.le_antisymm hm.bt.depth (by omega)
      rcases finish_total hw hz hm.st with ⟨res, h1, h2, h3, h4⟩ | ⟨h1, h2⟩
      · rw [h1, R.bind_ok]
        exact ⟨_, _, rfl, _, h2, h3, h4⟩
      · rw [h1, R.bind_ok]
        exact ⟨_, _, rfl, h2, m, hm, hde, rfl⟩

theorem solve_total {g : RngOps σ} (hg : g.Lawful) {i : InputData} (hw : WF i) (hz : Sizes i)
    (hr : SearchReady i) {cs : List CriticalSet} (hcs : ∀ set ∈ cs, ∀ e ∈ set.data, e < i.nc)
    (late : Nat → Bool) (rs : σ) :
    ∃ o r, solve g i cs late rs = .ok (o, r) ∧
      (match o with
      | .found res => ∃ s, toScheduling i res = .ok s ∧ res.length = i.ns ∧ SchedValid i s
      | .rejected s => ¬ SchedValid i s ∧ ∃ scr, ∃ m' : Machine σ, MInv i scr m' ∧
          m'.depth = scr.length ∧ decS m'.st.decisions = s
      | .exhausted => ∀ T, ¬ Goal i cs T
      | .timeout => ∃ k, late k = true) := by
  have hp := choiceScramble_perm hg rs i
  have hl := choiceScramble_length hg rs i
  have hsum : ((choiceScramble g rs i).1.map (valOf i (·.max))).sum ≤ u32Max := by
    have := rsum_scr hp (valOf i (·.max)) 0
    rw [rsum_valOf] at this
    simp only [List.take_zero, List.map_nil, List.sum_nil, Nat.zero_add, List.drop_zero] at this
    rw [← this]
    exact hz.sumMax
  obtain ⟨suf, hs1, hs2⟩ := maxSuffix_spec (i := i) (choiceScramble g rs i).1
    (fun c hc => by simpa using hp.mem_iff.1 hc) hsum
  obtain ⟨o, r, h1, h2⟩ := loop_total hg hw hz hr hcs hs2 (late := late) (pend i.ns i.nc + 1) 0
    (start i (choiceScramble g rs i).2) (minv_start hp _) (by rw [pot_start, hl]; omega)
  refine ⟨o, r, ?_, ?_⟩
  · unfold solve
    simp only
    rw [hs1, R.bind_ok]
    exact h1
  · cases o with
    | found _ => exact h2
    | rejected _ => exact ⟨h2.1, _, h2.2⟩
    | exhausted => exact fun T hT => h2 T hT (alive_start T _)
    | timeout => exact h2

end Search
end Wassign
