import Verif.Proofs.FlowDecode
import Verif.Proofs.BinSearch
/-
The assignment solver as a whole.
-/
namespace Wassign
open Spec Asg

section
variable {pr : AProblem} {env : AEnv} {s : Scheduling} {st : ScheduleState} {limit : Nat}

theorem Spec.ProblemOk.setting (h : ProblemOk pr) (hs : SchedShape pr.input s) (hst : StOk pr.input s st) : Setting pr s st :=
  ⟨static_spec h.static, h.wf, hs, hst, h.small, h.groups.range⟩

/-- Some valid assignment respects the limit. -/
def Feas (pr : AProblem) (s : Scheduling) (limit : Nat) : Prop :=
  ∃ a, AsgValid pr.input s a ∧ WithinLimit pr.input a limit ∧ GroupsAlike pr.input s a

/-- The assignment is valid, respects the limit, and costs least if the backend is optimal. -/
structure Good (pr : AProblem) (env : AEnv) (s : Scheduling) (limit : Nat) (a : Assignment) : Prop where
  order : InOrder pr.input s a
  valid : AsgValid pr.input s a
  within : WithinLimit pr.input a limit
  alike : GroupsAlike pr.input s a
  least : Backend.Optimal env.backend → ∀ a', AsgValid pr.input s a' → WithinLimit pr.input a' limit →
    GroupsAlike pr.input s a' → totalCost pr.input pr.cost a ≤ totalCost pr.input pr.cost a'

theorem clock_same (deadline : Bool) (sv : ASolver) :
    (clock env deadline sv).2.state = sv.state ∧ (clock env deadline sv).2.cached = sv.cached ∧
    (clock env deadline sv).2.lpCount = sv.lpCount ∧ (deadline = false → (clock env deadline sv).1 = false) := by
  unfold clock
  cases deadline <;> simp

theorem solveWithLimit_spec (hp : ProblemOk pr) (hs : SchedShape pr.input s) (hst : StOk pr.input s st)
    (hb : Backend.Sound env.backend) (deadline : Bool) {sv sv' : ASolver} {r : LimitResult}
    (h : solveWithLimit pr env deadline st limit sv = .ok (r, sv')) :
    sv'.state = sv.state ∧ sv'.cached = sv.cached ∧
    match r with
    | .feasible a => Good pr env s limit a
    | .infeasible => deadline = false → Backend.Complete env.backend → ¬ Feas pr s limit
    | .incomplete => deadline = true := by
  have hset := hp.setting hs hst
  unfold solveWithLimit at h
  simp only at h
  obtain ⟨q1, q2, _, q3⟩ := clock_same (env := env) deadline sv
  by_cases hc : (clock env deadline sv).1 = true
  · rw [if_pos hc] at h
    cases h
    refine ⟨q1, q2, ?_⟩
    simp only
    cases deadline with
    | true => rfl
    | false => rw [q3 rfl] at hc; cases hc
  · rw [if_neg hc, R.bind_eq_ok] at h
    obtain ⟨f, hf, h⟩ := h
    have hd := (buildFlow_both hset limit).1 f hf
    generalize hsv2 : ({ (clock env deadline sv).2 with lpCount := (clock env deadline sv).2.lpCount + 1 } : ASolver) = sv2 at h
    have e1 : sv2.state = sv.state := by rw [← hsv2]; exact q1
    have e2 : sv2.cached = sv.cached := by rw [← hsv2]; exact q2
    obtain ⟨r1, r2, _, r3⟩ := clock_same (env := env) deadline sv2
    by_cases hc2 : (clock env deadline sv2).1 = true
    · rw [if_pos hc2] at h
      cases h
      refine ⟨r1.trans e1, r2.trans e2, ?_⟩
      simp only
      cases deadline with
      | true => rfl
      | false => rw [r3 rfl] at hc2; cases hc2
    · rw [if_neg hc2] at h
      cases hbk : env.backend (clock env deadline sv2).2.lpCount f deadline with
      | none =>
        rw [hbk] at h
        simp only at h
        obtain ⟨t1, t2, _, t3⟩ := clock_same (env := env) deadline (clock env deadline sv2).2
        by_cases hc3 : (clock env deadline (clock env deadline sv2).2).1 = true
        · rw [if_pos hc3] at h
          cases h
          refine ⟨t1.trans (r1.trans e1), t2.trans (r2.trans e2), ?_⟩
          simp only
          cases deadline with
          | true => rfl
          | false => rw [t3 rfl] at hc3; cases hc3
        · rw [if_neg hc3] at h
          cases h
          refine ⟨t1.trans (r1.trans e1), t2.trans (r2.trans e2), ?_⟩
          simp only
          intro hdl hcomp
          subst hdl
          rintro ⟨a, h1, h2, h3⟩
          exact hcomp _ f hbk _ (encode_flowOk hset hd h1 h2 h3 hp.groups).1
      | some x =>
        rw [hbk] at h
        simp only [R.bind_eq_ok] at h
        obtain ⟨a, ha, h⟩ := h
        cases h
        refine ⟨r1.trans e1, r2.trans e2, ?_⟩
        simp only
        have hok := hb _ _ _ _ hbk
        obtain ⟨a', hdec, v1, v2, v3, v4, v5⟩ := decode_valid hset hp.groups hd hok
        rw [hdec] at ha
        cases ha
        refine ⟨v1, v2, v3, v4, ?_⟩
        intro hopt a' w1 w2 w3
        obtain ⟨g1, g2⟩ := encode_flowOk hset hd w1 w2 w3 hp.groups
        rw [← v5, ← g2]
        exact hopt _ _ _ _ hbk _ g1

theorem solveWithLimit_total (hp : ProblemOk pr) (hs : SchedShape pr.input s) (hst : StOk pr.input s st)
    (hb : Backend.Sound env.backend) (hfit : FlowFits pr.input s) (deadline : Bool) (sv : ASolver) :
    ∃ r sv', solveWithLimit pr env deadline st limit sv = .ok (r, sv') := by
  have hset := hp.setting hs hst
  unfold solveWithLimit
  simp only
  split
  · exact ⟨_, _, rfl⟩
  · obtain ⟨f, hf⟩ := (buildFlow_both hset limit).2 hfit
    have hd := (buildFlow_both hset limit).1 f hf
    rw [hf, R.bind_ok]
    split
    · exact ⟨_, _, rfl⟩
    · split
      · exact ⟨_, _, rfl⟩
      · rename_i x hbk
        obtain ⟨a, hdec, _⟩ := decode_valid hset hp.groups hd (hb _ _ _ _ hbk)
        rw [hdec, R.bind_ok]
        exact ⟨_, _, rfl⟩

/-! ### The start of the search -/

theorem startIndex_lt {levels : List Nat} {bound : Nat} (h : levels ≠ []) : startIndex levels bound < levels.length := by
  unfold startIndex
  split
  · rename_i k hk
    rw [List.findIdx?_eq_some_iff_getElem] at hk
    exact hk.1
  · have := List.length_pos_iff.2 h; omega

theorem startIndex_le {levels : List Nat} {bound k l : Nat} (hl : levels[k]? = some l) (hb : bound ≤ l) : startIndex levels bound ≤ k := by
  have hk := (List.getElem?_eq_some_iff.1 hl)
  obtain ⟨hk1, hk2⟩ := hk
  unfold startIndex
  split
  · rename_i j hj
    rw [List.findIdx?_eq_some_iff_getElem] at hj
    obtain ⟨h1, h2, h3⟩ := hj
    by_contra hlt
    have := h3 k (by omega)
    simp only [decide_eq_true_eq] at this
    rw [hk2] at this
    exact this hb
  · rename_i hn
    rw [List.findIdx?_eq_none_iff] at hn
    have := hn l (List.mem_of_getElem? hl)
    simp at this
    omega

/-! ### A whole solve -/

/-- What a conclusive result satisfies. -/
structure Concl (pr : AProblem) (env : AEnv) (s : Scheduling) (strict : Bool) (a : Assignment) : Prop where
  good : ∃ limit, Good pr env s limit a ∧
    (pr.greedy = true → limit = pr.input.maxPref) ∧
    (pr.greedy = false → ∃ k, startIndex pr.input.prefLevels pr.bound ≤ k ∧ pr.input.prefLevels[k]? = some limit ∧
      (strict = true → Backend.Complete env.backend → ∀ j l, startIndex pr.input.prefLevels pr.bound ≤ j → j < k →
        pr.input.prefLevels[j]? = some l → ¬ Feas pr s l))

/-- What is stored in the cache is a result for the stored scheduling. -/
def CacheOk (pr : AProblem) (env : AEnv) (strict : Bool) (sv : ASolver) : Prop :=
  ∀ c, sv.cached = some c → c.isOptimal = true ∧ Concl pr env c.slots strict c.assignment

theorem cachedFor_some {sv : ASolver} {slots : List (Option Nat)} {a : Assignment} (h : cachedFor sv slots = some a) :
    ∃ c, sv.cached = some c ∧ c.slots = slots ∧ c.assignment = a := by
  unfold cachedFor at h
  split at h
  · rename_i c hc
    split at h
    · rename_i he
      cases h
      exact ⟨c, hc, he.1, rfl⟩
    · cases h
  · cases h

theorem Concl.weaken {a : Assignment} (h : Concl pr env s true a) : Concl pr env s false a := by
  obtain ⟨limit, h1, h2, h3⟩ := h.good
  refine ⟨limit, h1, h2, ?_⟩
  intro hg
  obtain ⟨k, e1, e2, _⟩ := h3 hg
  exact ⟨k, e1, e2, fun hs => by cases hs⟩

theorem feas_mono {l l' : Nat} (h : l ≤ l') (hf : Feas pr s l) : Feas pr s l' := by
  obtain ⟨a, h1, h2, h3⟩ := hf
  exact ⟨a, h1, fun p c x hat hx => Nat.le_trans (h2 p c x hat hx) h, h3⟩

/-- The oracle the search sees. -/
theorem oracle_ok (hp : ProblemOk pr) (hs : SchedShape pr.input s) (hst : StOk pr.input s st)
    (hb : Backend.Sound env.backend) (deadline : Bool) (c0 : Option CachedAssignment) (levels : List Nat) :
    OracleOk (solveWithLimit pr env deadline st) levels (fun sv => sv.state = some st ∧ sv.cached = c0)
      (fun k a => ∃ l, levels[k]? = some l ∧ Good pr env s l a)
      (fun k => deadline = false ∧ Backend.Complete env.backend ∧ ∃ l, levels[k]? = some l ∧ Feas pr s l)
      (deadline = true) := by
  constructor
  intro k l sv r sv' hl hi h
  obtain ⟨h1, h2, h3⟩ := solveWithLimit_spec hp hs hst hb deadline h
  refine ⟨⟨h1.trans hi.1, h2.trans hi.2⟩, ?_⟩
  cases r with
  | feasible a => exact ⟨l, hl, h3⟩
  | infeasible =>
    simp only at h3 ⊢
    rintro ⟨hd, hc, l', hl', hf⟩
    rw [hl] at hl'; cases hl'
    exact h3 hd hc hf
  | incomplete => exact h3

/-- The specification of a solve; `strict` tells whether all solves so far had no deadline. -/
structure SolveRes (pr : AProblem) (env : AEnv) (s : Scheduling) (deadline strict : Bool) (sv sv' : ASolver)
    (r : Option Assignment) : Prop where
  kept : ∃ st, sv'.state = some st ∧ StOk pr.input s st
  cache : CacheOk pr env strict sv'
  found : ∀ a, r = some a → Concl pr env s (strict && !deadline) a
  none : r = none → deadline = false → Backend.Complete env.backend → pr.input.prefLevels.getLast? = some pr.input.maxPref →
    ¬ Feas pr s pr.input.maxPref
  stored : deadline = false → ∀ a, r = some a → ∃ c, sv'.cached = some c ∧ c.slots = s ∧ c.assignment = a
  same : (∀ c, sv'.cached = some c → sv.cached = some c ∨ (c.slots = s ∧ r = some c.assignment))

theorem solveUntil_spec (hp : ProblemOk pr) (hlev : pr.input.prefLevels.Pairwise (· < ·)) {strict : Bool} {sv sv' : ASolver} (hk : KeptOk pr.input sv)
    (hb : Backend.Sound env.backend) {deadline : Bool} (hstrict : strict = true → deadline = false) (hc : CacheOk pr env strict sv)
    (hs : SchedShape pr.input s) {r : Option Assignment}
    (h : solveUntil pr env deadline sv s = .ok (r, sv')) : SolveRes pr env s deadline strict sv sv' r := by
  unfold solveUntil at h
  simp only [R.bind_eq_ok] at h
  obtain ⟨st, hst, h⟩ := h
  have hsd := static_spec hp.static
  have hok := (prepare_spec hsd hp.wf hk hs).1 st hst
  have hslots := hok.slots
  cases hcf : cachedFor { sv with state := some st } st.slots with
  | some a =>
    rw [hcf] at h
    simp only at h
    cases h
    obtain ⟨c, h1, h2, h3⟩ := cachedFor_some hcf
    have h1' : sv.cached = some c := h1
    obtain ⟨q1, q2⟩ := hc c h1'
    have hconcl : Concl pr env s strict a := by rw [← hslots, ← h2, ← h3]; exact q2
    refine ⟨⟨st, rfl, hok⟩, hc, ?_, ?_, ?_, ?_⟩
    · intro a' ha'
      cases ha'
      cases strict with
      | false => exact hconcl
      | true => rw [hstrict rfl]; exact hconcl
    · intro h; cases h
    · intro _ a' ha'
      cases ha'
      exact ⟨c, h1', by rw [h2, hslots], h3⟩
    · intro c' hc'; exact .inl hc'
  | none =>
    rw [hcf] at h
    simp only at h
    have hcfree : ∀ c, sv.cached = some c → c.isOptimal = true → c.slots ≠ st.slots := by
      intro c h1 h2 h3
      unfold cachedFor at hcf
      rw [show ({ sv with state := some st } : ASolver).cached = some c from h1] at hcf
      simp only [h3, h2, and_self, if_true] at hcf
      cases hcf
    by_cases hg : pr.greedy = true
    · rw [if_pos hg, R.bind_eq_ok] at h
      obtain ⟨⟨q, sv2⟩, hq, h⟩ := h
      obtain ⟨e1, e2, e3⟩ := solveWithLimit_spec hp hs hok hb deadline hq
      have e1' : sv2.state = some st := e1
      have e2' : sv2.cached = sv.cached := e2
      cases q with
      | feasible a =>
        simp only at h e3
        simp only [finish, if_true, R.pure_eq, Except.ok.injEq, Prod.mk.injEq] at h
        obtain ⟨rfl, rfl⟩ := h
        have hconcl : ∀ b, Concl pr env s b a := fun b => ⟨_, e3, fun _ => rfl, fun h' => by rw [hg] at h'; cases h'⟩
        refine ⟨⟨st, e1', hok⟩, ?_, ?_, ?_, ?_, ?_⟩
        · intro c hc'
          simp only [Option.some.injEq] at hc'
          subst hc'
          exact ⟨rfl, by simp only [hslots]; exact hconcl _⟩
        · rintro _ h'; cases h'; exact hconcl _
        · intro h; cases h
        · rintro _ _ h'; cases h'; exact ⟨_, rfl, hslots, rfl⟩
        · intro c hc'
          simp only [Option.some.injEq] at hc'
          subst hc'
          exact .inr ⟨hslots, rfl⟩
      | infeasible =>
        simp only at h e3
        simp only [finish, R.pure_eq, Except.ok.injEq, Prod.mk.injEq] at h
        obtain ⟨rfl, rfl⟩ := h
        refine ⟨⟨st, e1', hok⟩, ?_, ?_, ?_, ?_, ?_⟩
        · intro c hc'; rw [e2'] at hc'; exact hc c hc'
        · intro a h'; cases h'
        · intro _ hd hcomp _; exact e3 hd hcomp
        · intro _ a h'; cases h'
        · intro c hc'; rw [e2'] at hc'; exact .inl hc'
      | incomplete =>
        simp only at h e3
        simp only [finish, R.pure_eq, Except.ok.injEq, Prod.mk.injEq] at h
        obtain ⟨rfl, rfl⟩ := h
        refine ⟨⟨st, e1', hok⟩, ?_, ?_, ?_, ?_, ?_⟩
        · intro c hc'; rw [e2'] at hc'; exact hc c hc'
        · intro a h'; cases h'
        · intro _ hd; rw [hd] at e3; cases e3
        · intro _ a h'; cases h'
        · intro c hc'; rw [e2'] at hc'; exact .inl hc'
    · have hg' : pr.greedy = false := by simpa using hg
      rw [if_neg hg] at h
      by_cases hl0 : pr.input.prefLevels.length = 0
      · rw [if_pos hl0] at h
        simp only [R.pure_eq, Except.ok.injEq, Prod.mk.injEq] at h
        obtain ⟨rfl, rfl⟩ := h
        refine ⟨⟨st, rfl, hok⟩, hc, ?_, ?_, ?_, ?_⟩
        · intro a h'; cases h'
        · intro _ _ _ hlast
          rw [List.length_eq_zero_iff.1 hl0] at hlast; cases hlast
        · intro _ a h'; cases h'
        · intro c hc'; exact .inl hc'
      · rw [if_neg hl0, R.bind_eq_ok] at h
        obtain ⟨res, hres, h⟩ := h
        have hne : pr.input.prefLevels ≠ [] := fun e => hl0 (by rw [e]; rfl)
        have hstart := startIndex_lt (bound := pr.bound) hne
        cases res with
        | none =>
          exact absurd hres (bin_fuel _ _ _ (by simp only; omega) (by simp only; omega))
        | some bs =>
          obtain ⟨b, sv2⟩ := bs
          simp only at h
          have hmono : ∀ j k, j ≤ k → k < pr.input.prefLevels.length →
              (deadline = false ∧ Backend.Complete env.backend ∧ ∃ l, pr.input.prefLevels[j]? = some l ∧ Feas pr s l) →
              (deadline = false ∧ Backend.Complete env.backend ∧ ∃ l, pr.input.prefLevels[k]? = some l ∧ Feas pr s l) := by
            rintro j k hjk hk' ⟨h1, h2, l, h3, h4⟩
            refine ⟨h1, h2, pr.input.prefLevels[k], by simp [hk'], ?_⟩
            have hl' := List.getElem?_eq_some_iff.1 h3
            obtain ⟨hj', rfl⟩ := hl'
            refine feas_mono ?_ h4
            rcases Nat.lt_or_eq_of_le hjk with hlt | heq
            · exact Nat.le_of_lt (List.pairwise_iff_getElem.1 hlev j k hj' hk' hlt)
            · subst heq; exact Nat.le_refl _
          obtain ⟨hbr, hi2⟩ := bin_spec (oracle_ok hp hs hok hb deadline sv.cached pr.input.prefLevels) hmono _
            ⟨startIndex pr.input.prefLevels pr.bound, pr.input.prefLevels.length - 1, none, true⟩ _
            { sv with state := some st } _
            (by
              refine ⟨Nat.le_refl _, by show pr.input.prefLevels.length - 1 < _; omega, ?_, ?_, ?_, ?_⟩
              · intro _ j h1 h2
                have h2' : j < startIndex pr.input.prefLevels pr.bound := h2
                have h1' : startIndex pr.input.prefLevels pr.bound ≤ j := h1
                omega
              · intro _; show pr.input.prefLevels.length - 1 + 1 = _; omega
              · intro a h'; cases h'
              · intro h'; cases h')
            ⟨rfl, rfl⟩ hres
          obtain ⟨e1', e2'⟩ := hi2
          have hconcl : ∀ a, b.best = some a → ∀ str : Bool, (str = true → b.isOptimal = true ∧ deadline = false) → Concl pr env s str a := by
            intro a ha str hstr
            obtain ⟨k, k1, k2, ⟨l, k3, k4⟩, k5⟩ := hbr.some a ha
            refine ⟨l, k4, fun h' => (by rw [hg'] at h'; cases h'), fun _ => ⟨k, k1, k3, ?_⟩⟩
            intro hs1 hcomp j l' j1 j2 j3 hf
            obtain ⟨ho, hd⟩ := hstr hs1
            exact k5 ho j j1 j2 ⟨hd, hcomp, l', j3, hf⟩
          have hopt : deadline = false → b.isOptimal = true := by
            intro hd
            by_contra hno
            have := hbr.late (by simpa using hno)
            rw [hd] at this; cases this
          cases hbest : b.best with
          | none =>
            rw [hbest] at h
            simp only [finish, R.pure_eq, Except.ok.injEq, Prod.mk.injEq] at h
            obtain ⟨rfl, rfl⟩ := h
            refine ⟨⟨st, e1', hok⟩, ?_, ?_, ?_, ?_, ?_⟩
            · intro c hc'; rw [e2'] at hc'; exact hc c hc'
            · intro a h'; cases h'
            · intro _ hd hcomp hlast hf
              rw [List.getLast?_eq_getElem?] at hlast
              exact hbr.none hbest (hopt hd) _ (by omega) (by omega) ⟨hd, hcomp, _, hlast, hf⟩
            · intro _ a h'; cases h'
            · intro c hc'; rw [e2'] at hc'; exact .inl hc'
          | some a =>
            rw [hbest] at h
            simp only [finish, R.pure_eq, Except.ok.injEq, Prod.mk.injEq] at h
            obtain ⟨rfl, rfl⟩ := h
            refine ⟨⟨st, ?_, hok⟩, ?_, ?_, ?_, ?_, ?_⟩
            · split <;> exact e1'
            · intro c hc'
              split at hc'
              · rename_i ho
                simp only [Option.some.injEq] at hc'
                subst hc'
                refine ⟨ho, ?_⟩
                simp only [hslots]
                exact hconcl a hbest strict (fun h' => ⟨ho, hstrict h'⟩)
              · rw [e2'] at hc'; exact hc c hc'
            · rintro _ h'
              cases h'
              refine hconcl a hbest _ ?_
              intro h'
              simp only [Bool.and_eq_true, Bool.not_eq_true'] at h'
              exact ⟨hopt h'.2, h'.2⟩
            · intro h'; cases h'
            · rintro hd _ h'
              cases h'
              rw [if_pos (hopt hd)]
              exact ⟨_, rfl, hslots, rfl⟩
            · intro c hc'
              split at hc'
              · simp only [Option.some.injEq] at hc'
                subst hc'
                exact .inr ⟨hslots, rfl⟩
              · rw [e2'] at hc'; exact .inl hc'

end
end Wassign
