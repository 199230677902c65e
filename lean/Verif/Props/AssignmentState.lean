import Verif.Props.AssignmentSearch
/-
Property theorems about the assignment stage, continued: C11 (incremental state), C12 (cache), C47 (keys).
-/
namespace Wassign
open Spec Build Asg

/-! ### C11 -/

section
variable (pr : AProblem) (env : AEnv) (hp : ProblemOk pr) (hlev : pr.input.prefLevels.Pairwise (· < ·))
  (hb : Backend.Sound env.backend) (free : Bool) (sv : ASolver) (hsv : Reach pr env free sv)
  (s : Scheduling) (hs : SchedShape pr.input s)
include hp hlev hb hsv hs

/-- **C11**: after any sequence of solves, the state prepared for scheduling `s` describes `s`: the list of a slot
holds, without repetition, exactly the choices scheduled there, the counter is the sum of their minima, and the
edge of chooser `p` in slot `t` to choice `c` is blocked iff a constraint keeps `p` out of `c` or demands of `p`
another choice that takes place in slot `t`. -/
theorem C11_state_describes_scheduling (st : ScheduleState) (h : prepare pr sv s = .ok st) :
    st.slots = s ∧ st.bySlot.length = pr.input.ns ∧ st.covered.length = pr.input.ns ∧
    (∀ t l, st.bySlot[t]? = some l → l.Nodup ∧ ∀ c, c ∈ l ↔ slotAt s c = some t) ∧
    (∀ t, t < pr.input.ns → st.covered[t]? = some (slotSum pr.input s (·.min) t)) ∧
    ∀ p t c, p < pr.input.np → t < pr.input.ns → c < pr.input.nc → ∀ src dst, pr.static.chooserNode p t = .ok src →
      pr.static.choiceNode c = .ok dst → ((src, dst) ∈ st.blocked ↔
        (∃ k ∈ pr.input.asgCons, k.kind = .chooserIsInChoice ∧ k.left = p ∧ ∃ y, k.right = .choice y ∧
          slotAt s y = some t ∧ c ≠ y ∧ slotAt s c = some t) ∨
        ∃ k ∈ pr.input.asgCons, k.kind = .chooserIsNotInChoice ∧ k.left = p ∧ k.right = .choice c) := by
  have hsd := static_spec hp.static
  have hok := (prepare_spec hsd hp.wf (reach_inv hp hlev hb hsv).1 hs).1 st h
  have hcov : st.covered = psums pr.input s (·.min) pr.input.nc := hok.slotted.cov
  refine ⟨hok.slots, hok.slotted.len, by rw [hcov]; simp, hok.slotted.lists, ?_, ?_⟩
  · intro t ht
    rw [hcov, psums_get ht]
    rfl
  · intro p t c hp' ht hc src dst h1 h2
    rw [hsd.chooser p t hp' ht] at h1
    rw [hsd.choice c hc] at h2
    cases h1; cases h2
    exact hok.blocked p t c hp' ht hc

/-- **C11**: it is the state a fresh solver prepares, up to the order of the choices in a slot. -/
theorem C11_same_as_fresh (st st0 : ScheduleState) (h : prepare pr sv s = .ok st) (h0 : prepare pr ASolver.new s = .ok st0) :
    st.slots = st0.slots ∧ st.covered = st0.covered ∧ st.bySlot.length = st0.bySlot.length ∧
    (∀ (t : Nat) l l0, st.bySlot[t]? = some l → st0.bySlot[t]? = some l0 → l.Perm l0) ∧
    ∀ p t c, p < pr.input.np → t < pr.input.ns → c < pr.input.nc → ∀ src dst, pr.static.chooserNode p t = .ok src →
      pr.static.choiceNode c = .ok dst → ((src, dst) ∈ st.blocked ↔ (src, dst) ∈ st0.blocked) := by
  obtain ⟨a1, a2, a3, a4, a5, a6⟩ := C11_state_describes_scheduling pr env hp hlev hb free sv hsv s hs st h
  obtain ⟨b1, b2, b3, b4, b5, b6⟩ := C11_state_describes_scheduling pr env hp hlev hb true _ .new s hs st0 h0
  refine ⟨by rw [a1, b1], ?_, by rw [a2, b2], ?_, ?_⟩
  · apply List.ext_getElem?
    intro t
    by_cases ht : t < pr.input.ns
    · rw [a5 t ht, b5 t ht]
    · rw [List.getElem?_eq_none (by omega), List.getElem?_eq_none (by omega)]
  · intro t l l0 h1 h2
    obtain ⟨n1, m1⟩ := a4 t l h1
    obtain ⟨n2, m2⟩ := b4 t l0 h2
    exact (List.perm_ext_iff_of_nodup n1 n2).2 (fun c => by rw [m1, m2])
  · intro p t c hp' ht hc src dst h1 h2
    rw [a6 p t c hp' ht hc src dst h1 h2, b6 p t c hp' ht hc src dst h1 h2]

/-- **C11**: no counter over- or underflows, no lookup fails, if the minima of all choices fit u32 together. -/
theorem C11_update_never_fails (hsum : (pr.input.choices.map (·.min)).sum ≤ u32Max) : ∃ st, prepare pr sv s = .ok st :=
  (prepare_spec (static_spec hp.static) hp.wf (reach_inv hp hlev hb hsv).1 hs).2 hsum

end

/-- The state after solving `Ex.sch`, reused for a scheduling that moves two choices, really is updated. -/
example : (do
    let st ← fromScratch AsgEx.prob Ex.sch
    let st' ← update AsgEx.prob st [some 1, some 0, some 1, some 1]
    pure (st.bySlot, st.covered, st'.bySlot, st'.covered) : R _) =
    .ok ([[0], [1, 2]], [1, 2], [[1], [0, 2, 3]], [1, 2]) := by decide +kernel

/-! ### C12 -/

theorem prepare_slots {pr : AProblem} {sv : ASolver} {s : Scheduling} {st : ScheduleState} (h : prepare pr sv s = .ok st) :
    st.slots = s := by
  unfold prepare at h
  cases hs : sv.state with
  | none =>
    rw [hs] at h
    simp only [fromScratch, R.bind_eq_ok] at h
    obtain ⟨_, _, _, _, h⟩ := h
    cases h; rfl
  | some prev =>
    rw [hs] at h
    simp only [update, R.bind_eq_ok] at h
    obtain ⟨_, _, _, _, h⟩ := h
    cases h; rfl

/-- Preparing for the scheduling of the stored state changes nothing. -/
theorem update_same {pr : AProblem} {prev : ScheduleState} {b : List (Nat × Nat)}
    (hb : blockedEdges pr.input pr.static prev.slots prev.bySlot = .ok b) :
    update pr prev prev.slots = .ok { prev with blocked := b } := by
  have hf : ∀ (l : List ((Option Nat × Option Nat) × Nat)) acc, (∀ e ∈ l, e.1.1 = e.1.2) → l.foldlM (updateStep pr.input) acc = .ok acc := by
    intro l
    induction l with
    | nil => intro acc _; rfl
    | cons e l ih =>
      intro acc h
      rw [List.foldlM_cons, updateStep, if_pos (h e (by simp)), R.pure_eq, R.bind_ok]
      exact ih acc (fun e' he' => h e' (by simp [he']))
  unfold update
  rw [hf, R.bind_ok, hb, R.bind_ok]
  · rfl
  · intro e he
    obtain ⟨k, hk⟩ := List.mem_iff_getElem?.1 he
    rw [List.getElem?_zipIdx] at hk
    simp only [Option.map_eq_some_iff] at hk
    obtain ⟨q, hq, rfl⟩ := hk
    rw [List.getElem?_zip_eq_some] at hq
    have := hq.1.symm.trans hq.2
    simpa using this

/-- Some reading of the clock during the call was late. -/
def LateDuring (env : AEnv) (sv sv' : ASolver) : Prop := ∃ n, sv.ticks ≤ n ∧ n < sv'.ticks ∧ env.late n = true

section
variable {pr : AProblem} {env : AEnv} {st : ScheduleState} {limit : Nat}

theorem clock_late (deadline : Bool) (sv : ASolver) (h : (clock env deadline sv).1 = true) : LateDuring env sv (clock env deadline sv).2 := by
  unfold clock at h ⊢
  cases deadline with
  | false => simp at h
  | true => exact ⟨sv.ticks, Nat.le_refl _, by simp, by simpa using h⟩

theorem solveWithLimit_ticks (deadline : Bool) {sv sv' : ASolver} {r : LimitResult}
    (h : solveWithLimit pr env deadline st limit sv = .ok (r, sv')) :
    sv.ticks ≤ sv'.ticks ∧ (r = .incomplete → LateDuring env sv sv') := by
  unfold solveWithLimit at h
  simp only at h
  have k1 := (clock_ticks (env := env) deadline sv).1
  have l1 := clock_late (env := env) deadline sv
  by_cases hc : (clock env deadline sv).1 = true
  · rw [if_pos hc] at h; cases h; exact ⟨k1, fun _ => l1 hc⟩
  · rw [if_neg hc, R.bind_eq_ok] at h
    obtain ⟨f, hf, h⟩ := h
    generalize hsv2 : ({ (clock env deadline sv).2 with lpCount := (clock env deadline sv).2.lpCount + 1 } : ASolver) = sv2 at h
    have t2 : sv2.ticks = (clock env deadline sv).2.ticks := by rw [← hsv2]
    have k2 := (clock_ticks (env := env) deadline sv2).1
    have l2 := clock_late (env := env) deadline sv2
    by_cases hc2 : (clock env deadline sv2).1 = true
    · rw [if_pos hc2] at h; cases h
      refine ⟨by omega, fun _ => ?_⟩
      obtain ⟨n, n1, n2, n3⟩ := l2 hc2
      exact ⟨n, by omega, n2, n3⟩
    · rw [if_neg hc2] at h
      have k3 := (clock_ticks (env := env) deadline (clock env deadline sv2).2).1
      have l3 := clock_late (env := env) deadline (clock env deadline sv2).2
      split at h
      · by_cases hc3 : (clock env deadline (clock env deadline sv2).2).1 = true
        · simp only [hc3, if_true] at h; cases h
          refine ⟨by omega, fun _ => ?_⟩
          obtain ⟨n, n1, n2, n3⟩ := l3 hc3
          exact ⟨n, by omega, n2, n3⟩
        · simp only [hc3] at h
          cases h
          refine ⟨by omega, fun h => by simp at h⟩
      · rw [R.bind_eq_ok] at h
        obtain ⟨a, _, h⟩ := h
        cases h
        refine ⟨by omega, fun h => by simp at h⟩

theorem bin_late (deadline : Bool) {levels : List Nat} {start : Nat} : ∀ (fuel : Nat) (b b' : Bin) (sv sv' : ASolver),
    binLoop (solveWithLimit pr env deadline st) levels start fuel b sv = .ok (some (b', sv')) →
    sv.ticks ≤ sv'.ticks ∧ (b.isOptimal = true → b'.isOptimal = false → LateDuring env sv sv') := by
  intro fuel
  induction fuel with
  | zero =>
    intro b b' sv sv' h
    unfold binLoop at h
    split at h
    · cases h
    · cases h; exact ⟨Nat.le_refl _, fun h1 h2 => by rw [h1] at h2; cases h2⟩
  | succ fuel ih =>
    intro b b' sv sv' h
    unfold binLoop at h
    split at h
    · rw [R.bind_eq_ok] at h
      obtain ⟨⟨x, b1, sv1⟩, hstep, h⟩ := h
      have hst : sv.ticks ≤ sv1.ticks ∧ (b1.isOptimal = b.isOptimal ∨ LateDuring env sv sv1) := by
        unfold binStep at hstep
        simp only [R.bind_eq_ok] at hstep
        obtain ⟨l, _, ⟨q, sv2⟩, hat, hstep⟩ := hstep
        obtain ⟨t1, t2⟩ := solveWithLimit_ticks deadline hat
        cases q with
        | feasible a =>
          simp only at hstep
          split at hstep <;> (cases hstep; exact ⟨t1, .inl rfl⟩)
        | infeasible => simp only at hstep; cases hstep; exact ⟨t1, .inl rfl⟩
        | incomplete => simp only at hstep; cases hstep; exact ⟨t1, .inr (t2 rfl)⟩
      simp only at h
      split at h
      · cases h
        refine ⟨hst.1, fun h1 h2 => ?_⟩
        rcases hst.2 with e | e
        · rw [e, h1] at h2; cases h2
        · exact e
      · obtain ⟨g1, g2⟩ := ih b1 b' sv1 sv' h
        have := hst.1
        refine ⟨by omega, fun h1 h2 => ?_⟩
        rcases hst.2 with e | ⟨n, n1, n2, n3⟩
        · obtain ⟨n, n1, n2, n3⟩ := g2 (by rw [e]; exact h1) h2
          exact ⟨n, by omega, n2, n3⟩
        · exact ⟨n, n1, by omega, n3⟩
    · cases h; exact ⟨Nat.le_refl _, fun h1 h2 => by rw [h1] at h2; cases h2⟩

end

/-- **C12**, storing: a solve that returns an assignment leaves it in the cache for this scheduling, unless the
clock was late during the call. -/
theorem C12_conclusive_results_stored (pr : AProblem) (env : AEnv) (deadline : Bool) (sv sv' : ASolver) (s : Scheduling)
    (a : Assignment) (h : solveUntil pr env deadline sv s = .ok (some a, sv')) :
    (∃ c, sv'.cached = some c ∧ c.slots = s ∧ c.assignment = a ∧ c.isOptimal = true) ∨ LateDuring env sv sv' := by
  unfold solveUntil at h
  simp only [R.bind_eq_ok] at h
  obtain ⟨st, hst, h⟩ := h
  have hslots := prepare_slots hst
  cases hcf : cachedFor { sv with state := some st } st.slots with
  | some a' =>
    rw [hcf] at h
    simp only at h
    cases h
    unfold cachedFor at hcf
    split at hcf
    · rename_i c hc
      split at hcf
      · rename_i hcc
        cases hcf
        exact .inl ⟨c, hc, by rw [hcc.1, hslots], rfl, hcc.2⟩
      · cases hcf
    · cases hcf
  | none =>
    rw [hcf] at h
    simp only at h
    split at h
    · rw [R.bind_eq_ok] at h
      obtain ⟨⟨q, sv2⟩, hq, h⟩ := h
      cases q with
      | feasible a' =>
        simp only [finish, R.pure_eq, Except.ok.injEq, Prod.mk.injEq, Option.some.injEq] at h
        obtain ⟨rfl, rfl⟩ := h
        rw [if_pos trivial]
        exact .inl ⟨_, rfl, hslots, rfl, rfl⟩
      | infeasible => simp [finish] at h
      | incomplete => simp [finish] at h
    · split at h
      · cases h
      · rw [R.bind_eq_ok] at h
        obtain ⟨res, hres, h⟩ := h
        cases res with
        | none => cases h
        | some bs =>
          obtain ⟨b, sv2⟩ := bs
          obtain ⟨t1, t2⟩ := bin_late deadline _ _ _ _ _ hres
          simp only at h
          cases hbest : b.best with
          | none => rw [hbest] at h; simp [finish] at h
          | some a' =>
            rw [hbest] at h
            simp only [finish, R.pure_eq, Except.ok.injEq, Prod.mk.injEq, Option.some.injEq] at h
            obtain ⟨rfl, rfl⟩ := h
            by_cases ho : b.isOptimal = true
            · rw [if_pos ho]
              exact .inl ⟨_, rfl, hslots, rfl, ho⟩
            · rw [if_neg ho]
              exact .inr (t2 rfl (by simpa using ho))

section
variable (pr : AProblem) (env : AEnv) (hp : ProblemOk pr) (hlev : pr.input.prefLevels.Pairwise (· < ·))
  (hb : Backend.Sound env.backend) (free : Bool) (sv : ASolver) (hsv : Reach pr env free sv)
  (s : Scheduling) (hs : SchedShape pr.input s)
include hp hlev hb hsv hs

/-- **C12**, reuse: once a scheduling has been solved with the clock never late, solving it again — with or
without deadline — returns the very same assignment, without solving a linear program and without looking at
the clock. -/
theorem C12_same_scheduling_same_assignment (deadline : Bool) (a : Assignment) (sv' : ASolver)
    (h : solveUntil pr env deadline sv s = .ok (some a, sv')) (hontime : ¬ LateDuring env sv sv') (deadline' : Bool) :
    ∃ sv'', solveUntil pr env deadline' sv' s = .ok (some a, sv'') ∧ sv''.lpCount = sv'.lpCount ∧ sv''.ticks = sv'.ticks ∧
      sv''.cached = sv'.cached := by
  obtain ⟨c, h1, h2, h3, h4⟩ := (C12_conclusive_results_stored pr env deadline sv sv' s a h).resolve_right hontime
  obtain ⟨st, hst, hok⟩ := (reach_solve hp hlev hb hsv hs h).kept
  have hsd := static_spec hp.static
  obtain ⟨b, hb', _⟩ := blockedEdges_spec hsd hp.wf hs (bySlot := st.bySlot) (cov := st.covered) hok.slotted
  have hprep : prepare pr sv' s = .ok { st with blocked := b } := by
    unfold prepare
    rw [hst]
    simp only
    have := update_same (pr := pr) (prev := st) (b := b) (by rw [hok.slots]; exact hb')
    have hsl := hok.slots
    rw [← hsl]
    exact this
  refine ⟨{ sv' with state := some { st with blocked := b } }, ?_, rfl, rfl, rfl⟩
  unfold solveUntil
  simp only [hprep, R.bind_ok]
  have hcf : cachedFor { sv' with state := some { st with blocked := b } } st.slots = some a := by
    unfold cachedFor
    rw [show ({ sv' with state := some { st with blocked := b } } : ASolver).cached = some c from h1]
    simp only
    rw [if_pos ⟨by rw [h2, hok.slots], h4⟩, h3]
  rw [hcf]
  rfl

/-- **C12**, provenance: what is in the cache after a solve was there before, or is the assignment just returned
for just this scheduling. -/
theorem C12_cache_holds_results (deadline : Bool) (r : Option Assignment) (sv' : ASolver)
    (h : solveUntil pr env deadline sv s = .ok (r, sv')) :
    ∀ c, sv'.cached = some c → sv.cached = some c ∨ (c.slots = s ∧ r = some c.assignment) :=
  (reach_solve hp hlev hb hsv hs h).same

end

/-- **C12**, no mix-up: a cache filled for another scheduling has no influence at all on a solve: result, number
of linear programs and clock readings are those of a solver without cache. -/
theorem C12_other_schedulings_unaffected (pr : AProblem) (env : AEnv) (deadline : Bool) (sv : ASolver) (s : Scheduling)
    (h : ∀ c, sv.cached = some c → c.slots ≠ s) :
    (solveUntil pr env deadline sv s).map (fun r => (r.1, r.2.lpCount, r.2.ticks)) =
      (solveUntil pr env deadline { sv with cached := none } s).map (fun r => (r.1, r.2.lpCount, r.2.ticks)) :=
  solveUntil_cache deadline sv h (fun _ h => prepare_slots h)

/-- **C12**, nothing inconclusive: a solve during which the clock was late leaves the cache alone. -/
theorem C12_inconclusive_not_cached (pr : AProblem) (env : AEnv) (deadline : Bool) (sv sv' : ASolver) (s : Scheduling)
    (r : Option Assignment) (h : solveUntil pr env deadline sv s = .ok (r, sv')) (hlate : LateDuring env sv sv') :
    sv'.cached = sv.cached := by
  rcases solveUntil_onTime deadline h with e | e
  · exact e
  · obtain ⟨n, n1, n2, n3⟩ := hlate
    rw [e.2 n n1 n2] at n3; cases n3

/-- The hypotheses of the reuse theorem are met by the example: the second solve returns what the first did. -/
example : ∃ a sv1 sv2, solveUntil AsgEx.prob AsgEx.env false ASolver.new Ex.sch = .ok (some a, sv1) ∧
    solveUntil AsgEx.prob AsgEx.env true sv1 Ex.sch = .ok (some a, sv2) ∧ sv2.lpCount = sv1.lpCount := by
  obtain ⟨a, sv1, h, _⟩ := AsgEx.solved
  obtain ⟨sv2, h2, h3, _⟩ := C12_same_scheduling_same_assignment AsgEx.prob AsgEx.env AsgEx.prob_ok (by decide) ideal_sound true
    ASolver.new .new Ex.sch AsgEx.sch_shape false a sv1 h (by rintro ⟨n, _, _, h3⟩; cases h3) true
  exact ⟨a, sv1, sv2, h, h2, h3⟩

/-! ### C47 -/

/-- **C47**, edges: two edges with the same key join the same nodes. -/
theorem C47_edge_keys_injective (a b a' b' k : Nat) (h : edgeId a b = .ok k) (h' : edgeId a' b' = .ok k) : a = a' ∧ b = b' := by
  unfold edgeId at h h'
  simp only [R.bind_eq_ok, toU32_eq_ok] at h h'
  obtain ⟨x, ⟨_, rfl⟩, y, ⟨hy, rfl⟩, h⟩ := h
  obtain ⟨x', ⟨_, rfl⟩, y', ⟨hy', rfl⟩, h'⟩ := h'
  cases h
  simp only [R.pure_eq, Except.ok.injEq] at h'
  obtain ⟨h1, h2⟩ := makeLong_inj hy' hy h'
  exact ⟨h1.symm, h2.symm⟩

/-- A node of the network. -/
inductive NodeId where
  | chooser (p t : Nat)
  | choice (c : Nat)
  | slot (t : Nat)

/-- Its key. -/
def NodeId.key : NodeId → R Nat
  | .chooser p t => nodeChooserKey p t
  | .choice c => nodeChoiceKey c
  | .slot t => nodeSlotKey t

/-- **C47**, nodes: with fewer than 2147483647 choosers distinct nodes have distinct keys. -/
theorem C47_node_keys_injective (n n' : NodeId) (k : Nat) (hn : ∀ p t, n = .chooser p t → p < 2147483646)
    (hn' : ∀ p t, n' = .chooser p t → p < 2147483646) (h : n.key = .ok k) (h' : n'.key = .ok k) : n = n' := by
  have key : ∀ n : NodeId, (∀ p t, n = .chooser p t → p < 2147483646) → n.key = .ok k →
      (∃ p t, n = .chooser p t ∧ t ≤ u32Max ∧ p < 2147483646 ∧ k = makeLong p t) ∨
      (∃ c, n = .choice c ∧ c ≤ u32Max ∧ k = makeLong choiceIdHigh c) ∨ (∃ t, n = .slot t ∧ t ≤ u32Max ∧ k = makeLong slotIdHigh t) := by
    intro n hn h
    cases n with
    | chooser p t =>
      unfold NodeId.key nodeChooserKey at h
      simp only [R.bind_eq_ok, toU32_eq_ok] at h
      obtain ⟨x, ⟨_, rfl⟩, y, ⟨hy, rfl⟩, h⟩ := h
      cases h
      exact .inl ⟨_, _, rfl, hy, hn _ _ rfl, rfl⟩
    | choice c =>
      unfold NodeId.key nodeChoiceKey at h
      simp only [R.bind_eq_ok, toU32_eq_ok] at h
      obtain ⟨y, ⟨hy, rfl⟩, h⟩ := h
      cases h
      exact .inr (.inl ⟨_, rfl, hy, rfl⟩)
    | slot c =>
      unfold NodeId.key nodeSlotKey at h
      simp only [R.bind_eq_ok, toU32_eq_ok] at h
      obtain ⟨y, ⟨hy, rfl⟩, h⟩ := h
      cases h
      exact .inr (.inr ⟨_, rfl, hy, rfl⟩)
  rcases key n hn h with ⟨p, t, rfl, ht, hp, e⟩ | ⟨c, rfl, hc, e⟩ | ⟨c, rfl, hc, e⟩ <;>
    rcases key n' hn' h' with ⟨p', t', rfl, ht', hp', e'⟩ | ⟨c', rfl, hc', e'⟩ | ⟨c', rfl, hc', e'⟩ <;>
    · obtain ⟨h1, h2⟩ := makeLong_inj (by assumption) (by assumption) (e.symm.trans e')
      first
      | (subst h1; subst h2; rfl)
      | (subst h2; rfl)
      | (exfalso; unfold choiceIdHigh at *; omega)
      | (exfalso; unfold slotIdHigh at *; omega)
      | (exfalso; unfold slotIdHigh choiceIdHigh at *; omega)

/-- The bound on the chooser index cannot be dropped: at 2147483646 a chooser's node in slot `c` has the key of
choice `c`. -/
theorem C47_collision_beyond (c : Nat) (hc : c ≤ u32Max) :
    ∃ k, nodeChooserKey 2147483646 c = .ok k ∧ nodeChoiceKey c = .ok k := by
  unfold nodeChooserKey nodeChoiceKey
  rw [toU32_eq_ok.2 ⟨by decide, rfl⟩, R.bind_ok, toU32_eq_ok.2 ⟨hc, rfl⟩, toU32_eq_ok.2 ⟨hc, rfl⟩]
  exact ⟨_, rfl, rfl⟩

theorem addStep_keys (key : Nat → R Nat) : ∀ (l : List Nat) (f : MipFlow) (acc : List Nat) (r : MipFlow × List Nat),
    l.foldlM (StaticData.addStep key) (f, acc) = .ok r →
    ∃ ks, l.mapM key = .ok ks ∧ r.1.nodeMap.map Prod.fst = ks.reverse ++ f.nodeMap.map Prod.fst := by
  intro l
  induction l with
  | nil => intro f acc r h; cases h; exact ⟨[], rfl, rfl⟩
  | cons k l ih =>
    intro f acc r h
    rw [List.foldlM_cons, R.bind_eq_ok] at h
    obtain ⟨⟨f1, acc1⟩, h1, h⟩ := h
    unfold StaticData.addStep at h1
    rw [R.bind_eq_ok] at h1
    obtain ⟨x, hx, h1⟩ := h1
    simp only [R.pure_eq, Except.ok.injEq, Prod.mk.injEq] at h1
    obtain ⟨rfl, rfl⟩ := h1
    obtain ⟨ks, h2, h3⟩ := ih _ _ r h
    refine ⟨x :: ks, by rw [List.mapM_cons, hx, R.bind_ok, h2]; rfl, ?_⟩
    rw [h3]
    simp [MipFlow.addKeyedNode, MipFlow.addNode]

theorem chooserStep_keys (ns : Nat) : ∀ (l : List Nat) (acc r : MipFlow × List (List Nat)),
    l.foldlM (StaticData.chooserStep ns) acc = .ok r →
    ∃ kss, l.mapM (fun p => (List.range ns).mapM (nodeChooserKey p)) = .ok kss ∧
      r.1.nodeMap.map Prod.fst = kss.flatten.reverse ++ acc.1.nodeMap.map Prod.fst := by
  intro l
  induction l with
  | nil => intro acc r h; cases h; exact ⟨[], rfl, rfl⟩
  | cons k l ih =>
    intro acc r h
    rw [List.foldlM_cons, R.bind_eq_ok] at h
    obtain ⟨acc1, h1, h⟩ := h
    unfold StaticData.chooserStep at h1
    rw [R.bind_eq_ok] at h1
    obtain ⟨q, hq, h1⟩ := h1
    obtain ⟨ks, h2, h3⟩ := addStep_keys _ _ _ _ _ hq
    cases h1
    obtain ⟨kss, h4, h5⟩ := ih _ r h
    refine ⟨ks :: kss, by rw [List.mapM_cons, h2, R.bind_ok, h4]; rfl, ?_⟩
    rw [h5]
    simp [h3]

theorem mapM_key {key : Nat → R Nat} {hi : Nat} (hk : ∀ k x, key k = .ok x → k ≤ u32Max ∧ x = makeLong hi k) :
    ∀ {l ks : List Nat}, l.mapM key = .ok ks → ks = l.map (makeLong hi) ∧ ∀ k ∈ l, k ≤ u32Max := by
  intro l
  induction l with
  | nil => intro ks h; simp at h; subst h; simp
  | cons a l ih =>
    intro ks h
    rw [List.mapM_cons, R.bind_eq_ok] at h
    obtain ⟨x, hx, h⟩ := h
    rw [R.bind_eq_ok] at h
    obtain ⟨xs, hxs, h⟩ := h
    cases h
    obtain ⟨h1, h2⟩ := ih hxs
    obtain ⟨h3, rfl⟩ := hk a x hx
    subst h1
    refine ⟨rfl, ?_⟩
    intro k hk'
    rcases List.mem_cons.1 hk' with rfl | hk'
    · exact h3
    · exact h2 k hk'

/-- **C47**, the network: the nodes of the static data are entered under pairwise distinct keys. -/
theorem C47_network_node_keys_distinct (i : InputData) (sd : StaticData) (hnp : i.np ≤ 2147483646) (h : StaticData.new i = .ok sd) :
    (sd.baseFlow.nodeMap.map Prod.fst).Nodup ∧ sd.baseFlow.nodeMap.length = i.np * i.ns + i.nc + i.ns := by
  unfold StaticData.new at h
  simp only [R.bind_eq_ok] at h
  obtain ⟨r1, h1, r2, h2, r3, h3, h⟩ := h
  cases h
  obtain ⟨kss, a1, a2⟩ := chooserStep_keys _ _ _ _ h1
  obtain ⟨ks2, b1, b2⟩ := addStep_keys _ _ _ _ _ h2
  obtain ⟨ks3, c1, c2⟩ := addStep_keys _ _ _ _ _ h3
  have kc : ∀ p k x, nodeChooserKey p k = .ok x → k ≤ u32Max ∧ x = makeLong p k := by
    intro p k x h
    unfold nodeChooserKey at h
    simp only [R.bind_eq_ok, toU32_eq_ok] at h
    obtain ⟨_, ⟨_, rfl⟩, _, ⟨hy, rfl⟩, h⟩ := h
    cases h
    exact ⟨hy, rfl⟩
  obtain ⟨rfl, b3⟩ := mapM_key (hi := choiceIdHigh) (by
    intro k x h
    unfold nodeChoiceKey at h
    simp only [R.bind_eq_ok, toU32_eq_ok] at h
    obtain ⟨_, ⟨hy, rfl⟩, h⟩ := h
    cases h
    exact ⟨hy, rfl⟩) b1
  obtain ⟨rfl, c3⟩ := mapM_key (hi := slotIdHigh) (by
    intro k x h
    unfold nodeSlotKey at h
    simp only [R.bind_eq_ok, toU32_eq_ok] at h
    obtain ⟨_, ⟨hy, rfl⟩, h⟩ := h
    cases h
    exact ⟨hy, rfl⟩) c1
  have a3 : kss = (List.range i.np).map (fun p => (List.range i.ns).map (makeLong p)) := by
    have : ∀ (l : List Nat) kss, l.mapM (fun p => (List.range i.ns).mapM (nodeChooserKey p)) = .ok kss →
        kss = l.map (fun p => (List.range i.ns).map (makeLong p)) := by
      intro l
      induction l with
      | nil => intro ks h; simp at h; subst h; rfl
      | cons a l ih =>
        intro ks h
        rw [List.mapM_cons, R.bind_eq_ok] at h
        obtain ⟨x, hx, h⟩ := h
        rw [R.bind_eq_ok] at h
        obtain ⟨xs, hxs, h⟩ := h
        cases h
        rw [List.map_cons, ← ih xs hxs, ← (mapM_key (kc a) hx).1]
    exact this _ _ a1
  subst a3
  have hinj : ∀ hi, ∀ l : List Nat, l.Nodup → (∀ k ∈ l, k ≤ u32Max) → (l.map (makeLong hi)).Nodup := by
    intro hi l hl _
    refine (List.nodup_map_iff ?_).2 hl
    intro x y hxy
    unfold makeLong at hxy
    omega
  have hpos : ∀ t ∈ List.range i.ns, t ≤ u32Max := c3
  have hch : ((List.range i.np).map (fun p => (List.range i.ns).map (makeLong p))).flatten.Nodup := by
    rw [List.nodup_flatten]
    refine ⟨?_, ?_⟩
    · intro l hl
      obtain ⟨p, _, rfl⟩ := List.mem_map.1 hl
      exact hinj p _ List.nodup_range hpos
    · rw [List.pairwise_map]
      refine List.nodup_range.imp ?_
      intro p q hne x hx hy
      obtain ⟨t, ht, rfl⟩ := List.mem_map.1 hx
      obtain ⟨t', ht', e⟩ := List.mem_map.1 hy
      exact hne (makeLong_inj (hpos t' ht') (hpos t ht) e).1.symm
  have hchmem : ∀ x ∈ ((List.range i.np).map (fun p => (List.range i.ns).map (makeLong p))).flatten, ∃ p t, p < 2147483646 ∧ t ≤ u32Max ∧ x = makeLong p t := by
    intro x hx
    obtain ⟨l, hl, hx⟩ := List.mem_flatten.1 hx
    obtain ⟨p, hp, rfl⟩ := List.mem_map.1 hl
    obtain ⟨t, ht, rfl⟩ := List.mem_map.1 hx
    refine ⟨p, t, ?_, hpos t ht, rfl⟩
    simp at hp; omega
  have hkeys : r3.1.nodeMap.map Prod.fst = ((List.range i.ns).map (makeLong slotIdHigh)).reverse ++
      (((List.range i.nc).map (makeLong choiceIdHigh)).reverse ++
        (((List.range i.np).map (fun p => (List.range i.ns).map (makeLong p))).flatten.reverse)) := by
    rw [c2, b2, a2]
    simp [MipFlow.empty]
  refine ⟨?_, ?_⟩
  · show (r3.1.nodeMap.map Prod.fst).Nodup
    rw [hkeys, List.nodup_append, List.nodup_append]
    refine ⟨List.nodup_reverse.2 (hinj _ _ List.nodup_range c3), ⟨List.nodup_reverse.2 (hinj _ _ List.nodup_range b3),
      List.nodup_reverse.2 hch, ?_⟩, ?_⟩
    · intro x hx y hy
      rw [List.mem_reverse] at hx hy
      obtain ⟨c, hc, rfl⟩ := List.mem_map.1 hx
      obtain ⟨p, t, hp, ht, rfl⟩ := hchmem y hy
      intro e
      have := (makeLong_inj (b3 c hc) ht e).1
      unfold choiceIdHigh at this; omega
    · intro x hx y hy
      rw [List.mem_reverse] at hx
      obtain ⟨c, hc, rfl⟩ := List.mem_map.1 hx
      intro e
      rcases List.mem_append.1 hy with hy | hy
      · rw [List.mem_reverse] at hy
        obtain ⟨c', hc', rfl⟩ := List.mem_map.1 hy
        have := (makeLong_inj (c3 c hc) (b3 c' hc') e).1
        unfold choiceIdHigh slotIdHigh at this; omega
      · rw [List.mem_reverse] at hy
        obtain ⟨p, t, hp, ht, rfl⟩ := hchmem y hy
        have := (makeLong_inj (c3 c hc) ht e).1
        unfold slotIdHigh at this; omega
  · show r3.1.nodeMap.length = _
    have := congrArg List.length hkeys
    simp only [List.length_map, List.length_append, List.length_reverse, List.length_range, List.length_flatten, List.map_map] at this
    rw [this]
    have hs : ((List.range i.np).map (List.length ∘ fun p => (List.range i.ns).map (makeLong p))).sum = i.np * i.ns := by
      have : (List.length ∘ fun p => (List.range i.ns).map (makeLong p)) = fun _ => i.ns := by funext p; simp
      rw [this, List.map_const']
      simp
    omega

example : ∃ sd, StaticData.new Ex.inp = .ok sd ∧ sd.baseFlow.nodeMap.length = 12 :=
  ⟨AsgEx.prob.static, AsgEx.prob_ok.static, by decide +kernel⟩

end Wassign
