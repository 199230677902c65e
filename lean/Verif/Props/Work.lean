import Verif.Props.Lps
import Verif.Props.Counters
import Verif.Props.Status
/-
C85: the search does not waste work.
-/
namespace Wassign
open Spec Threaded Main

/-! ## The assignment solver -/
section
variable {pr : AProblem} {env : AEnv} {dl : Bool}

theorem solveWithLimit_one {sv sv' : ASolver} {st : ScheduleState} {limit : Nat} {r : LimitResult}
    (hs : Asg.solveWithLimit pr env dl st limit sv = .ok (r, sv')) : sv'.lpCount ≤ sv.lpCount + 1 := by
  have hclk : ∀ v : ASolver, (Asg.clock env dl v).2.lpCount = v.lpCount := by
    intro v; unfold Asg.clock; split <;> rfl
  unfold Asg.solveWithLimit at hs
  simp only at hs
  split at hs
  · cases hs; rw [hclk]; omega
  · rw [R.bind_eq_ok] at hs
    obtain ⟨f, _, hs⟩ := hs
    split at hs
    · cases hs; rw [hclk]; show (Asg.clock env dl sv).2.lpCount + 1 ≤ _; rw [hclk]
    · split at hs
      · cases hs; rw [hclk, hclk]; show (Asg.clock env dl sv).2.lpCount + 1 ≤ _; rw [hclk]
      · rw [R.bind_eq_ok] at hs
        obtain ⟨a, _, hs⟩ := hs
        cases hs; rw [hclk]; show (Asg.clock env dl sv).2.lpCount + 1 ≤ _; rw [hclk]

/-- A search over `n` levels makes at most `k` attempts, where `2 ^ k ≤ 2 * n`. -/
theorem binLoop_count {attempt : Nat → ASolver → R (LimitResult × ASolver)}
    (hat : ∀ l sv r sv', attempt l sv = .ok (r, sv') → sv'.lpCount ≤ sv.lpCount + 1) {levels : List Nat} {start : Nat} :
    ∀ (fuel k : Nat) (b b' : Asg.Bin) (sv sv' : ASolver), start ≤ b.low → b.high + 1 - b.low < 2 ^ k →
      Asg.binLoop attempt levels start fuel b sv = .ok (some (b', sv')) → sv'.lpCount ≤ sv.lpCount + k := by
  intro fuel
  induction fuel with
  | zero =>
    intro k b b' sv sv' _ _ h
    unfold Asg.binLoop at h
    split at h
    · cases h
    · cases h; omega
  | succ fuel ih =>
    intro k b b' sv sv' hst hk h
    unfold Asg.binLoop at h
    split at h
    · rename_i hle
      cases k with
      | zero => omega
      | succ k =>
        rw [R.bind_eq_ok] at h
        obtain ⟨⟨stop, b1, sv1⟩, h1, h⟩ := h
        unfold Asg.binStep at h1
        rw [R.bind_eq_ok] at h1
        obtain ⟨limit, _, h1⟩ := h1
        rw [R.bind_eq_ok] at h1
        obtain ⟨⟨x, sv2⟩, h2, h1⟩ := h1
        have h3 := hat _ _ _ _ h2
        rw [Nat.pow_succ] at hk
        simp only at h1
        cases x with
        | feasible a =>
          simp only at h1
          split at h1
          · cases h1
            simp only [if_true] at h
            cases h; omega
          · cases h1
            simp only [Bool.false_eq_true, if_false] at h
            have := ih k { b with best := some a, high := b.low + (b.high - b.low) / 2 - 1 } _ _ _ hst (by show b.low + (b.high - b.low) / 2 - 1 + 1 - b.low < 2 ^ k; omega) h
            omega
        | infeasible =>
          cases h1
          simp only [Bool.false_eq_true, if_false] at h
          have := ih k _ _ _ _ (by show start ≤ b.low + (b.high - b.low) / 2 + 1; omega) (by show b.high + 1 - (b.low + (b.high - b.low) / 2 + 1) < 2 ^ k; omega) h
          omega
        | incomplete =>
          cases h1
          simp only [Bool.false_eq_true, if_false] at h
          have := ih k _ _ _ _ (by show start ≤ b.low + (b.high - b.low) / 2 + 1; omega) (by show b.high + 1 - (b.low + (b.high - b.low) / 2 + 1) < 2 ^ k; omega) h
          omega
    · cases h; omega

/-- The levels from the first one that is not below the bound. -/
theorem levels_from (levels : List Nat) (bound : Nat) (h : levels ≠ []) :
    levels.length - Asg.startIndex levels bound = max 1 (levels.dropWhile (fun l => decide (l < bound))).length ∧
    Asg.startIndex levels bound ≤ levels.length - 1 := by
  have key : ∀ ls : List Nat, match ls.findIdx? (fun l => decide (bound ≤ l)) with
      | some k => k < ls.length ∧ (ls.dropWhile (fun l => decide (l < bound))).length = ls.length - k
      | none => (ls.dropWhile (fun l => decide (l < bound))) = [] := by
    intro ls
    induction ls with
    | nil => rfl
    | cons l ls ih =>
      rw [List.findIdx?_cons]
      by_cases hl : bound ≤ l
      · simp [hl, Nat.not_lt.2 hl]
      · simp only [decide_eq_false hl, Bool.false_eq_true, if_false]
        rw [List.dropWhile_cons_of_pos (by simpa using hl)]
        cases e : ls.findIdx? (fun l => decide (bound ≤ l)) with
        | none => rw [e] at ih; exact ih
        | some k =>
          rw [e] at ih
          simp only [Option.map_some, List.length_cons]
          exact ⟨by omega, by rw [ih.2]; omega⟩
  have hpos : 0 < levels.length := List.length_pos_iff.2 h
  have := key levels
  unfold Asg.startIndex
  cases e : levels.findIdx? (fun l => decide (bound ≤ l)) with
  | none =>
    rw [e] at this
    rw [this]
    simp only [List.length_nil]
    omega
  | some k =>
    rw [e] at this
    simp only
    omega

/-- **C85**: the assignments for one scheduling take few integer programs: at most one, and one more for each time the number of
preference levels (from the bound on) can be halved. -/
theorem C85_programs_per_scheduling (sv sv' : ASolver) (s : Scheduling) (r : Option Assignment)
    (hs : Asg.solveUntil pr env dl sv s = .ok (r, sv')) :
    sv'.lpCount ≤ sv.lpCount + 1 + (if pr.greedy then 0 else Nat.log2 (pr.input.prefLevels.dropWhile (fun l => decide (l < pr.bound))).length) := by
  unfold Asg.solveUntil at hs
  simp only at hs
  rw [R.bind_eq_ok] at hs
  obtain ⟨st, _, hs⟩ := hs
  have hfin : ∀ (v : ASolver) (a : Option Assignment) (sl : List (Option Nat)) (o : Bool), (Asg.finish v a sl o).2.lpCount = v.lpCount := by
    intro v a sl o
    unfold Asg.finish
    split
    · simp only; split <;> rfl
    · rfl
  split at hs
  · cases hs; simp only; omega
  · split at hs
    · rw [R.bind_eq_ok] at hs
      obtain ⟨⟨x, sv1⟩, h1, hs⟩ := hs
      have h2 := solveWithLimit_one h1
      simp only at hs
      split at hs <;>
      · have e := congrArg Prod.snd (Except.ok.inj hs)
        rw [← show _ = sv' from e, hfin]
        exact Nat.le_trans h2 (Nat.le_add_right _ _)
    · rename_i hgr
      split at hs
      · cases hs; simp only; omega
      · rename_i hlv
        rw [R.bind_eq_ok] at hs
        obtain ⟨x, h1, hs⟩ := hs
        cases x with
        | none => cases hs
        | some y =>
          obtain ⟨e1, e2⟩ := levels_from pr.input.prefLevels pr.bound (fun h => hlv (by rw [h]; rfl))
          have h2 := binLoop_count (fun l v x v' h => solveWithLimit_one h) _
            (Nat.log2 (pr.input.prefLevels.dropWhile (fun l => decide (l < pr.bound))).length + 1)
            ⟨Asg.startIndex pr.input.prefLevels pr.bound, pr.input.prefLevels.length - 1, none, true⟩ y.1 _ y.2 (Nat.le_refl _)
            (by
              show pr.input.prefLevels.length - 1 + 1 - Asg.startIndex pr.input.prefLevels pr.bound < _
              have h0 : pr.input.prefLevels.length - 1 + 1 = pr.input.prefLevels.length := by omega
              rw [h0, e1]
              exact Nat.max_lt.2 ⟨by rw [Nat.pow_succ]; have := Nat.one_le_two_pow (n := Nat.log2 (pr.input.prefLevels.dropWhile (fun l => decide (l < pr.bound))).length); omega,
                Nat.lt_log2_self⟩) h1
          have e := congrArg Prod.snd (Except.ok.inj hs)
          rw [← show _ = sv' from e, hfin, if_neg hgr]
          have h3 : y.2.lpCount ≤ sv.lpCount + _ := h2
          omega

end

/-! ## Hill climbing -/
section
variable {σ τ ρ : Type}

theorem trySwap_count {g : RngOps σ} {draws : Nat} {i : InputData} {s : Scheduling} {res l : List Scheduling} {rs rs' : σ}
    (h : Hill.trySwap g draws i s res rs = .ok (l, rs')) : l.length ≤ res.length + 1 := by
  unfold Hill.trySwap at h
  rw [R.bind_eq_ok] at h
  obtain ⟨w, _, h⟩ := h
  rw [R.bind_eq_ok] at h
  obtain ⟨ok, _, h⟩ := h
  cases h
  split <;> simp

theorem moveLoop_count {g : RngOps σ} {draws maxN : Nat} {i : InputData} {s : Scheduling} : ∀ (keys : List Nat) {k : Nat}
    {res l : List Scheduling} {rs rs' : σ}, Hill.moveLoop g draws maxN i s keys k res rs = .ok (l, rs') → res.length ≤ maxN + 1 →
    l.length ≤ maxN + 1 := by
  intro keys
  induction keys with
  | nil => intro k res l rs rs' h hr; cases h; exact hr
  | cons key ks ih =>
    intro k res l rs rs' h hr
    unfold Hill.moveLoop at h
    split at h
    · cases h; exact hr
    · rename_i hlt
      split at h
      · cases h; exact hr
      · rw [R.bind_eq_ok] at h
        obtain ⟨n, _, h⟩ := h
        rw [R.bind_eq_ok] at h
        obtain ⟨ok, _, h⟩ := h
        split at h
        · exact ih h hr
        · split at h
          · rw [R.bind_eq_ok] at h
            obtain ⟨w, hw, h⟩ := h
            have := trySwap_count (l := w.1) (rs' := w.2) hw
            rw [List.length_append] at this
            simp only [List.length_cons, List.length_nil] at this
            exact ih h (by omega)
          · exact ih h (by simp only [List.length_append, List.length_cons, List.length_nil]; omega)

theorem fillLoop_count {g : RngOps σ} {draws maxN : Nat} {i : InputData} {s : Scheduling} : ∀ (k : Nat)
    {res l : List Scheduling} {rs rs' : σ}, Hill.fillLoop g draws maxN i s k res rs = .ok (l, rs') → res.length ≤ maxN + 1 →
    l.length ≤ maxN + 1 := by
  intro k
  induction k with
  | zero => intro res l rs rs' h hr; cases h; exact hr
  | succ k ih =>
    intro res l rs rs' h hr
    unfold Hill.fillLoop at h
    split at h
    · cases h; exact hr
    · rw [R.bind_eq_ok] at h
      obtain ⟨w, hw, h⟩ := h
      have := trySwap_count (l := w.1) (rs' := w.2) hw
      exact ih h (by omega)

theorem pickNeighbors_count {g : RngOps σ} {draws maxN : Nat} {i : InputData} {s : Scheduling} {l : List Scheduling} {rs rs' : σ}
    (h : Hill.pickNeighbors g draws maxN i s rs = .ok (l, rs')) : l.length ≤ maxN + 1 := by
  unfold Hill.pickNeighbors at h
  rw [R.bind_eq_ok] at h
  obtain ⟨r, hr, h⟩ := h
  have h1 := moveLoop_count _ (l := r.1) (rs' := r.2) hr (by simp)
  split at h
  · exact fillLoop_count _ h h1
  · cases h; exact h1

/-- How many better solutions were announced. -/
abbrev news (st : HState σ τ) : Nat := (announced st.events).length

variable {pr : HProblem} {dl : Bool}

theorem news_publish (st : HState σ τ) (e : Event) : news (Hill.publish st e) = news st + (announced [e]).length := by
  unfold news Hill.publish
  rw [Hill.announced_append, List.length_append]

theorem lpEvents_silent (w a b : Nat) : announced (Hill.lpEvents w a b) = [] := by
  unfold announced Hill.lpEvents
  rw [List.filterMap_map]
  exact List.filterMap_eq_nil_iff.2 (fun _ _ => rfl)

theorem hclock_count (env : HEnv σ τ) (st : HState σ τ) : (Hill.clock env dl st).2.count = st.count ∧ news (Hill.clock env dl st).2 = news st := by
  unfold Hill.clock; split <;> exact ⟨rfl, rfl⟩

theorem solveAssignment_news {env : HEnv σ τ} {st st' : HState σ τ} {s : Scheduling} {sol : Solution}
    (h : Hill.solveAssignment env st s = .ok (sol, st')) : st'.count = st.count + 1 ∧ news st' = news st := by
  unfold Hill.solveAssignment at h
  rw [R.bind_eq_ok] at h
  obtain ⟨r, _, h⟩ := h
  have key : ∀ x : HState σ τ, x = Hill.publish { st with
      asg := r.2
      count := st.count + 1
      events := st.events ++ Hill.lpEvents env.worker (env.lpOf st.asg) (env.lpOf r.2) } (Event.ofAssignments env.worker (st.count + 1)) →
      x.count = st.count + 1 ∧ news x = news st := by
    rintro x rfl
    refine ⟨rfl, ?_⟩
    rw [news_publish]
    show (announced (st.events ++ _)).length + 0 = _
    rw [Hill.announced_append, lpEvents_silent, List.append_nil]
    rfl
  simp only at h
  split at h <;> (cases h; exact key _ rfl)

theorem round_count {env : HEnv σ τ} : ∀ (ns : List Scheduling) (f : Bool) (be be' : Hill.Best) (st st' : HState σ τ) (x y : Bool),
    Hill.round pr env dl ns f be st = .ok (x, y, be', st') →
    st'.count ≤ st.count + ns.length ∧ st.count ≤ st'.count ∧ news st ≤ news st' ∧ (y = true → f = true ∨ news st < news st') := by
  intro ns
  induction ns with
  | nil => intro f be be' st st' x y h; cases h; exact ⟨Nat.le_refl _, Nat.le_refl _, Nat.le_refl _, fun h => .inl h⟩
  | cons n ns ih =>
    intro f be be' st st' x y h
    obtain ⟨c1, c2⟩ := hclock_count (dl := dl) env st
    unfold Hill.round at h
    simp only at h
    split at h
    · cases h
      rw [c1, c2]
      exact ⟨by omega, Nat.le_refl _, Nat.le_refl _, fun h => .inl h⟩
    · rw [R.bind_eq_ok] at h
      obtain ⟨⟨sol, st1⟩, h1, h⟩ := h
      obtain ⟨a1, a2⟩ := solveAssignment_news h1
      rw [R.bind_eq_ok] at h
      obtain ⟨sc, _, h⟩ := h
      simp only at h
      split at h
      · obtain ⟨b1, b0, b2, b3⟩ := ih _ _ _ _ _ _ _ h
        rw [news_publish] at b2 b3
        have e : (announced [Event.ofBest env.worker sol sc]).length = 1 := rfl
        have e2 : (Hill.publish st1 (Event.ofBest env.worker sol sc)).count = st1.count := rfl
        rw [e] at b2 b3
        rw [e2] at b1 b0
        rw [List.length_cons]
        exact ⟨by omega, by omega, by omega, fun _ => .inr (by omega)⟩
      · obtain ⟨b1, b0, b2, b3⟩ := ih _ _ _ _ _ _ _ h
        rw [List.length_cons]
        refine ⟨by omega, by omega, by omega, fun hy => ?_⟩
        rcases b3 hy with h | h
        · exact .inl h
        · exact .inr (by omega)

theorem loop_count {env : HEnv σ τ} : ∀ (k : Nat) (be be' : Hill.Best) (st st' : HState σ τ),
    Hill.loop pr env dl k be st = .ok (be', st') →
    st'.count + (pr.maxNeighbors + 1) * news st ≤ st.count + (pr.maxNeighbors + 1) * (1 + news st') ∧ st.count ≤ st'.count ∧
    news st ≤ news st' := by
  intro k
  induction k with
  | zero => intro be be' st st' h; cases h
  | succ k ih =>
    intro be be' st st' h
    obtain ⟨c1, c2⟩ := hclock_count (dl := dl) env st
    unfold Hill.loop at h
    simp only at h
    split at h
    · cases h
      rw [c1, c2, Nat.mul_add]
      exact ⟨by omega, Nat.le_refl _, Nat.le_refl _⟩
    · rw [R.bind_eq_ok] at h
      obtain ⟨s, _, h⟩ := h
      rw [R.bind_eq_ok] at h
      obtain ⟨ns, hn, h⟩ := h
      have hlen := pickNeighbors_count (l := ns.1) (rs' := ns.2) hn
      rw [R.bind_eq_ok] at h
      obtain ⟨⟨x, y, be1, st1⟩, h1, h⟩ := h
      obtain ⟨b1, b0, b2, b3⟩ := round_count _ _ _ _ _ _ _ _ h1
      have e1 : ({ (Hill.clock env dl st).2 with rng := ns.2 } : HState σ τ).count = st.count := c1
      have e2 : news ({ (Hill.clock env dl st).2 with rng := ns.2 } : HState σ τ) = news st := c2
      rw [e1] at b1 b0
      rw [e2] at b2 b3
      have hstop : st1.count + (pr.maxNeighbors + 1) * news st ≤ st.count + (pr.maxNeighbors + 1) * (1 + news st1) ∧ st.count ≤ st1.count ∧
          news st ≤ news st1 := by
        refine ⟨?_, b0, b2⟩
        have := Nat.mul_le_mul_left (pr.maxNeighbors + 1) b2
        rw [Nat.mul_add]
        omega
      simp only at h
      split at h
      · cases h; exact hstop
      · split at h
        · rename_i hy
          obtain ⟨d1, d0, d2⟩ := ih _ _ _ _ h
          have hlt : news st + 1 ≤ news st1 := by
            rcases b3 hy with h | h
            · cases h
            · exact h
          refine ⟨?_, by omega, by omega⟩
          have := Nat.mul_le_mul_left (pr.maxNeighbors + 1) hlt
          rw [Nat.mul_add] at this
          omega
        · cases h; exact hstop

/-- **C85**: hill climbing solves one assignment for its start, and then for each better solution it announces at most one for each
neighbour that may be picked. -/
theorem C85_assignments_per_climb (pr : HProblem) (env : HEnv σ τ) (dl : Bool) (st st' : HState σ τ) (s : Scheduling) (sol : Solution)
    (h : Hill.solve pr env dl st s = .ok (sol, st')) : ∃ better, (announced st'.events).length = (announced st.events).length + better ∧
      st.count + 1 ≤ st'.count ∧ st'.count ≤ st.count + 1 + (pr.maxNeighbors + 1) * better := by
  unfold Hill.solve at h
  rw [R.bind_eq_ok] at h
  obtain ⟨⟨sol0, st1⟩, h1, h⟩ := h
  obtain ⟨a1, a2⟩ := solveAssignment_news h1
  rw [R.bind_eq_ok] at h
  obtain ⟨sc, _, h⟩ := h
  simp only at h
  split at h
  · cases h; exact ⟨0, a2, by omega, by omega⟩
  · rw [R.bind_eq_ok] at h
    obtain ⟨⟨be, st2⟩, h2, h⟩ := h
    cases h
    obtain ⟨b1, b0, b2⟩ := loop_count _ _ _ _ _ h2
    rw [news_publish] at b1 b2
    have e : (announced [Event.ofBest env.worker sol0 sc]).length = 1 := rfl
    have e2 : (Hill.publish st1 (Event.ofBest env.worker sol0 sc)).count = st1.count := rfl
    rw [e] at b1 b2
    rw [e2] at b1 b0
    refine ⟨news st2 - news st, by show news st2 = news st + _; omega, by show _ ≤ st2.count; omega, ?_⟩
    show st2.count ≤ _
    obtain ⟨d, hd⟩ : ∃ d, news st2 = news st + d := ⟨news st2 - news st, by omega⟩
    have e3 : news st2 - news st = d := by omega
    rw [e3]
    rw [hd, a2, Nat.mul_add, Nat.mul_add, Nat.mul_add] at b1
    omega

/-- What holds of a worker: it has solved at least one assignment for each iteration, and at most one and those of the climbing. -/
def Thrifty (maxN : Nat) (st : SState σ τ ρ) : Prop :=
  st.progress.iterations ≤ st.hill.count ∧ st.hill.count ≤ st.progress.iterations + (maxN + 1) * (announced st.hill.events).length

theorem iterate_thrifty {env : SEnv σ τ ρ} : ∀ (n k : Nat) (st st' : SState σ τ ρ), Thrifty pr.maxNeighbors st →
    Shotgun.iterate pr env dl n st = .ok (k, st') → Thrifty pr.maxNeighbors st' := by
  intro n
  induction n with
  | zero => intro k st st' h hs; cases hs; exact h
  | succ n ih =>
    intro k st st' h hs
    have h1 : Thrifty pr.maxNeighbors (Shotgun.clock env dl st).2 := by unfold Shotgun.clock; split <;> exact h
    unfold Shotgun.iterate at hs
    simp only at hs
    split at hs
    · cases hs; exact h1
    · rw [R.bind_eq_ok] at hs
      obtain ⟨⟨x, r⟩, _, hs⟩ := hs
      cases x with
      | none => cases hs; exact h1
      | some s =>
        simp only at hs
        rw [R.bind_eq_ok] at hs
        obtain ⟨⟨sol, h'⟩, h2, hs⟩ := hs
        obtain ⟨better, c1, c2, c3⟩ := C85_assignments_per_climb _ _ _ _ _ _ _ h2
        rw [R.bind_eq_ok] at hs
        obtain ⟨sc, _, hs⟩ := hs
        rw [R.bind_eq_ok] at hs
        obtain ⟨⟨k', st2⟩, h4, hs⟩ := hs
        cases hs
        refine ih _ _ _ ?_ h4
        generalize (Shotgun.clock env dl st).2 = q at h1 c1 c2 c3
        have hrec : ∀ q' : SState σ τ ρ, (Shotgun.record env sol sc q').progress.iterations = q'.progress.iterations ∧
            (Shotgun.record env sol sc q').hill.count = q'.hill.count ∧ news q'.hill ≤ news (Shotgun.record env sol sc q').hill := by
          intro q'
          unfold Shotgun.record
          split
          · exact ⟨rfl, rfl, by rw [news_publish]; exact Nat.le_add_right _ _⟩
          · exact ⟨rfl, rfl, Nat.le_refl _⟩
        obtain ⟨d1, d2, d3⟩ := hrec { q with
          sched := r
          hill := h' }
        unfold Thrifty at h1 ⊢
        obtain ⟨p1, p2⟩ := h1
        have p2 : q.hill.count ≤ q.progress.iterations + (pr.maxNeighbors + 1) * news q.hill := p2
        show (Shotgun.record env sol sc _).progress.iterations + 1 ≤ (Shotgun.record env sol sc _).hill.count ∧
          (Shotgun.record env sol sc _).hill.count ≤ (Shotgun.record env sol sc _).progress.iterations + 1 + _ * news (Hill.publish _ _)
        rw [news_publish, d1, d2]
        have d3 : news h' ≤ news (Shotgun.record env sol sc { q with
          sched := r
          hill := h' }).hill := d3
        refine ⟨by show q.progress.iterations + 1 ≤ h'.count; omega, ?_⟩
        show h'.count ≤ q.progress.iterations + 1 + _
        have d4 : news q.hill + better ≤ news (Shotgun.record env sol sc { q with
          sched := r
          hill := h' }).hill + 0 := by
          have : news h' = news q.hill + better := c1
          omega
        have := Nat.mul_le_mul_left (pr.maxNeighbors + 1) d4
        rw [Nat.mul_add] at this
        exact Nat.le_trans (by omega) (Nat.add_le_add_left this _)

/-- **C85**: in every session, a worker has solved at least one assignment for each of its iterations, and no more than one for each
iteration and one for each neighbour that may be picked after each better solution. -/
theorem C85_assignments_per_worker (cfg : Setup σ τ ρ) (hinit : ∀ tid, (cfg.init tid).hill.count = 0 ∧ (cfg.init tid).progress.iterations = 0)
    (g : Session σ τ ρ) (hr : Run cfg (start cfg) g) (tid : Nat) (w : Worker σ τ ρ) (hw : g.workers[tid]? = some w) :
    w.st.progress.iterations ≤ w.st.hill.count ∧
    w.st.hill.count ≤ w.st.progress.iterations + (cfg.problem.maxNeighbors + 1) * (announced w.st.hill.events).length :=
  run_kept (P := fun _ st => Thrifty cfg.problem.maxNeighbors st)
    (fun tid => by unfold Thrifty; rw [(hinit tid).1, (hinit tid).2]; exact ⟨Nat.le_refl _, Nat.zero_le _⟩)
    (fun tid k st st' h he => iterate_thrifty 1 k st st' h he) (fun _ _ h => h) hr tid w hw

end

/-! ## The program -/
section
variable {F σ : Type}

/-- How many integer programs one scheduling may take. -/
abbrev perScheduling (p : Prepared) (opts : Opts F) : Nat :=
  1 + (if opts.greedy then 0 else Nat.log2 (p.input.prefLevels.dropWhile (fun l => decide (l < p.analysis.preferenceBound))).length)

/-- **C85**: in every session of the program, a worker has solved at most so many integer programs for each assignment. -/
theorem C85_programs_per_worker (o : Outside F σ) (p : Prepared) (opts : Opts F) (g : Session σ ASolver (σ × Nat))
    (hr : Run (setup o p opts) (start (setup o p opts)) g) (tid : Nat) (w : Worker σ ASolver (σ × Nat))
    (hw : g.workers[tid]? = some w) : w.st.hill.asg.lpCount ≤ w.st.hill.count * perScheduling p opts := by
  refine run_kept (P := fun _ st => st.hill.asg.lpCount ≤ st.hill.count * perScheduling p opts) (fun tid => Nat.zero_le _)
    (fun tid k st st' h he => iterate_kept (J := fun st => st.asg.lpCount ≤ st.count * perScheduling p opts) ?_ 1 k st st' h he)
    (fun _ _ h => h) hr tid w hw
  refine ⟨?_, ?_, fun _ _ _ h => h, fun _ _ h => h⟩
  · intro st h
    unfold Hill.clock
    split <;> exact h
  · intro st s sol st' h hs
    unfold Hill.solveAssignment at hs
    rw [R.bind_eq_ok] at hs
    obtain ⟨r, h1, hs⟩ := hs
    have h2 := C85_programs_per_scheduling st.asg r.2 s r.1 h1
    have key : r.2.lpCount ≤ (st.count + 1) * perScheduling p opts := by
      rw [Nat.add_mul, Nat.one_mul]
      refine Nat.le_trans h2 ?_
      rw [Nat.add_assoc]
      exact Nat.add_le_add_right h _
    simp only at hs
    split at hs <;> (cases hs; exact key)

theorem sums_le {α : Type} (f g : α → Nat) : ∀ l : List α, (∀ x ∈ l, f x ≤ g x) → (l.map f).sum ≤ (l.map g).sum
  | [], _ => Nat.le_refl _
  | x :: l, h => by
    rw [List.map_cons, List.map_cons, List.sum_cons, List.sum_cons]
    exact Nat.add_le_add (h x List.mem_cons_self) (sums_le f g l (fun y hy => h y (List.mem_cons_of_mem _ hy)))

theorem sums_mul {α : Type} (f : α → Nat) (c : Nat) : ∀ l : List α, (l.map (fun x => f x * c)).sum = (l.map f).sum * c
  | [] => (Nat.zero_mul c).symm
  | x :: l => by rw [List.map_cons, List.map_cons, List.sum_cons, List.sum_cons, sums_mul f c l, Nat.add_mul]

/-- **C85**: so in the summary that the program shows at the end, the number of assignments is at least the number of iterations, and the
number of integer programs at most so many times the number of assignments. -/
theorem C85_summary (o : Outside F σ) {raw : Raw} {tr : List Reader.Event} (hd : Describes tr raw) {d : InputData}
    (hbd : Build.build raw = .ok d) (hrng : o.rng.Lawful) {p : Prepared} {eff : Opts F} (hp : Main.prepare o d eff = .ok p)
    (g : Session σ ASolver (σ × Nat)) (hr : Run (setup o p eff) (start (setup o p eff)) g)
    (hok : ∀ w ∈ g.workers, w.phase ≠ .panicked) (past : List (List Event)) (batch : List Event)
    (hall : ∀ (tid : Nat) (w : Worker σ ASolver (σ × Nat)), g.workers[tid]? = some w →
      (past.flatten ++ batch).filter (fun e => decide (e.worker = tid)) = w.st.hill.events) :
    ∃ sol summary, Status.track (setup o p eff) g past batch = .ok (sol, summary) ∧
      (sol = .invalid ∧ summary = .noSolution ∨
       ∃ sc iterations assignments lps, summary = .solved (some ⟨sc, iterations, assignments, lps⟩) ∧
        iterations ≤ assignments ∧ lps ≤ assignments * perScheduling p eff) := by
  obtain ⟨sol, summary, h1, _, h2⟩ := C67_program_summary o hd hbd hrng hp g hr hok past batch hall
  refine ⟨sol, summary, h1, ?_⟩
  rcases h2 with h2 | ⟨s, a, sc, _, _, h2⟩
  · exact Or.inl h2
  · refine Or.inr ⟨sc, _, _, _, h2, ?_, ?_⟩
    · refine sums_le _ _ _ (fun w hw => ?_)
      obtain ⟨tid, hw⟩ := List.getElem?_of_mem hw
      exact (C85_assignments_per_worker (setup o p eff) (fun _ => ⟨rfl, rfl⟩) g hr tid w hw).1
    · rw [← sums_mul]
      refine sums_le _ _ _ (fun w hw => ?_)
      obtain ⟨tid, hw⟩ := List.getElem?_of_mem hw
      exact C85_programs_per_worker o p eff g hr tid w hw

end
end Wassign
