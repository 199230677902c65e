import Verif.Proofs.Shotgun
/-
Invariants of the worker threads, and the folding of progress events.
-/
namespace Wassign
open Spec
namespace Threaded

variable {σ τ ρ : Type}

/-- The conditions on all workers: each works as intended and starts fresh. -/
structure SetupWF (cfg : Setup σ τ ρ) (Inv : Nat → τ → Prop) (InvR : Nat → ρ → Prop) : Prop where
  worker : ∀ tid, tid < workerCount cfg → WorkerWF cfg.problem (cfg.env tid) (Inv tid) (InvR tid)
  index : ∀ tid, tid < workerCount cfg → (cfg.env tid).worker = tid
  fresh : ∀ tid, tid < workerCount cfg → ∃ sched rng asg, cfg.init tid = Shotgun.new sched rng asg ∧ Inv tid asg ∧ InvR tid sched

/-- The invariant of a worker. -/
structure WOk (cfg : Setup σ τ ρ) (Inv : Nat → τ → Prop) (InvR : Nat → ρ → Prop) (cancelled : Bool) (tid : Nat)
    (w : Worker σ τ ρ) : Prop where
  worked : ∃ k seen evs, Worked cfg.problem (cfg.env tid) true (cfg.init tid) k w.st seen evs
  asg : Inv tid w.st.hill.asg
  sched : InvR tid w.st.sched
  any : cfg.any = true → (w.phase = .check ∨ w.phase = .run) → w.st.best.2.isFinite = false
  anyDone : cfg.any = true → w.phase = .finished → w.st.best.2.isFinite = true → cancelled = true

theorem worked_progress {pr : HProblem} {env : SEnv σ τ ρ} {dl : Bool} {st st' : SState σ τ ρ} {k : Nat}
    {seen : List (Solution × Score)} {evs : List Event} (h : Worked pr env dl st k st' seen evs) :
    Worked pr env dl st k (Shotgun.progress env st') seen evs :=
  ⟨h.history, h.length, h.count, h.best, h.sound, h.events, h.worker, h.same, h.good, h.iters, h.grows, h.asgs⟩

theorem worked_mode {pr : HProblem} {env : SEnv σ τ ρ} {dl : Bool} {st st' : SState σ τ ρ} {k : Nat}
    {seen : List (Solution × Score)} {evs : List Event} (hb : st.best.2.InMode pr.scoring.greedy)
    (h : Worked pr env dl st k st' seen evs) : st'.best.2.InMode pr.scoring.greedy := by
  rw [h.best]; exact foldl_keep_mode _ hb h.mode

structure SessionOk (cfg : Setup σ τ ρ) (Inv : Nat → τ → Prop) (InvR : Nat → ρ → Prop) (g : Session σ τ ρ) : Prop where
  count : g.workers.length = workerCount cfg
  ok : ∀ tid w, g.workers[tid]? = some w → WOk cfg Inv InvR g.cancelled tid w

variable {cfg : Setup σ τ ρ} {Inv : Nat → τ → Prop} {InvR : Nat → ρ → Prop}

theorem start_ok (hS : SetupWF cfg Inv InvR) : SessionOk cfg Inv InvR (start cfg) := by
  refine ⟨by simp [start], ?_⟩
  intro tid w hw
  have hlt : tid < workerCount cfg := by
    have := (List.getElem?_eq_some_iff.1 hw).1
    simpa [start] using this
  have e : w = ⟨.check, cfg.init tid, 0⟩ := by
    simp [start, hlt] at hw
    exact hw.symm
  subst e
  obtain ⟨sched, rng, asg, hi, h1, h2⟩ := hS.fresh tid hlt
  refine ⟨⟨0, [], [], Worked.refl rfl rfl rfl rfl⟩, ?_, ?_, ?_, ?_⟩
  · show Inv tid (cfg.init tid).hill.asg
    rw [hi]; exact h1
  · show InvR tid (cfg.init tid).sched
    rw [hi]; exact h2
  · intro _ _
    show (cfg.init tid).best.2.isFinite = false
    rw [hi]
    show Score.infinite.isFinite = false
    decide
  · intro _ h; cases h

theorem init_mode (hS : SetupWF cfg Inv InvR) {tid : Nat} (h : tid < workerCount cfg) :
    (cfg.init tid).best = nothing ∧ (cfg.init tid).progress.iterations = 0 ∧ (cfg.init tid).hill.events = [] := by
  obtain ⟨sched, rng, asg, hi, _⟩ := hS.fresh tid h
  rw [hi]; exact ⟨rfl, rfl, rfl⟩

theorem WOk.cancel {c : Bool} {tid : Nat} {w : Worker σ τ ρ} (h : WOk cfg Inv InvR c tid w) (c' : Bool) (hc : c = true → c' = true) :
    WOk cfg Inv InvR c' tid w :=
  ⟨h.worked, h.asg, h.sched, h.any, fun a b d => hc (h.anyDone a b d)⟩

theorem set_ok {g : Session σ τ ρ} {c : Bool} (h : SessionOk cfg Inv InvR g) (hc : g.cancelled = true → c = true) {tid : Nat}
    {w : Worker σ τ ρ} (hw : WOk cfg Inv InvR c tid w) : SessionOk cfg Inv InvR ⟨c, g.workers.set tid w⟩ := by
  refine ⟨by simp [h.count], ?_⟩
  intro t v hv
  replace hv : (g.workers.set tid w)[t]? = some v := hv
  rw [List.getElem?_set] at hv
  by_cases e : tid = t
  · subst e
    rw [if_pos rfl] at hv
    split at hv
    · cases hv; exact hw
    · cases hv
  · rw [if_neg e] at hv
    exact (h.ok t v hv).cancel c hc

theorem testStep_cases (cfg : Setup σ τ ρ) (tid k : Nat) (w : Worker σ τ ρ) :
    ∃ st, (st = w.st ∨ st = Shotgun.progress (cfg.env tid) w.st) ∧
      ((cfg.any = true ∧ st.best.2.isFinite = true ∧ testStep cfg tid k w = (true, { w with
          phase := .finished
          st := st })) ∨
       ((cfg.any = true → st.best.2.isFinite = false) ∧ (cfg.problem.input.ns = 1 ∨ k < 1) ∧
          testStep cfg tid k w = (false, { w with
            phase := .finished
            st := st })) ∨
       ((cfg.any = true → st.best.2.isFinite = false) ∧ ¬ (cfg.problem.input.ns = 1 ∨ k < 1) ∧
          testStep cfg tid k w = (false, { w with
            phase := .check
            st := st }))) := by
  refine ⟨if cfg.any then Shotgun.progress (cfg.env tid) w.st else w.st, by split <;> simp, ?_⟩
  unfold testStep
  simp only
  generalize (if cfg.any then Shotgun.progress (cfg.env tid) w.st else w.st) = st
  have hb : st.best.2 = st.progress.bestScore := rfl
  rw [hb]
  cases ha : cfg.any
  · simp only [Bool.false_and, Bool.false_eq_true, if_false, false_and, false_or, false_imp_iff, true_and]
    by_cases hc : cfg.problem.input.ns = 1 ∨ k < 1
    · exact .inl ⟨hc, by rw [if_pos hc]⟩
    · exact .inr ⟨hc, by rw [if_neg hc]⟩
  · cases hf : st.progress.bestScore.isFinite
    · simp only [Bool.and_false, Bool.false_eq_true, if_false]
      by_cases hc : cfg.problem.input.ns = 1 ∨ k < 1
      · exact .inr (.inl ⟨fun _ => trivial, hc, by rw [if_pos hc]⟩)
      · exact .inr (.inr ⟨fun _ => trivial, hc, by rw [if_neg hc]⟩)
    · exact .inl ⟨rfl, rfl, rfl⟩

theorem move_ok (hS : SetupWF cfg Inv InvR) {g g' : Session σ τ ρ} (h : SessionOk cfg Inv InvR g) (hm : Move cfg g g') :
    SessionOk cfg Inv InvR g' := by
  cases hm with
  | check tid w late hw hp =>
    have hk := h.ok tid w hw
    refine set_ok h id ?_
    unfold checkStep
    split
    · refine ⟨hk.worked, hk.asg, hk.sched, ?_, ?_⟩
      · intro _ h; rcases h with h | h <;> cases h
      · intro ha _ hf
        have := hk.any ha (.inl hp)
        have hf : w.st.best.2.isFinite = true := hf
        rw [this] at hf; cases hf
    · refine ⟨hk.worked, hk.asg, hk.sched, ?_, ?_⟩
      · intro ha _; exact hk.any ha (.inl hp)
      · intro _ h; cases h
  | run tid w hw hp =>
    have hk := h.ok tid w hw
    have hlt : tid < workerCount cfg := by
      have := (List.getElem?_eq_some_iff.1 hw).1
      rw [h.count] at this; exact this
    refine set_ok h id ?_
    unfold runStep
    split
    · rename_i k st he
      obtain ⟨k0, seen, evs, hw0⟩ := hk.worked
      obtain ⟨i1, i2, i3⟩ := init_mode hS hlt
      have hb := worked_mode (by rw [i1]; exact Score.inMode_infinite _) hw0
      obtain ⟨seen', evs', hw1, _, ha, hr⟩ := iterate_worked (hS.worker tid hlt) 1 hb hk.asg hk.sched he
      refine ⟨⟨_, _, _, hw0.trans hw1⟩, ha, hr, ?_, ?_⟩
      · intro _ h; rcases h with h | h <;> cases h
      · intro _ h; cases h
    · refine ⟨hk.worked, hk.asg, hk.sched, ?_, ?_⟩
      · intro _ h; rcases h with h | h <;> cases h
      · intro _ h; cases h
  | test tid k w hw hp =>
    have hk := h.ok tid w hw
    have hst : ∀ st, st = w.st ∨ st = Shotgun.progress (cfg.env tid) w.st →
        (∃ k seen evs, Worked cfg.problem (cfg.env tid) true (cfg.init tid) k st seen evs) ∧ Inv tid st.hill.asg ∧
        InvR tid st.sched := by
      intro st hst
      rcases hst with rfl | rfl
      · exact ⟨hk.worked, hk.asg, hk.sched⟩
      · obtain ⟨k0, seen, evs, hw0⟩ := hk.worked
        exact ⟨⟨k0, seen, evs, worked_progress hw0⟩, hk.asg, hk.sched⟩
    obtain ⟨st, he, hc⟩ := testStep_cases cfg tid k w
    obtain ⟨s1, s2, s3⟩ := hst st he
    rcases hc with ⟨ha, hf, e⟩ | ⟨hf, _, e⟩ | ⟨hf, _, e⟩
    · rw [e]
      refine set_ok h (by intro h; rw [h]; rfl) ⟨s1, s2, s3, ?_, ?_⟩
      · intro _ h; rcases h with h | h <;> cases h
      · intro _ _ _; simp
    · rw [e]
      refine set_ok h (by intro h; rw [h]; rfl) ⟨s1, s2, s3, ?_, ?_⟩
      · intro _ h; rcases h with h | h <;> cases h
      · intro ha _ hf'
        have hf' : st.best.2.isFinite = true := hf'
        rw [hf ha] at hf'; cases hf'
    · rw [e]
      refine set_ok h (by intro h; rw [h]; rfl) ⟨s1, s2, s3, ?_, ?_⟩
      · intro ha _; exact hf ha
      · intro _ h; cases h

theorem run_ok (hS : SetupWF cfg Inv InvR) {g g' : Session σ τ ρ} (h : SessionOk cfg Inv InvR g) (hr : Run cfg g g') :
    SessionOk cfg Inv InvR g' := by
  induction hr with
  | refl => exact h
  | step _ hs ih =>
    cases hs with
    | cancel =>
      have := ih
      exact ⟨this.count, fun t w hw => (this.ok t w hw).cancel true (fun _ => rfl)⟩
    | move hm => exact move_ok hS ih hm

/-! ### Collecting the results -/

theorem foldlM_join : ∀ (l : List (Worker σ τ ρ)) (b : Solution × Score), (∀ w ∈ l, w.phase ≠ .panicked) →
    l.foldlM joinStep b = .ok ((l.map (·.st.best)).foldl keep b) := by
  intro l
  induction l with
  | nil => intro b _; rfl
  | cons w l ih =>
    intro b h
    have hw := h w (by simp)
    have hj : joinStep b w = .ok (keep b w.st.best) := by
      unfold joinStep
      rw [if_neg hw]
      rfl
    rw [List.foldlM_cons, hj, R.bind_ok, ih _ (fun v hv => h v (by simp [hv]))]
    rfl

theorem foldlM_join_panic : ∀ (l : List (Worker σ τ ρ)) (b : Solution × Score), (∃ w ∈ l, w.phase = .panicked) →
    ∃ e, l.foldlM joinStep b = .error e := by
  intro l
  induction l with
  | nil => intro b ⟨w, h, _⟩; cases h
  | cons w l ih =>
    intro b ⟨v, hv, hp⟩
    rw [List.foldlM_cons]
    by_cases hw : w.phase = .panicked
    · unfold joinStep
      rw [if_pos hw]
      exact ⟨_, rfl⟩
    · have hj : joinStep b w = .ok (keep b w.st.best) := by
        unfold joinStep
        rw [if_neg hw]
        rfl
      rw [hj, R.bind_ok]
      rcases List.mem_cons.1 hv with rfl | hv
      · exact absurd hp hw
      · exact ih _ ⟨v, hv, hp⟩

theorem collect_ok {g : Session σ τ ρ} (h : ∀ w ∈ g.workers, w.phase ≠ .panicked) :
    collect g = .ok ((g.workers.map (·.st.best)).foldl keep nothing).1 := by
  unfold collect
  have := foldlM_join g.workers nothing h
  unfold nothing at this
  rw [this]; rfl

/-! ### Progress reports -/

/-- The best solution of a progress record. -/
def Progress.best (p : Progress) : Solution × Score := (p.bestSolution, p.bestScore)

theorem absorb_best (p : Progress) (e : Event) : Progress.best (absorb p e) =
    (match e.best? with
      | some x => keep (Progress.best p) x
      | none => Progress.best p) := by
  unfold absorb Event.best? Progress.best keep
  cases e.iterations <;> cases e.assignments <;> cases e.lp <;> cases e.bestScore <;> cases e.bestSolution <;>
    simp only <;> (try rfl) <;> (split <;> rfl)

theorem absorb_fold_best : ∀ (evs : List Event) (p : Progress),
    Progress.best (evs.foldl absorb p) = (announced evs).foldl keep (Progress.best p) := by
  intro evs
  induction evs with
  | nil => intro p; rfl
  | cons e evs ih =>
    intro p
    rw [List.foldl_cons, ih, absorb_best]
    unfold announced
    rw [List.filterMap_cons]
    cases e.best? <;> rfl

theorem absorb_iterations (p : Progress) (e : Event) : (absorb p e).iterations = e.iterations.getD p.iterations := by
  unfold absorb
  cases e.iterations <;> cases e.assignments <;> cases e.lp <;> cases e.bestScore <;> cases e.bestSolution <;>
    simp only <;> (try rfl) <;> (split <;> rfl)

theorem absorb_assignments (p : Progress) (e : Event) : (absorb p e).assignments = e.assignments.getD p.assignments := by
  unfold absorb
  cases e.iterations <;> cases e.assignments <;> cases e.lp <;> cases e.bestScore <;> cases e.bestSolution <;>
    simp only <;> (try rfl) <;> (split <;> rfl)

theorem absorb_lp (p : Progress) (e : Event) : (absorb p e).lp = e.lp.getD p.lp := by
  unfold absorb
  cases e.iterations <;> cases e.assignments <;> cases e.lp <;> cases e.bestScore <;> cases e.bestSolution <;>
    simp only <;> (try rfl) <;> (split <;> rfl)

theorem fold_last (f : Event → Option Nat) (get : Progress → Nat) (hab : ∀ p e, get (absorb p e) = (f e).getD (get p)) :
    ∀ (evs : List Event) (p : Progress), get (evs.foldl absorb p) = ((evs.filterMap f).getLast?).getD (get p) := by
  intro evs
  induction evs with
  | nil => intro p; rfl
  | cons e evs ih =>
    intro p
    rw [List.foldl_cons, ih, hab, List.filterMap_cons]
    cases h : f e with
    | none => rfl
    | some v =>
      simp only [Option.getD_some]
      rw [List.getLast?_cons]
      rfl

theorem deliver_get (tp : List Progress) (e : Event) (w : Nat) : (deliver tp e)[w]? =
    tp[w]?.map (fun p => if e.worker = w then absorb p e else p) := by
  unfold deliver
  split
  · rename_i p hp
    rw [List.getElem?_set]
    split
    · rename_i h
      subst h
      have := (List.getElem?_eq_some_iff.1 hp).1
      rw [if_pos this, hp]
      simp
    · rename_i h
      cases tp[w]? <;> simp [h]
  · rename_i hp
    by_cases h : e.worker = w
    · subst h; rw [hp]; rfl
    · cases h' : tp[w]? <;> simp [h]

theorem deliver_fold : ∀ (evs : List Event) (tp : List Progress) (w : Nat), (evs.foldl deliver tp)[w]? =
    tp[w]?.map (fun p => (evs.filter (fun e => decide (e.worker = w))).foldl absorb p) := by
  intro evs
  induction evs with
  | nil =>
    intro tp w
    show tp[w]? = _
    cases tp[w]? <;> rfl
  | cons e evs ih =>
    intro tp w
    rw [List.foldl_cons, ih, deliver_get]
    cases tp[w]? with
    | none => rfl
    | some p =>
      simp only [Option.map_some, List.filter_cons]
      by_cases h : e.worker = w <;> simp [h]

theorem deliver_length : ∀ (evs : List Event) (tp : List Progress), (evs.foldl deliver tp).length = tp.length := by
  intro evs
  induction evs with
  | nil => intro tp; rfl
  | cons e evs ih =>
    intro tp
    rw [List.foldl_cons, ih]
    unfold deliver
    split <;> simp

/-- The per-worker progress after all events. -/
theorem delivered (n : Nat) (evs : List Event) : evs.foldl deliver (freshProgress n) =
    (List.range n).map (fun w => (evs.filter (fun e => decide (e.worker = w))).foldl absorb .empty) := by
  apply List.ext_getElem?
  intro w
  rw [deliver_fold]
  unfold freshProgress
  by_cases h : w < n
  · rw [List.getElem?_replicate, if_pos h, List.getElem?_map, List.getElem?_range h]; rfl
  · rw [List.getElem?_replicate, if_neg h, List.getElem?_map, List.getElem?_eq_none (by simpa using h)]; rfl

theorem polls_eq : ∀ (past : List (List Event)) (tp : List Progress),
    past.foldl (fun tp b => (poll tp b).2) tp = past.flatten.foldl deliver tp := by
  intro past
  induction past with
  | nil => intro tp; rfl
  | cons b past ih =>
    intro tp
    rw [List.foldl_cons, ih, List.flatten_cons, List.foldl_append]
    rfl

/-- One step of `summarize`. -/
def sumStep (r p : Progress) : Progress :=
  let r := if Score.lt p.bestScore r.bestScore then { r with
    bestScore := p.bestScore
    bestSolution := p.bestSolution } else r
  { r with
    iterations := r.iterations + p.iterations
    assignments := r.assignments + p.assignments
    lp := r.lp + p.lp }

theorem summarize_fold : ∀ (tp : List Progress) (r : Progress),
    Progress.best (tp.foldl sumStep r) = (tp.map Progress.best).foldl keep (Progress.best r) ∧
    (tp.foldl sumStep r).iterations = r.iterations + (tp.map (·.iterations)).sum ∧
    (tp.foldl sumStep r).assignments = r.assignments + (tp.map (·.assignments)).sum ∧
    (tp.foldl sumStep r).lp = r.lp + (tp.map (·.lp)).sum := by
  intro tp
  induction tp with
  | nil => intro r; exact ⟨rfl, rfl, rfl, rfl⟩
  | cons p tp ih =>
    intro r
    obtain ⟨h1, h2, h3, h4⟩ := ih (sumStep r p)
    have hs : Progress.best (sumStep r p) = keep (Progress.best r) (Progress.best p) ∧
        (sumStep r p).iterations = r.iterations + p.iterations ∧
        (sumStep r p).assignments = r.assignments + p.assignments ∧ (sumStep r p).lp = r.lp + p.lp := by
      unfold sumStep Progress.best keep
      simp only
      split <;> exact ⟨rfl, rfl, rfl, rfl⟩
    obtain ⟨s1, s2, s3, s4⟩ := hs
    rw [List.foldl_cons]
    refine ⟨?_, ?_, ?_, ?_⟩
    · rw [h1, s1]; rfl
    · rw [h2, s2]; simp only [List.map_cons, List.sum_cons]; omega
    · rw [h3, s3]; simp only [List.map_cons, List.sum_cons]; omega
    · rw [h4, s4]; simp only [List.map_cons, List.sum_cons]; omega

theorem summarize_eq (tp : List Progress) : Progress.best (summarize tp) = (tp.map Progress.best).foldl keep nothing ∧
    (summarize tp).iterations = (tp.map (·.iterations)).sum ∧
    (summarize tp).assignments = (tp.map (·.assignments)).sum ∧ (summarize tp).lp = (tp.map (·.lp)).sum := by
  obtain ⟨h1, h2, h3, h4⟩ := summarize_fold tp .empty
  refine ⟨h1, ?_, ?_, ?_⟩
  · show (tp.foldl sumStep .empty).iterations = _; rw [h2]; exact Nat.zero_add _
  · show (tp.foldl sumStep .empty).assignments = _; rw [h3]; exact Nat.zero_add _
  · show (tp.foldl sumStep .empty).lp = _; rw [h4]; exact Nat.zero_add _

/-! ### Cancellation -/

theorem iterate_one_count {pr : HProblem} {env : SEnv σ τ ρ} {dl : Bool} {k : Nat} {st st' : SState σ τ ρ}
    (h : Shotgun.iterate pr env dl 1 st = .ok (k, st')) : k ≤ 1 ∧ st'.progress.iterations = st.progress.iterations + k := by
  obtain ⟨c1, c2, c3⟩ := sclock_eq env dl st
  unfold Shotgun.iterate at h
  simp only at h
  split at h
  · cases h; exact ⟨by omega, by rw [c3]; rfl⟩
  · simp only [R.bind_eq_ok] at h
    obtain ⟨⟨x, r'⟩, hx, h⟩ := h
    cases x with
    | none =>
      simp only at h
      cases h
      exact ⟨by omega, by show (Shotgun.clock env dl st).2.progress.iterations = _; rw [c3]; rfl⟩
    | some s =>
      simp only [R.bind_eq_ok] at h
      obtain ⟨⟨sol, h'⟩, hs, sc, hsc, ⟨k', st2⟩, hit, h⟩ := h
      cases h
      cases hit
      refine ⟨by omega, ?_⟩
      show (Shotgun.record env sol sc _).progress.iterations + 1 = _
      rw [(record_best env sol sc _).2.2.2.1]
      show (Shotgun.clock env dl st).2.progress.iterations + 1 = _
      rw [c3]

/-- How far a worker has come since the session was cancelled. -/
structure Since (w w' : Worker σ τ ρ) : Prop where
  started : w'.started = w.started
  running : w'.phase = .run → w.phase = .run ∧ w'.st.progress.iterations = w.st.progress.iterations
  count : w'.st.progress.iterations ≤ w.st.progress.iterations + (if w.phase = .run then 1 else 0)

theorem Since.refl (w : Worker σ τ ρ) : Since w w := ⟨rfl, fun h => ⟨h, rfl⟩, Nat.le_add_right _ _⟩

theorem testStep_iterations (cfg : Setup σ τ ρ) (tid k : Nat) (w : Worker σ τ ρ) :
    (testStep cfg tid k w).2.st.progress.iterations = w.st.progress.iterations ∧ (testStep cfg tid k w).2.started = w.started ∧
    ((testStep cfg tid k w).2.phase = .finished ∨ (testStep cfg tid k w).2.phase = .check ∧
      ¬ (cfg.problem.input.ns = 1 ∨ k < 1) ∧ (cfg.any = true → w.st.best.2.isFinite = false)) ∧
    ((testStep cfg tid k w).1 = true ↔ cfg.any = true ∧ w.st.best.2.isFinite = true) := by
  obtain ⟨st, he, hc⟩ := testStep_cases cfg tid k w
  have hit : st.progress.iterations = w.st.progress.iterations := by rcases he with rfl | rfl <;> rfl
  have hb : st.best = w.st.best := by rcases he with rfl | rfl <;> rfl
  rw [hb] at hc
  rcases hc with ⟨h1, h2, e⟩ | ⟨h1, h2, e⟩ | ⟨h1, h2, e⟩ <;> rw [e] <;> refine ⟨hit, rfl, ?_, ?_⟩
  · exact .inl rfl
  · exact ⟨fun _ => ⟨h1, h2⟩, fun _ => rfl⟩
  · exact .inl rfl
  · exact ⟨by simp, fun ⟨a, b⟩ => by rw [h1 a] at b; cases b⟩
  · exact .inr ⟨rfl, h2, h1⟩
  · exact ⟨by simp, fun ⟨a, b⟩ => by rw [h1 a] at b; cases b⟩

/-- After cancellation, one step. -/
theorem since_step {g g' : Session σ τ ρ} (hc : g.cancelled = true) (hs : Step cfg g g') :
    g'.cancelled = true ∧ g'.workers.length = g.workers.length ∧ ∀ (tid : Nat) (w0 w' : Worker σ τ ρ), g'.workers[tid]? = some w' →
      (∀ w, g.workers[tid]? = some w → Since w0 w) → Since w0 w' := by
  cases hs with
  | cancel => exact ⟨rfl, rfl, fun tid w0 w' h hw => hw w' h⟩
  | move hm =>
    have key : ∀ (c : Bool) (tid : Nat) (v v' : Worker σ τ ρ), g.workers[tid]? = some v →
        (∀ w0, Since w0 v → Since w0 v') → c = true →
        (⟨c, g.workers.set tid v'⟩ : Session σ τ ρ).cancelled = true ∧ (g.workers.set tid v').length = g.workers.length ∧
        ∀ (t : Nat) (w0 w' : Worker σ τ ρ), (g.workers.set tid v')[t]? = some w' →
          (∀ w, g.workers[t]? = some w → Since w0 w) → Since w0 w' := by
      intro c tid v v' hv hsin hc
      refine ⟨hc, by simp, ?_⟩
      intro t w0 w' hw' hw
      rw [List.getElem?_set] at hw'
      by_cases e : tid = t
      · subst e
        rw [if_pos rfl] at hw'
        split at hw'
        · cases hw'; exact hsin w0 (hw v hv)
        · cases hw'
      · rw [if_neg e] at hw'
        exact hw w' hw'
    cases hm with
    | check tid w late hw hp =>
      refine key _ tid w _ hw ?_ hc
      intro w0 h
      unfold checkStep
      rw [hc]
      simp only [Bool.true_or, if_true]
      exact ⟨h.started, (by intro e; cases e), h.count⟩
    | run tid w hw hp =>
      refine key _ tid w _ hw ?_ hc
      intro w0 h
      obtain ⟨h1, h2⟩ := h.running hp
      unfold runStep
      split
      · rename_i k st he
        obtain ⟨k1, k2⟩ := iterate_one_count he
        refine ⟨h.started, (by intro e; cases e), ?_⟩
        show st.progress.iterations ≤ _
        rw [if_pos h1, k2, h2]; omega
      · exact ⟨h.started, (by intro e; cases e), h.count⟩
    | test tid k w hw hp =>
      refine key _ tid w _ hw ?_ (by rw [hc]; rfl)
      intro w0 h
      obtain ⟨t1, t2, t3, _⟩ := testStep_iterations cfg tid k w
      refine ⟨by rw [t2]; exact h.started, ?_, by rw [t1]; exact h.count⟩
      intro e
      rcases t3 with t3 | ⟨t3, _⟩ <;> rw [t3] at e <;> cases e

theorem since_run {g g' : Session σ τ ρ} (hr : Run cfg g g') (hc : g.cancelled = true) :
    g'.cancelled = true ∧ g'.workers.length = g.workers.length ∧
    ∀ (tid : Nat) (w w' : Worker σ τ ρ), g.workers[tid]? = some w → g'.workers[tid]? = some w' → Since w w' := by
  induction hr with
  | refl =>
    refine ⟨hc, rfl, ?_⟩
    intro tid w w' h h'
    rw [h] at h'; cases h'; exact Since.refl w
  | step _ hs ih =>
    obtain ⟨i1, i2, i3⟩ := ih
    obtain ⟨s1, s2, s3⟩ := since_step i1 hs
    refine ⟨s1, by rw [s2, i2], ?_⟩
    intro tid w w' h h'
    exact s3 tid w w' h' (fun v hv => i3 tid w v h hv)

/-- The steps a worker can still make once the session is cancelled. -/
def Phase.left : Phase → Nat
  | .run => 3
  | .test _ => 2
  | .check => 1
  | .finished => 0
  | .panicked => 0

theorem sum_set {l : List (Worker σ τ ρ)} {tid : Nat} {w v : Worker σ τ ρ} (h : l[tid]? = some w) (f : Worker σ τ ρ → Nat)
    (hf : f v < f w) : ((l.set tid v).map f).sum < (l.map f).sum := by
  induction l generalizing tid with
  | nil => simp at h
  | cons x l ih =>
    cases tid with
    | zero =>
      simp only [List.getElem?_cons_zero, Option.some.injEq] at h
      subst h
      simp only [List.set_cons_zero, List.map_cons, List.sum_cons]
      omega
    | succ tid =>
      simp only [List.getElem?_cons_succ] at h
      have := ih h
      simp only [List.set_cons_succ, List.map_cons, List.sum_cons]
      omega

theorem move_left {g g' : Session σ τ ρ} (hc : g.cancelled = true) (hm : Move cfg g g') :
    (g'.workers.map (fun w => w.phase.left)).sum < (g.workers.map (fun w => w.phase.left)).sum := by
  cases hm with
  | check tid w late hw hp =>
    refine sum_set hw _ ?_
    unfold checkStep
    rw [hc, hp]
    simp [Phase.left]
  | run tid w hw hp =>
    refine sum_set hw _ ?_
    unfold runStep
    rw [hp]
    split <;> simp [Phase.left]
  | test tid k w hw hp =>
    refine sum_set hw _ ?_
    obtain ⟨_, _, t3, _⟩ := testStep_iterations cfg tid k w
    rw [hp]
    rcases t3 with t3 | ⟨t3, _⟩ <;> simp [t3, Phase.left]

theorem moves_left {n : Nat} {g g' : Session σ τ ρ} (hm : Moves cfg n g g') (hc : g.cancelled = true) :
    g'.cancelled = true ∧ (g'.workers.map (fun w => w.phase.left)).sum + n ≤ (g.workers.map (fun w => w.phase.left)).sum := by
  induction hm with
  | zero => exact ⟨hc, Nat.le_refl _⟩
  | succ _ hm ih =>
    obtain ⟨i1, i2⟩ := ih hc
    have := move_left i1 hm
    exact ⟨(since_step i1 (.move hm)).1, by omega⟩

theorem left_le (l : List (Worker σ τ ρ)) : (l.map (fun w => w.phase.left)).sum ≤ 3 * l.length := by
  induction l with
  | nil => simp
  | cons x l ih =>
    simp only [List.map_cons, List.sum_cons, List.length_cons]
    have : x.phase.left ≤ 3 := by cases x.phase <;> simp [Phase.left]
    omega

theorem can_move {g : Session σ τ ρ} (h : ¬ g.over) : ∃ g', Move cfg g g' := by
  unfold Session.over at h
  simp only [not_forall] at h
  obtain ⟨w, hw, hp⟩ := h
  obtain ⟨tid, hlt, he⟩ := List.mem_iff_getElem.1 hw
  have hg : g.workers[tid]? = some w := by rw [List.getElem?_eq_getElem hlt, he]
  cases hph : w.phase with
  | check => exact ⟨_, .check g tid w false hg hph⟩
  | run => exact ⟨_, .run g tid w hg hph⟩
  | test k => exact ⟨_, .test g tid k w hg hph⟩
  | finished => exact absurd (.inl hph) hp
  | panicked => exact absurd (.inr hph) hp

/-! ### Single-slot inputs -/

/-- With a single slot a worker that is not done has completed nothing. -/
structure Single (w : Worker σ τ ρ) : Prop where
  start : w.phase = .check → w.started = 0 ∧ w.st.progress.iterations = 0
  run : w.phase = .run → w.st.progress.iterations = 0
  most : w.started ≤ 1 ∧ w.st.progress.iterations ≤ 1

theorem single_run (h1 : cfg.problem.input.ns = 1) (hinit : ∀ tid, (cfg.init tid).progress.iterations = 0)
    {g : Session σ τ ρ} (hr : Run cfg (start cfg) g) : ∀ w ∈ g.workers, Single w := by
  generalize hg0 : start cfg = g0 at hr
  induction hr with
  | refl =>
    subst hg0
    intro w hw
    simp only [start, List.mem_map] at hw
    obtain ⟨tid, _, rfl⟩ := hw
    exact ⟨fun _ => ⟨rfl, hinit tid⟩, (by intro e; cases e), ⟨Nat.zero_le _, by show (cfg.init tid).progress.iterations ≤ 1; rw [hinit]; omega⟩⟩
  | step _ hs ih =>
    cases hs with
    | cancel => exact ih
    | move hm =>
      cases hm with
      | check tid w late hw hp =>
        intro v hv
        rcases List.mem_or_eq_of_mem_set hv with hv | rfl
        · exact ih v hv
        · have := ih w (List.mem_of_getElem? hw)
          obtain ⟨a, b⟩ := this.start hp
          unfold checkStep
          split
          · exact ⟨(by intro e; cases e), (by intro e; cases e), this.most⟩
          · exact ⟨(by intro e; cases e), fun _ => b, ⟨by show w.started + 1 ≤ 1; omega, this.most.2⟩⟩
      | run tid w hw hp =>
        intro v hv
        rcases List.mem_or_eq_of_mem_set hv with hv | rfl
        · exact ih v hv
        · have := ih w (List.mem_of_getElem? hw)
          have hz := this.run hp
          unfold runStep
          split
          · rename_i k st he
            obtain ⟨k1, k2⟩ := iterate_one_count he
            refine ⟨(by intro e; cases e), (by intro e; cases e), ⟨this.most.1, ?_⟩⟩
            show st.progress.iterations ≤ 1
            rw [k2, hz]; omega
          · exact ⟨(by intro e; cases e), (by intro e; cases e), this.most⟩
      | test tid k w hw hp =>
        intro v hv
        rcases List.mem_or_eq_of_mem_set hv with hv | rfl
        · exact ih v hv
        · have := ih w (List.mem_of_getElem? hw)
          obtain ⟨t1, t2, t3, _⟩ := testStep_iterations cfg tid k w
          have hfin : (testStep cfg tid k w).2.phase = .finished := by
            rcases t3 with t3 | ⟨_, t3, _⟩
            · exact t3
            · exact absurd (.inl h1) t3
          exact ⟨(by rw [hfin]; intro e; cases e), (by rw [hfin]; intro e; cases e), by rw [t1, t2]; exact this.most⟩

end Threaded
end Wassign
