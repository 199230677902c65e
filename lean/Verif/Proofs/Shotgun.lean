import Verif.Proofs.SchedRange
import Verif.Proofs.Hill
import Verif.Proofs.Best
/-
The bookkeeping of a worker.
-/
namespace Wassign
open Spec Hill

variable {σ τ ρ : Type}

theorem SameSolver.refl (h : HState σ τ) : SameSolver h h := ⟨rfl, rfl, rfl, rfl⟩

theorem SameSolver.trans {h h' h'' : HState σ τ} (a : SameSolver h h') (b : SameSolver h' h'') : SameSolver h h'' :=
  ⟨a.1.trans b.1, a.2.1.trans b.2.1, a.2.2.1.trans b.2.2.1, a.2.2.2.trans b.2.2.2⟩

theorem History.same {pr : HProblem} {env : SEnv σ τ ρ} {dl : Bool} {r r' : ρ} {h h' h'' : HState σ τ}
    {seen : List (Solution × Score)} (H : History pr env dl r h seen r' h') (s : SameSolver h' h'') :
    History pr env dl r h seen r' h'' := by
  induction H with
  | none a => exact .none (SameSolver.trans a s)
  | more a b c _ => exact .more a b (SameSolver.trans c s)
  | dry a b ih => exact .dry (ih s) b

theorem History.trans {pr : HProblem} {env : SEnv σ τ ρ} {dl : Bool} {r r' r'' : ρ} {h h' h'' : HState σ τ}
    {s1 s2 : List (Solution × Score)} (H1 : History pr env dl r h s1 r' h') (H2 : History pr env dl r' h' s2 r'' h'') :
    History pr env dl r h (s1 ++ s2) r'' h'' := by
  induction H2 with
  | none a => rw [List.append_nil]; exact History.same H1 a
  | more _ b c ih => rw [← List.append_assoc]; exact .more (ih H1) b c
  | dry _ b ih => exact .dry (ih H1) b

/-- A strictly improving sequence of finite scores counts like its last element. -/
theorem foldl_keep_improving {g : Bool} : ∀ (l : List (Solution × Score)) {b z : Solution × Score}, b.2.InMode g →
    (∀ x ∈ l, x.2.InMode g ∧ x.2.isFinite = true) → Improving g l → l.getLast? = some z → l.foldl keep b = keep b z := by
  intro l
  induction l with
  | nil => intro b z _ _ _ h; cases h
  | cons x l ih =>
    intro b z hb hm hi hl
    unfold Improving at hi
    rw [List.pairwise_cons] at hi
    have hx := hm x (by simp)
    cases l with
    | nil => simp only [List.getLast?_singleton, Option.some.injEq] at hl; subst hl; rfl
    | cons y l =>
      rw [List.getLast?_cons_cons] at hl
      have hzm : z ∈ y :: l := by
        obtain ⟨ys, hys⟩ := List.getLast?_eq_some_iff.1 hl
        rw [hys]; simp
      have hz := hm z (by simp [hzm])
      have hlt : Score.lt z.2 x.2 = true := Score.rank_lt_lt hz.1 hx.1 hz.2 hx.2 (hi.1 z hzm)
      rw [List.foldl_cons]
      have hk : (keep b x).2.InMode g := by unfold keep; split <;> [exact hx.1; exact hb]
      rw [ih hk (fun w hw => hm w (by simp [List.mem_cons.1 hw])) hi.2 hl]
      unfold keep
      cases hxb : Score.lt x.2 b.2
      · simp only [Bool.false_eq_true, if_false]
      · simp only [if_true, hlt]
        have : Score.lt z.2 b.2 = true := by
          cases h : Score.lt z.2 b.2
          · have h1 := Score.not_lt_iff.1 h
            have h2 := Score.le_trans hb hz.1 hx.1 h1 (Score.lt_le hlt)
            rw [Score.not_lt_iff.2 h2] at hxb; cases hxb
          · rfl
        simp [this]

theorem keep_keep (b z : Solution × Score) : keep (keep b z) z = keep b z := by
  unfold keep
  cases h : Score.lt z.2 b.2
  · simp [h]
  · simp only [if_true]
    split <;> rfl

/-- The best solution and score of a worker. -/
def SState.best (st : SState σ τ ρ) : Solution × Score := (st.progress.bestSolution, st.progress.bestScore)

theorem keep_infinite (b : Solution × Score) (s : Solution) : keep b (s, Score.infinite) = b := by
  unfold keep
  have : Score.lt Score.infinite b.2 = false := by
    cases h : Score.lt Score.infinite b.2
    · rfl
    · have := Score.lt_finite h; exact absurd this (by decide)
  simp [this]

theorem record_best (env : SEnv σ τ ρ) (sol : Solution) (sc : Score) (st : SState σ τ ρ) :
    (Shotgun.record env sol sc st).best = keep st.best (sol, sc) ∧ (Shotgun.record env sol sc st).sched = st.sched ∧
    SameSolver st.hill (Shotgun.record env sol sc st).hill ∧
    (Shotgun.record env sol sc st).progress.iterations = st.progress.iterations ∧
    ∃ evs, (Shotgun.record env sol sc st).hill.events = st.hill.events ++ evs ∧
      (evs = [] ∨ evs = [Event.ofBest env.worker sol sc]) ∧
      (announced evs).foldl keep (keep st.best (sol, sc)) = keep st.best (sol, sc) := by
  unfold Shotgun.record
  cases h : Score.lt sc st.progress.bestScore
  · simp only [Bool.false_eq_true, if_false]
    refine ⟨?_, trivial, SameSolver.refl _, trivial, [], by simp, .inl rfl, rfl⟩
    unfold keep SState.best
    simp [h]
  · simp only [if_true]
    refine ⟨?_, trivial, ⟨rfl, rfl, rfl, rfl⟩, trivial, [Event.ofBest env.worker sol sc], rfl, .inr rfl, keep_keep _ _⟩
    unfold keep SState.best
    simp [h]

/-- What a worker has done since some earlier moment. -/
structure Worked (pr : HProblem) (env : SEnv σ τ ρ) (dl : Bool) (st : SState σ τ ρ) (k : Nat) (st' : SState σ τ ρ)
    (seen : List (Solution × Score)) (evs : List Event) : Prop where
  history : History pr env dl st.sched st.hill seen st'.sched st'.hill
  length : seen.length = k
  count : st'.progress.iterations = st.progress.iterations + k
  best : st'.best = seen.foldl keep st.best
  sound : ∀ x ∈ seen, x = (.invalid, Score.infinite) ∨ Hill.Good pr (Placed pr.input) x
  events : st'.hill.events = st.hill.events ++ evs
  worker : ∀ e ∈ evs, e.worker = env.worker
  same : (announced evs).foldl keep st.best = seen.foldl keep st.best
  good : ∀ x ∈ announced evs, Hill.Good pr (Placed pr.input) x
  iters : evs.filterMap (·.iterations) = List.range' (st.progress.iterations + 1) k
  grows : st.hill.count ≤ st'.hill.count
  asgs : evs.filterMap (·.assignments) = List.range' (st.hill.count + 1) (st'.hill.count - st.hill.count)

theorem Worked.mode {pr : HProblem} {env : SEnv σ τ ρ} {dl : Bool} {st st' : SState σ τ ρ} {k : Nat}
    {seen : List (Solution × Score)} {evs : List Event} (h : Worked pr env dl st k st' seen evs) :
    OneMode pr.scoring.greedy seen := by
  intro x hx
  rcases h.sound x hx with rfl | h
  · exact Score.inMode_infinite _
  · exact h.mode

theorem foldl_keep_mode {g : Bool} : ∀ (l : List (Solution × Score)) {b : Solution × Score}, b.2.InMode g → OneMode g l →
    (l.foldl keep b).2.InMode g := by
  intro l
  induction l with
  | nil => intro b hb _; exact hb
  | cons x l ih =>
    intro b hb hm
    refine ih (b := keep b x) ?_ (fun y hy => hm y (by simp [hy]))
    unfold keep
    split
    · exact hm x (by simp)
    · exact hb

theorem Worked.refl {pr : HProblem} {env : SEnv σ τ ρ} {dl : Bool} {st st' : SState σ τ ρ}
    (h1 : st'.sched = st.sched) (h2 : st'.hill = st.hill) (h3 : st'.best = st.best)
    (h4 : st'.progress.iterations = st.progress.iterations) : Worked pr env dl st 0 st' [] [] where
  history := by rw [h1, h2]; exact .none (SameSolver.refl _)
  length := rfl
  count := h4
  best := h3
  sound := by simp
  events := by rw [h2]; simp
  worker := by simp
  same := rfl
  good := by simp [announced]
  iters := rfl
  grows := by rw [h2]; exact Nat.le_refl _
  asgs := by rw [h2, Nat.sub_self]; rfl

theorem Worked.trans {pr : HProblem} {env : SEnv σ τ ρ} {dl : Bool} {st st' st'' : SState σ τ ρ} {k1 k2 : Nat}
    {s1 s2 : List (Solution × Score)} {e1 e2 : List Event} (h1 : Worked pr env dl st k1 st' s1 e1)
    (h2 : Worked pr env dl st' k2 st'' s2 e2) : Worked pr env dl st (k1 + k2) st'' (s1 ++ s2) (e1 ++ e2) where
  history := History.trans h1.history h2.history
  length := by rw [List.length_append, h1.length, h2.length]
  count := by rw [h2.count, h1.count]; omega
  best := by rw [h2.best, h1.best, List.foldl_append]
  sound := by
    intro x hx
    rcases List.mem_append.1 hx with hx | hx
    · exact h1.sound x hx
    · exact h2.sound x hx
  events := by rw [h2.events, h1.events, List.append_assoc]
  worker := by
    intro x hx
    rcases List.mem_append.1 hx with hx | hx
    · exact h1.worker x hx
    · exact h2.worker x hx
  same := by
    have h := h2.same
    rw [h1.best] at h
    rw [announced_append, List.foldl_append, List.foldl_append, h1.same, h]
  good := by
    intro x hx
    rw [announced_append] at hx
    rcases List.mem_append.1 hx with hx | hx
    · exact h1.good x hx
    · exact h2.good x hx
  iters := by
    rw [List.filterMap_append, h1.iters, h2.iters, h1.count]
    have e1 : st.progress.iterations + k1 + 1 = st.progress.iterations + 1 + 1 * k1 := by omega
    rw [e1, List.range'_append]
  grows := Nat.le_trans h1.grows h2.grows
  asgs := by
    have c1 := h1.grows
    have c2 := h2.grows
    rw [List.filterMap_append, h1.asgs, h2.asgs]
    have e1 : st'.hill.count + 1 = st.hill.count + 1 + 1 * (st'.hill.count - st.hill.count) := by omega
    have e2 : st''.hill.count - st.hill.count = (st'.hill.count - st.hill.count) + (st''.hill.count - st'.hill.count) := by omega
    rw [e2, e1, List.range'_append]

theorem sclock_eq (env : SEnv σ τ ρ) (dl : Bool) (st : SState σ τ ρ) : (Shotgun.clock env dl st).2.sched = st.sched ∧
    (Shotgun.clock env dl st).2.hill = st.hill ∧ (Shotgun.clock env dl st).2.progress = st.progress := by
  unfold Shotgun.clock; split <;> exact ⟨rfl, rfl, rfl⟩

/-- The conditions under which a worker works as intended. -/
structure WorkerWF (pr : HProblem) (env : SEnv σ τ ρ) (Inv : τ → Prop) (InvR : ρ → Prop) : Prop where
  wf : WF pr.input
  pref : pr.input.maxPref ≤ u32Max
  lawful : env.rng.Lawful
  shaped : Shaped pr.input env.asolve Inv
  supplies : Supplies pr.input env.next InvR

theorem iteration_worked {pr : HProblem} {env : SEnv σ τ ρ} {Inv : τ → Prop} {InvR : ρ → Prop} (hE : WorkerWF pr env Inv InvR)
    {dl : Bool} {st : SState σ τ ρ} (hb : st.best.2.InMode pr.scoring.greedy) (hi : Inv st.hill.asg) (hr : InvR st.sched)
    {s : Scheduling} {r' : ρ} (h1 : env.next st.sched = .ok (some s, r')) {sol : Solution} {h' : HState σ τ}
    (h2 : Hill.solve pr env.toHEnv dl st.hill s = .ok (sol, h')) {sc : Score} (h3 : pr.scoring.evaluate pr.input sol = .ok sc) :
    ∃ evs, Worked pr env dl st 1 (Shotgun.tick env (Shotgun.record env sol sc { st with
      sched := r'
      hill := h' })) [(sol, sc)] evs ∧ Inv h'.asg ∧ InvR r' := by
  have hs := hE.supplies.shape _ _ _ hr h1
  obtain ⟨hi', r, t', sol0, sc0, lps, evs0, hlps, _, _, _, he, hcase⟩ := solve_spec hE.wf hE.pref hE.lawful hE.shaped
    (F := Placed pr.input) (fun n hl hn => schedFeasible_placed hl hn) hi hs (hE.supplies.placed _ _ _ hr h1) h2
  have hfacts : (∀ e ∈ Event.ofAssignments env.worker (st.hill.count + 1) :: evs0, e.worker = env.worker) ∧
      (∀ x ∈ announced evs0, Hill.Good pr (Placed pr.input) x) ∧ ((sol, sc) = (.invalid, Score.infinite) ∨ Hill.Good pr (Placed pr.input) (sol, sc)) ∧
      (announced evs0).foldl keep st.best = keep st.best (sol, sc) ∧
      st.hill.count + 1 ≤ h'.count ∧ evs0.filterMap (·.assignments) = List.range' (st.hill.count + 2) (h'.count - (st.hill.count + 1)) ∧
      evs0.filterMap (·.iterations) = [] := by
    rcases hcase with ⟨_, rfl, rfl, hc⟩ | ⟨_, hg0, sc', evs', hg, rfl, hst⟩
    · have h3 : sc = Score.infinite := by cases h3; rfl
      subst h3
      refine ⟨by simp [Event.ofAssignments], by simp [announced], .inl rfl, (keep_infinite _ _).symm, by omega, ?_, rfl⟩
      rw [hc, Nat.sub_self]; rfl
    · have : sc' = sc := by
        have := hg.eval
        rw [h3] at this
        exact (Except.ok.inj this).symm
      subst this
      have ha : announced (Event.ofBest env.worker sol0 sc0 :: evs') = (sol0, sc0) :: announced evs' := rfl
      have hall : ∀ x ∈ (sol0, sc0) :: announced evs', Hill.Good pr (Placed pr.input) x := by
        intro x hx
        rcases List.mem_cons.1 hx with rfl | hx
        · exact hg0
        · exact hst.good x hx
      refine ⟨?_, by rw [ha]; exact hall, .inr hg, ?_, hst.grows, ?_, hst.quiet⟩
      · intro e he
        rcases List.mem_cons.1 he with rfl | he
        · rfl
        rcases List.mem_cons.1 he with rfl | he
        · rfl
        · exact hst.worker e he
      · rw [ha]
        exact foldl_keep_improving _ hb (fun x hx => ⟨(hall x hx).mode, (hall x hx).fin⟩) hst.improving hst.last
      · exact hst.counted
  obtain ⟨f1, f2, f3, f4, f5, f6, f7⟩ := hfacts
  obtain ⟨b1, b2, b3, b4, evr, b5, b6, b7⟩ := record_best env sol sc ({ st with
      sched := r'
      hill := h' } : SState σ τ ρ)
  have hev : ∀ st1 : SState σ τ ρ, (Shotgun.tick env st1).hill.events = st1.hill.events ++
    [Event.ofIterations env.worker (st1.progress.iterations + 1)] := fun _ => rfl
  have hcnt : (Shotgun.tick env (Shotgun.record env sol sc { st with
      sched := r'
      hill := h' })).hill.count = h'.count := b3.2.2.1.symm
  have hevr : evr.filterMap (·.assignments) = [] ∧ evr.filterMap (·.iterations) = [] ∧ (∀ e ∈ evr, e.worker = env.worker) ∧
      (∀ x ∈ announced evr, x = (sol, sc)) := by
    rcases b6 with rfl | rfl
    · simp [announced]
    · refine ⟨rfl, rfl, by simp [Event.ofBest], ?_⟩
      intro x hx
      have : announced [Event.ofBest env.worker sol sc] = [(sol, sc)] := rfl
      rw [this] at hx
      simpa using hx
  have hgoodr : ∀ x ∈ announced evr, Hill.Good pr (Placed pr.input) x := by
    intro x hx
    have := hevr.2.2.2 x hx
    subst this
    rcases f3 with e | hg
    · -- the infinite score is never recorded
      exfalso
      rcases b6 with rfl | rfl
      · cases hx
      · have hlt : Score.lt sc st.progress.bestScore = false := by
          cases h : Score.lt sc st.progress.bestScore
          · rfl
          · have := Score.lt_finite h
            cases e
            exact absurd this (by decide)
        have hno : Shotgun.record env sol sc { st with
            sched := r'
            hill := h' } = { st with
            sched := r'
            hill := h' } := by
          unfold Shotgun.record
          simp only [hlt, Bool.false_eq_true, if_false]
        rw [hno] at b5
        have := congrArg List.length b5
        simp at this
    · exact hg
  refine ⟨(lps ++ Event.ofAssignments env.worker (st.hill.count + 1) :: evs0) ++ evr ++
    [Event.ofIterations env.worker (st.progress.iterations + 1)], ?_, hi', hE.supplies.keeps _ _ _ hr h1⟩
  refine
    { history := ?_
      length := rfl
      count := ?_
      best := ?_
      sound := ?_
      events := ?_
      worker := ?_
      same := ?_
      good := ?_
      iters := ?_
      grows := ?_
      asgs := ?_ }
  · have hh : History pr env dl st.sched st.hill [] st.sched st.hill := .none (SameSolver.refl _)
    have := History.more (h' := (Shotgun.tick env (Shotgun.record env sol sc { st with
      sched := r'
      hill := h' })).hill) hh (x := (sol, sc)) (r'' := r') (h2 := h') ⟨s, h1, h2, h3⟩ (by exact b3)
    have e : (Shotgun.tick env (Shotgun.record env sol sc { st with
      sched := r'
      hill := h' })).sched = r' := b2
    rw [e]; exact this
  · show _ + 1 = _
    rw [b4]
  · show (Shotgun.record env sol sc _).best = _
    rw [b1]; rfl
  · intro x hx
    simp only [List.mem_singleton] at hx; subst hx; exact f3
  · rw [hev, b5, b4]
    show h'.events ++ evr ++ _ = _
    rw [he]
    simp [List.append_assoc]
  · intro e he
    rw [List.mem_append, List.mem_append] at he
    rcases he with (he | he) | he
    · rcases List.mem_append.1 he with he | he
      · exact hlps.worker e he
      · exact f1 e he
    · exact hevr.2.2.1 e he
    · simp only [List.mem_singleton] at he; subst he; rfl
  · rw [announced_append, announced_append]
    have e1 : announced (lps ++ Event.ofAssignments env.worker (st.hill.count + 1) :: evs0) = announced evs0 := by
      rw [announced_append, hlps.silent]; rfl
    have e2 : announced [Event.ofIterations env.worker (st.progress.iterations + 1)] = [] := rfl
    rw [e1, e2, List.append_nil, List.foldl_append, f4]
    exact b7
  · intro x hx
    rw [announced_append, announced_append] at hx
    have e1 : announced (lps ++ Event.ofAssignments env.worker (st.hill.count + 1) :: evs0) = announced evs0 := by
      rw [announced_append, hlps.silent]; rfl
    have e2 : announced [Event.ofIterations env.worker (st.progress.iterations + 1)] = [] := rfl
    rw [e1, e2, List.append_nil, List.mem_append] at hx
    rcases hx with hx | hx
    · exact f2 x hx
    · exact hgoodr x hx
  · rw [List.filterMap_append, List.filterMap_append, hevr.2.1]
    have e1 : (lps ++ Event.ofAssignments env.worker (st.hill.count + 1) :: evs0).filterMap (·.iterations) = [] := by
      rw [List.filterMap_append, hlps.iterations]; exact f7
    rw [e1]; rfl
  · rw [hcnt]; omega
  · rw [List.filterMap_append, List.filterMap_append, hevr.1, hcnt]
    have e1 : (lps ++ Event.ofAssignments env.worker (st.hill.count + 1) :: evs0).filterMap (·.assignments) =
      (st.hill.count + 1) :: evs0.filterMap (·.assignments) := by
      rw [List.filterMap_append, hlps.assignments]; rfl
    have e2 : ([Event.ofIterations env.worker (st.progress.iterations + 1)]).filterMap (·.assignments) = [] := rfl
    rw [e1, e2, f6, List.append_nil, List.append_nil]
    have e3 : h'.count - st.hill.count = (h'.count - (st.hill.count + 1)) + 1 := by omega
    rw [e3, List.range'_succ]

theorem iterate_worked {pr : HProblem} {env : SEnv σ τ ρ} {Inv : τ → Prop} {InvR : ρ → Prop} (hE : WorkerWF pr env Inv InvR)
    {dl : Bool} : ∀ (n : Nat) {k : Nat} {st st' : SState σ τ ρ}, st.best.2.InMode pr.scoring.greedy → Inv st.hill.asg →
      InvR st.sched → Shotgun.iterate pr env dl n st = .ok (k, st') →
      ∃ seen evs, Worked pr env dl st k st' seen evs ∧ k ≤ n ∧ Inv st'.hill.asg ∧ InvR st'.sched := by
  intro n
  induction n with
  | zero =>
    intro k st st' hb hi hr h
    cases h
    exact ⟨[], [], Worked.refl rfl rfl rfl rfl, Nat.le_refl _, hi, hr⟩
  | succ n ih =>
    intro k st st' hb hi hr h
    obtain ⟨c1, c2, c3⟩ := sclock_eq env dl st
    unfold Shotgun.iterate at h
    simp only at h
    split at h
    · cases h
      refine ⟨[], [], Worked.refl c1 c2 ?_ (by rw [c3]), Nat.zero_le _, by rw [c2]; exact hi, by rw [c1]; exact hr⟩
      unfold SState.best; rw [c3]
    · simp only [R.bind_eq_ok] at h
      obtain ⟨⟨x, r'⟩, hx, h⟩ := h
      cases x with
      | none =>
        simp only at h
        cases h
        refine ⟨[], [], ?_, Nat.zero_le _, by show Inv (Shotgun.clock env dl st).2.hill.asg; rw [c2]; exact hi,
          hE.supplies.keeps _ _ _ (by rw [c1]; exact hr) hx⟩
        have hw : Worked pr env dl st 0 (Shotgun.clock env dl st).2 [] [] :=
          Worked.refl c1 c2 (by unfold SState.best; rw [c3]) (by rw [c3])
        exact { hw with
          history := by
            have := hw.history
            exact .dry this hx }
      | some s =>
        simp only [R.bind_eq_ok] at h
        obtain ⟨⟨sol, h'⟩, hs, sc, hsc, ⟨k', st2⟩, hit, h⟩ := h
        cases h
        have hw0 : Worked pr env dl st 0 (Shotgun.clock env dl st).2 [] [] :=
          Worked.refl c1 c2 (by unfold SState.best; rw [c3]) (by rw [c3])
        have hb' : (Shotgun.clock env dl st).2.best.2.InMode pr.scoring.greedy := by
          unfold SState.best; rw [c3]; exact hb
        obtain ⟨evs, hw1, hi1, hr1⟩ := iteration_worked hE hb' (by rw [c2]; exact hi) (by rw [c1]; exact hr) hx hs hsc
        have hw2 := hw0.trans hw1
        have hb2 : (Shotgun.tick env (Shotgun.record env sol sc { (Shotgun.clock env dl st).2 with
            sched := r'
            hill := h' })).best.2.InMode pr.scoring.greedy := by
          rw [hw1.best]
          exact foldl_keep_mode _ hb' hw1.mode
        obtain ⟨r1, r2, r3, r4, _⟩ := record_best env sol sc { (Shotgun.clock env dl st).2 with
            sched := r'
            hill := h' }
        obtain ⟨seen', evs', hw3, hle, hi3, hr3⟩ := ih hb2 (by
            show Inv (Shotgun.record env sol sc _).hill.asg
            rw [← r3.2.1]; exact hi1) (by
            show InvR (Shotgun.record env sol sc _).sched
            rw [r2]; exact hr1) hit
        refine ⟨[(sol, sc)] ++ seen', evs ++ evs', ?_, by omega, hi3, hr3⟩
        have := hw2.trans hw3
        simp only [List.nil_append, Nat.zero_add] at this
        rw [Nat.add_comm 1 k'] at this
        exact this

end Wassign
