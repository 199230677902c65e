import Verif.Proofs.AsgSolve
/-
Sequences of solve calls; the cache.
-/
namespace Wassign
open Spec Asg

section
variable {pr : AProblem} {env : AEnv} {s : Scheduling} {st : ScheduleState} {limit : Nat}

theorem CacheOk.weaken {sv : ASolver} {b : Bool} (h : CacheOk pr env b sv) : CacheOk pr env false sv := by
  intro c hc
  obtain ⟨h1, h2⟩ := h c hc
  cases b with
  | false => exact ⟨h1, h2⟩
  | true => exact ⟨h1, h2.weaken⟩

theorem reach_inv (hp : ProblemOk pr) (hlev : pr.input.prefLevels.Pairwise (· < ·)) (hb : Backend.Sound env.backend)
    {free : Bool} {sv : ASolver} (h : Reach pr env free sv) : KeptOk pr.input sv ∧ CacheOk pr env free sv := by
  induction h with
  | new => exact ⟨fun st h => (by cases h), fun c h => (by cases h)⟩
  | @step free deadline sv sv' s r hr hs hsolve ih =>
    obtain ⟨hk, hc⟩ := ih
    have hres : SolveRes pr env s deadline (free && !deadline) sv sv' r := by
      refine solveUntil_spec hp hlev hk hb ?_ ?_ hs hsolve
      · intro h; simp at h; exact h.2
      · cases deadline with
        | false => simpa using hc
        | true => simpa using hc.weaken
    refine ⟨?_, hres.cache⟩
    intro st hst
    obtain ⟨st', h1, h2⟩ := hres.kept
    rw [h1] at hst; cases hst
    exact ⟨s, hs, h2⟩

theorem reach_solve (hp : ProblemOk pr) (hlev : pr.input.prefLevels.Pairwise (· < ·)) (hb : Backend.Sound env.backend)
    {free deadline : Bool} {sv sv' : ASolver} (h : Reach pr env free sv) (hs : SchedShape pr.input s) {r : Option Assignment}
    (hsolve : solveUntil pr env deadline sv s = .ok (r, sv')) : SolveRes pr env s deadline (free && !deadline) sv sv' r := by
  obtain ⟨hk, hc⟩ := reach_inv hp hlev hb h
  refine solveUntil_spec hp hlev hk hb ?_ ?_ hs hsolve
  · intro h; simp at h; exact h.2
  · cases deadline with
    | false => simpa using hc
    | true => simpa using hc.weaken

/-! ### Plain validity -/

theorem alike_of_links {i : InputData} {a : Assignment} (hg : GroupsMean i) (hl : LinksScheduled i s) (hv : AsgValid i s a) :
    GroupsAlike i s a := by
  intro g hgm c hc c' hc' h1 h2 p _
  have hcon := (hg.connected c c' (hg.range g hgm c hc) (hg.range g hgm c' hc')).1 ⟨g, hgm, hc, hc'⟩
  refine (hl c c' h1 h2 hcon).least (P := fun x y => Attends a p x ↔ Attends a p y) ?_ (fun _ => Iff.rfl) (fun _ _ h => h.symm)
    (fun _ _ _ h h' => h.trans h')
  rintro x y ⟨⟨k, hk, e1, e2, e3⟩, s1, s2⟩
  have := hv.asg k hk
  unfold AsgHolds at this
  rw [e1, e3] at this
  simp only at this
  rw [e2] at this
  exact this s1 s2 p

/-! ### The cache does not influence the solving -/

/-- The same solver with another cache. -/
def withCache (c : Option CachedAssignment) (sv : ASolver) : ASolver := { sv with cached := c }

theorem clock_cache (deadline : Bool) (sv : ASolver) (c : Option CachedAssignment) :
    clock env deadline (withCache c sv) = ((clock env deadline sv).1, withCache c (clock env deadline sv).2) := by
  unfold clock withCache
  cases deadline <;> rfl

theorem solveWithLimit_cache (deadline : Bool) (sv : ASolver) (c : Option CachedAssignment) :
    solveWithLimit pr env deadline st limit (withCache c sv) =
      (solveWithLimit pr env deadline st limit sv).map (fun r => (r.1, withCache c r.2)) := by
  unfold solveWithLimit
  simp only [clock_cache]
  split
  · rfl
  · cases hf : buildFlow pr st limit with
    | error e => rfl
    | ok f =>
      simp only [R.bind_ok]
      have hw : ({ withCache c (clock env deadline sv).2 with lpCount := (withCache c (clock env deadline sv).2).lpCount + 1 } : ASolver) =
          withCache c { (clock env deadline sv).2 with lpCount := (clock env deadline sv).2.lpCount + 1 } := rfl
      rw [hw, clock_cache]
      simp only
      split
      · rfl
      · have hl : ∀ sv : ASolver, (withCache c sv).lpCount = sv.lpCount := fun _ => rfl
        rw [hl]
        split
        · simp only [clock_cache]; rfl
        · rename_i x _
          cases decode pr st { f with solution := x } with
          | error e => rfl
          | ok a => rfl

theorem binLoop_map {σ : Type} {attempt : Nat → σ → R (LimitResult × σ)} {levels : List Nat} {start : Nat} (g : σ → σ)
    (hg : ∀ l s, attempt l (g s) = (attempt l s).map (fun r => (r.1, g r.2))) :
    ∀ (fuel : Nat) (b : Bin) (s : σ), binLoop attempt levels start fuel b (g s) =
      (binLoop attempt levels start fuel b s).map (fun r => r.map (fun q => (q.1, g q.2))) := by
  intro fuel
  induction fuel with
  | zero =>
    intro b s
    unfold binLoop
    split <;> rfl
  | succ fuel ih =>
    intro b s
    unfold binLoop
    split
    · have hstep : binStep attempt levels start b (g s) = (binStep attempt levels start b s).map (fun r => (r.1, r.2.1, g r.2.2)) := by
        unfold binStep
        simp only [hg]
        generalize b.low + (b.high - b.low) / 2 = mid
        cases hx : idx levels mid "levels[mid]" with
        | error e => simp only [R.bind_error]; rfl
        | ok l =>
          simp only [R.bind_ok]
          cases hy : attempt l s with
          | error e => rfl
          | ok r =>
            obtain ⟨q, s1⟩ := r
            simp only [Except.map, R.bind_ok]
            cases q with
            | feasible a => simp only; split <;> rfl
            | infeasible => rfl
            | incomplete => rfl
      rw [hstep]
      cases binStep attempt levels start b s with
      | error e => rfl
      | ok r =>
        obtain ⟨x, b', s1⟩ := r
        simp only [Except.map, R.bind_ok]
        split
        · rfl
        · exact ih b' s1
    · rfl

/-- If the cache is for another scheduling, the result is the one of a solver without cache. -/
theorem solveUntil_cache (deadline : Bool) (sv : ASolver) (h : ∀ c, sv.cached = some c → c.slots ≠ s)
    (hst : ∀ st, prepare pr sv s = .ok st → st.slots = s) :
    (solveUntil pr env deadline sv s).map (fun r => (r.1, r.2.lpCount, r.2.ticks)) =
      (solveUntil pr env deadline (withCache none sv) s).map (fun r => (r.1, r.2.lpCount, r.2.ticks)) := by
  unfold solveUntil
  have hprep : prepare pr (withCache none sv) s = prepare pr sv s := rfl
  simp only [hprep]
  cases hp : prepare pr sv s with
  | error e => rfl
  | ok st =>
    simp only [R.bind_ok]
    have hslots := hst st hp
    have h1 : cachedFor { sv with state := some st } st.slots = none := by
      unfold cachedFor
      cases hc : sv.cached with
      | none => simp [hc]
      | some c =>
        simp only [hc]
        rw [if_neg]
        rintro ⟨e, _⟩
        exact h c hc (e.trans hslots)
    have h2 : cachedFor { withCache none sv with state := some st } st.slots = none := rfl
    have hw : ({ withCache none sv with state := some st } : ASolver) = withCache none { sv with state := some st } := rfl
    rw [h1, h2, hw]
    simp only
    split
    · rw [solveWithLimit_cache]
      cases solveWithLimit pr env deadline st pr.input.maxPref { sv with state := some st } with
      | error e => rfl
      | ok r =>
        obtain ⟨q, sv2⟩ := r
        simp only [Except.map, R.bind_ok]
        cases q <;> rfl
    · split
      · rfl
      · rw [binLoop_map (withCache none) (fun l s => solveWithLimit_cache deadline s none)]
        cases binLoop (solveWithLimit pr env deadline st) pr.input.prefLevels (startIndex pr.input.prefLevels pr.bound)
            (pr.input.prefLevels.length + 1)
            ⟨startIndex pr.input.prefLevels pr.bound, pr.input.prefLevels.length - 1, none, true⟩ { sv with state := some st } with
        | error e => rfl
        | ok r =>
          cases r with
          | none => rfl
          | some q =>
            obtain ⟨b, sv2⟩ := q
            simp only [Except.map, R.bind_ok, Option.map_some]
            cases b.best with
            | none => rfl
            | some a =>
              simp only [finish]
              cases b.isOptimal <;> rfl

/-! ### Late answers of the clock -/

/-- No clock reading between the two states was late. -/
def OnTime (env : AEnv) (sv sv' : ASolver) : Prop :=
  sv.ticks ≤ sv'.ticks ∧ ∀ n, sv.ticks ≤ n → n < sv'.ticks → env.late n = false

theorem clock_ticks (deadline : Bool) (sv : ASolver) :
    sv.ticks ≤ (clock env deadline sv).2.ticks ∧ ((clock env deadline sv).1 = false → OnTime env sv (clock env deadline sv).2) := by
  unfold clock
  cases deadline with
  | false => exact ⟨Nat.le_refl _, fun _ => ⟨Nat.le_refl _, fun n h1 h2 => by simp at h2; omega⟩⟩
  | true =>
    refine ⟨by simp, fun h => ⟨by simp, ?_⟩⟩
    intro n h1 h2
    simp only [if_true] at h h2
    have : n = sv.ticks := by omega
    rw [this]; exact h

theorem OnTime.trans {a b c : ASolver} (h1 : OnTime env a b) (h2 : OnTime env b c) : OnTime env a c := by
  refine ⟨Nat.le_trans h1.1 h2.1, ?_⟩
  intro n g1 g2
  by_cases h : n < b.ticks
  · exact h1.2 n g1 h
  · exact h2.2 n (by omega) g2

theorem solveWithLimit_onTime (deadline : Bool) {sv sv' : ASolver} {r : LimitResult}
    (h : solveWithLimit pr env deadline st limit sv = .ok (r, sv')) :
    r ≠ .incomplete → OnTime env sv sv' := by
  intro hne
  unfold solveWithLimit at h
  simp only at h
  by_cases hc : (clock env deadline sv).1 = true
  · rw [if_pos hc] at h; cases h; exact absurd rfl hne
  · rw [if_neg hc, R.bind_eq_ok] at h
    obtain ⟨f, hf, h⟩ := h
    have t1 := (clock_ticks (env := env) deadline sv).2 (by simpa using hc)
    generalize hsv2 : ({ (clock env deadline sv).2 with lpCount := (clock env deadline sv).2.lpCount + 1 } : ASolver) = sv2 at h
    have e2 : OnTime env sv sv2 := by rw [← hsv2]; exact t1
    by_cases hc2 : (clock env deadline sv2).1 = true
    · rw [if_pos hc2] at h; cases h; exact absurd rfl hne
    · rw [if_neg hc2] at h
      have t2 := e2.trans ((clock_ticks (env := env) deadline sv2).2 (by simpa using hc2))
      split at h
      · by_cases hc3 : (clock env deadline (clock env deadline sv2).2).1 = true
        · simp only [hc3, if_true] at h; cases h; exact absurd rfl hne
        · have t3 := t2.trans ((clock_ticks (env := env) deadline (clock env deadline sv2).2).2 (by simpa using hc3))
          cases h
          exact t3
      · rw [R.bind_eq_ok] at h
        obtain ⟨a, _, h⟩ := h
        cases h
        exact t2

theorem bin_onTime (deadline : Bool) {levels : List Nat} {start : Nat} : ∀ (fuel : Nat) (b b' : Bin) (sv sv' : ASolver),
    binLoop (solveWithLimit pr env deadline st) levels start fuel b sv = .ok (some (b', sv')) → b'.isOptimal = true →
    b.isOptimal = true ∧ OnTime env sv sv' := by
  have hrefl : ∀ sv : ASolver, OnTime env sv sv := fun sv => ⟨Nat.le_refl _, fun n h1 h2 => by omega⟩
  intro fuel
  induction fuel with
  | zero =>
    intro b b' sv sv' h ho
    unfold binLoop at h
    split at h
    · cases h
    · cases h; exact ⟨ho, hrefl _⟩
  | succ fuel ih =>
    intro b b' sv sv' h ho
    unfold binLoop at h
    split at h
    · rw [R.bind_eq_ok] at h
      obtain ⟨⟨x, b1, sv1⟩, hstep, h⟩ := h
      have hst : b1.isOptimal = true → b.isOptimal = true ∧ OnTime env sv sv1 := by
        unfold binStep at hstep
        simp only [R.bind_eq_ok] at hstep
        obtain ⟨l, _, ⟨q, sv2⟩, hat, hstep⟩ := hstep
        cases q with
        | feasible a =>
          have := solveWithLimit_onTime deadline hat (by simp)
          simp only at hstep
          split at hstep <;> (cases hstep; exact fun h => ⟨h, this⟩)
        | infeasible =>
          have := solveWithLimit_onTime deadline hat (by simp)
          simp only at hstep
          cases hstep; exact fun h => ⟨h, this⟩
        | incomplete =>
          simp only at hstep
          cases hstep; intro h; simp at h
      simp only at h
      split at h
      · cases h; exact hst ho
      · obtain ⟨g1, g2⟩ := ih b1 b' sv1 sv' h ho
        obtain ⟨g3, g4⟩ := hst g1
        exact ⟨g3, g4.trans g2⟩
    · cases h; exact ⟨ho, hrefl _⟩

/-- Whatever enters the cache was obtained without a late clock reading. -/
theorem solveUntil_onTime (deadline : Bool) {sv sv' : ASolver} {r : Option Assignment}
    (h : solveUntil pr env deadline sv s = .ok (r, sv')) : sv'.cached = sv.cached ∨ OnTime env sv sv' := by
  unfold solveUntil at h
  simp only [R.bind_eq_ok] at h
  obtain ⟨st, hst, h⟩ := h
  have same : ∀ {l : Nat} {sv1 sv2 : ASolver} {q : LimitResult}, solveWithLimit pr env deadline st l sv1 = .ok (q, sv2) →
      sv2.cached = sv1.cached := by
    intro l sv1 sv2 q hq
    have h1 := solveWithLimit_cache (pr := pr) (env := env) (st := st) (limit := l) deadline sv1 sv1.cached
    have h2 : withCache sv1.cached sv1 = sv1 := rfl
    rw [h2, hq] at h1
    simp only [Except.map, Except.ok.injEq, Prod.mk.injEq, true_and] at h1
    rw [h1]; rfl
  split at h
  · cases h; exact .inl rfl
  · split at h
    · rw [R.bind_eq_ok] at h
      obtain ⟨⟨q, sv2⟩, hq, h⟩ := h
      cases q with
      | feasible a =>
        simp only [finish, R.pure_eq, Except.ok.injEq, Prod.mk.injEq] at h
        obtain ⟨_, rfl⟩ := h
        have h2 : OnTime env { sv with state := some st } sv2 := solveWithLimit_onTime deadline hq (by simp)
        rw [if_pos trivial]
        exact .inr h2
      | infeasible =>
        simp only [finish, R.pure_eq, Except.ok.injEq, Prod.mk.injEq] at h
        obtain ⟨_, rfl⟩ := h
        have h2 := same hq
        exact .inl h2
      | incomplete =>
        simp only [finish, R.pure_eq, Except.ok.injEq, Prod.mk.injEq] at h
        obtain ⟨_, rfl⟩ := h
        have h2 := same hq
        exact .inl h2
    · split at h
      · cases h; exact .inl rfl
      · rw [R.bind_eq_ok] at h
        obtain ⟨res, hres, h⟩ := h
        cases res with
        | none => cases h
        | some bs =>
          obtain ⟨b, sv2⟩ := bs
          simp only at h
          have hcache : sv2.cached = sv.cached := by
            have h1 := binLoop_map (attempt := solveWithLimit pr env deadline st) (levels := pr.input.prefLevels)
              (start := startIndex pr.input.prefLevels pr.bound) (withCache sv.cached)
              (fun l s => solveWithLimit_cache deadline s _) (pr.input.prefLevels.length + 1)
              ⟨startIndex pr.input.prefLevels pr.bound, pr.input.prefLevels.length - 1, none, true⟩ { sv with state := some st }
            have h2 : withCache sv.cached { sv with state := some st } = { sv with state := some st } := rfl
            rw [h2, hres] at h1
            simp only [Except.map, Except.ok.injEq, Option.map_some, Option.some.injEq, Prod.mk.injEq, true_and] at h1
            rw [h1]; rfl
          cases hbest : b.best with
          | none =>
            rw [hbest] at h
            simp only [finish, R.pure_eq, Except.ok.injEq, Prod.mk.injEq] at h
            obtain ⟨_, rfl⟩ := h
            exact .inl hcache
          | some a =>
            rw [hbest] at h
            simp only [finish, R.pure_eq, Except.ok.injEq, Prod.mk.injEq] at h
            obtain ⟨_, rfl⟩ := h
            by_cases ho : b.isOptimal = true
            · rw [if_pos ho]
              have h2 := (bin_onTime deadline _ _ _ _ _ hres ho).2
              exact .inr h2
            · rw [if_neg ho]; exact .inl hcache

end
end Wassign
