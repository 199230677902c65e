import Verif.Spec.Quiet
import Verif.Props.Threaded
/-
Undisturbed sessions, and the independence of a worker from the others.
-/
namespace Wassign
open Spec Threaded
variable {σ τ ρ : Type} {cfg : Setup σ τ ρ}

theorem Spec.Prompt.toMove {g g' : Session σ τ ρ} (h : Prompt cfg g g') : Move cfg g g' := by
  cases h with
  | check tid w h1 h2 => exact .check g tid w false h1 h2
  | run tid w h1 h2 => exact .run g tid w h1 h2
  | test tid k w h1 h2 => exact .test g tid k w h1 h2

theorem Spec.Undisturbed.toRun {g g' : Session σ τ ρ} (h : Undisturbed cfg g g') : Run cfg g g' := by
  induction h with
  | refl => exact .refl _
  | step _ h ih => exact .step ih (.move h.toMove)

/-! ### What a worker does does not depend on the others -/

/-- The state of worker `tid` after `n` complete iterations, if none of them panicked. -/
def after (cfg : Setup σ τ ρ) (tid : Nat) : Nat → Option (SState σ τ ρ)
  | 0 => some (cfg.init tid)
  | n + 1 => match after cfg tid n with
    | none => none
    | some st => match Shotgun.iterate cfg.problem (cfg.env tid) true 1 st with
      | .ok (_, st') => some (if cfg.any then Shotgun.progress (cfg.env tid) st' else st')
      | .error _ => none

/-- The worker is where its number of iterations says. -/
def OnTrack (cfg : Setup σ τ ρ) (tid : Nat) (w : Worker σ τ ρ) : Prop :=
  match w.phase with
  | .check => after cfg tid w.started = some w.st
  | .finished => after cfg tid w.started = some w.st
  | .run => ∃ m, w.started = m + 1 ∧ after cfg tid m = some w.st
  | .test k => ∃ m st, w.started = m + 1 ∧ after cfg tid m = some st ∧
      Shotgun.iterate cfg.problem (cfg.env tid) true 1 st = .ok (k, w.st)
  | .panicked => ∃ m e, w.started = m + 1 ∧ after cfg tid m = some w.st ∧
      Shotgun.iterate cfg.problem (cfg.env tid) true 1 w.st = .error e

/-- The state of the worker after the test (threaded_solver.rs:125). -/
def synced (cfg : Setup σ τ ρ) (tid : Nat) (w : Worker σ τ ρ) : SState σ τ ρ :=
  if cfg.any then Shotgun.progress (cfg.env tid) w.st else w.st

theorem synced_eq (tid : Nat) (w : Worker σ τ ρ) : (synced cfg tid w).sched = w.st.sched ∧
    (synced cfg tid w).progress.bestScore = w.st.progress.bestScore := by
  unfold synced; split <;> exact ⟨rfl, rfl⟩

theorem testStep_cases (tid k : Nat) (w : Worker σ τ ρ) :
    (testStep cfg tid k w = (true, ⟨.finished, synced cfg tid w, w.started⟩) ∧ cfg.any = true ∧
      (synced cfg tid w).progress.bestScore.isFinite = true) ∨
    (testStep cfg tid k w = (false, ⟨.finished, synced cfg tid w, w.started⟩) ∧ (cfg.problem.input.ns = 1 ∨ k < 1)) ∨
    (testStep cfg tid k w = (false, ⟨.check, synced cfg tid w, w.started⟩) ∧ ¬ (cfg.problem.input.ns = 1 ∨ k < 1)) := by
  unfold testStep
  change (if (cfg.any && (synced cfg tid w).progress.bestScore.isFinite) = true then _ else _) = _ ∧ _ ∨
    (if (cfg.any && (synced cfg tid w).progress.bestScore.isFinite) = true then _ else _) = _ ∧ _ ∨
    (if (cfg.any && (synced cfg tid w).progress.bestScore.isFinite) = true then _ else _) = _ ∧ _
  by_cases h : (cfg.any && (synced cfg tid w).progress.bestScore.isFinite) = true
  · left
    rw [if_pos h]
    simp only [Bool.and_eq_true] at h
    exact ⟨rfl, h⟩
  · right
    rw [if_neg h]
    by_cases h' : cfg.problem.input.ns = 1 ∨ k < 1
    · left; rw [if_pos h']; exact ⟨rfl, h'⟩
    · right; rw [if_neg h']; exact ⟨rfl, h'⟩

theorem checkStep_track {tid : Nat} {w : Worker σ τ ρ} (c late : Bool) (hp : w.phase = .check) (h : OnTrack cfg tid w) :
    OnTrack cfg tid (checkStep c late w) := by
  unfold OnTrack at h
  rw [hp] at h
  unfold checkStep
  split
  · exact h
  · exact ⟨w.started, rfl, h⟩

theorem runStep_track {tid : Nat} {w : Worker σ τ ρ} (hp : w.phase = .run) (h : OnTrack cfg tid w) :
    OnTrack cfg tid (runStep cfg tid w) := by
  unfold OnTrack at h
  rw [hp] at h
  obtain ⟨m, h1, h2⟩ := h
  unfold runStep
  split
  · rename_i k st he
    exact ⟨m, w.st, h1, h2, he⟩
  · rename_i e he
    exact ⟨m, e, h1, h2, he⟩

theorem testStep_track {tid k : Nat} {w : Worker σ τ ρ} (hp : w.phase = .test k) (h : OnTrack cfg tid w) :
    OnTrack cfg tid (testStep cfg tid k w).2 := by
  unfold OnTrack at h
  rw [hp] at h
  obtain ⟨m, st, h1, h2, h3⟩ := h
  have key : after cfg tid w.started = some (synced cfg tid w) := by
    rw [h1]; unfold after; rw [h2]; simp only [h3]; rfl
  rcases testStep_cases (cfg := cfg) tid k w with ⟨e, _⟩ | ⟨e, _⟩ | ⟨e, _⟩ <;> (rw [e]; exact key)

/-- All workers are on track. -/
theorem step_track {g g' : Session σ τ ρ} (hs : Step cfg g g') (h : ∀ (tid : Nat) (w : Worker σ τ ρ), g.workers[tid]? = some w → OnTrack cfg tid w) :
    ∀ (tid : Nat) (w : Worker σ τ ρ), g'.workers[tid]? = some w → OnTrack cfg tid w := by
  have key : ∀ (t : Nat) (v : Worker σ τ ρ), OnTrack cfg t v → ∀ (tid : Nat) (w : Worker σ τ ρ), (g.workers.set t v)[tid]? = some w → OnTrack cfg tid w := by
    intro t v hv tid w hw
    rw [List.getElem?_set] at hw
    by_cases e : t = tid
    · subst e
      simp only [if_true] at hw
      split at hw
      · cases hw; exact hv
      · cases hw
    · rw [if_neg e] at hw
      exact h tid w hw
  cases hs with
  | cancel => exact h
  | move hm =>
    cases hm with
    | check t v late h1 h2 => exact key t _ (checkStep_track _ _ h2 (h t v h1))
    | run t v h1 h2 => exact key t _ (runStep_track h2 (h t v h1))
    | test t k v h1 h2 => exact key t _ (testStep_track h2 (h t v h1))

theorem start_get {tid : Nat} {w : Worker σ τ ρ} (h : (start cfg).workers[tid]? = some w) : w = ⟨.check, cfg.init tid, 0⟩ := by
  have hlt : tid < workerCount cfg := by
    have := (List.getElem?_eq_some_iff.1 h).1
    simpa [start] using this
  simp [start, hlt] at h
  exact h.symm

theorem run_track {g : Session σ τ ρ} (hr : Run cfg (start cfg) g) :
    ∀ (tid : Nat) (w : Worker σ τ ρ), g.workers[tid]? = some w → OnTrack cfg tid w := by
  generalize hs : start cfg = g0 at hr
  induction hr with
  | refl => intro tid w hw; subst hs; rw [start_get hw]; rfl
  | step _ h ih => exact step_track h ih

theorem step_length {g g' : Session σ τ ρ} (hs : Step cfg g g') : g'.workers.length = g.workers.length := by
  cases hs with
  | cancel => rfl
  | move hm => cases hm <;> simp

theorem run_length {g g' : Session σ τ ρ} (hr : Run cfg g g') : g'.workers.length = g.workers.length := by
  induction hr with
  | refl => rfl
  | step _ h ih => rw [step_length h, ih]

/-- A worker that has ended is determined by its number of iterations. -/
theorem track_unique {tid : Nat} {w w' : Worker σ τ ρ} (h : OnTrack cfg tid w) (h' : OnTrack cfg tid w')
    (he : w.phase = .finished ∨ w.phase = .panicked) (he' : w'.phase = .finished ∨ w'.phase = .panicked)
    (hs : w.started = w'.started) : w = w' := by
  obtain ⟨ph, st, n⟩ := w
  obtain ⟨ph', st', n'⟩ := w'
  simp only at hs he he'
  subst hs
  have hno : ∀ m (s : SState σ τ ρ) e, after cfg tid m = some s → Shotgun.iterate cfg.problem (cfg.env tid) true 1 s = .error e →
      after cfg tid (m + 1) = none := by
    intro m s e h1 h2
    unfold after; rw [h1]; simp only [h2]
  rcases he with rfl | rfl <;> rcases he' with rfl | rfl <;> simp only [OnTrack] at h h'
  · rw [h] at h'; cases h'; rfl
  · obtain ⟨m, e, h1, h2, h3⟩ := h'
    rw [h1, hno m _ e h2 h3] at h; cases h
  · obtain ⟨m, e, h1, h2, h3⟩ := h
    rw [h1, hno m _ e h2 h3] at h'; cases h'
  · obtain ⟨m, e, h1, h2, h3⟩ := h
    obtain ⟨m', e', h1', h2', h3'⟩ := h'
    have : m = m' := by omega
    subst this
    rw [h2] at h2'; cases h2'; rfl

/-! ### Undisturbed sessions -/

/-- In an undisturbed session: why a worker is where it is. -/
structure Calm' (cfg : Setup σ τ ρ) (g : Session σ τ ρ) : Prop where
  cancelled : g.cancelled = true → cfg.any = true ∧ ∃ w ∈ g.workers, w.phase = .finished ∧ w.st.progress.bestScore.isFinite = true
  tested : ∀ (tid k : Nat) (w : Worker σ τ ρ), g.workers[tid]? = some w → w.phase = .test k → k < 1 → Dry cfg tid w
  done : ∀ (tid : Nat) (w : Worker σ τ ρ), g.workers[tid]? = some w → w.phase = .finished →
    g.cancelled = true ∨ cfg.problem.input.ns = 1 ∨ Dry cfg tid w

theorem prompt_calm {g g' : Session σ τ ρ} (hs : Prompt cfg g g') (h : Calm' cfg g) : Calm' cfg g' := by
  have getset : ∀ (l : List (Worker σ τ ρ)) (t : Nat) (v : Worker σ τ ρ) (tid : Nat) (w : Worker σ τ ρ),
      (l.set t v)[tid]? = some w → (t = tid ∧ w = v) ∨ (t ≠ tid ∧ l[tid]? = some w) := by
    intro l t v tid w hw
    rw [List.getElem?_set] at hw
    by_cases e : t = tid
    · subst e
      simp only [if_true] at hw
      split at hw
      · cases hw; exact .inl ⟨rfl, rfl⟩
      · cases hw
    · rw [if_neg e] at hw
      exact .inr ⟨e, hw⟩
  -- a worker that was not finished is replaced: the finished ones are still there
  have keep : ∀ (l : List (Worker σ τ ρ)) (t : Nat) (v u : Worker σ τ ρ), l[t]? = some u → u.phase ≠ .finished →
      (∃ w ∈ l, w.phase = .finished ∧ w.st.progress.bestScore.isFinite = true) →
      ∃ w ∈ l.set t v, w.phase = .finished ∧ w.st.progress.bestScore.isFinite = true := by
    intro l t v u hu hp ⟨w, hw, h1, h2⟩
    obtain ⟨j, hj⟩ := List.mem_iff_getElem?.1 hw
    refine ⟨w, ?_, h1, h2⟩
    have : t ≠ j := by
      intro e
      subst e
      rw [hu] at hj; cases hj; exact hp h1
    exact List.mem_iff_getElem?.2 ⟨j, by rw [List.getElem?_set_ne this]; exact hj⟩
  cases hs with
  | check t v h1 h2 =>
    refine ⟨fun hc => ⟨(h.cancelled hc).1, keep _ _ _ _ h1 (by rw [h2]; simp) (h.cancelled hc).2⟩, ?_, ?_⟩
    · intro tid k w hw hp hk
      rcases getset _ _ _ _ _ hw with ⟨_, rfl⟩ | ⟨_, hw⟩
      · exfalso
        unfold checkStep at hp
        split at hp <;> cases hp
      · exact h.tested tid k w hw hp hk
    · intro tid w hw hp
      rcases getset _ _ _ _ _ hw with ⟨_, rfl⟩ | ⟨_, hw⟩
      · left
        unfold checkStep at hp
        split at hp
        · rename_i hc; simpa using hc
        · cases hp
      · exact h.done tid w hw hp
  | run t v h1 h2 =>
    refine ⟨fun hc => ⟨(h.cancelled hc).1, keep _ _ _ _ h1 (by rw [h2]; simp) (h.cancelled hc).2⟩, ?_, ?_⟩
    · intro tid k w hw hp hk
      rcases getset _ _ _ _ _ hw with ⟨e, rfl⟩ | ⟨_, hw⟩
      · subst e
        unfold runStep at hp ⊢
        split at hp
        · rename_i k' st he
          cases hp
          obtain ⟨_, _, h3⟩ := C20_iterations_done cfg.problem (cfg.env t) true 1 k v.st st he
          rcases h3 hk with ⟨_, h3⟩ | h3
          · exact .inl h3
          · exact .inr h3
        · cases hp
      · exact h.tested tid k w hw hp hk
    · intro tid w hw hp
      rcases getset _ _ _ _ _ hw with ⟨_, rfl⟩ | ⟨_, hw⟩
      · unfold runStep at hp
        split at hp <;> cases hp
      · exact h.done tid w hw hp
  | test t k v h1 h2 =>
    have hlt : t < g.workers.length := (List.getElem?_eq_some_iff.1 h1).1
    obtain ⟨q1, q2⟩ := synced_eq (cfg := cfg) t v
    have hdry : k < 1 → ∀ p n, Dry cfg t ⟨p, synced cfg t v, n⟩ := by
      intro hk p n
      rcases h.tested t k v h1 h2 hk with hd | ⟨r, hd⟩
      · exact .inl hd
      · exact .inr ⟨r, by rw [hd, ← q1]⟩
    have hdone : ∀ c : Bool, (g.cancelled = true → c = true) → ∀ (tid : Nat) (w : Worker σ τ ρ), g.workers[tid]? = some w →
        w.phase = .finished → c = true ∨ cfg.problem.input.ns = 1 ∨ Dry cfg tid w := by
      intro c hc tid w hw hp
      rcases h.done tid w hw hp with h | h
      · exact .inl (hc h)
      · exact .inr h
    rcases testStep_cases (cfg := cfg) t k v with ⟨e, ha, hf⟩ | ⟨e, hs⟩ | ⟨e, _⟩ <;> rw [e]
    · refine ⟨fun _ => ⟨ha, _, List.mem_set hlt _, rfl, hf⟩, ?_, fun tid w hw hp => .inl (by simp)⟩
      intro tid k' w hw hp hk
      rcases getset _ _ _ _ _ hw with ⟨_, rfl⟩ | ⟨_, hw⟩
      · cases hp
      · exact h.tested tid k' w hw hp hk
    · refine ⟨?_, ?_, ?_⟩
      · intro hc
        have hc : g.cancelled = true := by simpa using hc
        exact ⟨(h.cancelled hc).1, keep _ _ _ _ h1 (by rw [h2]; simp) (h.cancelled hc).2⟩
      · intro tid k' w hw hp hk
        rcases getset _ _ _ _ _ hw with ⟨_, rfl⟩ | ⟨_, hw⟩
        · cases hp
        · exact h.tested tid k' w hw hp hk
      · intro tid w hw hp
        rcases getset _ _ _ _ _ hw with ⟨e, rfl⟩ | ⟨_, hw⟩
        · subst e
          rcases hs with hs | hs
          · exact .inr (.inl hs)
          · exact .inr (.inr (hdry hs _ _))
        · exact hdone _ (by simp) tid w hw hp
    · refine ⟨?_, ?_, ?_⟩
      · intro hc
        have hc : g.cancelled = true := by simpa using hc
        exact ⟨(h.cancelled hc).1, keep _ _ _ _ h1 (by rw [h2]; simp) (h.cancelled hc).2⟩
      · intro tid k' w hw hp hk
        rcases getset _ _ _ _ _ hw with ⟨_, rfl⟩ | ⟨_, hw⟩
        · cases hp
        · exact h.tested tid k' w hw hp hk
      · intro tid w hw hp
        rcases getset _ _ _ _ _ hw with ⟨e, rfl⟩ | ⟨_, hw⟩
        · cases hp
        · exact hdone _ (by simp) tid w hw hp

theorem undisturbed_calm {g : Session σ τ ρ} (hr : Undisturbed cfg (start cfg) g) : Calm' cfg g := by
  generalize hs : start cfg = g0 at hr
  induction hr with
  | refl =>
    subst hs
    refine ⟨fun h => (by cases h), ?_, ?_⟩
    · intro tid k w hw hp; rw [start_get hw] at hp; cases hp
    · intro tid w hw hp; rw [start_get hw] at hp; cases hp
  | step _ h ih => exact prompt_calm h ih

/-! ### The number of iterations of an undisturbed worker -/

/-- Worker `tid` completes iteration `m` and goes on. -/
def Goes (cfg : Setup σ τ ρ) (tid m : Nat) : Prop :=
  ∃ st k st', after cfg tid m = some st ∧ Shotgun.iterate cfg.problem (cfg.env tid) true 1 st = .ok (k, st') ∧
    ¬ (cfg.problem.input.ns = 1 ∨ k < 1)

def Course (cfg : Setup σ τ ρ) (tid : Nat) (w : Worker σ τ ρ) : Prop :=
  match w.phase with
  | .check => ∀ m, m < w.started → Goes cfg tid m
  | .run => ∃ m, w.started = m + 1 ∧ ∀ j, j < m → Goes cfg tid j
  | .test _ => ∃ m, w.started = m + 1 ∧ ∀ j, j < m → Goes cfg tid j
  | _ => ∃ m, w.started = m + 1 ∧ (∀ j, j < m → Goes cfg tid j) ∧ ¬ Goes cfg tid m

theorem prompt_course (hany : cfg.any = false) {g g' : Session σ τ ρ} (hs : Prompt cfg g g') (hc : g.cancelled = false)
    (ht : ∀ (tid : Nat) (w : Worker σ τ ρ), g.workers[tid]? = some w → OnTrack cfg tid w)
    (h : ∀ (tid : Nat) (w : Worker σ τ ρ), g.workers[tid]? = some w → Course cfg tid w) :
    ∀ (tid : Nat) (w : Worker σ τ ρ), g'.workers[tid]? = some w → Course cfg tid w := by
  have key : ∀ (t : Nat) (v : Worker σ τ ρ), Course cfg t v → ∀ (tid : Nat) (w : Worker σ τ ρ), (g.workers.set t v)[tid]? = some w → Course cfg tid w := by
    intro t v hv tid w hw
    rw [List.getElem?_set] at hw
    by_cases e : t = tid
    · subst e
      simp only [if_true] at hw
      split at hw
      · cases hw; exact hv
      · cases hw
    · rw [if_neg e] at hw
      exact h tid w hw
  cases hs with
  | check t v h1 h2 =>
    refine key t _ ?_
    have hv := h t v h1
    unfold Course at hv
    rw [h2] at hv
    rw [hc]
    exact ⟨v.started, rfl, hv⟩
  | run t v h1 h2 =>
    refine key t _ ?_
    have hv := h t v h1
    unfold Course at hv
    rw [h2] at hv
    obtain ⟨m, e, hv⟩ := hv
    have hk := ht t v h1
    unfold OnTrack at hk
    rw [h2] at hk
    obtain ⟨m', e', hk⟩ := hk
    have : m' = m := by omega
    subst this
    unfold runStep
    split
    · exact ⟨m', e, hv⟩
    · rename_i er he
      refine ⟨m', e, hv, ?_⟩
      rintro ⟨st, k, st', g1, g2, _⟩
      rw [hk] at g1; cases g1
      rw [he] at g2; cases g2
  | test t k v h1 h2 =>
    refine key t _ ?_
    have hv := h t v h1
    unfold Course at hv
    rw [h2] at hv
    obtain ⟨m, e, hv⟩ := hv
    have hk := ht t v h1
    unfold OnTrack at hk
    rw [h2] at hk
    obtain ⟨m', st, e', hk, hi⟩ := hk
    have : m' = m := by omega
    subst this
    rcases testStep_cases (cfg := cfg) t k v with ⟨e1, ha, hf⟩ | ⟨e1, hs⟩ | ⟨e1, hs⟩ <;> rw [e1]
    · rw [hany] at ha; cases ha
    · refine ⟨m', e, hv, ?_⟩
      rintro ⟨st2, k2, st2', g1, g2, g3⟩
      rw [hk] at g1; cases g1
      rw [hi] at g2; cases g2
      exact g3 hs
    · intro j hj
      by_cases hlt : j < m'
      · exact hv j hlt
      · have hj : j < v.started := hj
        have : j = m' := by omega
        subst this
        exact ⟨st, k, v.st, hk, hi, hs⟩

theorem undisturbed_course (hany : cfg.any = false) {g : Session σ τ ρ} (hr : Undisturbed cfg (start cfg) g) :
    ∀ (tid : Nat) (w : Worker σ τ ρ), g.workers[tid]? = some w → Course cfg tid w := by
  generalize hs : start cfg = g0 at hr
  induction hr with
  | refl => intro tid w hw; subst hs; rw [start_get hw]; intro m hm; exact absurd hm (Nat.not_lt_zero _)
  | step hr h ih =>
    subst hs
    refine prompt_course hany h ?_ (run_track hr.toRun) ih
    rename_i g1 g2
    cases hc : g1.cancelled with
    | false => rfl
    | true => have := ((undisturbed_calm hr).cancelled hc).1; rw [hany] at this; cases this

theorem course_unique {tid : Nat} {w w' : Worker σ τ ρ} (h : Course cfg tid w) (h' : Course cfg tid w')
    (he : w.phase = .finished ∨ w.phase = .panicked) (he' : w'.phase = .finished ∨ w'.phase = .panicked) : w.started = w'.started := by
  have get : ∀ v : Worker σ τ ρ, Course cfg tid v → (v.phase = .finished ∨ v.phase = .panicked) →
      ∃ m, v.started = m + 1 ∧ (∀ j, j < m → Goes cfg tid j) ∧ ¬ Goes cfg tid m := by
    intro v hv hp
    unfold Course at hv
    rcases hp with hp | hp <;> (rw [hp] at hv; exact hv)
  obtain ⟨m, e, h1, h2⟩ := get w h he
  obtain ⟨m', e', h1', h2'⟩ := get w' h' he'
  have : m = m' := by
    rcases Nat.lt_trichotomy m m' with hlt | heq | hlt
    · exact absurd (h1' m hlt) h2
    · exact heq
    · exact absurd (h1 m' hlt) h2'
  omega

end Wassign
