import Verif.Model.AssignmentSolver
import Verif.Spec.Progress
import Verif.Proofs.FoldLemmas
/-
The dimensions of what the assignment solver returns, whatever the MIP backend answers.
-/
namespace Wassign
open Spec Asg

theorem mapM_inv {α β : Type} {f : α → R β} : ∀ {l : List α} {ys : List β}, l.mapM f = .ok ys →
    ys.length = l.length ∧ ∀ y ∈ ys, ∃ x ∈ l, f x = .ok y := by
  intro l
  induction l with
  | nil => intro ys h; rw [List.mapM_nil] at h; cases h; exact ⟨rfl, by simp⟩
  | cons a t ih =>
    intro ys h
    rw [List.mapM_cons] at h
    simp only [R.bind_eq_ok] at h
    obtain ⟨y, hy, zs, hz, h⟩ := h
    cases h
    obtain ⟨h1, h2⟩ := ih hz
    refine ⟨by simp [h1], ?_⟩
    intro z hz
    rcases List.mem_cons.1 hz with rfl | hz
    · exact ⟨a, by simp, hy⟩
    · obtain ⟨x, hx, e⟩ := h2 z hz
      exact ⟨x, by simp [hx], e⟩

/-- The dimensions of an assignment. -/
def AsgShape (i : InputData) (a : Assignment) : Prop := a.length = i.np ∧ ∀ r ∈ a, r.length = i.ns

theorem decode_shape {pr : AProblem} {st : ScheduleState} {f : MipFlow} {a : Assignment} (h : decode pr st f = .ok a) :
    AsgShape pr.input a := by
  unfold decode at h
  rw [R.bind_eq_ok] at h
  obtain ⟨d, _, h⟩ := h
  unfold Assignment.new at h
  split at h
  · rename_i hd; cases h; exact hd
  · cases h

/-- The cached assignment has the right dimensions. -/
def CacheShape (i : InputData) (sv : ASolver) : Prop := ∀ c, sv.cached = some c → AsgShape i c.assignment

variable {pr : AProblem} {env : AEnv}

theorem clock_cached {dl : Bool} {sv : ASolver} : (Asg.clock env dl sv).2.cached = sv.cached := by
  unfold Asg.clock; split <;> rfl

theorem solveWithLimit_shape {dl : Bool} {st : ScheduleState} {limit : Nat} {sv sv' : ASolver} {r : LimitResult}
    (h : solveWithLimit pr env dl st limit sv = .ok (r, sv')) :
    sv'.cached = sv.cached ∧ ∀ a, r = .feasible a → AsgShape pr.input a := by
  unfold solveWithLimit at h
  simp only at h
  split at h
  · cases h; exact ⟨clock_cached, by intro a e; cases e⟩
  · rw [R.bind_eq_ok] at h
    obtain ⟨f, hf, h⟩ := h
    split at h
    · cases h
      refine ⟨?_, by intro a e; cases e⟩
      rw [clock_cached]; exact clock_cached
    · split at h
      · cases h
        refine ⟨?_, by intro a e; split at e <;> cases e⟩
        rw [clock_cached, clock_cached]; exact clock_cached
      · rw [R.bind_eq_ok] at h
        obtain ⟨a, ha, h⟩ := h
        cases h
        refine ⟨?_, by intro a' e; cases e; exact decode_shape ha⟩
        rw [clock_cached]; exact clock_cached

theorem binLoop_shape {dl : Bool} {st : ScheduleState} {levels : List Nat} {start : Nat} :
    ∀ (fuel : Nat) {b b' : Bin} {sv sv' : ASolver}, (∀ a, b.best = some a → AsgShape pr.input a) →
      binLoop (solveWithLimit pr env dl st) levels start fuel b sv = .ok (some (b', sv')) →
      sv'.cached = sv.cached ∧ ∀ a, b'.best = some a → AsgShape pr.input a := by
  intro fuel
  induction fuel with
  | zero =>
    intro b b' sv sv' hb h
    unfold binLoop at h
    split at h
    · cases h
    · cases h; exact ⟨rfl, hb⟩
  | succ n ih =>
    intro b b' sv sv' hb h
    unfold binLoop at h
    split at h
    · rw [R.bind_eq_ok] at h
      obtain ⟨⟨stop, b1, sv1⟩, h1, h⟩ := h
      have hstep : sv1.cached = sv.cached ∧ ∀ a, b1.best = some a → AsgShape pr.input a := by
        unfold binStep at h1
        simp only [R.bind_eq_ok] at h1
        obtain ⟨limit, _, ⟨r, sv2⟩, hr, h1⟩ := h1
        obtain ⟨c1, c2⟩ := solveWithLimit_shape hr
        cases r with
        | feasible a =>
          simp only at h1
          split at h1
          · cases h1; exact ⟨c1, by intro a' e; cases e; exact c2 a rfl⟩
          · cases h1; exact ⟨c1, by intro a' e; cases e; exact c2 a rfl⟩
        | infeasible => cases h1; exact ⟨c1, hb⟩
        | incomplete => cases h1; exact ⟨c1, hb⟩
      split at h
      · cases h; exact hstep
      · obtain ⟨c1, c2⟩ := ih hstep.2 h
        exact ⟨c1.trans hstep.1, c2⟩
    · cases h; exact ⟨rfl, hb⟩

theorem finish_shape {sv : ASolver} {a : Option Assignment} {slots : List (Option Nat)} {opt : Bool}
    (hc : CacheShape pr.input sv) (ha : ∀ x, a = some x → AsgShape pr.input x) :
    CacheShape pr.input (Asg.finish sv a slots opt).2 ∧ ∀ x, (Asg.finish sv a slots opt).1 = some x → AsgShape pr.input x := by
  unfold Asg.finish
  cases a with
  | none => exact ⟨hc, by intro x e; cases e⟩
  | some a =>
    refine ⟨?_, by intro x e; cases e; exact ha a rfl⟩
    show CacheShape pr.input (if opt then _ else _)
    cases opt
    · exact hc
    · intro c e; cases e; exact ha a rfl

theorem solveUntil_shape {dl : Bool} {sv sv' : ASolver} {s : Scheduling} {r : Option Assignment} (hc : CacheShape pr.input sv)
    (h : solveUntil pr env dl sv s = .ok (r, sv')) :
    CacheShape pr.input sv' ∧ ∀ a, r = some a → AsgShape pr.input a := by
  unfold solveUntil at h
  simp only [R.bind_eq_ok] at h
  obtain ⟨st, _, h⟩ := h
  have hc' : CacheShape pr.input { sv with state := some st } := hc
  split at h
  · rename_i a ha
    cases h
    refine ⟨hc', ?_⟩
    intro a' e
    cases e
    unfold cachedFor at ha
    split at ha
    · rename_i c hcc
      split at ha
      · cases ha; exact hc' c hcc
      · cases ha
    · cases ha
  · split at h
    · rw [R.bind_eq_ok] at h
      obtain ⟨⟨lr, sv1⟩, h1, h⟩ := h
      obtain ⟨c1, c2⟩ := solveWithLimit_shape h1
      have hc1 : CacheShape pr.input sv1 := by intro c e; rw [c1] at e; exact hc' c e
      cases lr with
      | feasible a =>
        simp only [R.pure_eq, Except.ok.injEq] at h
        have := finish_shape (slots := st.slots) (opt := true) hc1 (a := some a) (by intro x e; cases e; exact c2 _ rfl)
        rw [h] at this; exact this
      | infeasible =>
        simp only [R.pure_eq, Except.ok.injEq] at h
        have := finish_shape (slots := st.slots) (opt := false) hc1 (a := none) (by intro x e; cases e)
        rw [h] at this; exact this
      | incomplete =>
        simp only [R.pure_eq, Except.ok.injEq] at h
        have := finish_shape (slots := st.slots) (opt := false) hc1 (a := none) (by intro x e; cases e)
        rw [h] at this; exact this
    · split at h
      · cases h; exact ⟨hc', by intro a e; cases e⟩
      · rw [R.bind_eq_ok] at h
        obtain ⟨o, h1, h⟩ := h
        cases o with
        | none => cases h
        | some p =>
          obtain ⟨b, sv1⟩ := p
          simp only [R.pure_eq, Except.ok.injEq] at h
          obtain ⟨c1, c2⟩ := binLoop_shape _ (by intro a e; cases e) h1
          have hc1 : CacheShape pr.input sv1 := by intro c e; rw [c1] at e; exact hc' c e
          have := finish_shape (slots := st.slots) (opt := b.isOptimal) hc1 (a := b.best) c2
          rw [h] at this; exact this

/-- The assignment solver returns assignments of the right dimensions, whatever the MIP backend answers. -/
theorem shaped_any (pr : AProblem) (env : AEnv) (dl : Bool) :
    Shaped pr.input (solveUntil pr env dl) (CacheShape pr.input) where
  keeps := by intro t s r t' hi _ h; exact (solveUntil_shape hi h).1
  shape := by
    intro t s a t' hi hs h
    obtain ⟨h1, h2⟩ := (solveUntil_shape hi h).2 a rfl
    exact ⟨hs.len, h1, h2⟩

theorem cacheShape_new (i : InputData) : CacheShape i ASolver.new := by intro c e; cases e

end Wassign
