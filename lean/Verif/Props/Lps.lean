import Verif.Props.Deadline
/-
C22, the LP counter: every LP a worker solves is announced once, with its number, and the last report adds them up.
-/
namespace Wassign
open Spec Build Main Threaded
variable {F σ τ ρ : Type}

/-! ## The assignment solver never lowers its counter -/

section
variable {pr : AProblem} {env : AEnv} {dl : Bool} {n : Nat}

theorem clock_lpCount (sv : ASolver) : (Asg.clock env dl sv).2.lpCount = sv.lpCount := by
  unfold Asg.clock; split <;> rfl

theorem solveWithLimit_mono {sv sv' : ASolver} {st : ScheduleState} {limit : Nat} {r : LimitResult}
    (hs : Asg.solveWithLimit pr env dl st limit sv = .ok (r, sv')) : sv.lpCount ≤ sv'.lpCount := by
  unfold Asg.solveWithLimit at hs
  simp only at hs
  split at hs
  · cases hs
    rw [clock_lpCount]
  · rw [R.bind_eq_ok] at hs
    obtain ⟨f, _, hs⟩ := hs
    split at hs
    · cases hs
      simp only [clock_lpCount]; omega
    · split at hs
      · cases hs
        simp only [clock_lpCount]; omega
      · rw [R.bind_eq_ok] at hs
        obtain ⟨a, _, hs⟩ := hs
        cases hs
        simp only [clock_lpCount]; omega

theorem binLoop_mono {levels : List Nat} {start : Nat} {st : ScheduleState} :
    ∀ (fuel : Nat) (b : Asg.Bin) (sv : ASolver) (b' : Asg.Bin) (sv' : ASolver),
      Asg.binLoop (Asg.solveWithLimit pr env dl st) levels start fuel b sv = .ok (some (b', sv')) → sv.lpCount ≤ sv'.lpCount := by
  intro fuel
  induction fuel with
  | zero =>
    intro b sv b' sv' hs
    unfold Asg.binLoop at hs
    split at hs
    · cases hs
    · cases hs; exact Nat.le_refl _
  | succ fuel ih =>
    intro b sv b' sv' hs
    unfold Asg.binLoop at hs
    split at hs
    · rw [R.bind_eq_ok] at hs
      obtain ⟨⟨stop, b1, sv1⟩, h1, hs⟩ := hs
      have h2 : sv.lpCount ≤ sv1.lpCount := by
        unfold Asg.binStep at h1
        simp only at h1
        rw [R.bind_eq_ok] at h1
        obtain ⟨limit, _, h1⟩ := h1
        rw [R.bind_eq_ok] at h1
        obtain ⟨⟨r, sv2⟩, h3, h1⟩ := h1
        have h4 := solveWithLimit_mono h3
        simp only at h1
        split at h1
        · split at h1 <;> (cases h1; exact h4)
        · cases h1; exact h4
        · cases h1; exact h4
      simp only at hs
      split at hs
      · cases hs; exact h2
      · exact Nat.le_trans h2 (ih _ _ _ _ hs)
    · cases hs; exact Nat.le_refl _

theorem solveUntil_mono {sv sv' : ASolver} {s : Scheduling} {r : Option Assignment}
    (hs : Asg.solveUntil pr env dl sv s = .ok (r, sv')) : sv.lpCount ≤ sv'.lpCount := by
  unfold Asg.solveUntil at hs
  simp only at hs
  rw [R.bind_eq_ok] at hs
  obtain ⟨st, _, hs⟩ := hs
  have hfin : ∀ (v : ASolver) (a : Option Assignment) (sl : List (Option Nat)) (o : Bool), (Asg.finish v a sl o).2.lpCount = v.lpCount := by
    intro v a sl o
    unfold Asg.finish
    split
    · simp only; split <;> rfl
    · rfl
  split at hs
  · cases hs; exact Nat.le_refl _
  · split at hs
    · rw [R.bind_eq_ok] at hs
      obtain ⟨⟨x, sv1⟩, h1, hs⟩ := hs
      have h2 := solveWithLimit_mono h1
      simp only at hs
      split at hs <;>
      · have e := congrArg Prod.snd (Except.ok.inj hs)
        rw [← show _ = sv' from e, hfin]
        exact h2
    · split at hs
      · cases hs; exact Nat.le_refl _
      · rw [R.bind_eq_ok] at hs
        obtain ⟨x, h1, hs⟩ := hs
        cases x with
        | none => cases hs
        | some y =>
          have h2 := binLoop_mono _ _ _ y.1 y.2 h1
          have e := congrArg Prod.snd (Except.ok.inj hs)
          rw [← show _ = sv' from e, hfin]
          exact h2

end

/-! ## A worker -/

/-- Asking for an assignment never lowers the LP counter. -/
def CountsUp (asolve : τ → Scheduling → R (Option Assignment × τ)) (lpOf : τ → Nat) : Prop :=
  ∀ sv s r sv', asolve sv s = .ok (r, sv') → lpOf sv ≤ lpOf sv'

/-- The LPs announced so far are the 1st, 2nd, ... up to the last one solved. -/
def LpsAnnounced (lpOf : τ → Nat) (st : HState σ τ) : Prop := st.events.filterMap (·.lp) = List.range' 1 (lpOf st.asg)

theorem lpEvents_lps (w a b : Nat) : (Hill.lpEvents w a b).filterMap (·.lp) = List.range' (a + 1) (b - a) := by
  unfold Hill.lpEvents
  generalize List.range' (a + 1) (b - a) = l
  induction l with
  | nil => rfl
  | cons x l ih =>
    show x :: List.filterMap _ (List.map (Event.ofLp w) l) = x :: l
    rw [ih]

theorem lps_kept {env : HEnv σ τ} {dl : Bool} (hc : CountsUp env.asolve env.lpOf) : HKept env dl (LpsAnnounced env.lpOf) := by
  refine ⟨?_, ?_, ?_, fun _ _ h => h⟩
  · intro st h; unfold Hill.clock; split <;> exact h
  · intro st s sol st' h hs
    unfold Hill.solveAssignment at hs
    rw [R.bind_eq_ok] at hs
    obtain ⟨⟨r, sv'⟩, h1, hs⟩ := hs
    have h2 := hc _ _ _ _ h1
    have h3 : ∀ e : Event, e.lp = none → LpsAnnounced env.lpOf (Hill.publish { st with
        asg := sv'
        count := st.count + 1
        events := st.events ++ Hill.lpEvents env.worker (env.lpOf st.asg) (env.lpOf sv') } e) := by
      intro e he
      unfold LpsAnnounced Hill.publish at *
      simp only [List.filterMap_append, lpEvents_lps, h]
      rw [List.filterMap_cons_none he, List.filterMap_nil, List.append_nil]
      have := List.range'_append (s := 1) (m := env.lpOf st.asg) (n := env.lpOf sv' - env.lpOf st.asg) (step := 1)
      rw [show 1 + 1 * env.lpOf st.asg = env.lpOf st.asg + 1 by omega,
        show env.lpOf st.asg + (env.lpOf sv' - env.lpOf st.asg) = env.lpOf sv' by omega] at this
      exact this
    cases r <;> (cases hs; exact h3 _ rfl)
  · intro st e he h
    unfold LpsAnnounced Hill.publish at *
    simp only [List.filterMap_append]
    rw [List.filterMap_cons_none he, List.filterMap_nil, List.append_nil]
    exact h

/-! ## The session -/

/-- **C22**: at every moment of every session, the LPs a worker has announced are the first, the second, ..., up to the last
one it has solved: none is left out, repeated or out of order. -/
theorem C22_lps_announced (cfg : Setup σ τ ρ) (hc : ∀ tid, CountsUp (cfg.env tid).asolve (cfg.env tid).lpOf)
    (hinit : ∀ tid, (cfg.init tid).hill.events = [] ∧ (cfg.env tid).lpOf (cfg.init tid).hill.asg = 0) (g : Session σ τ ρ)
    (hr : Run cfg (start cfg) g) (tid : Nat) (w : Worker σ τ ρ) (hw : g.workers[tid]? = some w) :
    w.st.hill.events.filterMap (·.lp) = List.range' 1 ((cfg.env tid).lpOf w.st.hill.asg) :=
  run_kept (P := fun tid st => LpsAnnounced (cfg.env tid).lpOf st.hill)
    (fun tid => by unfold LpsAnnounced; rw [(hinit tid).1, (hinit tid).2]; rfl)
    (fun tid k st st' h he => iterate_kept (lps_kept (hc tid)) 1 k st st' h he) (fun _ _ h => h) hr tid w hw

/-- **C22**: when all events of a session have arrived, the report shows how many LPs were solved by all workers. -/
theorem C22_final_lps (cfg : Setup σ τ ρ) (hc : ∀ tid, CountsUp (cfg.env tid).asolve (cfg.env tid).lpOf)
    (hinit : ∀ tid, (cfg.init tid).hill.events = [] ∧ (cfg.env tid).lpOf (cfg.init tid).hill.asg = 0) (g : Session σ τ ρ)
    (hr : Run cfg (start cfg) g) (past : List (List Event)) (batch : List Event)
    (hall : ∀ (tid : Nat) (w : Worker σ τ ρ), g.workers[tid]? = some w →
      ((past.flatten ++ batch).filter (fun e => decide (e.worker = tid))).filterMap (·.lp) = w.st.hill.events.filterMap (·.lp)) :
    let tp := past.foldl (fun tp b => (poll tp b).2) (freshProgress (workerCount cfg))
    (poll tp batch).1.lp = ((List.range g.workers.length).map (fun tid =>
      (g.workers[tid]?).elim 0 (fun w => (cfg.env tid).lpOf w.st.hill.asg))).sum := by
  intro tp
  have hcount : g.workers.length = workerCount cfg := by
    have : ∀ {g0 g : Session σ τ ρ}, Run cfg g0 g → g.workers.length = g0.workers.length := by
      intro g0 g h
      induction h with
      | refl => rfl
      | step _ hs ih =>
        cases hs with
        | cancel => exact ih
        | move hm => cases hm <;> simp [ih]
    rw [this hr]; simp [start]
  have htp : batch.foldl deliver tp = (List.range g.workers.length).map
      (fun w => ((past.flatten ++ batch).filter (fun e => decide (e.worker = w))).foldl absorb .empty) := by
    show batch.foldl deliver (past.foldl _ _) = _
    rw [polls_eq, ← List.foldl_append, delivered, hcount]
  obtain ⟨_, _, _, h4⟩ := summarize_eq (batch.foldl deliver tp)
  show (summarize (batch.foldl deliver tp)).lp = _
  rw [h4, htp, List.map_map]
  refine congrArg List.sum (List.map_congr_left fun tid htid => ?_)
  have hlt : tid < g.workers.length := by simpa using htid
  refine (fold_last (·.lp) (·.lp) absorb_lp _ _).trans ?_
  have hg := List.getElem?_eq_getElem hlt
  rw [hall tid _ hg, C22_lps_announced cfg hc hinit g hr tid _ hg, hg, Option.elim_some]
  cases e : (cfg.env tid).lpOf g.workers[tid].st.hill.asg with
  | zero => rfl
  | succ k =>
    rw [List.getLast?_range']
    simp

/-- The program's workers: their counter only grows, and begins at zero. -/
theorem setup_countsUp (o : Outside F σ) (p : Prepared) (opts : Opts F) :
    (∀ tid, CountsUp ((setup o p opts).env tid).asolve ((setup o p opts).env tid).lpOf) ∧
    ∀ tid, ((setup o p opts).init tid).hill.events = [] ∧
      ((setup o p opts).env tid).lpOf ((setup o p opts).init tid).hill.asg = 0 :=
  ⟨fun _ _ _ _ _ h => solveUntil_mono h, fun _ => ⟨rfl, rfl⟩⟩

/-- **C22**: in every session of the program, a worker has announced exactly the LPs it has solved, by their numbers. -/
theorem C22_program_lps (o : Outside F σ) (p : Prepared) (opts : Opts F) (g : Session σ ASolver (σ × Nat))
    (hr : Run (setup o p opts) (start (setup o p opts)) g) (tid : Nat) (w : Worker σ ASolver (σ × Nat))
    (hw : g.workers[tid]? = some w) : w.st.hill.events.filterMap (·.lp) = List.range' 1 w.st.hill.asg.lpCount :=
  C22_lps_announced _ (setup_countsUp o p opts).1 (setup_countsUp o p opts).2 g hr tid w hw

namespace ThEx

/-- The session of `ThEx` with an assignment solver that solves one LP with every call. -/
def cfgL : Setup Nat Nat Nat where
  problem := HillEx.prob
  any := false
  threads := 2
  env := fun tid => { (cfg false).env tid with
    asolve := counting
    lpOf := fun n => n }
  init := fun tid => Shotgun.new tid 0 0

theorem cfgL_countsUp : (∀ tid, CountsUp (cfgL.env tid).asolve (cfgL.env tid).lpOf) ∧
    ∀ tid, (cfgL.init tid).hill.events = [] ∧ (cfgL.env tid).lpOf (cfgL.init tid).hill.asg = 0 :=
  ⟨fun _ a _ _ b h => show a ≤ b from (show b = a + 1 from counting_counts _ _ _ _ h) ▸ Nat.le_succ a, fun _ => ⟨rfl, rfl⟩⟩

def finalL := exec cfgL order (start cfgL)

/-- 26 and 1 LPs are solved and announced. -/
example : finalL.workers.map (fun w => (w.st.hill.asg, w.st.hill.events.filterMap (·.lp))) =
    [(26, List.range' 1 26), (1, [1])] := by decide +kernel

example (tid : Nat) (w : Worker Nat Nat Nat) (hw : finalL.workers[tid]? = some w) :
    w.st.hill.events.filterMap (·.lp) = List.range' 1 w.st.hill.asg :=
  C22_lps_announced cfgL cfgL_countsUp.1 cfgL_countsUp.2 finalL (exec_run _ _ _) tid w hw

/-- The report after all events. -/
example : (poll (freshProgress 2) (finalL.workers.flatMap (fun w => w.st.hill.events))).1.lp = 27 := by decide +kernel

end ThEx

end Wassign
