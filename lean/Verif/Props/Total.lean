import Verif.Props.Main
import Verif.Proofs.Ready
/-
C49: accepted inputs do not crash the program.
-/
namespace Wassign
open Spec Build Threaded Main Reader

variable {F σ : Type}

/-! ## Building -/

/-- **C49**: building the input data ends with a result or an ordinary error. -/
theorem C49_build_never_panics (raw : Raw) (hmax : ∀ p ∈ raw.choices, p.max ≤ 4294967295) (hm : ManageableRaw raw) (site : String) :
    build raw ≠ .error (.panic site) :=
  build_noPanic hmax (by
    have := hm.parts
    show (raw.choices.map width).sum ≤ i32Max
    unfold i32Max width
    omega) (fun e he a ha hk n hn => by
      have := hm.numbers e he a ha hk n hn
      unfold u32Max; omega) site

theorem sizes_of_manageable {raw : Raw} {d : InputData} {m : Nat} {written : List Constraint} (hb : Built raw d m written)
    (hr : ManageableRaw raw) (hd : Manageable d) : Sizes d ∧ d.nc ≤ 1073741824 ∧ d.ns ≤ 1073741824 := by
  have hnc : d.nc ≤ 1073741824 := by rw [hb.nc]; exact hr.parts
  have hns : d.ns ≤ 1073741824 := hd.slots
  have hnodes : d.np * d.ns + d.nc + d.ns ≤ 4294967295 := hd.nodes
  refine ⟨⟨hd.choosers, ?_, ?_, ?_, hd.total, ?_, hd.preferences⟩, hnc, hns⟩
  · unfold i32Max; omega
  · unfold i32Max; omega
  · refine Nat.le_trans ?_ hd.total
    have hbo := hd.bounds
    generalize d.choices = l at hbo
    induction l with
    | nil => exact Nat.le_refl _
    | cons c l ih =>
      simp only [List.map_cons, List.sum_cons]
      have h1 := (hbo c (by simp)).1
      have h2 := ih (fun c hc => hbo c (by simp [hc]))
      omega
  · unfold u32Max; omega

/-! ## Preparing -/

/-- **C49**: preparing an accepted input never fails. -/
theorem C49_prepare_succeeds (raw : Raw) (d : InputData) (hmax : ∀ p ∈ raw.choices, p.max ≤ 4294967295) (h : build raw = .ok d)
    (hr : ManageableRaw raw) (hd : Manageable d) (o : Outside F σ) (opts : Opts F) : ∃ p, prepare o d opts = .ok p := by
  obtain ⟨m, written, hb⟩ := build_spec hmax h
  obtain ⟨hz, hnc, hns⟩ := sizes_of_manageable hb hr hd
  obtain ⟨hlev, _⟩ := C26_levels_partial raw d hmax h
  unfold prepare
  obtain ⟨A, hA, _⟩ := analysis_total hb.wf hz hlev (!opts.noCs && !opts.greedy && decide (1 < d.ns))
    ((!opts.noCs && !opts.greedy && decide (1 < d.ns)) && !opts.noCsSimp)
  obtain ⟨S, hS⟩ := static_total (i := d) (by have := hz.choosers; unfold i32Max at this; unfold u32Max; omega)
    (by unfold u32Max; omega) (by unfold u32Max; omega)
  simp only [hA, R.bind_ok, hS]
  exact ⟨_, rfl⟩

/-! ## Solving -/

/-- What is assumed of the surroundings: the generator is lawful and varied, and the MIP backend returns solutions of the
program it is given. -/
structure Trusted (o : Outside F σ) (nc : Nat) : Prop where
  lawful : o.rng.Lawful
  varied : o.rng.Varied o.draws nc
  backend : ∀ tid, Backend.Sound (o.backend tid)

theorem worker_total {raw : Raw} {d : InputData} (hmax : ∀ p ∈ raw.choices, p.max ≤ u32Max) (h : build raw = .ok d)
    (hr : ManageableRaw raw) (hd : Manageable d) {o : Outside F σ} (ho : Trusted o d.nc) {opts : Opts F} (hcs : 0 ≤ opts.csTimeout)
    {p : Prepared} (hp : prepare o d opts = .ok p) (tid : Nat) :
    WorkerTotal (setup o p opts).problem ((setup o p opts).env tid) (Hill.Used (asgProblem o p opts) (asgEnv o tid)) (fun _ => True) := by
  obtain ⟨m, written, hb⟩ := build_spec hmax h
  obtain ⟨hz, hnc, hns⟩ := sizes_of_manageable hb hr hd
  obtain ⟨hlev, _, hmem, _⟩ := C26_levels_partial raw d hmax h
  have hready := ready_of_built hb hr.numbers hnc hns
  unfold prepare at hp
  simp only at hp
  obtain ⟨A, hA, hA1, hA2⟩ := analysis_total hb.wf hz hlev (!opts.noCs && !opts.greedy && decide (1 < d.ns))
    ((!opts.noCs && !opts.greedy && decide (1 < d.ns)) && !opts.noCsSimp)
  rw [hA, R.bind_ok, R.bind_eq_ok] at hp
  obtain ⟨S, hS, hp⟩ := hp
  cases hp
  obtain ⟨hok, _, _⟩ := problemOk_of_built raw d hmax h hd.nodes
    (asgProblem o ⟨d, A, S, newScoring o d opts⟩ opts) rfl hS
  have h0 : 0 < d.ns := by
    show 0 < d.slots.length
    rw [hb.slots]
    split
    · simp
    · rename_i e
      cases hh : raw.slots with
      | nil => rw [hh] at e; simp at e
      | cons => simp
  exact
    { wf := hb.wf
      sizes := hz
      lawful := ho.lawful
      varied := ho.varied
      solid := Hill.solid_solver hok hlev (ho.backend tid) hz hd.bounds true
      answers := answers_source ho.lawful hb.wf hz hready h0 (hlev.imp Nat.le_of_lt) hmem hcs hA1 hA2 _ }

/-- **C49**: however the workers are interleaved and whatever clock, generator and backend do, no worker panics, and what
follows the search succeeds. -/
theorem C49_no_worker_panics (raw : Raw) (d : InputData) (hmax : ∀ p ∈ raw.choices, p.max ≤ 4294967295) (h : build raw = .ok d)
    (hr : ManageableRaw raw) (hd : Manageable d) (o : Outside F σ) (ho : Trusted o d.nc) (opts : Opts F) (hcs : 0 ≤ opts.csTimeout)
    (p : Prepared) (hp : prepare o d opts = .ok p) (g : Session σ ASolver (σ × Nat))
    (hg : Run (setup o p opts) (start (setup o p opts)) g) : ∀ w ∈ g.workers, w.phase ≠ .panicked := by
  have hc := calm_run (fun tid => worker_total hmax h hr hd ho hcs hp tid)
    (calm_start (cfg := setup o p opts) (Inv := fun tid => Hill.Used (asgProblem o p opts) (asgEnv o tid)) (InvR := fun _ _ => True)
      (fun tid => ⟨⟨true, .new⟩, trivial⟩)) hg
  intro w hw
  obtain ⟨tid, ht⟩ := List.mem_iff_getElem?.1 hw
  exact (hc tid w ht).1

/-! ## The program -/

/-- Everything a script describes is manageable. -/
def AllManageable (tr : List Reader.Event) : Prop :=
  ∀ raw, Describes tr raw → ManageableRaw raw ∧ ∀ d, build raw = .ok d → Manageable d

theorem sync_noPanic {st : RState} (h : Ok st) : NoPanic (sync st) := by
  obtain ⟨v1, h1, _⟩ := Pool.registered_eq h.slots.range
  obtain ⟨v2, h2, _⟩ := Pool.registered_eq h.choices.range
  obtain ⟨v3, h3, _⟩ := Pool.registered_eq h.choosers.range
  unfold sync
  rw [h1, R.bind_ok, h2, R.bind_ok, h3, R.bind_ok]
  exact NoPanic.ok _

/-- **C49**: reading an input never panics. -/
theorem C49_read_never_panics (env : OptEnv F) (hov : env.overflow = .wraps) (r : InputReader F) (script : Script)
    (hh : Honest [] script) (hm : AllManageable (outcome env r.world.opts script).1) (site : String) :
    (readInput env r script).1 ≠ .error (.panic site) := by
  have np := C54_scripts_never_panic hov r.world.opts script hh
  have hmade := outcome_made (env := env) r.world.opts script
  intro h
  unfold readInput at h
  simp only at h
  cases he : (run env script { r.world with st := .empty }).2.2 with
  | failed => rw [he] at h; cases h
  | panicked s => exact np s he
  | finished =>
    rw [he] at h
    simp only at h
    have hmade' : Made (outcome env r.world.opts script).1 (run env script { r.world with st := .empty }).2.1.st := hmade
    have hok : Ok (run env script { r.world with st := .empty }).2.1.st :=
      ⟨hmade'.inv.slots.wf, hmade'.inv.choices.wf, hmade'.inv.choosers.wf⟩
    cases hs : sync (run env script { r.world with st := .empty }).2.1.st with
    | error f =>
      rw [hs] at h
      cases h
      exact sync_noPanic hok _ hs
    | ok sy =>
      rw [hs] at h
      simp only at h
      have hd := describes hmade' hs
      unfold finish at h
      split at h
      · cases h
      · split at h
        · cases h
        · split at h
          · cases h
          · exact C49_build_never_panics _ (fun p hp => ((described_fit hd).1 p hp).2.1) (hm _ hd).1 site h

/-- **C49**: the whole program, from the script to the tables: for a manageable input nothing panics. The program prints a
result unless the script is rejected with an ordinary error. -/
theorem C49_program_never_panics (o : Outside F σ) (hov : o.opt.overflow = .wraps) (opts : Opts F) (script : Script)
    (hh : Honest [] script) (hm : AllManageable (outcome o.opt opts script).1)
    (ho : ∀ d, (readInput o.opt (new opts) script).1 = .ok d → Trusted o d.nc)
    (hcs : 0 ≤ (effectiveOptions (readInput o.opt (new opts) script).2).csTimeout)
    (f : Fault) (h : TryRun o opts script (.error f)) :
    (∃ msg, f = .error msg) ∧ (readInput o.opt (new opts) script).1 = .error f := by
  have hread := C49_read_never_panics o.opt hov (new opts) script hh hm
  have hrej : (readInput o.opt (new opts) script).1 = .error f → (∃ msg, f = .error msg) := by
    intro h
    cases f with
    | error m => exact ⟨m, rfl⟩
    | panic m => exact absurd h (hread m)
  by_cases hok : ∃ d, (readInput o.opt (new opts) script).1 = .ok d
  · exfalso
    obtain ⟨d, hd⟩ := hok
    obtain ⟨raw, hdes, hb⟩ := C55_input_as_described _ _ _ hd
    obtain ⟨hr, hmd⟩ := hm raw hdes
    have hmax := fun q hq => ((described_fit hdes).1 q hq).2.1
    obtain ⟨p, hp⟩ := C49_prepare_succeeds raw d hmax hb hr (hmd d hb) o
      (effectiveOptions (readInput o.opt (new opts) script).2)
    generalize hres : (Except.error f : R Output) = res at h
    cases h with
    | rejected h => rw [hd] at h; cases h
    | unprepared h1 h2 =>
      rw [hd] at h1
      cases h1
      rw [hp] at h2
      cases h2
    | @solved d' p' g h1 h2 h3 h4 =>
      rw [hd] at h1
      cases h1
      have hcalm := C49_no_worker_panics raw d hmax hb hr (hmd d hb) o (ho d hd) _ hcs p' h2 g h3
      rcases C52_no_other_outcome o (ho d hd).lawful opts script d hd p' h2 g h3 hcalm with ⟨e, _⟩ | ⟨_, _, e, _⟩ <;>
        (rw [e] at hres; cases hres)
  · cases hx : (readInput o.opt (new opts) script).1 with
    | ok d => exact absurd ⟨d, hx⟩ hok
    | error f' =>
      have : f' = f := by
        generalize hres : (Except.error f : R Output) = res at h
        cases h with
        | rejected h => cases hres; rw [hx] at h; cases h; rfl
        | unprepared h1 h2 => rw [hx] at h1; cases h1
        | solved h1 => rw [hx] at h1; cases h1
      subst this
      exact ⟨hrej hx, rfl⟩

end Wassign

/-! ## The hypotheses are met -/
namespace Wassign.MainEx
open Threaded Main Reader ReadEx Spec Build

theorem honest : Honest [] script := by
  refine ⟨by simp [mentions], by simp, fun r => ?_⟩
  rcases r with _ | _ | s | _ <;> try exact trivial
  refine ⟨by simp [mentions, asksFor], by simp, fun r => ?_⟩
  rcases r with _ | _
  · exact trivial
  refine ⟨by simp [mentions], by simp, fun r => ?_⟩
  rcases r with _ | _ | s | _ <;> try exact trivial
  refine ⟨by simp [mentions, asksFor], by simp, fun r => ?_⟩
  rcases r with _ | _
  · exact trivial
  refine ⟨by simp [mentions], by simp [tagInt, IsTag], fun r => ?_⟩
  rcases r with _ | _ | a | _ <;> try exact trivial
  refine ⟨by simp [mentions, asksFor], by simp, fun r => ?_⟩
  rcases r with _ | _
  · exact trivial
  refine ⟨by simp [mentions], by simp [tagInt, IsTag], fun r => ?_⟩
  rcases r with _ | _ | b | _ <;> try exact trivial
  refine ⟨by simp [mentions, asksFor], by simp, fun r => ?_⟩
  rcases r with _ | _
  · exact trivial
  refine ⟨by simp [mentions], by simp, fun r => ?_⟩
  rcases r with _ | _ | p | _ <;> try exact trivial
  refine ⟨by simp [mentions, asksFor], by simp, fun r => ?_⟩
  rcases r with _ | _
  · exact trivial
  refine ⟨by simp [mentions], by simp, fun r => ?_⟩
  rcases r with _ | _ | p | _ <;> try exact trivial
  refine ⟨by simp [mentions, asksFor], by simp, fun r => ?_⟩
  rcases r with _ | _
  · exact trivial
  refine ⟨by simp [mentions, asksFor], by simp, fun r => ?_⟩
  rcases r with _ | _
  · exact trivial
  · exact trivial

/-- The input of the script. -/
def raw : Raw := match sync (outcome outside.opt opts script).2.1.st with
  | .ok s => ⟨s.sets, s.choices, s.choosers, s.exprs⟩
  | .error _ => ⟨[], [], [], []⟩

theorem describes_raw : Describes (outcome outside.opt opts script).1 raw := by
  have h : (sync (outcome outside.opt opts script).2.1.st).isOk = true := by decide +kernel
  unfold raw
  cases e : sync (outcome outside.opt opts script).2.1.st with
  | ok s => exact describes (outcome_made _ _) e
  | error f => rw [e] at h; cases h

theorem manageable : AllManageable (outcome outside.opt opts script).1 := by
  intro r hr
  have := C55_at_most_one _ _ _ hr describes_raw
  subst this
  refine ⟨⟨by decide +kernel, ?_⟩, fun d hd => ?_⟩
  · intro e he a ha hk n hn
    have : raw.exprs = [⟨⟨.choice, .slot, "Swimming".toList, 0⟩, .eq, ⟨.slot, .notSet, "Tuesday".toList, 0⟩⟩] := by decide +kernel
    rw [this] at he
    have := List.mem_singleton.1 he
    subst this
    rcases ha with rfl | rfl <;> cases hk
  · have hb : (build raw).toOption.map (fun d => decide ((∀ c ∈ d.choices, c.min ≤ c.max ∧ c.max ≤ 2147483647) ∧
        d.slots.length ≤ 1073741824 ∧ d.choosers.length ≤ 2147483647 ∧ (d.choices.map (·.max)).sum ≤ 4294967295 ∧
        d.choosers.length * d.slots.length + d.choices.length + d.slots.length ≤ 4294967295 ∧ d.maxPref < 4294967295)) = some true := by
      decide +kernel
    rw [hd] at hb
    have hb := of_decide_eq_true (Option.some.inj hb)
    exact ⟨hb.1, hb.2.1, hb.2.2.1, hb.2.2.2.1, hb.2.2.2.2.1, hb.2.2.2.2.2⟩

theorem counter_varied : Ex.counter.Varied 10 2 := by
  intro used hu s
  have : ∃ v, v < 2 ∧ v ∉ used := by
    apply Classical.byContradiction
    intro hno
    have h0 : 0 ∈ used := Classical.byContradiction (fun hn => hno ⟨0, by omega, hn⟩)
    have h1 : 1 ∈ used := Classical.byContradiction (fun hn => hno ⟨1, by omega, hn⟩)
    match used with
    | [] => cases h0
    | [x] =>
      have := List.mem_singleton.1 h0
      have := List.mem_singleton.1 h1
      omega
    | _ :: _ :: _ => simp at hu; omega
  obtain ⟨v, hv, hn⟩ := this
  refine ⟨(v + s) % 2, by omega, ?_⟩
  rw [Ex.counter_after]
  have : (((s + (v + s) % 2) % 2147483648 : Nat) : Int) % (2 : Nat) = v := by omega
  show (((((s + (v + s) % 2) % 2147483648 : Nat) : Int) % (2 : Nat)).toNat) ∉ used
  rw [this]
  exact hn

/-- The same surroundings with a backend that finds cheapest solutions. -/
noncomputable def outside' : Outside Unit Nat := { outside with backend := fun _ => idealBackend }

/-- The script, these surroundings and the options meet all the hypotheses of C49. -/
example (f : Fault) : ¬ TryRun outside' opts script (.error f) := by
  intro h
  have hr : (readInput outside'.opt (new opts) script).1 = .ok data := read_ok
  obtain ⟨_, h2⟩ := C49_program_never_panics outside' rfl opts script honest manageable
    (fun d hd => by
      rw [hr] at hd
      cases hd
      have : data.nc = 2 := by decide +kernel
      rw [this]
      exact ⟨Ex.counter_lawful, counter_varied, fun _ => ideal_sound⟩)
    (by
      have : 0 ≤ (effectiveOptions read.2).csTimeout := by decide +kernel
      exact this) f h
  rw [hr] at h2
  cases h2

/-! ## Inputs the program accepts and panics on -/

def readOf (s : Script) := readInput outside.opt (new opts) s
def dataOf (s : Script) : InputData := match (readOf s).1 with
  | .ok d => d
  | .error _ => default
def preparedOf (s : Script) : Prepared := match prepare outside (dataOf s) (effectiveOptions (readOf s).2) with
  | .ok p => p
  | .error _ => ⟨default, ⟨[], [], 0⟩, ⟨.empty, [], [], [], [], []⟩, ⟨true, fun _ => 0⟩⟩
def cfgOf (s : Script) := setup outside (preparedOf s) (effectiveOptions (readOf s).2)
def finalOf (s : Script) := ThEx.exec (cfgOf s) ([0, 1, 2, 3, 0, 1, 2, 3]) (start (cfgOf s))

theorem crash (s : Script) (h1 : (readOf s).1.isOk = true)
    (h2 : (prepare outside (dataOf s) (effectiveOptions (readOf s).2)).isOk = true)
    (h3 : ((finalOf s).workers.map (·.phase)).eraseDups = [.panicked]) :
    TryRun outside opts s (.error (.error "WorkerPanic")) := by
  have e1 : (readOf s).1 = .ok (dataOf s) := by
    unfold dataOf
    cases e : (readOf s).1 with
    | ok d => rfl
    | error f => rw [e] at h1; cases h1
  have e2 : prepare outside (dataOf s) (effectiveOptions (readOf s).2) = .ok (preparedOf s) := by
    unfold preparedOf
    cases e : prepare outside (dataOf s) (effectiveOptions (readOf s).2) with
    | ok d => rfl
    | error f => rw [e] at h2; cases h2
  have hall : ∀ w ∈ (finalOf s).workers, w.phase = .panicked := by
    intro w hw
    have := List.mem_eraseDups.2 (List.mem_map_of_mem (f := (·.phase)) hw)
    rw [h3] at this
    simpa using this
  have hex : ∃ w ∈ (finalOf s).workers, w.phase = .panicked := by
    cases hw : (finalOf s).workers with
    | nil => rw [hw] at h3; cases h3
    | cons w ws => exact ⟨w, by simp, hall w (by rw [hw]; simp)⟩
  have hrep : report (preparedOf s) (finalOf s) = .error (.error "WorkerPanic") := by
    unfold report
    rw [C21_panic_reported _ hex]
    rfl
  rw [← hrep]
  exact .solved e1 e2 (ThEx.exec_run (cfgOf s) _ _) (fun w hw => .inr (hall w hw))

def prefs (l : List Int) : List Dyn := l.map .int

/-- `+choice("Swimming", min(2), max(1)); +choice("Chess", min(0), max(5))` and three choosers: contradictory limits. -/
def scriptContradictory : Script :=
  given (.choice "Swimming".toList [tagInt .min 2, tagInt .max 1]) fun a => then' (.add .choice a) <|
  given (.choice "Chess".toList [tagInt .min 0, tagInt .max 5]) fun b => then' (.add .choice b) <|
  given (.chooser "Ann".toList (prefs [1, 2])) fun p => then' (.add .chooser p) <|
  given (.chooser "Bob".toList (prefs [2, 1])) fun p => then' (.add .chooser p) <|
  given (.chooser "Eve".toList (prefs [2, 1])) fun p => then' (.add .chooser p) .done

/-- Finding 12: contradictory limits are accepted, and every worker panics (`max - min` is negative). -/
theorem C49_contradictory_limits : TryRun outside opts scriptContradictory (.error (.error "WorkerPanic")) :=
  crash _ (by decide +kernel) (by decide +kernel) (by decide +kernel)

def start4 (rest : Script) : Script :=
  given (.slot "Monday".toList) fun s => then' (.add .slot s) <|
  given (.slot "Tuesday".toList) fun t => then' (.add .slot t) <|
  given (.choice "Swimming".toList [tagInt .max 2]) fun a => then' (.add .choice a) <|
  given (.choice "Chess".toList [tagInt .max 2]) fun b => then' (.add .choice b) <|
  given (.choice "Go".toList [tagInt .max 2]) fun b => then' (.add .choice b) <|
  given (.choice "Judo".toList [tagInt .max 2]) fun b => then' (.add .choice b) <|
  given (.chooser "Ann".toList (prefs [1, 1, 2, 3])) fun p => then' (.add .chooser p) <|
  given (.chooser "Bob".toList (prefs [2, 2, 1, 1])) fun q => then' (.add .chooser q) rest

/-- Finding 19: a critical set timeout of 4000 weeks is negative in 32 bits, and every worker panics. -/
theorem C49_negative_timeout :
    TryRun outside opts (start4 (then' (.setArguments [.str "--cs-timeout".toList, .str "4000w".toList]) .done))
      (.error (.error "WorkerPanic")) :=
  crash _ (by decide +kernel) (by decide +kernel) (by decide +kernel)

def sizeLimit (n : String) : Op :=
  .addExpr ⟨⟨.slot, .size, "Monday".toList, 0⟩, .leq, ⟨.integer, .notSet, n.toList, 0⟩⟩

/-- Finding 20: a number beyond 32 bits in a constraint panics while the input is read. -/
theorem C49_huge_number : ∃ site, TryRun outside opts (start4 (then' (sizeLimit "5000000000") .done)) (.error (.panic site)) :=
  ⟨_, .rejected (f := .panic "constraint integer must fit in u32") (by decide +kernel)⟩

/-- Finding 21: a number beyond 31 bits in a constraint is accepted, and every worker panics. -/
theorem C49_large_number : TryRun outside opts (start4 (then' (sizeLimit "3000000000") .done)) (.error (.error "WorkerPanic")) :=
  crash _ (by decide +kernel) (by decide +kernel) (by decide +kernel)

end Wassign.MainEx
