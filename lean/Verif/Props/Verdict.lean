import Verif.Props.Total
import Verif.Props.Session
import Verif.Props.Search
import Verif.Proofs.ValidSched
/-
C58: what the verdict of the program means.
-/
namespace Wassign
open Spec Build Threaded Main Reader

variable {F σ : Type}

/-- A worker's scheduling source has nothing to offer only if the search it wraps has not. -/
theorem source_none {g : RngOps σ} {i : InputData} {cs : Int} {bound : Nat} {sets : Nat → List CriticalSet}
    {late : Nat → Nat → Nat → Bool} {r r' : σ × Nat} (h : source g i cs bound sets late r = .ok (none, r')) :
    ∃ x, Search.nextScheduling g i bound sets (late r.2) r.1 = .ok (none, x) := by
  unfold source at h
  rw [R.bind_eq_ok] at h
  obtain ⟨d, _, h⟩ := h
  split at h
  · cases h
  · rw [R.bind_eq_ok] at h
    obtain ⟨x, hx, h⟩ := h
    obtain ⟨x1, x2⟩ := x
    cases h
    exact ⟨x2, hx⟩

/-- **C58**: with several slots, an undisturbed session (nobody cancels, no clock runs out) that is over has found out the
truth: either it printed "No solution found." and there is no valid solution at all, or `--any` was given and the tables of a
valid solution were printed. Stated for inputs for which C04 holds (no constraint relates a choice to itself, and small
minima); for others `C04_can_miss` shows that a search can give up although there are schedulings. -/
theorem C58_verdict_partial (raw : Raw) (tr : List Reader.Event) (hdes : Describes tr raw) (d : InputData) (h : build raw = .ok d)
    (hr : ManageableRaw raw) (hd : Manageable d) (o : Outside F σ) (ho : Trusted o d.nc) (opts : Opts F) (hcs : 0 ≤ opts.csTimeout)
    (p : Prepared) (hp : prepare o d opts = .ok p) (hl1 : ∀ tid t, o.lateIter tid t = false)
    (hl2 : ∀ tid a b c, o.lateSearch tid a b c = false) (g : Session σ ASolver (σ × Nat))
    (hg : Undisturbed (setup o p opts) (start (setup o p opts)) g) (hover : g.over)
    (hns : 1 < d.slots.length) (hnp : 0 < d.choosers.length) (hnc : 0 < d.choices.length)
    (hself : ∀ k ∈ d.schedCons, (k.kind = .choicesAreNotInSameSlot ∨ k.kind = .choicesHaveOffset) → k.right ≠ .choice k.left)
    (hmin : (∀ c ∈ d.choices, c.min ≤ 1) ∨ (d.choices.map (·.min)).sum ≤ d.choosers.length) :
    (report p g = .ok .noSolution ∧ ¬ ∃ s a, SchedShape d s ∧ Valid d s a ∧ Placed d s) ∨
    (opts.any = true ∧ ∃ s a sched asg, SchedShape d s ∧ Valid d s a ∧ Placed d s ∧ report p g = .ok (.tables sched asg) ∧
      ∃ table, asg = csv table ∧ AssignmentTable d s a table) := by
  have hmax := fun q hq => ((described_fit hdes).1 q hq).2.1
  obtain ⟨m, written, hb⟩ := build_spec hmax h
  obtain ⟨hz, hnc', hns'⟩ := sizes_of_manageable hb hr hd
  obtain ⟨hlev, _, hmem, _⟩ := C26_levels_partial raw d hmax h
  have hready := ready_of_built hb hr.numbers hnc' hns'
  have hcalm := C49_no_worker_panics raw d hmax h hr hd o ho opts hcs p hp g hg.toRun
  have hin : p.input = d := by
    unfold prepare at hp
    simp only [R.bind_eq_ok] at hp
    obtain ⟨an, _, st, _, hp⟩ := hp
    cases hp; rfl
  obtain ⟨an, si, hA⟩ : ∃ an si, Analysis.new d an si = .ok p.analysis := by
    unfold prepare at hp
    simp only [R.bind_eq_ok] at hp
    obtain ⟨an, h1, st, _, hp⟩ := hp
    cases hp
    exact ⟨_, _, h1⟩
  -- a worker that has ended
  have hlen : 0 < g.workers.length := by
    rw [C56_threads o p opts g hg.toRun]
    split
    · omega
    · split <;> omega
  have hw0 : g.workers[0]? = some g.workers[0] := List.getElem?_eq_getElem hlen
  have hf0 : g.workers[0].phase = .finished := by
    rcases hover _ (List.getElem_mem hlen) with e | e
    · exact e
    · exact absurd e (hcalm _ (List.getElem_mem hlen))
  have hrep := report_ok hdes h ho.lawful hp hg.toRun hcalm
  rcases C56_why_workers_stop _ _ hg (fun tid t => hl1 tid t) 0 _ hw0 hf0 with ⟨r, hn⟩ | h1 | ⟨ha, v, hv, hf⟩
  · left
    obtain ⟨x, hx⟩ := source_none hn
    rw [hin] at hx
    have hnone := C04_false_means_none_partial o.rng ho.lawful d hb.wf hz hready ⟨hlev, hmem⟩ hnp (by show 0 < d.slots.length; omega) hnc hself
      (hmin.imp (fun hm c hc => ⟨hm c hc, (hd.bounds c hc).1⟩) id) an si p.analysis hA _ (fun l k => hl2 0 r.2 l k) _ _ hx
    have hno : ¬ ∃ s a, SchedShape d s ∧ Valid d s a ∧ Placed d s := by
      rintro ⟨s, a, hs, hv, hpl⟩
      exact hnone s hs.len hs.range (schedValid_of_valid hs.len hv hpl)
    refine ⟨?_, hno⟩
    rcases hrep with ⟨e, _⟩ | ⟨s, a, _, _, _, _, hs, hv, hpl, _⟩
    · exact e
    · exact absurd ⟨s, a, hs, hv, hpl⟩ hno
  · exfalso
    have : p.input.ns = 1 := h1
    rw [hin] at this
    have : d.slots.length = 1 := this
    omega
  · right
    refine ⟨ha, ?_⟩
    rcases hrep with ⟨_, e⟩ | ⟨s, a, x, sd, _, e, hs, hv, hpl, ⟨t, ht, ht2⟩, _⟩
    · rw [e v hv] at hf; cases hf
    · exact ⟨s, a, sd, x, hs, hv, hpl, e, t, ht, ht2⟩


/-- **C58**: so, if there is a valid solution, the program without `--any` does not end before it is stopped from outside. -/
theorem C58_goes_on_partial (raw : Raw) (tr : List Reader.Event) (hdes : Describes tr raw) (d : InputData) (h : build raw = .ok d)
    (hr : ManageableRaw raw) (hd : Manageable d) (o : Outside F σ) (ho : Trusted o d.nc) (opts : Opts F) (hcs : 0 ≤ opts.csTimeout)
    (p : Prepared) (hp : prepare o d opts = .ok p) (hl1 : ∀ tid t, o.lateIter tid t = false)
    (hl2 : ∀ tid a b c, o.lateSearch tid a b c = false) (g : Session σ ASolver (σ × Nat))
    (hg : Undisturbed (setup o p opts) (start (setup o p opts)) g)
    (hns : 1 < d.slots.length) (hnp : 0 < d.choosers.length) (hnc : 0 < d.choices.length)
    (hself : ∀ k ∈ d.schedCons, (k.kind = .choicesAreNotInSameSlot ∨ k.kind = .choicesHaveOffset) → k.right ≠ .choice k.left)
    (hmin : (∀ c ∈ d.choices, c.min ≤ 1) ∨ (d.choices.map (·.min)).sum ≤ d.choosers.length)
    (hany : opts.any = false) (hex : ∃ s a, SchedShape d s ∧ Valid d s a ∧ Placed d s) : ¬ g.over := by
  intro hover
  rcases C58_verdict_partial raw tr hdes d h hr hd o ho opts hcs p hp hl1 hl2 g hg hover hns hnp hnc hself hmin with ⟨_, e⟩ | ⟨e, _⟩
  · exact e hex
  · rw [hany] at e; cases e

end Wassign

/-! ## The hypotheses are met -/
namespace Wassign.VerdictEx
open Threaded Main Reader ReadEx Spec Build

/-- Two slots, two choices with room for one, and two choosers. -/
def script : Script :=
  given (.slot "Monday".toList) fun s => then' (.add .slot s) <|
  given (.slot "Tuesday".toList) fun t => then' (.add .slot t) <|
  given (.choice "Swimming".toList [tagInt .max 1]) fun a => then' (.add .choice a) <|
  given (.choice "Chess".toList [tagInt .max 1]) fun b => then' (.add .choice b) <|
  given (.chooser "Ann".toList [.int 1, .str "2".toList]) fun p => then' (.add .chooser p) <|
  given (.chooser "Bob".toList [.int 2, .int 1]) fun q => then' (.add .chooser q) .done

def outside : Outside Unit Nat := { MainEx.outside with
  backend := fun _ _ _ _ => none
  lateIter := fun _ _ => false }

def read := readInput outside.opt (new opts) script
def data : InputData := match read.1 with
  | .ok d => d
  | .error _ => default
def prepared : Prepared := match prepare outside data (effectiveOptions read.2) with
  | .ok p => p
  | .error _ => ⟨default, ⟨[], [], 0⟩, ⟨.empty, [], [], [], [], []⟩, ⟨true, fun _ => 0⟩⟩
def cfg := setup outside prepared (effectiveOptions read.2)
def final := ThEx.exec cfg ([0, 1, 2, 3, 3, 2, 1, 0, 0, 1, 2, 3, 0, 1, 2, 3]) (start cfg)

theorem read_ok : read.1 = .ok data := by
  have h : read.1.isOk = true := by decide +kernel
  unfold data
  cases e : read.1 with
  | ok d => rfl
  | error f => rw [e] at h; cases h

theorem prepare_ok : prepare outside data (effectiveOptions read.2) = .ok prepared := by
  have h : (prepare outside data (effectiveOptions read.2)).isOk = true := by decide +kernel
  unfold prepared
  cases e : prepare outside data (effectiveOptions read.2) with
  | ok d => rfl
  | error f => rw [e] at h; cases h

theorem final_phases : final.workers.map (fun w => (w.phase, w.started, w.st.progress.iterations)) =
    [(.finished, 1, 0), (.finished, 1, 0), (.finished, 1, 0), (.finished, 1, 0)] := by decide +kernel

theorem final_over : final.over := by
  intro w hw
  have h := List.mem_map_of_mem (f := fun w => (w.phase, w.started, w.st.progress.iterations)) hw
  rw [final_phases] at h
  simp at h
  exact .inl h.1

def raw : Raw := match sync (outcome outside.opt opts script).2.1.st with
  | .ok s => ⟨s.sets, s.choices, s.choosers, s.exprs⟩
  | .error _ => ⟨[], [], [], []⟩

theorem describes_raw : Describes (outcome outside.opt opts script).1 raw := by
  have h : (sync (outcome outside.opt opts script).2.1.st).isOk = true := by decide +kernel
  unfold raw
  cases e : sync (outcome outside.opt opts script).2.1.st with
  | ok s => exact describes (outcome_made _ _) e
  | error f => rw [e] at h; cases h

theorem build_raw : build raw = .ok data := by
  obtain ⟨r, h1, h2⟩ := C55_input_as_described _ _ _ read_ok
  rw [C55_at_most_one _ _ _ h1 describes_raw] at h2
  exact h2

theorem manageable : ManageableRaw raw ∧ Manageable data := by
  refine ⟨⟨by decide +kernel, ?_⟩, ⟨by decide +kernel, by decide +kernel, by decide +kernel, by decide +kernel, by decide +kernel, by decide +kernel⟩⟩
  intro e he
  have : raw.exprs = [] := by decide +kernel
  rw [this] at he; cases he

/-- All the hypotheses hold for this session; there is no solution, and the program says so. -/
example : report prepared final = .ok .noSolution ∧ ¬ ∃ s a, SchedShape data s ∧ Valid data s a ∧ Placed data s := by
  have htr : Trusted outside data.nc := by
    have : data.nc = 2 := by decide +kernel
    rw [this]
    exact ⟨Ex.counter_lawful, MainEx.counter_varied, fun _ n f l x h => by cases h⟩
  have hself : data.schedCons = [] := by decide +kernel
  rcases C58_verdict_partial raw _ describes_raw data build_raw manageable.1 manageable.2 outside htr (effectiveOptions read.2)
    (by decide +kernel) prepared prepare_ok (fun _ _ => rfl) (fun _ _ _ _ => rfl) final (ThEx.exec_undisturbed _ _ _) final_over
    (by decide +kernel) (by decide +kernel) (by decide +kernel) (by rw [hself]; intro k hk; cases hk) (.inl (by decide +kernel)) with h | ⟨h, _⟩
  · exact h
  · have : (effectiveOptions read.2).any = false := by decide +kernel
    rw [this] at h; cases h

/-! ## A wrong verdict -/

/-- Four choosers, two slots; `A` needs exactly three people, `X` exactly two. -/
def missScript : Script :=
  given (.slot "s".toList) fun s => then' (.add .slot s) <|
  given (.slot "t".toList) fun t => then' (.add .slot t) <|
  given (.choice "A".toList [tagInt .min 3, tagInt .max 3]) fun a => then' (.add .choice a) <|
  given (.choice "B".toList [tagInt .min 1, tagInt .max 2]) fun b => then' (.add .choice b) <|
  given (.choice "C".toList [tagInt .min 1, tagInt .max 2]) fun c => then' (.add .choice c) <|
  given (.choice "X".toList [tagInt .min 2, tagInt .max 2]) fun x => then' (.add .choice x) <|
  given (.chooser "p".toList [.int 1, .int 1, .int 1, .int 1]) fun p => then' (.add .chooser p) <|
  given (.chooser "q".toList [.int 1, .int 1, .int 1, .int 1]) fun p => then' (.add .chooser p) <|
  given (.chooser "r".toList [.int 1, .int 1, .int 1, .int 1]) fun p => then' (.add .chooser p) <|
  given (.chooser "u".toList [.int 1, .int 1, .int 1, .int 1]) fun p => then' (.add .chooser p) .done

def missOutside : Outside Unit Nat := { outside with
  rng := Ex.idRng
  backend := MainEx.outside.backend }

def missRead := readInput missOutside.opt (new opts) missScript
def missData : InputData := match missRead.1 with
  | .ok d => d
  | .error _ => default
def missPrepared : Prepared := match prepare missOutside missData (effectiveOptions missRead.2) with
  | .ok p => p
  | .error _ => ⟨default, ⟨[], [], 0⟩, ⟨.empty, [], [], [], [], []⟩, ⟨true, fun _ => 0⟩⟩
def missCfg := setup missOutside missPrepared (effectiveOptions missRead.2)
def missFinal := ThEx.exec missCfg ([0, 1, 2, 3, 3, 2, 1, 0, 0, 1, 2, 3, 0, 1, 2, 3]) (start missCfg)

/-- **C58 fails in general**: an accepted script and an engine with which the program, undisturbed and without any timeout,
says "No solution found." although there is a valid solution. -/
theorem C58_wrong_verdict : missOutside.rng.Lawful ∧ missRead.1 = .ok missData ∧
    prepare missOutside missData (effectiveOptions missRead.2) = .ok missPrepared ∧
    Undisturbed (setup missOutside missPrepared (effectiveOptions missRead.2)) (start missCfg) missFinal ∧ missFinal.over ∧
    report missPrepared missFinal = .ok .noSolution ∧
    ∃ s a, SchedShape missData s ∧ Valid missData s a ∧ Placed missData s := by
  have hph : missFinal.workers.map (fun w => w.phase) = [.finished, .finished, .finished, .finished] := by decide +kernel
  refine ⟨Ex.idRng_lawful, ?_, ?_, ThEx.exec_undisturbed _ _ _, ?_, ?_, [some 0, some 0, some 1, some 1],
    [[0, 2], [0, 2], [0, 3], [1, 3]], ⟨by decide +kernel, ?_⟩, ?_, ?_⟩
  · have h : missRead.1.isOk = true := by decide +kernel
    unfold missData
    cases e : missRead.1 with
    | ok d => rfl
    | error f => rw [e] at h; cases h
  · have h : (prepare missOutside missData (effectiveOptions missRead.2)).isOk = true := by decide +kernel
    unfold missPrepared
    cases e : prepare missOutside missData (effectiveOptions missRead.2) with
    | ok d => rfl
    | error f => rw [e] at h; cases h
  · intro w hw
    have h := List.mem_map_of_mem (f := fun w : Worker Nat ASolver (Nat × Nat) => w.phase) hw
    rw [hph] at h
    simp at h
    exact .inl h
  · decide +kernel
  · intro c t h
    have hns : missData.ns = 2 := by decide +kernel
    rw [hns]
    match c with
    | 0 => simp [slotAt] at h; omega
    | 1 => simp [slotAt] at h; omega
    | 2 => simp [slotAt] at h; omega
    | 3 => simp [slotAt] at h; omega
    | n + 4 => simp [slotAt] at h
  · refine (C01_feasibility_exact _ ?_ ?_ _ _ ⟨?_, ?_, ?_⟩ true ?_).1 rfl
    all_goals decide +kernel
  · unfold Placed
    decide +kernel

end Wassign.VerdictEx
