import Verif.Props.Single
import Verif.Proofs.CostCounts
/-
C61: what the assignment solver minimises and what the score ranks.
-/
namespace Wassign
open Spec Build Threaded Main Reader Asg

variable {F σ : Type}

/-- **C61** (the objective): for a valid solution, the total cost minimised by the assignment solver is the sum over the
preference values `x` of `count(x) * cost x`. -/
theorem C61_objective (d : InputData) (hw : WF d) (s : Scheduling) (a : Assignment) (hsh : Shape d s a) (hv : Valid d s a)
    (cost : Nat → Int) : totalCost d cost a = givenSum d cost a :=
  totalCost_valid hsh hw hv cost

/-- **C61** (partial: only weights of which the cost is an increasing affine function, as with `--pref-exp 1`, where the cost is
`x + 1` and the score adds up `x`): the cost ranks valid solutions like the weighted sum behind the minor score. -/
theorem C61_same_ranking_partial (d : InputData) (hw : WF d) (s s' : Scheduling) (a a' : Assignment) (hsh : Shape d s a)
    (hv : Valid d s a) (hsh' : Shape d s' a') (hv' : Valid d s' a') (cost weight : Nat → Int) (α β : Int) (hα : 0 < α)
    (h : ∀ x ≤ d.maxPref, cost x = α * weight x + β) :
    totalCost d cost a ≤ totalCost d cost a' ↔ givenSum d weight a ≤ givenSum d weight a' := by
  rw [totalCost_valid hsh hw hv, totalCost_valid hsh' hw hv', givenSum_affine α β h, givenSum_affine α β h,
    givenSum_one hsh hw hv, givenSum_one hsh' hw hv']
  constructor
  · intro h
    exact Int.le_of_mul_le_mul_left (show α * _ ≤ α * _ by omega) hα
  · intro h
    have := Int.mul_le_mul_of_nonneg_left h (Int.le_of_lt hα)
    omega

end Wassign

/-! ## The witness -/
namespace Wassign.ObjectiveEx
open Threaded Main Reader ReadEx Spec Build

/-- One slot, four choices with room for one, four choosers. In terms of preferences (0 is best) Ann, Bob, Cid and Dan have
`0 2 3 3`, `3 0 2 3`, `2 3 3 3` and `3 3 3 3`. -/
def script : Script :=
  given (.slot "Monday".toList) fun s => then' (.add .slot s) <|
  given (.choice "Swimming".toList [tagInt .max 1]) fun a => then' (.add .choice a) <|
  given (.choice "Chess".toList [tagInt .max 1]) fun b => then' (.add .choice b) <|
  given (.choice "Dancing".toList [tagInt .max 1]) fun c => then' (.add .choice c) <|
  given (.choice "Tennis".toList [tagInt .max 1]) fun e => then' (.add .choice e) <|
  given (.chooser "Ann".toList [.int 3, .int 1, .int 0, .int 0]) fun p => then' (.add .chooser p) <|
  given (.chooser "Bob".toList [.int 0, .int 3, .int 1, .int 0]) fun p => then' (.add .chooser p) <|
  given (.chooser "Cid".toList [.int 1, .int 0, .int 0, .int 0]) fun p => then' (.add .chooser p) <|
  given (.chooser "Dan".toList [.int 0, .int 0, .int 0, .int 0]) fun q => then' (.add .chooser q) .done

/-- The default exponent 3, with exact powers: the score adds up `x^3`, the cost is `(x+1)^3`. -/
def outside : Outside Unit Nat := { SingleEx.outside with
  draws := 4
  powf := fun x _ => F32.mul x (F32.mul x x) }
noncomputable def ideal : Outside Unit Nat := { outside with backend := fun _ => idealBackend }

def read := readInput outside.opt (new opts) script
def data : InputData := match read.1 with
  | .ok d => d
  | .error _ => default
def eff : Opts Unit := effectiveOptions read.2
def prepared : Prepared := match prepare outside data eff with
  | .ok p => p
  | .error _ => ⟨default, ⟨[], [], 0⟩, ⟨.empty, [], [], [], [], []⟩, ⟨true, fun _ => 0⟩⟩

theorem read_ok : read.1 = .ok data := by
  have h : read.1.isOk = true := by decide +kernel
  unfold data
  cases e : read.1 with
  | ok d => rfl
  | error f => rw [e] at h; cases h

theorem prepare_ok : prepare ideal data eff = .ok prepared := by
  have h : (prepare outside data eff).isOk = true := by decide +kernel
  show prepare outside data eff = .ok prepared
  unfold prepared
  cases e : prepare outside data eff with
  | ok d => rfl
  | error f => rw [e] at h; cases h

def raw : Raw := match sync (outcome outside.opt opts script).2.1.st with
  | .ok s => ⟨s.sets, s.choices, s.choosers, s.exprs⟩
  | .error _ => ⟨[], [], [], []⟩

theorem describes_raw : Describes (outcome outside.opt opts script).1 raw := by
  have h : (sync (outcome outside.opt opts script).2.1.st).isOk = true := by decide +kernel
  unfold raw
  cases e : sync (outcome outside.opt opts script).2.1.st with
  | ok s => exact describes (outcome_made _ _) e
  | error f => rw [e] at h; cases h

theorem build_raw : build raw = .ok data := by
  obtain ⟨r, h1, h2⟩ := C55_input_as_described _ _ _ read_ok
  rw [C55_at_most_one _ _ _ h1 describes_raw] at h2
  exact h2

theorem manageable : ManageableRaw raw ∧ Manageable data := by
  refine ⟨⟨by decide +kernel, ?_⟩, ⟨by decide +kernel, by decide +kernel, by decide +kernel, by decide +kernel, by decide +kernel, by decide +kernel⟩⟩
  intro e he
  have : raw.exprs = [] := by decide +kernel
  rw [this] at he; cases he

theorem trusted : Trusted ideal data.nc := by
  have : data.nc = 4 := by decide +kernel
  rw [this]
  exact ⟨Ex.counter_lawful, Ex.counter_varied, fun _ => ideal_sound⟩

theorem moderate : ModeratePowers ideal.powf (ideal.toF32 eff.prefExp) data.maxPref := by
  have h3 : data.maxPref = 3 := by decide +kernel
  rw [h3]
  refine ⟨?_, ?_, ?_, ?_⟩
  all_goals decide +kernel

/-- Everybody attends something else: the solution with the best score. -/
def better : Assignment := [[1], [2], [0], [3]]
/-- The one with the least cost. -/
def cheaper : Assignment := [[0], [1], [2], [3]]
def sch : Scheduling := [some 0, some 0, some 0, some 0]

theorem sch_shape : SchedShape data sch := by
  refine ⟨by decide +kernel, ?_⟩
  intro c t h
  have hns : data.ns = 1 := by decide +kernel
  rw [hns]
  match c with
  | 0 => simp [slotAt, sch] at h; omega
  | 1 => simp [slotAt, sch] at h; omega
  | 2 => simp [slotAt, sch] at h; omega
  | 3 => simp [slotAt, sch] at h; omega
  | n + 4 => simp [slotAt, sch] at h

theorem placed : Placed data sch := by
  unfold Placed
  decide +kernel

theorem wf : WF data := by
  have hmax := fun q hq => ((described_fit describes_raw).1 q hq).2.1
  obtain ⟨m, written, hb⟩ := build_spec hmax build_raw
  exact hb.wf

theorem better_shape : Shape data sch better := ⟨by decide +kernel, by decide +kernel, by decide +kernel⟩
theorem cheaper_shape : Shape data sch cheaper := ⟨by decide +kernel, by decide +kernel, by decide +kernel⟩
theorem better_valid : Valid data sch better :=
  (C01_feasibility_exact _ wf (by decide +kernel) _ _ better_shape true (by decide +kernel)).1 rfl
theorem cheaper_valid : Valid data sch cheaper :=
  (C01_feasibility_exact _ wf (by decide +kernel) _ _ cheaper_shape true (by decide +kernel)).1 rfl

/-- What is checked of an assignment with one entry per chooser: if it passes the feasibility check and costs no more than
`cheaper`, then its score is worse than that of `better`. -/
def check (a : Assignment) : Bool :=
  match Scoring.isFeasible data (.complete sch a), prepared.scoring.evaluate data (.complete sch a),
    prepared.scoring.evaluate data (.complete sch better) with
  | .ok f, .ok x, .ok y => !f || decide (totalCost data (outside.cost ()) cheaper < totalCost data (outside.cost ()) a) || Score.lt y x
  | _, _, _ => false

theorem check_all : ∀ x ∈ List.range 4, ∀ y ∈ List.range 4, ∀ z ∈ List.range 4, ∀ w ∈ List.range 4, check [[x], [y], [z], [w]] = true := by
  decide +kernel

/-- The example costs 130, the solution with the better score 145. -/
example : totalCost data (outside.cost ()) cheaper = 130 ∧ totalCost data (outside.cost ()) better = 145 := by decide +kernel

theorem entries {a : Assignment} (h : Shape data sch a) (hv : Valid data sch a) : ∃ x y z w, a = [[x], [y], [z], [w]] ∧ x < 4 ∧ y < 4 ∧ z < 4 ∧ w < 4 := by
  have hr := entriesInRange_of_valid h hv.onlyScheduled
  have h1 : a.length = 4 := by rw [h.asgLen]; decide +kernel
  have h2 : ∀ r ∈ a, r.length = 1 := by
    intro r hr
    rw [h.rowLen r hr]; decide +kernel
  have hnp : data.np = 4 := by decide +kernel
  have hns : data.ns = 1 := by decide +kernel
  have hnc : data.nc = 4 := by decide +kernel
  unfold EntriesInRange at hr
  rw [hnp, hns, hnc] at hr
  match a, h1, h2, hr with
  | [r0, r1, r2, r3], _, h2, hr =>
    have l0 := h2 r0 (by simp)
    have l1 := h2 r1 (by simp)
    have l2 := h2 r2 (by simp)
    have l3 := h2 r3 (by simp)
    match r0, l0, r1, l1, r2, l2, r3, l3, hr with
    | [x], _, [y], _, [z], _, [w], _, hr =>
      exact ⟨x, y, z, w, rfl, hr 0 (by omega) 0 (by omega), hr 1 (by omega) 0 (by omega), hr 2 (by omega) 0 (by omega), hr 3 (by omega) 0 (by omega)⟩

/-- **C61** (finding 23, the program): with the default options and a backend that always returns the optimum, an undisturbed
run ends with a valid solution whose score is worse than that of another valid solution - the same worst preference, but a
greater minor score. -/
theorem C61_not_the_best_score : ∃ g, Undisturbed (setup ideal prepared eff) (start (setup ideal prepared eff)) g ∧ g.over ∧
    ∃ s a asg table, report prepared g = .ok (.tables none asg) ∧ asg = csv table ∧ AssignmentTable data s a table ∧ Valid data s a ∧
      ∃ a' x x', Valid data s a' ∧ prepared.scoring.evaluate data (.complete s a) = .ok x ∧
        prepared.scoring.evaluate data (.complete s a') = .ok x' ∧ x'.isFinite = true ∧ Score.lt x' x = true ∧ x'.major = x.major := by
  have h1 : data.slots.length = 1 := by decide +kernel
  have hin : prepared.input.ns = 1 := by decide +kernel
  obtain ⟨g, hg, ho⟩ := C59_session_ends (setup ideal prepared eff) hin
  refine ⟨g, hg, ho, ?_⟩
  have hscor := C60_every_solution_scored_partial raw _ describes_raw data build_raw manageable.1 manageable.2 ideal eff prepared prepare_ok moderate
  rcases C59_optimal_partial raw _ describes_raw data build_raw manageable.1 manageable.2 ideal trusted ideal_exact eff
    (by decide +kernel) prepared prepare_ok (fun _ => rfl) (fun _ _ _ => rfl) (fun _ => rfl)
    hscor g hg ho h1 (by decide +kernel) (by decide +kernel) with ⟨_, h⟩ | ⟨s, a, x, hs, hsh, hv, hpl, hre, ⟨table, ht1, ht2⟩, _, hbest⟩
  · exact absurd ⟨sch, better, sch_shape, better_valid, placed⟩ h
  · have hss : s = sch := single_unique h1 (by decide +kernel) hs hpl sch_shape placed
    subst hss
    refine ⟨sch, a, x, table, hre, ht1, ht2, hv, better, ?_⟩
    -- Dan gets preference 3 in any case
    have hworst : ∀ a, Shape data sch a → Valid data sch a → IsWorst data a 3 := by
      intro a hsh hv
      obtain ⟨x, y, z, w, rfl, _, _, _, hw⟩ := entries hsh hv
      constructor
      · intro p c x _ hx
        have h3 : data.maxPref = 3 := by decide +kernel
        rw [← h3]
        exact pref_le wf hx
      · right
        refine ⟨3, w, ⟨0, rfl⟩, ?_⟩
        have : ∀ w < 4, pref data 3 w = some 3 := by decide +kernel
        exact this w hw
    have hcost : totalCost data (outside.cost ()) a ≤ totalCost data (outside.cost ()) cheaper := by
      exact hbest sch cheaper 3 sch_shape placed cheaper_valid (hworst a hsh hv) (hworst cheaper cheaper_shape cheaper_valid).upper
    have hcheck : check a = true := by
      obtain ⟨x, y, z, w, rfl, h1, h2, h3, h4⟩ := entries hsh hv
      exact check_all x (by simpa using h1) y (by simpa using h2) z (by simpa using h3) w (by simpa using h4)
    obtain ⟨xs, hx, hxf⟩ := hscor sch a hs hsh hv
    obtain ⟨ys, hy, hyf⟩ := hscor sch better sch_shape better_shape better_valid
    have hfeas : Scoring.isFeasible data (.complete sch a) = .ok true := isFeasibleC_complete hsh (by
      have hmax := fun q hq => ((described_fit describes_raw).1 q hq).2.1
      obtain ⟨m, written, hb⟩ := build_spec hmax build_raw
      exact (sizes_of_manageable hb manageable.1 manageable.2).1) wf hs.range hv
    unfold check at hcheck
    rw [hfeas, hx, hy] at hcheck
    simp only [Bool.not_true, Bool.false_or, Bool.or_eq_true, decide_eq_true_eq] at hcheck
    refine ⟨xs, ys, better_valid, hx, hy, hyf, ?_, ?_⟩
    · rcases hcheck with h | h
      · omega
      · exact h
    · have major : ∀ a sc, Shape data sch a → Valid data sch a → prepared.scoring.evaluate data (.complete sch a) = .ok sc → sc.isFinite = true →
          sc.major = F32.ofU32 3 := by
        intro a sc h1 h2 h3 h4
        have hz := (C56_greedy ideal data eff prepared prepare_ok wf (by
          have hmax := fun q hq => ((described_fit describes_raw).1 q hq).2.1
          obtain ⟨m, written, hb⟩ := build_spec hmax build_raw
          exact (sizes_of_manageable hb manageable.1 manageable.2).1) sch a h1 sch_shape.range h2 sc h3 h4).2 (by decide +kernel)
        obtain ⟨w, hw, e⟩ := hz
        have hle : w = 3 := by
          have h3' := hworst a h1 h2
          rcases hw.attained with e | ⟨p, c, f1, f2⟩
          · rcases h3'.attained with e' | ⟨p, c, f1, f2⟩
            · omega
            · have := hw.upper p c 3 f1 f2; omega
          · have := h3'.upper p c w f1 f2
            rcases h3'.attained with e' | ⟨p, c, f1, f2⟩
            · omega
            · have := hw.upper p c 3 f1 f2; omega
        rw [e, hle]
      rw [major better ys better_shape better_valid hy hyf, major a xs hsh hv hx hxf]

/-- With exponent 1 the cost `x + 1` and the weight `x` meet the hypothesis of `C61_same_ranking_partial`. -/
example : totalCost data (fun x => (x : Int) + 1) cheaper ≤ totalCost data (fun x => (x : Int) + 1) better ↔
    givenSum data (fun x => (x : Int)) cheaper ≤ givenSum data (fun x => (x : Int)) better :=
  C61_same_ranking_partial data wf sch sch cheaper better cheaper_shape cheaper_valid better_shape better_valid _ _ 1 1 (by omega)
    (fun x _ => by omega)

end Wassign.ObjectiveEx
