import Verif.Props.Restart
import Verif.Instances.Attain
/-
The hypotheses of C78_enough_time are met.
-/
namespace Wassign.RestartEx
open Threaded Main Reader ReadEx Spec Build StatedEx AttainEx

/-- Three choices with room for two in two slots. -/
def script : Script :=
  given (.slot "Monday".toList) fun s => then' (.add .slot s) <|
  given (.slot "Tuesday".toList) fun t => then' (.add .slot t) <|
  given (.choice "X".toList [tagInt .max 2]) fun x => then' (.add .choice x) <|
  given (.choice "Y".toList [tagInt .max 2]) fun y => then' (.add .choice y) <|
  given (.choice "Z".toList [tagInt .max 2]) fun z => then' (.add .choice z) <|
  given (.chooser "Ann".toList [.int 3, .int 2, .int 1]) fun p => then' (.add .chooser p) <|
  given (.chooser "Bob".toList [.int 2, .int 3, .int 1]) fun p => then' (.add .chooser p) .done

def read := readInput opt (new ReadEx.opts) script
def data : InputData := match read.1 with
  | .ok d => d
  | .error _ => default

theorem read_ok : read.1 = .ok data := by
  have h : read.1.isOk = true := by decide +kernel
  unfold data
  cases e : read.1 with
  | ok d => rfl
  | error f => rw [e] at h; cases h

def raw : Raw := match sync (outcome opt ReadEx.opts script).2.1.st with
  | .ok s => ⟨s.sets, s.choices, s.choosers, s.exprs⟩
  | .error _ => ⟨[], [], [], []⟩

theorem describes_raw : Describes (outcome opt ReadEx.opts script).1 raw := by
  have h : (sync (outcome opt ReadEx.opts script).2.1.st).isOk = true := by decide +kernel
  unfold raw
  cases e : sync (outcome opt ReadEx.opts script).2.1.st with
  | ok s => exact describes (outcome_made _ _) e
  | error f => rw [e] at h; cases h

theorem build_raw : build raw = .ok data := by
  obtain ⟨r, h1, h2⟩ := C55_input_as_described _ _ _ read_ok
  rw [C55_at_most_one _ _ _ h1 describes_raw] at h2
  exact h2

theorem manageable : ManageableRaw raw ∧ Manageable data := by
  refine ⟨⟨by decide +kernel, ?_⟩, ⟨by decide +kernel, by decide +kernel, by decide +kernel, by decide +kernel, by decide +kernel, by decide +kernel⟩⟩
  intro e he a ha hk n hn
  have : raw.exprs = [] := by decide +kernel
  rw [this] at he
  cases he

def eff : Opts Unit := effectiveOptions read.2
def prepared : Prepared := match Main.prepare outside data eff with
  | .ok p => p
  | .error _ => ⟨default, ⟨[], [], 0⟩, ⟨.empty, [], [], [], [], []⟩, ⟨true, fun _ => 0⟩⟩

theorem prepare_ok : Main.prepare ideal data eff = .ok prepared := by
  have h : (Main.prepare outside data eff).isOk = true := by decide +kernel
  show Main.prepare outside data eff = .ok prepared
  unfold prepared
  cases e : Main.prepare outside data eff with
  | ok d => rfl
  | error f => rw [e] at h; cases h

theorem scorable : Scorable prepared.scoring data :=
  C60_every_solution_scored_partial raw _ describes_raw data build_raw manageable.1 manageable.2 ideal eff prepared prepare_ok
    (FloatEx.identity_moderate _ _ (by decide +kernel))

/-- Two orders in turn, and the schedulings that come first in them. -/
def orders (k : Nat) : List Nat := if k % 2 = 0 then [0, 1, 2] else [1, 0, 2]
def scheds (k : Nat) : Scheduling := if k % 2 = 0 then [some 0, some 1, some 0] else [some 1, some 0, some 0]

theorem both {P : List Nat → Scheduling → Prop} (h0 : P [0, 1, 2] [some 0, some 1, some 0]) (h1 : P [1, 0, 2] [some 1, some 0, some 0]) (k : Nat) :
    P (orders k) (scheds k) := by
  unfold orders scheds
  split
  · exact h0
  · exact h1

theorem ns_eq : data.ns = 2 := by decide +kernel
theorem nc_eq : data.nc = 3 := by decide +kernel
theorem wf : WF data := (build_spec (by decide +kernel) build_raw).choose_spec.choose_spec.wf

theorem feasible_valid {s : Scheduling} (h : schedFeasible data s = .ok true) (hl : s.length = 3) : SchedShape data s ∧ SchedValid data s := by
  have hl : s.length = data.nc := by rw [hl]; decide +kernel
  exact ⟨⟨hl, schedFeasible_range hl h⟩, (schedFeasible_spec hl (by decide +kernel) (by decide +kernel) wf.sched h).1 rfl⟩

theorem least {a b c : Nat} {s : Scheduling}
    (h : ∀ k ∈ [0, 1, 2], ∃ x ∈ [0, 1], slotAt s ([a, b, c].getD k 0) = some x ∧
      ∀ y ∈ [0, 1], y ≠ x → Emptier data (decidedFirst [a, b, c] k s) x y) : LeastFull data [a, b, c] s := by
  intro k e hk
  have hk3 : k < 3 := (List.getElem?_eq_some_iff.1 hk).1
  obtain ⟨x, _, h1, h2⟩ := h k (by simp; omega)
  rw [List.getD_eq_getElem?_getD, hk] at h1
  refine ⟨x, h1, fun y hy hne => h2 y ?_ hne⟩
  rw [ns_eq] at hy
  simp; omega

theorem order_ok (k : Nat) : HandlingOrder data (orders k) := by
  refine both (P := fun o _ => HandlingOrder data o) ?_ ?_ k
  · exact ⟨by rw [nc_eq]; decide, by decide +kernel⟩
  · exact ⟨by rw [nc_eq]; decide, by decide +kernel⟩

theorem first (k : Nat) : FirstInOrder data [] (orders k) (scheds k) := by
  refine both (P := fun o s => HandlingOrder data o → FirstInOrder data [] o s) ?_ ?_ k (order_ok k)
  · intro ho
    obtain ⟨h1, h2⟩ := feasible_valid (s := [some 0, some 1, some 0]) (by decide +kernel) rfl
    exact C78_least_full_is_first data (by decide +kernel) _ ho _ h1 h2 (least (by decide +kernel))
  · intro ho
    obtain ⟨h1, h2⟩ := feasible_valid (s := [some 1, some 0, some 0]) (by decide +kernel) rfl
    exact C78_least_full_is_first data (by decide +kernel) _ ho _ h1 h2 (least (by decide +kernel))

theorem covers (k l : Nat) (hl : l = prepared.analysis.preferenceBound ∨ l = data.maxPref) :
    ∀ set ∈ prepared.analysis.forPreference l, CoversSlots data (scheds k) set.data := by
  have hall : ∀ l ∈ [prepared.analysis.preferenceBound, data.maxPref], ∀ set ∈ prepared.analysis.forPreference l,
      ∀ s ∈ [[some 0, some 1, some 0], [some 1, some 0, some 0]], ∀ t ∈ List.range 2, ∃ c ∈ set.data, slotAt s c = some t := by decide +kernel
  intro set hset t ht
  have hs : scheds k ∈ [[some 0, some 1, some 0], [some 1, some 0, some 0]] := by unfold scheds; split <;> simp
  have := ns_eq
  exact hall l (by simpa using hl) set hset _ hs t (by rw [List.mem_range]; omega)

/-- There are critical sets. -/
example : prepared.analysis.forPreference prepared.analysis.preferenceBound ≠ [] := by decide +kernel

/-- The schedulings have valid assignments. -/
theorem filled (k : Nat) : ∃ a, Valid data (scheds k) a := by
  refine both (P := fun _ s => ∃ a, Valid data s a) ?_ ?_ k
  · exact ⟨[[2, 1], [0, 1]], (C01_feasibility_exact data wf (by decide +kernel) _ _ ⟨by decide +kernel, by decide +kernel, by decide +kernel⟩ true
      (by decide +kernel)).1 rfl⟩
  · exact ⟨[[1, 0], [2, 0]], (C01_feasibility_exact data wf (by decide +kernel) _ _ ⟨by decide +kernel, by decide +kernel, by decide +kernel⟩ true
      (by decide +kernel)).1 rfl⟩

theorem unlinked (s : Scheduling) : LinksScheduled data s := by
  have hno : data.asgCons = [] := by decide +kernel
  intro a b ha hb hc
  rw [hno] at hc ⊢
  have : ∀ x y, Connected (SameLink []) x y → x = y := by
    intro x y hxy
    induction hxy with
    | refl => rfl
    | link h => obtain ⟨c, hc, _⟩ := h; cases hc
    | symm _ ih => exact ih.symm
    | trans _ _ ih1 ih2 => exact ih1.trans ih2
  rw [this a b hc]
  exact .refl _

/-- So there is a run that tries both and prints something as good as either. -/
example : ∃ (o' : Outside Unit Nat) (g : _), Run (setup o' prepared eff) (Threaded.start (setup o' prepared eff)) g ∧ g.over ∧
    ∀ k, k < 2 → ∃ s1 a1 sched asg, SchedShape data s1 ∧ Valid data s1 a1 ∧
      report prepared g = .ok (.tables sched asg) := by
  obtain ⟨o', _, _, h⟩ := C78_enough_time raw _ describes_raw data build_raw manageable.1 manageable.2 (by decide +kernel)
    (by have : data.schedCons = [] := by decide +kernel
        intro k hk; rw [this] at hk; cases hk)
    (.inl (by decide +kernel)) (by decide +kernel) (by decide +kernel) ideal (fun _ => ideal_sound) (fun _ => ideal_exact) eff (by decide +kernel)
    (by decide +kernel) (by decide +kernel) (by decide +kernel) prepared prepare_ok scorable orders order_ok scheds first covers
  obtain ⟨g, h1, h2, h3⟩ := h 2
  refine ⟨o', g, h1, h2, fun k hk => ?_⟩
  obtain ⟨a, ha⟩ := filled k
  obtain ⟨s1, a1, sched, asg, e1, e2, _, e3, _⟩ := h3 k hk (unlinked _) a ha
  exact ⟨s1, a1, sched, asg, e1, e2, e3⟩

end Wassign.RestartEx
