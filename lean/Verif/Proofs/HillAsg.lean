import Verif.Proofs.HillTotal
import Verif.Proofs.AsgBridge
/-
The assignment solver meets what hill climbing asks of it.
-/
namespace Wassign.Hill
open Spec Asg

/-- What is asked of the participant bounds for the flow network to be built. -/
def BoundsFit (i : InputData) : Prop := ∀ c ∈ i.choices, c.min ≤ c.max ∧ c.max ≤ i32Max

instance (i : InputData) : Decidable (BoundsFit i) := by unfold BoundsFit; infer_instance

theorem le_sum_of_mem : ∀ {l : List Nat} {x : Nat}, x ∈ l → x ≤ l.sum := by
  intro l
  induction l with
  | nil => intro x h; cases h
  | cons y l ih =>
    intro x h
    rw [List.sum_cons]
    rcases List.mem_cons.1 h with rfl | h
    · omega
    · have := ih h; omega

theorem le_slotSum {i : InputData} {s : Scheduling} {f : Choice → Nat} {c t : Nat} (hc : c < i.nc) (h : slotAt s c = some t) :
    f (i.choices[c]) ≤ slotSum i s f t := by
  unfold slotSum
  have hm : (if slotAt s c = some t then (i.choices[c]?.map f).getD 0 else 0) ∈
      (List.range i.nc).map (fun c => if slotAt s c = some t then (i.choices[c]?.map f).getD 0 else 0) :=
    List.mem_map.2 ⟨c, List.mem_range.2 hc, rfl⟩
  have := le_sum_of_mem hm
  simpa [h, hc] using this

theorem flowFits_of_valid {i : InputData} (hz : Sizes i) (hb : BoundsFit i) {s : Scheduling} (hs : SchedShape i s)
    (hv : SchedValid i s) : FlowFits i s := by
  refine ⟨?_, hz.choosers, ?_, ?_⟩
  · intro c hc hne
    cases ht : slotAt s c with
    | none => exact absurd ht hne
    | some t =>
      have h1 := le_slotSum (f := (·.min)) hc ht
      have h2 := hv.minimum t (hs.range c t ht)
      have h3 := hz.choosers
      unfold minN
      simp only [List.getElem?_eq_getElem hc, Option.map_some, Option.getD_some]
      omega
  · intro t ht
    have h2 := hv.minimum t ht
    have h3 := hz.choosers
    omega
  · intro c hc _
    have := hb _ (List.getElem_mem hc)
    unfold minN maxN
    simp only [List.getElem?_eq_getElem hc, Option.map_some, Option.getD_some]
    omega

/-- The solver states that can occur. -/
def Used (pr : AProblem) (env : AEnv) (sv : ASolver) : Prop := ∃ free, Reach pr env free sv

theorem shaped_solver {pr : AProblem} {env : AEnv} (hp : ProblemOk pr) (hlev : pr.input.prefLevels.Pairwise (· < ·))
    (hb : Backend.Sound env.backend) (deadline : Bool) : Shaped pr.input (solveUntil pr env deadline) (Used pr env) where
  keeps := by
    rintro t s r t' ⟨free, ht⟩ hs h
    exact ⟨_, ht.step hs h⟩
  shape := by
    rintro t s a t' ⟨free, ht⟩ hs h
    obtain ⟨l, hg, _⟩ := ((reach_solve hp hlev hb ht hs h).found a rfl).good
    exact ⟨hs.len, hg.order.rows, hg.order.cols⟩

theorem solid_solver {pr : AProblem} {env : AEnv} (hp : ProblemOk pr) (hlev : pr.input.prefLevels.Pairwise (· < ·))
    (hb : Backend.Sound env.backend) (hz : Sizes pr.input) (hbf : BoundsFit pr.input) (deadline : Bool) :
    Solid pr.input (solveUntil pr env deadline) (Used pr env) where
  keeps := (shaped_solver hp hlev hb deadline).keeps
  shape := (shaped_solver hp hlev hb deadline).shape
  total := by
    rintro t s ⟨free, ht⟩ hs hv
    exact solveUntil_total hp hb (reach_inv hp hlev hb ht).1 hs hz.sumMin (flowFits_of_valid hz hbf hs hv) deadline
  valid := by
    rintro t s a t' ⟨free, ht⟩ hs hv h
    obtain ⟨l, hg, _⟩ := ((reach_solve hp hlev hb ht hs h).found a rfl).good
    exact ⟨⟨hs.len, hg.order.rows, hg.order.cols⟩,
      ⟨hv.cons, hg.valid.asg, hg.valid.onePerSlot, hg.valid.onlyScheduled, hg.valid.bounds⟩⟩

end Wassign.Hill
