import Verif.Proofs.AsgReach
import Verif.Proofs.Built
import Mathlib.Data.Int.LeastGreatest
import Mathlib.Algebra.Order.Ring.Abs
/-
What the assignment stage needs of its input follows from the builder; the contracts of the backend can be met.
-/
namespace Wassign
open Spec Build Asg

/-- The dependency groups of built data mean what they should. -/
theorem Built.groupsMean {raw : Raw} {d : InputData} {m : Nat} {written : List Constraint} (hb : Built raw d m written) :
    GroupsMean d := by
  obtain ⟨hp, hc⟩ := hb.groups
  constructor
  · intro g hg c hcg
    have : c ∈ d.depGroups.flatten := List.mem_flatten.2 ⟨g, hg, hcg⟩
    simpa using hp.covers.mem_iff.1 this
  · intro a b ha hb'
    rw [hc a b ha hb']
    obtain ⟨red, hr, _, h2⟩ := hb.reduced
    have : SameLink d.asgCons = SameLink written := by
      funext x y
      apply propext
      rw [← hr.links]
      constructor
      · rintro ⟨c, hc1, hk, hl⟩
        rcases ((h2 c).1 hc1).1 with hg | _ | _ | ⟨_, hk', _⟩
        · exact ⟨c, hg, hk, hl⟩
        · cases hk
        · cases hk
        · rcases hk' with e | e <;> (simp only at hk; rw [e] at hk; cases hk)
      · rintro ⟨c, hc1, hk, hl⟩
        refine ⟨c, (h2 c).2 ⟨.given hc1, ?_⟩, hk, hl⟩
        rcases hr.wf c hc1 with h | h
        · unfold SchedConWF at h; rw [hk] at h; simp at h
        · exact h
    rw [this]

/-- If all choices are scheduled, all links are. -/
theorem links_of_all {i : InputData} {s : Scheduling} (hw : WF i) (h : ∀ c, c < i.nc → slotAt s c ≠ none) : LinksScheduled i s := by
  intro a b _ _ hc
  refine hc.mono ?_
  rintro x y ⟨k, hk, e1, e2, e3⟩
  have := hw.asg k hk
  unfold AsgConWF at this
  rw [e1, e3] at this
  simp only at this
  refine ⟨⟨k, hk, e1, e2, e3⟩, h x ?_, h y this.2⟩
  rw [← e2]; exact this.1

/-! ### Solving does not panic -/

theorem solveUntil_total {pr : AProblem} {env : AEnv} (hp : ProblemOk pr) (hb : Backend.Sound env.backend) {sv : ASolver}
    (hk : KeptOk pr.input sv) {s : Scheduling} (hs : SchedShape pr.input s) (hsum : (pr.input.choices.map (·.min)).sum ≤ u32Max)
    (hfit : FlowFits pr.input s) (deadline : Bool) : ∃ r sv', solveUntil pr env deadline sv s = .ok (r, sv') := by
  have hprep := prepare_spec (static_spec hp.static) hp.wf hk hs
  obtain ⟨st, hst⟩ := hprep.2 hsum
  have hok := hprep.1 st hst
  unfold solveUntil
  simp only [hst, R.bind_ok]
  split
  · exact ⟨_, _, rfl⟩
  · split
    · obtain ⟨r, sv2, h⟩ := solveWithLimit_total (limit := pr.input.maxPref) hp hs hok hb hfit deadline { sv with state := some st }
      rw [h, R.bind_ok]
      cases r <;> exact ⟨_, _, rfl⟩
    · split
      · exact ⟨_, _, rfl⟩
      · rename_i hl0
        have hne : pr.input.prefLevels ≠ [] := fun e => hl0 (by rw [e]; rfl)
        have hstart := startIndex_lt (bound := pr.bound) hne
        obtain ⟨r, h⟩ := bin_total (attempt := solveWithLimit pr env deadline st) (levels := pr.input.prefLevels)
          (start := startIndex pr.input.prefLevels pr.bound) (Inv := fun _ => True)
          (fun k l sv _ _ => by
            obtain ⟨r, sv2, h⟩ := solveWithLimit_total (limit := l) hp hs hok hb hfit deadline sv
            exact ⟨r, sv2, h, trivial⟩) (pr.input.prefLevels.length + 1)
          ⟨startIndex pr.input.prefLevels pr.bound, pr.input.prefLevels.length - 1, none, true⟩ { sv with state := some st }
          (by show pr.input.prefLevels.length - 1 < _; omega) trivial
        rw [h, R.bind_ok]
        cases r with
        | none => exact absurd h (bin_fuel _ _ _ (by simp only; omega) (by simp only; omega))
        | some q => exact ⟨_, _, rfl⟩

/-! ### A backend -/

theorem flowCost_bounded (f : MipFlow) : ∃ B : Int, ∀ x, FlowOk f x → B ≤ flowCost f x := by
  have key : ∀ (l : List Nat), (∀ e ∈ l, e < f.edgeCount) →
      ∃ B : Int, ∀ x, FlowOk f x → B ≤ (l.map (fun e => (f.edgesCost[e]?.getD 0) * val x e)).sum := by
    intro l
    induction l with
    | nil => intro _; exact ⟨0, fun x _ => by simp⟩
    | cons e l ih =>
      intro h
      obtain ⟨B, hB⟩ := ih (fun e' he' => h e' (by simp [he']))
      have he := h e (by simp)
      refine ⟨-(|f.edgesCost[e]?.getD 0| * |f.edgesMax[e]'he|) + B, ?_⟩
      intro x hx
      rw [List.map_cons, List.sum_cons]
      have h1 := hB x hx
      have h2 := hx.lower e he
      have h3 := hx.upper e _ (List.getElem?_eq_getElem he)
      have h4 : -(|f.edgesCost[e]?.getD 0| * |f.edgesMax[e]'he|) ≤ (f.edgesCost[e]?.getD 0) * val x e := by
        generalize f.edgesCost[e]?.getD 0 = c at *
        generalize f.edgesMax[e]'he = mx at *
        have h5 : |c * val x e| ≤ |c| * |mx| := by
          rw [abs_mul]
          exact mul_le_mul_of_nonneg_left (abs_le_abs h3 (by omega)) (abs_nonneg c)
        have := neg_abs_le (c * val x e)
        omega
      omega
  exact key _ (fun e he => by simpa using he)

open Classical in
/-- A backend that returns some cheapest solution, if there is one. -/
noncomputable def idealBackend : Backend := fun _ f _ =>
  if h : ∃ x, FlowOk f x ∧ ∀ y, FlowOk f y → flowCost f x ≤ flowCost f y then some h.choose else none

theorem ideal_sound : Backend.Sound idealBackend := by
  intro n f l x h
  unfold idealBackend at h
  split at h
  · rename_i h'; cases h; exact h'.choose_spec.1
  · cases h

theorem ideal_optimal : Backend.Optimal idealBackend := by
  intro n f l x h
  unfold idealBackend at h
  split at h
  · rename_i h'; cases h; exact h'.choose_spec.2
  · cases h

theorem ideal_complete : Backend.Complete idealBackend := by
  intro n f h y hy
  unfold idealBackend at h
  split at h
  · cases h
  · rename_i hno
    apply hno
    obtain ⟨B, hB⟩ := flowCost_bounded f
    obtain ⟨z, ⟨x, hx, rfl⟩, hz⟩ := Int.exists_least_of_bdd (P := fun z => ∃ x, FlowOk f x ∧ flowCost f x = z)
      ⟨B, by rintro z ⟨x, hx, rfl⟩; exact hB x hx⟩ ⟨_, y, hy, rfl⟩
    exact ⟨x, hx, fun y hy => hz _ ⟨y, hy, rfl⟩⟩

end Wassign
