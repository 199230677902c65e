import Verif.Proofs.BuildTotal
import Verif.Proofs.Critical
import Verif.Proofs.SearchComplete
import Verif.Proofs.Source
import Verif.Proofs.SchedFeasible
import Verif.Proofs.WorkerTotal
/-
Built input data is ready for the search.
-/
namespace Wassign
open Spec Build

theorem reduceOne_extra {c c' : Constraint} (h : reduceOne c = .ok (some c', false)) :
    c'.extra = c.extra ∧ (∀ n, c'.right = .limit n → c' = c) := by
  obtain ⟨k, l, r, e⟩ := c
  unfold reduceOne at h
  cases k <;> simp only at h <;> first
    | (cases h; exact ⟨rfl, fun _ _ => rfl⟩)
    | (cases r <;> first
        | (cases h; exact ⟨rfl, fun n hn => by simp at hn⟩)
        | cases h)
    | (rw [R.bind_eq_ok] at h
       obtain ⟨_, _, h⟩ := h
       cases h)

/-- The number in a constraint compiled from an expression is a number of the expression. -/
theorem buildExpr_limit {d : InputData} {e : CExpr} {L : List Constraint} (h : buildExpr d e = .ok L) {c : Constraint} (hc : c ∈ L)
    {n : Nat} (hn : c.right = .limit n) : ∃ a, (a = e.left ∨ a = e.right) ∧ a.kind = .integer ∧ parseUsize a.name = some n := by
  have add : ∀ (e : CExpr) (k : Kind) (x : Extra), addConstraint d e k x = .ok L →
      e.right.kind = .integer ∧ parseUsize e.right.name = some n := by
    intro e k x h
    unfold addConstraint at h
    rw [R.bind_eq_ok] at h
    obtain ⟨r, h1, h⟩ := h
    cases r with
    | none => cases h; cases hc
    | some t =>
      simp only [R.bind_eq_ok] at h
      obtain ⟨r, h2, h⟩ := h
      cases r with
      | none => cases h; cases hc
      | some l =>
        cases h
        have := List.mem_singleton.1 hc
        subst this
        simp only at hn
        subst hn
        unfold resolveRight at h1
        split at h1
        · rw [R.bind_eq_ok] at h1; obtain ⟨r, _, h1⟩ := h1; cases r <;> cases h1
        · rw [R.bind_eq_ok] at h1; obtain ⟨r, _, h1⟩ := h1; cases r <;> cases h1
        · rw [R.bind_eq_ok] at h1; obtain ⟨r, _, h1⟩ := h1; cases r <;> cases h1
        · rename_i hk
          refine ⟨hk, ?_⟩
          rw [R.bind_eq_ok] at h1
          obtain ⟨r, h3, h1⟩ := h1
          unfold resolveAccessor at h3
          rw [hk] at h3
          simp only at h3
          cases hp : parseUsize e.right.name with
          | none => rw [hp] at h3; cases h3
          | some v =>
            rw [hp] at h3
            cases h3
            simp only [R.bind_eq_ok] at h1
            obtain ⟨l', h4, h1⟩ := h1
            cases h1
            rw [(toU32_eq_ok.1 h4).2]
        · cases h1
  unfold buildExpr at h
  split at h
  · exact ⟨_, .inr rfl, add _ _ _ h⟩
  · split at h
    · exact ⟨_, .inl rfl, add e.swap _ _ h⟩
    · cases h

theorem ready_of_built {raw : Raw} {d : InputData} {m : Nat} {written : List Constraint} (hb : Built raw d m written)
    (hnum : NumbersFit i32Max raw) (hnc : d.nc ≤ 1073741824) (hns : d.ns ≤ 1073741824) : SearchReady d := by
  obtain ⟨red, hr, h1, h2⟩ := hb.reduced
  have back : ∀ k ∈ d.schedCons, (∀ n, k.right = .limit n → k ∈ written) ∧
      (∀ o, k.extra = .offset o → ∃ k' ∈ written, k'.extra = .offset o) := by
    intro k hk
    obtain ⟨hd, _⟩ := (h1 k).1 hk
    cases hd with
    | given hm =>
      obtain ⟨c, hc, he, _⟩ := hr.source k hm
      obtain ⟨e1, e2⟩ := reduceOne_extra he
      exact ⟨fun n hn => by rw [e2 n hn]; exact hc, fun o ho => ⟨c, hc, by rw [← e1]; exact ho⟩⟩
    | sepDep => exact ⟨fun n hn => by simp [notSame] at hn, fun o ho => by simp [notSame] at ho⟩
    | sepMand => exact ⟨fun n hn => by simp [notSame] at hn, fun o ho => by simp [notSame] at ho⟩
    | copy => exact ⟨fun n hn => by simp at hn, fun o ho => by simp at ho⟩
  refine ⟨?_, ?_, hns, hb.conMap⟩
  · intro k hk n hn
    have hw := (hb.isWritten k).1 ((back k hk).1 n hn)
    cases hw with
    | expr he hL hc =>
      obtain ⟨a, ha, hk', hp⟩ := buildExpr_limit hL hc hn
      exact hnum _ he a ha hk' n hp
    | sameChoosers => simp at hn
    | distance => simp at hn
  · intro k hk o ho
    obtain ⟨k', hk', ho'⟩ := (back k hk).2 o ho
    obtain ⟨i, j1, j2, x, y, q1, q2, q3, q4⟩ := hb.offsets k' hk' o ho'
    rcases q4 with rfl | rfl
    · simp [sameCon] at ho'
    · simp only [offCon, Extra.offset.injEq] at ho'
      subst ho'
      have := isPart_lt q2
      rw [← hb.nc] at this
      have hj : j2 ≤ y := by
        obtain ⟨p, _, _, e⟩ := q2
        omega
      omega

/-- The analysis always succeeds, and is in range. -/
theorem analysis_total {i : InputData} (hw : WF i) (hz : Sizes i) (hs : i.prefLevels.Pairwise (· < ·)) (an simp' : Bool) :
    ∃ A, Analysis.new i an simp' = .ok A ∧ A.preferenceBound ≤ i.maxPref ∧ ∀ l, ∀ set ∈ A.forPreference l, ∀ e ∈ set.data, e < i.nc := by
  cases an with
  | false => exact ⟨⟨[], [], 0⟩, rfl, Nat.zero_le _, by intro l set h; simp [Analysis.forPreference] at h⟩
  | true =>
    obtain ⟨A, h1, _, _, h4, _, h6⟩ := Critical.forPreference_spec hw hz hs simp'
    exact ⟨A, h1, by rw [h4]; exact Critical.bound_le_max _ _, fun l set h => Critical.critical_range (h6 l set h)⟩

theorem answers_source {σ : Type} {g : RngOps σ} (hg : g.Lawful) {i : InputData} (hw : WF i) (hz : Sizes i) (hr : SearchReady i)
    (hns : 0 < i.ns) (hs : i.prefLevels.Pairwise (· ≤ ·)) (hmem : i.maxPref ∈ i.prefLevels) {csTimeout : Int} (hcs0 : 0 ≤ csTimeout)
    {bound : Nat} (hb : bound ≤ i.maxPref) {sets : Nat → List CriticalSet} (hcs : ∀ l, ∀ set ∈ sets l, ∀ e ∈ set.data, e < i.nc)
    (late : Nat → Nat → Nat → Bool) : Answers i (source g i csTimeout bound sets late) (fun _ => True) where
  total := by
    intro r _
    obtain ⟨v, hv, _⟩ := nextInRange_spec hg r.1 0 Search.prefRelaxation (by decide) (by decide) (by decide) (by decide)
    obtain ⟨x, r', h, _⟩ := Search.nextScheduling_total hg hw hz hr hns hs hmem hb hcs (late r.2) r.1
    unfold source
    rw [hv, R.bind_ok, if_neg (by omega), h, R.bind_ok]
    exact ⟨_, _, rfl, trivial⟩
  valid := by
    intro r s r' _ h
    obtain ⟨h1, h2⟩ := Search.nextScheduling_feasible (source_next h)
    refine ⟨⟨h1, schedFeasible_range h1 h2⟩, ?_⟩
    exact (schedFeasible_spec h1 (by have := hz.choices; unfold i32Max at this; unfold u32Max; omega)
      (by have := hz.choosers; unfold i32Max at this; unfold u32Max; omega) hw.sched h2).1 rfl

end Wassign
