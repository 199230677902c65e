import Verif.Model.AssignmentSolver
import Verif.Proofs.FoldLemmas
/-
The search over preference levels, for an arbitrary oracle.
-/
namespace Wassign
open Asg

section
variable {σ : Type} {attempt : Nat → σ → R (LimitResult × σ)} {levels : List Nat} {start : Nat}

theorem bin_fuel : ∀ (fuel : Nat) (b : Bin) (s : σ), b.high + 1 - b.low ≤ fuel → start ≤ b.low →
    binLoop attempt levels start fuel b s ≠ .ok none := by
  intro fuel
  induction fuel with
  | zero =>
    intro b s h _
    unfold binLoop
    rw [if_neg (by omega)]
    simp
  | succ fuel ih =>
    intro b s h hst
    unfold binLoop
    by_cases hle : b.low ≤ b.high
    · rw [if_pos hle]
      intro hc
      rw [R.bind_eq_ok] at hc
      obtain ⟨r, hr, hc⟩ := hc
      by_cases hb : r.1 = true
      · rw [if_pos hb] at hc; simp at hc
      · rw [if_neg hb] at hc
        refine ih _ _ ?_ ?_ hc
        all_goals
          unfold binStep at hr
          simp only [R.bind_eq_ok] at hr
          obtain ⟨limit, _, ⟨q, s'⟩, _, hr⟩ := hr
          have hm1 : b.low ≤ b.low + (b.high - b.low) / 2 := by omega
          have hm2 : b.low + (b.high - b.low) / 2 ≤ b.high := by omega
          cases q with
          | feasible a =>
            simp only at hr
            split at hr
            · cases hr; exact absurd rfl hb
            · cases hr; simp only; omega
          | infeasible => simp only at hr; cases hr; simp only; omega
          | incomplete => simp only at hr; cases hr; simp only; omega
    · rw [if_neg hle]; simp

/-- What is assumed of the oracle: a state invariant is kept, a feasible answer is good, an infeasible
answer is right, and an inconclusive answer only occurs if `Late`. -/
structure OracleOk (attempt : Nat → σ → R (LimitResult × σ)) (levels : List Nat) (Inv : σ → Prop)
    (Good : Nat → Assignment → Prop) (Feas : Nat → Prop) (Late : Prop) : Prop where
  step : ∀ k l s r s', levels[k]? = some l → Inv s → attempt l s = .ok (r, s') → Inv s' ∧
    match r with
    | .feasible a => Good k a
    | .infeasible => ¬ Feas k
    | .incomplete => Late

/-- The state of the search is in order. -/
structure BinOk (n start : Nat) (Good : Nat → Assignment → Prop) (Feas : Nat → Prop) (Late : Prop) (b : Bin) : Prop where
  low : start ≤ b.low
  high : b.high < n
  below : b.isOptimal = true → ∀ j, start ≤ j → j < b.low → ¬ Feas j
  none : b.best = none → b.high + 1 = n
  some : ∀ a, b.best = some a → b.high + 1 < n ∧ start ≤ b.high + 1 ∧ Good (b.high + 1) a
  late : b.isOptimal = false → Late

/-- The result of the search. -/
structure BinRes (n start : Nat) (Good : Nat → Assignment → Prop) (Feas : Nat → Prop) (Late : Prop) (b : Bin) : Prop where
  none : b.best = none → b.isOptimal = true → ∀ j, start ≤ j → j < n → ¬ Feas j
  some : ∀ a, b.best = some a → ∃ k, start ≤ k ∧ k < n ∧ Good k a ∧
    (b.isOptimal = true → ∀ j, start ≤ j → j < k → ¬ Feas j)
  late : b.isOptimal = false → Late

theorem bin_spec {Inv : σ → Prop} {Good : Nat → Assignment → Prop} {Feas : Nat → Prop} {Late : Prop}
    (ho : OracleOk attempt levels Inv Good Feas Late)
    (mono : ∀ j k, j ≤ k → k < levels.length → Feas j → Feas k) :
    ∀ (fuel : Nat) (b b' : Bin) (s s' : σ), BinOk levels.length start Good Feas Late b → Inv s →
      binLoop attempt levels start fuel b s = .ok (some (b', s')) →
      BinRes levels.length start Good Feas Late b' ∧ Inv s' := by
  have fin : ∀ b : Bin, BinOk levels.length start Good Feas Late b → ¬ b.low ≤ b.high →
      BinRes levels.length start Good Feas Late b := by
    intro b hb hlt
    refine ⟨?_, ?_, hb.late⟩
    · intro h1 h2 j hj hn
      have := hb.none h1
      exact hb.below h2 j hj (by omega)
    · intro a ha
      obtain ⟨h1, h2, h3⟩ := hb.some a ha
      refine ⟨b.high + 1, h2, h1, h3, ?_⟩
      intro ho j hj hlt'
      exact hb.below ho j hj (by omega)
  intro fuel
  induction fuel with
  | zero =>
    intro b b' s s' hb hi h
    unfold binLoop at h
    split at h
    · cases h
    · cases h
      exact ⟨fin b hb (by assumption), hi⟩
  | succ fuel ih =>
    intro b b' s s' hb hi h
    unfold binLoop at h
    by_cases hle : b.low ≤ b.high
    · rw [if_pos hle, R.bind_eq_ok] at h
      obtain ⟨r, hr, h⟩ := h
      unfold binStep at hr
      simp only [R.bind_eq_ok] at hr
      obtain ⟨limit, hl, ⟨q, s1⟩, hat, hr⟩ := hr
      have hm1 : b.low ≤ b.low + (b.high - b.low) / 2 := by omega
      have hm2 : b.low + (b.high - b.low) / 2 ≤ b.high := by omega
      generalize b.low + (b.high - b.low) / 2 = mid at *
      rw [idx_eq_ok] at hl
      obtain ⟨hi1, hq⟩ := ho.step mid limit s q s1 hl hi hat
      have hlow := hb.low
      have hhigh := hb.high
      cases q with
      | feasible a =>
        simp only at hr hq
        by_cases hms : mid = start
        · rw [if_pos hms] at hr
          cases hr
          simp only [if_true] at h
          cases h
          refine ⟨⟨?_, ?_, hb.late⟩, hi1⟩
          · intro h1; simp at h1
          · intro a' ha'
            cases ha'
            refine ⟨mid, by omega, by omega, hq, ?_⟩
            intro _ j h1 h2; omega
        · rw [if_neg hms] at hr
          cases hr
          simp only [Bool.false_eq_true, if_false] at h
          refine ih ⟨b.low, mid - 1, some a, b.isOptimal⟩ _ _ _ ⟨hb.low, ?_, hb.below, ?_, ?_, hb.late⟩ hi1 h
          · simp only; omega
          · intro h1; simp at h1
          · intro a' ha'
            cases ha'
            simp only
            rw [show mid - 1 + 1 = mid by omega]
            exact ⟨by omega, by omega, hq⟩
      | infeasible =>
        simp only at hr hq
        cases hr
        simp only [Bool.false_eq_true, if_false] at h
        refine ih ⟨mid + 1, b.high, b.best, b.isOptimal⟩ _ _ _ ⟨?_, hb.high, ?_, hb.none, hb.some, hb.late⟩ hi1 h
        · simp only; omega
        · intro h1 j h2 h3 hf
          simp only at h3
          exact hq (mono j mid (by omega) (by omega) hf)
      | incomplete =>
        simp only at hr hq
        cases hr
        simp only [Bool.false_eq_true, if_false] at h
        refine ih ⟨mid + 1, b.high, b.best, false⟩ _ _ _ ⟨?_, hb.high, ?_, hb.none, hb.some, fun _ => hq⟩ hi1 h
        · simp only; omega
        · intro h1; simp at h1
    · rw [if_neg hle] at h
      cases h
      exact ⟨fin b hb hle, hi⟩

/-- The search raises no panic of its own. -/
theorem bin_total {Inv : σ → Prop} (hat : ∀ (k l : Nat) (s : σ), levels[k]? = some l → Inv s → ∃ r s', attempt l s = .ok (r, s') ∧ Inv s') :
    ∀ (fuel : Nat) (b : Bin) (s : σ), b.high < levels.length → Inv s → ∃ r, binLoop attempt levels start fuel b s = .ok r := by
  intro fuel
  induction fuel with
  | zero =>
    intro b s _ _
    unfold binLoop
    split
    · exact ⟨_, rfl⟩
    · exact ⟨_, rfl⟩
  | succ fuel ih =>
    intro b s hh hi
    unfold binLoop
    by_cases hle : b.low ≤ b.high
    · rw [if_pos hle]
      have hm2 : b.low + (b.high - b.low) / 2 < levels.length := by omega
      obtain ⟨q, s1, h1, h2⟩ := hat _ _ s (show levels[b.low + (b.high - b.low) / 2]? = some levels[b.low + (b.high - b.low) / 2] by simp [hm2]) hi
      have hstep : ∃ r, binStep attempt levels start b s = .ok r ∧ r.2.1.high < levels.length ∧ Inv r.2.2 := by
        unfold binStep
        simp only
        rw [idx_ok hm2, R.bind_ok, h1, R.bind_ok]
        cases q with
        | feasible a =>
          simp only
          split
          · exact ⟨_, rfl, hh, h2⟩
          · exact ⟨_, rfl, by simp only; omega, h2⟩
        | infeasible => exact ⟨_, rfl, hh, h2⟩
        | incomplete => exact ⟨_, rfl, hh, h2⟩
      obtain ⟨r, hr, g1, g2⟩ := hstep
      rw [hr, R.bind_ok]
      split
      · exact ⟨_, rfl⟩
      · exact ih _ _ g1 g2
    · rw [if_neg hle]; exact ⟨_, rfl⟩

end
end Wassign
