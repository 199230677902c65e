import Verif.Model.Rng
/-
What makes the rejection loop of the swap neighbours end.
-/
namespace Wassign

/-- The engine after `k` samples. -/
def RngOps.after {σ : Type} (g : RngOps σ) : Nat → σ → σ
  | 0, s => s
  | k + 1, s => g.after k (g.sample s).2

/-- Among `draws` consecutive samples there is always one that hits an index below `n` outside a given list of
fewer than `n` indices. (A random engine does so with overwhelming probability; nothing in the code enforces it.) -/
def RngOps.Varied {σ : Type} (g : RngOps σ) (draws n : Nat) : Prop :=
  ∀ (used : List Nat), used.length < n → ∀ s, ∃ k, k < draws ∧ ((g.sample (g.after k s)).1 % (n : Int)).toNat ∉ used

end Wassign
