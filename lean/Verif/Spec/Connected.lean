/-
Connectedness: the smallest equivalence relation containing the given links.
-/
namespace Wassign.Spec

/-- `a` and `b` are connected by links of `E`. -/
inductive Connected (E : Nat → Nat → Prop) : Nat → Nat → Prop
  | refl (a : Nat) : Connected E a a
  | link {a b : Nat} : E a b → Connected E a b
  | symm {a b : Nat} : Connected E a b → Connected E b a
  | trans {a b c : Nat} : Connected E a b → Connected E b c → Connected E a c

theorem Connected.mono {E F : Nat → Nat → Prop} (h : ∀ a b, E a b → F a b) {a b : Nat}
    (hc : Connected E a b) : Connected F a b := by
  induction hc with
  | refl a => exact .refl a
  | link h' => exact .link (h _ _ h')
  | symm _ ih => exact .symm ih
  | trans _ _ ih1 ih2 => exact .trans ih1 ih2

/-- Connectedness implies every equivalence relation that contains the links. -/
theorem Connected.least {E : Nat → Nat → Prop} {P : Nat → Nat → Prop} (h : ∀ a b, E a b → P a b)
    (hr : ∀ a, P a a) (hs : ∀ a b, P a b → P b a) (ht : ∀ a b c, P a b → P b c → P a c) {a b : Nat}
    (hc : Connected E a b) : P a b := by
  induction hc with
  | refl a => exact hr a
  | link h' => exact h _ _ h'
  | symm _ ih => exact hs _ _ ih
  | trans _ _ ih1 ih2 => exact ht _ _ _ ih1 ih2

/-- `groups` is a partition of the numbers below `n`. -/
structure Partition (n : Nat) (groups : List (List Nat)) : Prop where
  nonempty : ∀ g ∈ groups, g ≠ []
  covers : groups.flatten.Perm (List.range n)

end Wassign.Spec
