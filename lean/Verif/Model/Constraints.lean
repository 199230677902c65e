import Verif.Model.Types
import Verif.Model.UnionFind
import Verif.Sort
/-
constraints.rs: normalising and expanding the constraint list.
-/
namespace Wassign

/-- `Vec::dedup`: drop an element equal to its successor. -/
def dedup {α : Type} [DecidableEq α] : List α → List α
  | [] => []
  | [x] => [x]
  | x :: y :: t => if x = y then dedup (y :: t) else x :: dedup (y :: t)

/-- constraint.rs:49-56: derived order of `ConstraintTarget` (variant, then value). -/
def Target.key : Target → Int × Int
  | .none => (0, 0) | .slot n => (1, n) | .choice n => (2, n) | .chooser n => (3, n) | .limit n => (4, n)

/-- constraint.rs:58-63: derived order of `ConstraintExtra`. -/
def Extra.key : Extra → Int × Int
  | .none => (0, 0) | .offset o => (1, o) | .limitOp op => (2, op.toInt)

/-- constraints.rs:143-150: the sort key, flattened. -/
def Constraint.key (c : Constraint) : List Int :=
  [(c.kind.toNat : Int), (c.left : Int), c.right.key.1, c.right.key.2, c.extra.key.1, c.extra.key.2]

/-- Lexicographic comparison of keys. -/
def lexLe : List Int → List Int → Bool
  | [], _ => true
  | _ :: _, [] => false
  | a :: as, b :: bs => decide (a < b) || (decide (a = b) && lexLe as bs)

/-- constraints.rs:3-14: one constraint of `get_dependent_choices`. -/
def depStep (u : UF) (c : Constraint) : R UF :=
  if c.kind = .choicesHaveSameChoosers then do
    let y ← c.otherChoice
    u.join c.left y
  else pure u

/-- constraints.rs:3-14 `get_dependent_choices`. -/
def getDependentChoices (cons : List Constraint) (n : Nat) : R (List (List Nat)) := do
  let u ← UF.new n
  let u ← cons.foldlM depStep u
  u.groups

/-- constraints.rs:23-77: one constraint of the normalisation; `none` if it is dropped, together with
whether it makes the problem infeasible. -/
def reduceOne (c : Constraint) : R (Option Constraint × Bool) :=
  match c.kind with
  | .slotContainsChoice =>
    match c.right with
    | .slot n | .choice n | .chooser n => pure (some ⟨.choiceIsInSlot, n, .slot c.left, c.extra⟩, false)
    | _ => panic' "unsupported switched constraint target"
  | .slotNotContainsChoice =>
    match c.right with
    | .slot n | .choice n | .chooser n => pure (some ⟨.choiceIsNotInSlot, n, .slot c.left, c.extra⟩, false)
    | _ => panic' "unsupported switched constraint target"
  | .choiceContainsChooser =>
    match c.right with
    | .slot n | .choice n | .chooser n => pure (some ⟨.chooserIsInChoice, n, .choice c.left, c.extra⟩, false)
    | _ => panic' "unsupported switched constraint target"
  | .choiceNotContainsChooser =>
    match c.right with
    | .slot n | .choice n | .chooser n => pure (some ⟨.chooserIsNotInChoice, n, .choice c.left, c.extra⟩, false)
    | _ => panic' "unsupported switched constraint target"
  | .slotsHaveSameChoices => do
    let s ← c.slot
    pure (none, c.left != s)
  | _ => pure (some c, false)

/-- constraints.rs:23-77: the accumulator is (reduced, is_infeasible). -/
def reduceStep (acc : List Constraint × Bool) (c : Constraint) : R (List Constraint × Bool) := do
  let r ← reduceOne c
  pure (acc.1 ++ r.1.toList, acc.2 || r.2)

/-- constraints.rs:157-164: one constraint of `get_mandatory_critical_sets`. -/
def mandStep (m : List (Nat × List Nat)) (c : Constraint) : R (List (Nat × List Nat)) :=
  if c.kind = .chooserIsInChoice then do
    let y ← c.otherChoice
    pure (mapPush m c.left y)
  else pure m

/-- constraints.rs:155-166 `get_mandatory_critical_sets`. -/
def getMandatory (cons : List Constraint) : R (List (List Nat)) := do
  let m ← cons.foldlM mandStep []
  pure (m.map (·.2))

/-- constraints.rs:96-105: the pairs `(group[i], group[j])` with `i < j`. -/
def pairsOf : List Nat → List (Nat × Nat)
  | [] => []
  | x :: xs => xs.map (fun y => (x, y)) ++ pairsOf xs

/-- constraints.rs:98-103. -/
def notSame (p : Nat × Nat) : Constraint := ⟨.choicesAreNotInSameSlot, p.1, .choice p.2, .none⟩

/-- constraints.rs:117-139: the copies of one constraint for the choices dependent on its choice. -/
def copiesOf (deps : List (List Nat)) (c : Constraint) : R (List Constraint) :=
  if c.kind = .chooserIsInChoice ∨ c.kind = .chooserIsNotInChoice then do
    let y ← c.otherChoice
    match deps.find? (fun g => g.contains y) with
    | none => pure []
    | some g => pure ((g.filter (fun x => x != y)).map (fun x => ⟨c.kind, c.left, .choice x, .none⟩))
  else pure []

/-- constraints.rs:85-153 `expand_dependent_constraints`. -/
def expandDependent (cons : List Constraint) (n : Nat) : R (List Constraint) := do
  let deps ← getDependentChoices cons n
  let mand ← getMandatory cons
  let sep := (deps ++ mand).flatMap (fun g => (pairsOf g).map notSame)
  let copies ← cons.mapM (copiesOf deps)
  pure (dedup (isort (fun a b => lexLe a.key b.key) (sep ++ copies.flatten ++ cons)))

/-- constraints.rs:16-83 `reduce_and_optimize`. -/
def reduceAndOptimize (cons : List Constraint) (n : Nat) : R (List Constraint × Bool) := do
  let acc ← cons.foldlM reduceStep ([], false)
  let res ← expandDependent acc.1 n
  pure (res, acc.2)

end Wassign
