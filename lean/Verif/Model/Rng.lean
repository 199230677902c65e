import Verif.Basic
/-
rng.rs and util.rs:15-36 (riffle_shuffle). The random engine (`StdRng`) is a parameter.
-/
namespace Wassign

/-- The random engine: `sample` is `engine.random::<i32>()` (rng.rs:54-56) and `shuffle n` gives the
permutation that `SliceRandom::shuffle` (rng.rs:65-67) applies to a slice of length `n`. -/
structure RngOps (σ : Type) where
  sample : σ → Int × σ
  shuffle : σ → Nat → List Nat × σ

/-- What is assumed of the engine: samples are `i32` values, shuffles are permutations. -/
structure RngOps.Lawful {σ : Type} (g : RngOps σ) : Prop where
  sample_range : ∀ s, -2147483648 ≤ (g.sample s).1 ∧ (g.sample s).1 ≤ 2147483647
  shuffle_perm : ∀ s n, (g.shuffle s n).1.Perm (List.range n)

variable {σ : Type}

/-- rng.rs:58-62 `next_in_range`: `min + sample.rem_euclid(max - min)` on `i32`. The remainder panics
for a zero divisor and for `i32::MIN.rem_euclid(-1)`. -/
def nextInRange (g : RngOps σ) (s : σ) (lo hi : Int) : R (Int × σ) := do
  let x := g.sample s
  let d ← chkI32 (hi - lo) "max - min"
  if d = 0 then panic' "rem_euclid by zero"
  else if d = -1 ∧ x.1 = -2147483648 then panic' "rem_euclid overflow"
  else do
    let r ← chkI32 (lo + x.1 % d) "min + rem"
    pure (r, x.2)

/-- rng.rs:64-67 `shuffle`: the new slice is the old one read through the permutation. -/
def shuffleList {α : Type} (g : RngOps σ) (s : σ) (l : List α) : List α × σ :=
  let p := g.shuffle s l.length
  (p.1.filterMap (fun k => l[k]?), p.2)

/-- util.rs:26-35: distribute the markers; `expect` failures are panics. -/
def riffleGo {α : Type} : List Nat → List α → List α → R (List α)
  | [], _, _ => pure []
  | m :: ms, l, r =>
    if m = 0 then
      match l with
      | [] => panic' "left pattern length must match"
      | x :: l' => do
        let rest ← riffleGo ms l' r
        pure (x :: rest)
    else
      match r with
      | [] => panic' "right pattern length must match"
      | x :: r' => do
        let rest ← riffleGo ms l r'
        pure (x :: rest)

/-- util.rs:15-36 `riffle_shuffle`. -/
def riffleShuffle {α : Type} (g : RngOps σ) (s : σ) (left right : List α) : R (List α × σ) := do
  let pattern := List.replicate left.length 0 ++ List.replicate right.length 1
  let p := shuffleList g s pattern
  let out ← riffleGo p.1 left right
  pure (out, p.2)

/-- rng.rs:70-75 `mix_seed`, on 64-bit words with wrapping arithmetic. -/
def mixSeed (seed stream : BitVec 64) : BitVec 64 :=
  let v0 := seed ^^^ (stream + 0x9E3779B97F4A7C15#64)
  let v1 := (v0 ^^^ (v0 >>> 30)) * 0xBF58476D1CE4E5B9#64
  let v2 := (v1 ^^^ (v1 >>> 27)) * 0x94D049BB133111EB#64
  v2 ^^^ (v2 >>> 31)

end Wassign
