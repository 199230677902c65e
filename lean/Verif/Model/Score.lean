import Verif.Model.Scheduling
/-
score.rs and scoring.rs:1-101, 221-262.
f32 values are bit patterns; comparison is Rust's `f32::total_cmp`; the minor score is a function of the preference
counts here, and Model/Float.lean says which one.
-/
namespace Wassign

/-- An f32 as its bit pattern (`f32::to_bits`). -/
abbrev F32 := BitVec 32

namespace F32

/-- `f32::is_finite`: exponent field not all ones. -/
def isFinite (b : F32) : Bool := (b &&& 0x7F800000#32) != 0x7F800000#32

/-- `f32::is_nan`: exponent all ones, mantissa non-zero. -/
def isNaN (b : F32) : Bool := decide (0x7F800000#32 < (b &&& 0x7FFFFFFF#32))

/-- `f32::INFINITY` and `f32::NAN`. -/
def infinity : F32 := 0x7F800000#32
def nan : F32 := 0x7FC00000#32

/-- The key compared by `f32::total_cmp` (core library):
`left ^= (((left >> 31) as u32) >> 1) as i32` and then a signed comparison. -/
def totalKey (b : F32) : Int := (b ^^^ ((b.sshiftRight 31) >>> 1)).toInt

/-- `f32::total_cmp`. -/
def totalCmp (a b : F32) : Ordering := compare (totalKey a) (totalKey b)

/-- `x as f32` for a `u32` (round to nearest, ties to even), as a bit pattern.
With `e = ⌊log2 n⌋` and mantissa `m`, the bit pattern is `(e + 126) * 2^23 + m` where
`2^23 ≤ m ≤ 2^24` (a carry to `2^24` moves into the exponent field by addition). -/
def ofU32 (n : Nat) : F32 :=
  if n = 0 then 0#32
  else
    let e := Nat.log2 n
    if e ≤ 23 then BitVec.ofNat 32 ((e + 126) * 2^23 + n * 2^(23 - e))
    else
      let d := 2^(e - 23)
      let q := n / d
      let r := n % d
      let m := if d < 2 * r ∨ (2 * r = d ∧ q % 2 = 1) then q + 1 else q
      BitVec.ofNat 32 ((e + 126) * 2^23 + m)

end F32

/-- score.rs:1-5 `Score`. -/
structure Score where
  major : F32
  minor : F32
deriving DecidableEq, Repr, Inhabited

namespace Score

/-- score.rs:8-10 `is_finite`. -/
def isFinite (s : Score) : Bool := s.minor.isFinite && (s.major.isFinite || s.major.isNaN)

/-- score.rs:36-55 `Ord::cmp`. -/
def cmp (a b : Score) : Ordering :=
  match a.isFinite, b.isFinite with
  | false, false => .eq
  | false, true => .gt
  | true, false => .lt
  | true, true =>
    let mc := F32.totalCmp a.major b.major
    if a.major.isNaN || b.major.isNaN || mc == .eq then F32.totalCmp a.minor b.minor else mc

/-- The operator `a < b` (score.rs:30-34, `partial_cmp` is `Some(cmp)`). -/
def lt (a b : Score) : Bool := cmp a b == .lt

/-- The score of anything invalid (scoring.rs:80-83, 96-99). -/
def infinite : Score := ⟨F32.infinity, F32.infinity⟩

end Score

/-- scoring.rs:4-9 `Scoring`. `minorOf` stands for lines 255-260: the f32 sum
`Σ count·pref^exponent/scaling` as a function of the preference counts (`Scoring.minorSum` in Model/Float.lean). -/
structure Scoring where
  greedy : Bool
  minorOf : List Nat → F32

namespace Scoring

/-- scoring.rs:47-61: the attendance loop; `none` = the function returned false. State: is_in_slot
row of the current chooser and the participant counts. -/
def attend (i : InputData) (slots : List (Option Nat)) (a : Assignment) :
    R (Option (List Nat)) :=
  (List.range i.np).foldlM (fun acc p =>
    match acc with
    | none => pure none
    | some counts => do
      let st ← (List.range i.ns).foldlM (fun (acc : Option (List Bool × List Nat)) k =>
        match acc with
        | none => pure none
        | some (row, counts) => do
          let c ← choiceOf a p k
          let so ← idx slots c "slots[choice]"
          match so with
          | none => panic' "choice must be scheduled"
          | some t => do
            let b ← idx row t "slots_in[scheduled_slot]"
            if b then pure none
            else do
              let n ← idx counts c "part_counts[choice]"
              let n' ← addU32 n 1 "part_counts += 1"
              pure (some (row.set t true, counts.set c n')))
        (some (List.replicate i.ns false, counts))
      pure (st.map (·.2)))
    (some (List.replicate i.nc 0))

/-- scoring.rs:27-74 `is_feasible` for a complete solution (`expect`s on lines 28-33 panic for the
other solutions, modelled in `isFeasible`). -/
def isFeasibleC (i : InputData) (s : Scheduling) (a : Assignment) : R Bool := do
  let slots ← (List.range i.nc).mapM (fun c => slotOf s c)
  let okS ← satSched i s
  if !okS then pure false
  else
    let okA ← satAsg i s a
    if !okA then pure false
    else
      match ← attend i slots a with
      | none => pure false
      | some counts =>
        counts.zipIdx.allM (fun e => do
          let so ← slotOf s e.2
          match so with
          | none => pure true
          | some _ => do
            let ch ← idx i.choices e.2 "choices[choice_index]"
            pure (!(decide (e.1 < ch.min) || decide (ch.max < e.1))))

/-- scoring.rs:27-74 `is_feasible`. -/
def isFeasible (i : InputData) : Solution → R Bool
  | .complete s a => isFeasibleC i s a
  | .scheduling _ => panic' "feasibility requires an assignment"
  | .invalid => panic' "feasibility requires a scheduling"

/-- The preference of one attended cell (scoring.rs:227-228, 248-249). -/
def cellPref (i : InputData) (a : Assignment) (p k : Nat) : R Nat := do
  let c ← choiceOf a p k
  let ch ← idx i.choosers p "choosers[chooser]"
  idx ch.prefs c "preferences[choice]"

/-- scoring.rs:222-232 `evaluate_major`. -/
def evaluateMajor (i : InputData) (a : Assignment) : R Nat :=
  (List.range i.np).foldlM (fun m p =>
    (List.range i.ns).foldlM (fun m k => do
      let x ← cellPref i a p k
      pure (max m x)) m) 0

/-- scoring.rs:240-253: the preference counts. -/
def prefCounts (i : InputData) (a : Assignment) : R (List Nat) := do
  let n ← addU32 i.maxPref 1 "max_preference + 1"
  (List.range i.np).foldlM (fun cnt p =>
    (List.range i.ns).foldlM (fun cnt k => do
      let x ← cellPref i a p k
      let c ← idx cnt x "pref_count[pref]"
      let c' ← addU32 c 1 "pref_count += 1"
      pure (cnt.set x c')) cnt) (List.replicate n 0)

/-- scoring.rs:234-261 `evaluate_minor`. -/
def evaluateMinor (sc : Scoring) (i : InputData) (s : Scheduling) (a : Assignment) : R F32 := do
  let ok ← isFeasibleC i s a
  if !ok then pure F32.infinity
  else
    let cnt ← prefCounts i a
    pure (sc.minorOf cnt)

/-- scoring.rs:86-90: the major part of the score. -/
def majorPart (sc : Scoring) (i : InputData) (a : Assignment) : R F32 :=
  if sc.greedy then pure F32.nan
  else do
    let m ← evaluateMajor i a
    pure (F32.ofU32 m)

/-- scoring.rs:76-101 `evaluate` (line 223: the scores themselves are only asked of a solution with an assignment). -/
def evaluate (sc : Scoring) (i : InputData) (sol : Solution) : R Score :=
  if sol.isInvalid then pure Score.infinite
  else match sol with
    | .complete s a => do
      let major ← majorPart sc i a
      let minor ← evaluateMinor sc i s a
      if (major.isFinite || major.isNaN) && minor.isFinite then pure ⟨major, minor⟩
      else pure Score.infinite
    | _ => panic' "solution requires assignment"

end Scoring
end Wassign
