import Verif.Model.Threaded
/-
status.rs: what the user sees while the program works: log lines, progress bars, the summary.

Not modelled: the texts of messages and their colours, the drawing of bars (indicatif), the log filter (env_logger).
-/
namespace Wassign
namespace Status
open Threaded

/-! ### Log lines -/

/-- The line feed `b'\n'`. -/
def lf : UInt8 := 10

/-- status.rs:108-111 `IndicatifLogWriter`, with the lines that have been printed. -/
structure Writer where
  buffer : List UInt8
  printed : List (List UInt8)
deriving DecidableEq, Repr

/-- status.rs:281-294 `print_log_line`: `can` tells whether a line can be written (an active bar always can). The bytes are
kept as they are; the code replaces invalid UTF-8 (`from_utf8_lossy`). -/
def printLine (can : List (List UInt8) → List UInt8 → Bool) (w : Writer) (line : List UInt8) : Bool × Writer :=
  if can w.printed line then (true, { w with printed := w.printed ++ [line] }) else (false, w)

/-- status.rs:156-160: print and remove the complete lines of the buffer; the Boolean is false if `?` left the loop. The first
argument bounds the number of lines (one more than the number of bytes is enough). -/
def drain (can : List (List UInt8) → List UInt8 → Bool) : Nat → Writer → Bool × Writer
  | 0, w => (true, w)
  | fuel + 1, w =>
    match w.buffer.findIdx? (fun b => b == lf) with
    | none => (true, w)
    | some pos =>
      let line := w.buffer.take (pos + 1)
      let r := printLine can { w with buffer := w.buffer.drop (pos + 1) } (line.take (line.length - 1))
      if r.1 then drain can fuel r.2 else r

/-- status.rs:154-163 `write`. -/
def write (can : List (List UInt8) → List UInt8 → Bool) (w : Writer) (chunk : List UInt8) : Bool × Writer :=
  drain can ((w.buffer ++ chunk).length + 1) { w with buffer := w.buffer ++ chunk }

/-- status.rs:165-173 `flush`. -/
def flush (can : List (List UInt8) → List UInt8 → Bool) (w : Writer) : Bool × Writer :=
  if w.buffer.isEmpty then (true, w) else printLine can { w with buffer := [] } w.buffer

/-- status.rs:227-239, 328-336: one message; env_logger hands over the formatted record, which ends with a line feed, and
flushes if this has succeeded. Errors are dropped. -/
def emit (can : List (List UInt8) → List UInt8 → Bool) (w : Writer) (text : List UInt8) : Writer :=
  let r := write can w (text ++ [lf])
  if r.1 then (flush can r.2).2 else r.2

/-! ### Progress bars -/

/-- status.rs:101-106 `StatusState`; bars are numbers. `next` is the number of the next bar. -/
structure Bars where
  output : Bool
  multi : Bool
  active : Option Nat
  next : Nat
deriving DecidableEq, Repr

/-- status.rs:117-121 `StatusProgress`. -/
structure Handle where
  previous : Option Nat
  restores : Bool
deriving DecidableEq, Repr

/-- status.rs:198-225 `create_progress_bar`; `info` tells whether messages of level info are enabled. -/
def createBar (info : Bool) (s : Bars) : Handle × Bars :=
  if !s.output || !info then (⟨none, false⟩, s)
  else if s.multi then (⟨s.active, true⟩, { s with
    active := some s.next
    next := s.next + 1 })
  else (⟨none, false⟩, s)

/-- status.rs:141-151 `drop`. -/
def dropBar (h : Handle) (s : Bars) : Bars :=
  if h.restores then { s with active := h.previous } else s

/-! ### Tracking the solver -/

/-- threaded_solver.rs:229-245: the milliseconds remaining; `elapsed` are the nanoseconds since the start of each worker, and 0
if the clock was set back (`unwrap_or_default`). -/
def remainingMs (timeout : Int) (elapsed : List Nat) : Nat :=
  elapsed.foldl (fun r e => max r (min ((timeout.toNat * 1000000000 - e) / 1000000) 9223372036854775807)) 0

/-- status.rs:66: the time limit in milliseconds (a negative one is none). -/
def timeoutMs (timeout : Int) : Nat := (max timeout 0).toNat * 1000

/-- status.rs:67, 183-188: the length of the bar. -/
def barLength (timeout : Int) : Nat := max (max (timeoutMs timeout) 1) 1

/-- status.rs:72-74, 87-89: the position of the bar. -/
def position (timeout : Int) (remaining : Nat) : Nat :=
  min (timeoutMs timeout - remaining) (max (timeoutMs timeout) 1)

/-- status.rs:265-279 `format_solver_summary`, without the search depth: what it shows, if there is a score. -/
structure Shown where
  score : Score
  iterations : Nat
  assignments : Nat
  lp : Nat

/-- status.rs:90-94: the summary. -/
inductive Summary where
  | noSolution
  | solved (shown : Option Shown)

/-- status.rs:265-279 `format_solver_summary`. -/
def shownOf (r : Report) : Option Shown :=
  if r.bestScore.isFinite then some ⟨r.bestScore, r.iterations, r.assignments, r.lp⟩ else none

/-- status.rs:90-94. -/
def summaryOf (sol : Solution) (r : Report) : Summary :=
  match sol with
  | .invalid => .noSolution
  | _ => .solved (shownOf r)

variable {σ τ ρ : Type}

/-- status.rs:65-99 `track_solver`: the polls before the session was over, the last poll, and the session itself. -/
def track (cfg : Setup σ τ ρ) (g : Session σ τ ρ) (past : List (List Event)) (batch : List Event) : R (Solution × Summary) :=
  let tp := past.foldl (fun tp b => (poll tp b).2) (freshProgress (workerCount cfg))
  let final := (poll tp batch).1
  match Threaded.wait g with
  | .ok sol => .ok (sol, summaryOf sol final)
  | .error f => .error f

end Status
end Wassign
