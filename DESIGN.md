# wassign: formal model and proofs — design

Target: `/repo` (wassign 3.0.0). The task calls it a C++ project; the pinned
source is Rust, and it is the Rust source (`/repo/src/**/*.rs`) that is modelled.
Nothing was built or run; the model is a hand translation, function by function,
with the file and line range cited at every definition.

## 1. Trusted base

* Lean 4.33.0's kernel, and the three standard axioms `propext`,
  `Classical.choice`, `Quot.sound` (no others; `Verif/Audit.lean` prints the
  axioms of every property theorem). No `native_decide`, no `bv_decide`.
* The faithfulness of the hand translation (below: what is modelled, what not).
* The reading of the English properties into `Verif/Spec/*.lean`.

## 2. Conventions of the model

* Strings are `List Char` (`Str`), vectors are lists, maps are association lists.
* A Rust function that may fail returns `R α := Except Fault α`, where
  `Fault.error msg` is a returned `Error` and `Fault.panic site` a Rust panic
  (out-of-range index, `expect`/`unwrap`, checked-arithmetic overflow). Overflow
  panics in debug builds and wraps in release builds: the model treats it as a
  separate outcome (`panic`), never as the mathematical value.
* `&mut` functions return the new state.
* Loops are folds/structural recursion; the backtracking search is a step
  machine whose termination is a theorem.
* Parameters (external behaviour):
  * randomness — an abstract state with `shuffle : σ → n → perm × σ`,
    `sample : σ → Int × σ`; the laws assumed are "a permutation of 0..n" and
    "an i32". (`rand` crate; `SliceRandom::shuffle`, `random::<i32>()`.)
  * clock — every deadline test is an oracle boolean; properties "with no
    deadline" take the constantly-false oracle, all others hold for every oracle.
  * MIP backend (microlp through `good_lp`) — most theorems take a function from the flow
    network to edge values, with the contract of Spec/Backend.lean. Model/Lp.lean models the integer program built for a
    network and the reading of the solver's answer; C75 derives the contract from one on integer programs
    (Spec/Lp.lean: an optimal answer is within 1/2 of an optimal solution; without a time limit there is an answer if there is a
    solution).
  * CSV files — the crates `csv` and `csv-core` are modelled from their documentation (Model/Csv.lean), as their source is not in
    /repo; the file system is the content of the file or its absence.
  * the cost function `pref ↦ round(pref^exponent)` (f64 `powf`) — an arbitrary
    function `Nat → Int` (f64 arithmetic is not modelled).
  * f32 scores — as bit patterns with Rust's `total_cmp`/`partial_cmp`; f32
    multiplication, division and addition are modelled exactly (IEEE 754 binary32, round to nearest even,
    on natural numbers, Model/Float.lean); `f32::powf` and the conversion f64 → f32 are parameters.

## 3. What is modelled, and what is not

Modelled: `union_find.rs, constraint.rs, constraints.rs, scheduling.rs,
scoring.rs, score.rs, critical_set*.rs,
scheduling_solver.rs, mip_flow*.rs, assignment_solver.rs, hill_climbing_solver.rs,
shotgun_solver.rs, threaded_solver.rs + cancellation.rs (message/step level),
status.rs (log writer, nesting of bars, tracking, summary; no drawing), options.rs (attributes, defaults, `set_arguments`),
output_formatter.rs, rng.rs, util.rs (riffle, time parsing), input/*` —
`input_builder, constraint_builder, constraint_expression, fuzzy_match,
input_reader (state + validation), tagged, rhai_interface (operations on the reader state, slice/range)`.

`main.rs` (`try_run`) and `prepared_problem.rs` are modelled as the relation `Main.TryRun` between a script and the
results over all interleavings; `run`, `read_input_string` and `output_string` as the relation `Process.Runs` between files,
environment and options and the exit status with the list of writes.

Not modelled: the Rhai interpreter itself (a script is a tree of interface calls whose next call depends on the
answers so far), the mutex around the reader state (poisoning after a panic), the source of clap (its rules for reading arguments are modelled from its documentation, Model/Cli.lean), arguments that are not Unicode, the text of most messages, colours and progress
bar drawing, OS threads and channels below the message level, the MIP solver's
numerical tolerance beyond Spec/Lp.lean, `powf`, memory/performance, the memory order of the relaxed atomics (a worker sees the
flag of the cancellation some steps later: the schedule of the model may delay the worker), output of `print` in a script.

Evidence for the translation (tests, not proofs, and nothing depends on them): `Verif/Conformance/*.lean` replays about 135 tests of
the repository on the model, evaluated by the kernel. `tools/conformance.py` reads the Rust tests, interprets their Rhai scripts
and writes the examples; `Runner.lean` runs the whole model with a small exact solver for integer programs. All of them agree
with the expected results of the tests; one (part_indexed_slot...) is compared on the schedule only, because its assignment
depends on which of several optimal solutions the MIP solver picks, and five about missing files and the texts of clap's messages are not replayed.

## 4. Per property: model and proof plan

| id | model | proof plan |
|----|-------|-----------|
| C01 | `Scoring.isFeasible/evaluate` | unfold the loops to the quantified `Spec.ValidSolution` (both directions) |
| C02 | `Scheduling.isFeasible` | exactness by list lemmas |
| C03 | `SchedulingSolver.nextScheduling` | result guarded by the final `is_feasible`; follows for every run |
| C04 | same | FALSE of the code (finding 3): witness by evaluation; `_partial`: exhausting the stack implies none exists, and full completeness under the side conditions |
| C05 | step machine | decreasing lexicographic measure on the backtracking stack |
| C06 | `AssignmentSolver.solve` + MipFlow rows | feasible MIP point ⇒ valid assignment |
| C07 | same | correspondence valid assignments ↔ MIP points preserving cost |
| C08 | same | other direction of the correspondence |
| C09 | `binarySearch` | loop invariant |
| C10 | combination of C09 + C07 | FALSE in general (finding 1); `_partial` with the levels-complete hypothesis; for what the program prints: Props/Printed |
| C11 | incremental update of slot lists, counts, blocked edges | invariant over solve sequences |
| C12 | cache | invariant over solve sequences |
| C13 | `CriticalSet.forLimit`, `satisfies` | counting/pigeonhole argument |
| C14 | simplify | kept-set covers dropped-set |
| C15 | `preferenceBound` | FALSE (finding 2); `_partial` under the coverage condition |
| C16 | `HillClimbing.solve` | loop invariant on best score |
| C17 | neighbour key decode | bijection |
| C18 | swap neighbour | counts preserved |
| C19 | `pickNeighbors` | bound `max+1` is what holds (finding 11); `_partial`; the number of swaps tried is bounded for every random stream (`C19_swaps_tried`) |
| C20 | `Shotgun.iterate` | induction on iterations |
| C21–C23 | message-level machine of workers/cancellation/progress | invariants over arbitrary event interleavings |
| C24 | builder constraints + Spec | induction on parts |
| C25, C26, C29 | `InputBuilder` | list lemmas; C26 FALSE (finding 1) |
| C27, C28 | `InputBuilder`/`Constraints` | soundness direction proved; converse false (findings 4,5) |
| C30 | `ConstraintBuilder` | case analysis; FALSE for mirrored inequality (finding 6) |
| C31 | `fuzzyMatch` | list lemmas |
| C32 | reader create ops | FALSE (finding 7); `_partial` |
| C33–C35 | reader state machine | invariants over arbitrary operation histories |
| C36 | options | fold with clone-and-commit |
| C37 | `parseTime` | induction over components; silent drop (finding 8) |
| C38 | range/slice | list lemmas |
| C39 | `Score.cmp` on bit patterns | order lemmas; mixed mode false (finding 10) |
| C40, C41 | output formatter | rows; cell lookups |
| C42, C43, C44 | rng/util | multiset/sublist induction; bit-vector injectivity |
| C45, C46, C47 | union-find, constraint map, flow keys | representation invariants |
| C48 | reader+builder | well-formedness preserved by each phase |
| C49 | the whole program (`Model/Main.lean`), `Spec/Manageable.lean` | totality lemma for every phase (`f x = .ok _`), invariant of all worker states along every interleaving; four accepted scripts outside the conditions panic (findings 12, 19–21) |
| C50 | numeric arguments | FALSE for integers (finding 13) |
| C51 | `negate` | case analysis |
| C52 | the whole program (`Model/Main.lean`), `Spec/Answer.lean` | composition of C55, C24/C29/C30, C20/C21, C40/C41 |
| C53, C54 | reader state machine | case analysis over the interface calls; invariant over scripts |
| C55 | reader state machine, `Spec/Made.lean` (the input a list of calls describes) | invariant over scripts: every object is traced back to the call that first returned it; the description is shown to be unique |
| C56 | `Model/Threaded.lean`, `Model/Main.lean`, `Spec/Quiet.lean` (sessions that nobody disturbs) | invariant over undisturbed runs; unfolding of `prepare`/`setup` |
| C57 | as C56 | every worker's state is a function of the number of its iterations; two runs are compared worker by worker |
| C58 | the whole program | C56 (why workers stop), C04 (an exhausted search proves that there is no scheduling), a counting argument (a valid solution has a feasible scheduling), C52 |
| C59 | the whole program | one scheduling, one worker, one iteration, no neighbours; then C07, C08, C10 for the one assignment problem |
| C60 | f32 arithmetic (Model/Float.lean), the preference counts, `Scoring` | the counts are exact by a double loop invariant; rounding is monotone and at most doubles; the running sum stays below 2^60; non-finite summands never disappear |
| C61 | assignment solver, `Scoring` | the total cost as a sum over preference values (double counting); a concrete program run as counterexample |
| C62 | f32 arithmetic, `Scoring` | each rounding of a number that is not subnormal changes it by at most 2^-24; errors compose along the loop; Bernoulli |
| C63 | `Model/Process.lean`: files, standard input and output, exit status; failures of every write as an oracle | case analysis of the delivery; C52, C49 for what is delivered |
| C64 | as C63, over undisturbed sessions | C57 without `--any`; a session with one worker is a deterministic transition system |
| C65 | the clock questions of every layer (`late` sequences), assignment and LP counters, worker phases | counters bounded by the number of early answers by induction over all executions; a measure of at most two late steps per worker |
| C66 | the log writer with its buffer, any chunking, any pattern of write failures | unique decomposition into lines; induction over the pieces and messages |
| C67 | bar length and position, remaining time, nested bars, the final poll and the summary (status.rs) | arithmetic; induction over nested uses; C22 (with the LP counter, Props/Lps) for the final poll |
| C68 | properties, operators and `contains` of scripts (`Rhai.attr`, `Rhai.relate`), constraint compilation, `Spec/Stated.lean` | the name an object has when it is used is its name in the input (C55); names resolve to their object or not at all; FALSE after renaming (finding 25) |
| C69 | hill climbing and `pick_neighbors` (`Hill.solve`, `Hill.pickNeighbors`), `Spec/Climb.lean` | the last round finds nothing better (induction over rounds, ranks of scores); with room, the key loop keeps every feasible move (induction over the keys); at program level an invariant of every worker's record over all interleavings, with C08/C10/C07 for the neighbours |
| C70 | `Shotgun.iterate`, sessions | invariant over all interleavings: a completed iteration leaves a finite best score (C08, C60) |
| C71 | `choiceScramble`, `feasibleSlots`, `iter` | invariant: the untried candidates of every depth are sorted by fullness of the slots under the decisions above that depth; while the search stays below a depth they only get fewer |
| C72 | `Hill.round`, `loop`, `solve`, `Shotgun.iterate`, `Threaded.wait`, `report` | induction over the loops: the best solution is the fold of `keep` over the list of all answers; the chain of solver states and the assignment counter tie that list to the run; best of bests over iterations and workers |
| C73 | `strFloat`, `Score.display`, `scoreShown` (Model/Display.lean): numbers written with a fixed number of decimals, rounding to nearest with ties broken by an arbitrary function | digits read back by `decimal`; `ofU32` is integral and exact below 2^24; the error of C62's rounding analysis plus half a unit of the last decimal, in ℚ; monotonicity of rounding |
| C74 | `choice`, `applyTag`, `tagInt`/`tagStr`/`boundsInt`/`boundsStr`, `optionalIf`, `optionalTag` | induction over the arguments: the state after a prefix is the described choice of the prefix |
| C75 | `MipFlow.program`, `MipFlow.solve` (Model/Lp.lean): variables, rows and objective of the integer program, conversion of costs to `f64`, rounding of the answer; `lpBackend` makes a backend of any MIP solver | all flows the solver builds are well indexed (invariant of every operation on flows); `Solves` ⇔ `FlowOk` row by row; with C06/C07 valid assignments; a backend that differs from `lpBackend` only on flows that do not occur is sound, optimal, complete, and the runs of the program are the same by function extensionality; the assumptions are met by a verified branch-and-bound solver that can be run (Conformance/Exact.lean) |
| C76 | `saidBefore`, `saidAfter` (Model/Announce.lean): the messages of `try_run` | numbers by C55 and `build_spec`; the bound by C15; the verdict by C21/C73 |
| C77 | `utf8`, `ofUtf8`, `readCsv`, `readFile` (Model/Csv.lean): UTF-8 and the automaton of the csv crate; Spec/CsvFile.lean: which texts are CSV files of a table | induction over the file text with the state of the automaton; the program's own tables by rewriting them into that form |
| C78 | `solve`, `limitLoop`, `nextScheduling`, `pickNeighbors`, `Hill.solve`, the session; Spec/Attain.lean: first in an order, attainable | invariant of the backtracking search: every rule-abiding scheduling not yet ruled out comes after what is decided; closure of the climb under the neighbourhood; a counterexample by checking all orders and all steps |
| C79 | `solve`, `limitLoop`, `nextScheduling`; Spec/Levels.lean: next level, levels given up, covering all slots but one | invariant: the critical sets passed at every depth with a decision or an untried candidate; induction over the levels; last sentence false (finding 31) |
| C80 | Model/Depth.lean: the searches with a log of what they publish (proved to be the searches of Model/SchedulingSolver.lean), `deliverDepth`, `shownDepth`, `messageOf`; Spec/Depth.lean | the invariant of the search loop (decided choices = depth), steps of one; exactness of f32 sums below 2^24, rounding of the quotient; C22 for the message |
| C81 | Spec/Rename.lean: `SameButNames`; the whole solver of the model | every function of the solver gives the same result for the input with its names erased (`bare_…` in Proofs/Rename.lean, by induction for loops); hence same moves, same sessions; C52 for the tables |
| C82 | the reader and the input builder of the model, with the exact texts of the messages; Spec/Rejected.lean: what can be wrong (`Reason`), in terms of the calls of the script and of the best matches of a name | one outcome lemma per stage (name, part, number, side, constraint, input): the error and its reason, or success and no reason |
| C83 | Model/Cli.lean: the attributes of options.rs and clap's reading of arguments; `Process.RunsArgs`; Spec/Cli.lean: options, spellings and command lines as relations | the loop over the arguments succeeds, or stops for help, exactly if there is a reading of the line (induction over fuel); commuting settings for the order |
| C84 | `RunsArgs`, `Runs`, the reader; `carrying`: a script that calls `set_arguments` first | reading a command line in two parts; runs of scripts related step by step for related options (any relation that settings preserve) |
| C85 | the counters of the assignment solver, climb and worker of the model | the interval of the binary search over levels halves with every program; the neighbours picked are at most the limit, and a climb goes on only after an announcement; invariants of sessions |
| C86 | the input builder and the assignment solver of the model; Spec/Shift.lean: `raised` | the builder commutes with raising, stage by stage; C10 for the worst preference; a concrete input where raising changes what every exact backend returns |
| C87 | the assignment solver, hill climbing and the session of the model; Spec/Pareto.lean: `BetterForAll` | what is better for everybody costs less (the cost as a sum of its steps) and respects the same limits, so C07 forbids it; every solution recorded by a worker is an answer of its assignment solver (Proofs/Origin.lean), whatever the clock says |
| C88 | as C87; Spec/Pareto.lean: `MoreEven`; Spec/Exponent.lean: the cost in exact arithmetic (`exactCost`, over the reals, Mathlib) | the cost as a sum of its bends; exponents of at least 2: convexity and superadditivity of powers, against which cutting off the fraction is too little; a concrete input for exponent 1.1 |
| C89 | Spec/Looser.lean: `Looser` relates two inputs | the written constraints of the looser input are among those of the stricter one, and everything derived from them (`Derived`) is monotone in them; limits are largest and smallest values over fewer choices tied together |
| C90 | Spec/Reorder.lean: `Reordered`, `RowsReordered` (a permutation of the numbers) | name lookup, compilation of expressions, reduction and everything derived commute with renumbering the choosers (`relabel`); sums and counts over all choosers are invariant under permutations |
| C91 | `build`, `buildExpr`, `reduceAndOptimize` on two inputs with the same statements | Props/Restate: both builds end, data equal but for the order of constraints; a demand stated twice forbids the choice |
| C92 | `build`, `walkParts`, `reduceAndOptimize` on two inputs that differ in the order of the choices | Spec/Shuffle gives the new number of each part; Props/Shuffle: both builds end, data and timetables correspond under the renumbering; derived separations may swap their operands |
| C93 | `build`, `buildExpr`, `reduceAndOptimize` on two inputs that differ in the order of the slots | Props/Slots: as C90 with slots relabelled; offsets occur only between parts (`Built.offsets`); counterexample with a choice of two parts |
| C94 | `build`, `buildExpr`, `walkParts`, `findName`, `reduceAndOptimize` on an input and one with more optional choices | Props/Offer: the written constraints are the old ones and constraints between parts of new choices; links never connect old and new choices, so the derived constraints are the old ones and ones that hold if the new choices do not take place (`Fresh`) |
| C95 | `buildExpr`, `tableKind`, `findName`, `resolveAccessor`, `addConstraint`, `reduceAndOptimize` on an input and the same in other words | Props/Reword: names that stand for the same object resolve alike; turned round, a constraint is the same or has the same kind with its two objects exchanged (`both_orders` over the table of kinds); links and demands are symmetric in them, so limits, wishes and derived constraints agree up to such an exchange, which no timetable notices. Props/Alike: what is printed for one of two inputs, said of the other (C90 to C95). |

## 5. Findings: places where the property is false of the code

1. `build_preference_levels` (input_builder.rs:85-95) collects the raw reader
   preferences, not the mirrored ones the solver uses. (C26, C10)
2. `CriticalSetAnalysis::new` (critical_set_analysis.rs:36-46): a level without
   critical sets does not lower the bound. (C15)
3. `solve_scheduling` (scheduling_solver.rs:519-593): forced critical slot does not
   check the min sum, and a failing final check gives up instead of backtracking. (C04; end to end,
   the program then says "No solution found." although there is one: `VerdictEx.C58_wrong_verdict`)
4. Duplicate `contains` constraints create an unsatisfiable
   `ChoicesAreNotInSameSlot(x,x)` (constraints.rs:94-107,155-166). (C28)
5. Expansion of `ChooserIsNotInChoice` over dependent choices and the
   not-in-same-slot expansion are stronger than what was written. (C27)
6. `5 >= slot.size` is compiled as `slot.size >= 5` (constraint_builder.rs:249-257). (C30)
7. Creating an object with a name that is a substring of an existing one returns the existing one. (C32)
8. `parse_time`: trailing digits without a unit are dropped; the sum is unchecked. (C37)
9. `slice` of an empty list with `end` is an error. (C38)
10. Greedy (NaN major) and non-greedy scores do not compare transitively. (C39)
11. `pick_neighbors` may return one more than the limit. (C19)
12. `max - min` underflow when min > max is accepted. (C49)
13. Integer arguments are truncated from i64 to i32. (C50)
14. Names starting with `~` are stripped in CSV output; quotes are not escaped. (C40)
15. `ChoicesAreInSameSlot` / `ChoicesAreNotInSameSlot` are not complementary; some kinds negate to `Invalid`. (C51)
16. `set_name` after registration can produce duplicates. (C33)
17. Options set in a script persist across reads. (C35)
18. Dependency groups tie scheduled choices through an unscheduled optional one, so the
    network forbids assignments no written constraint forbids. (C07, C08)
19. A critical set timeout beyond 2^31 seconds wraps to a negative number, which is accepted and makes every
    worker panic ("critical set timeout must be non-negative", scheduling_solver.rs:121-129). (C49)
20. A number beyond 2^32 in a constraint panics in the builder instead of being reported
    (constraint_builder.rs:287-293). (C49)
21. A number between 2^31 and 2^32 in a slot size constraint is accepted and makes every worker panic
    (scheduling_solver.rs:306). (C49)
22. If `value^exponent` overflows f32 for the greatest preference (the program only warns, of an *integer* overflow), or
    the exponent is negative (0 gets an infinite power, no warning), every solution gets an infinite score and the program
    says "No solution found." whatever the input. (C60)
23. The assignment solver minimises the sum of `(x+1)^e` (assignment_solver.rs:399-401), the score adds up `x^e`
    (scoring.rs:255-260), so the printed solution need not have the best score even if the search is exhaustive. (C61)
24. Without a solution the exit status is 0 and nothing is written, so files of an earlier run with the same prefix remain and
    look like the result (main.rs:110-113); likewise an old `.scheduling.csv` after a run with a single slot. `-i` in
    `set_arguments` is accepted but has no effect: the input has been read before. (C63)
25. Constraints keep names, not objects: if an object is renamed after its use in a constraint, the constraint is about whatever
    object has its old name in the end, or is silently dropped if none has (rhai_interface.rs:801-826, constraint_builder.rs:303-367). (C68)
26. The announced number of choices counts every part of a choice of several parts as a choice (main.rs:58-63), and the number of
    constraints counts those the program added itself for parts (main.rs:64-68). (C76)
27. The tables written have a blank after every comma (output_formatter.rs), so the quotes of all cells but the first of a row are
    not at the beginning of the cell: the usual readers, `read_csv` among them, return them with blank and quotes, and a comma
    in a name makes the file unreadable. (C77)
28. The CSV file printed in the manual ("Reading from CSV files") has blanks before the numbers and quotes; with it, the script
    printed there is rejected, because `bounds` does not accept the blanks. (C77)
29. Separators from U+0080 to U+00FF are accepted but compared with single bytes of the UTF-8 text, so that such files are not
    separated or rejected as not being a text (rhai_interface.rs:705). (C77)
30. Only the order of the choices is random; slots are always tried from the least full one, and a search stops at the first
    scheduling. With two pairs of choices that are tied to the same slot, schedulings with both pairs in one slot are never the first
    and no step of the hill climbing leads to them, so that the best timetable can be out of reach forever (Concept.md:313 suggests
    otherwise). (C78)
31. The critical sets are tested before each decision but not after the last one (scheduling_solver.rs:519-592: the loop ends, and
    the final check does not look at them), so that a search can return at level p a scheduling that violates a critical set of level p although
    another one satisfies all of them. (C79)
32. `set_arguments` reads its arguments with a loop of its own, which differs from the command line: no combined flags, no attached
    values, no `-V`, `--help` is ignored, options may be given twice and values may begin with a minus sign. Where both accept, they
    agree. (C83)
33. `-i` in `set_arguments` is accepted and ignored: the input files have been read before the script runs. (C84)
34. The manual lists `!=` between lists (`slot.choices`, `choice.choosers`, `chooser.choices`) and comparisons of two slot sizes; both
    are refused with "Unsupported constraint." (C30)
35. Raising all preferences by the same amount can change the result (`C86_raising_changes_the_result`), a consequence of finding 1: a
    script whose preferences go from 0 to 100 and one with 80 more everywhere describe the same wishes, but one of them can get a worse
    timetable. (C86)
36. The cost of a preference is cut off to an integer (`as i64`, assignment_solver.rs:399-401). With a preference exponent below 1 a
    perfect choice and the next best cost the same (`C87_small_exponents_do_not_tell`), so with `--greedy`, or when somebody else's
    preference determines the level, the program may give people their second choice although the first is free. (C87)
37. For the same reason an exponent between 1 and 2 does not have the effect the manual describes: with 1.1 the costs of 4, 5 and 6 are
    5, 7 and 8, so the program gives two people 4 and 6 rather than 5 and 5 (`C88_uneven_with_exponent_between`). (C88)
38. Dropping a constraint can make the score of the very same timetable worse, because what a chooser must attend counts as a first wish
    (`C89_dropping_changes_wishes`): scores of an input with and without a constraint cannot be compared. (C89)
39. doc/src/Concept.md (line 297) has the elimination of critical sets the wrong way round: if `W1` contains `W2` and `pref1 <= pref2`, a
    scheduling that satisfies `C2` satisfies `C1`, not the reverse. The code (critical_set.rs:12-14) discards the set that is implied,
    which is right. (C14)
