import Verif.Props.Scoring
import Verif.Props.Rng
import Verif.Props.Search
import Verif.Props.Constraints
import Verif.Props.Expr
import Verif.Props.Build
import Verif.Props.Assignment
import Verif.Props.AssignmentLimits
import Verif.Props.AssignmentSearch
import Verif.Props.AssignmentState
import Verif.Props.Hill
import Verif.Props.Threaded
import Verif.Props.Reader
import Verif.Props.Output
import Verif.Props.Made
import Verif.Props.Main
import Verif.Proofs.BuildTotal
import Verif.Proofs.WorkerTotal
import Verif.Proofs.Ready
import Verif.Props.Total
import Verif.Props.Session
import Verif.Props.Counters
import Verif.Props.Verdict
import Verif.Proofs.ValidSched
import Verif.Proofs.PromptAsg
import Verif.Proofs.Single
import Verif.Props.Single
import Verif.Model.Float
import Verif.Proofs.Float
import Verif.Proofs.Minor
import Verif.Proofs.Counts
import Verif.Proofs.CostCounts
import Verif.Spec.Counts
import Verif.Spec.Scorable
import Verif.Props.Float
import Verif.Props.Objective
import Verif.Proofs.Rounding
import Verif.Props.Rounding
import Verif.Model.Process
import Verif.Spec.Process
import Verif.Proofs.Lone
import Verif.Props.Process
import Verif.Spec.Deadline
import Verif.Props.Deadline
import Verif.Model.Status
import Verif.Spec.Status
import Verif.Props.Lps
import Verif.Props.Status
import Verif.Spec.Stated
import Verif.Props.Stated
import Verif.Spec.Climb
import Verif.Proofs.Climb
import Verif.Props.Climb
import Verif.Spec.Order
import Verif.Proofs.Order
import Verif.Props.Order
import Verif.Spec.Answers
import Verif.Proofs.Answers
import Verif.Props.Answers
import Verif.Spec.Args
import Verif.Props.Args
import Verif.Model.Display
import Verif.Spec.Display
import Verif.Proofs.Display
import Verif.Props.Display
import Verif.Model.Lp
import Verif.Spec.Lp
import Verif.Proofs.Lp
import Verif.Props.Lp
import Verif.Model.Announce
import Verif.Props.Announce
import Verif.Instances.Search
import Verif.Instances.Assignment
import Verif.Instances.Climb
import Verif.Instances.Input
import Verif.Instances.Program
import Verif.Instances.Lp
import Verif.Conformance.Runner
import Verif.Conformance.Exact
import Verif.Conformance.Units
import Verif.Conformance.InputApi
import Verif.Conformance.Constraints
import Verif.Conformance.Solutions
import Verif.Conformance.FileInputs
import Verif.Conformance.CliArgs
import Verif.Conformance.CliOutput
import Verif.Conformance.Input
import Verif.Conformance.Solvers
import Verif.Model.Csv
import Verif.Spec.CsvFile
import Verif.Proofs.Csv
import Verif.Props.Csv
import Verif.Spec.Attain
import Verif.Proofs.First
import Verif.Props.Attain
import Verif.Instances.Attain
import Verif.Proofs.Restart
import Verif.Props.Restart
import Verif.Instances.Restart
import Verif.Spec.Levels
import Verif.Proofs.Levels
import Verif.Props.Levels
import Verif.Model.Depth
import Verif.Spec.Depth
import Verif.Proofs.Depth
import Verif.Props.Depth
import Verif.Spec.Rename
import Verif.Proofs.Rename
import Verif.Props.Rename
import Verif.Spec.Rejected
import Verif.Proofs.Rejected
import Verif.Props.Rejected
import Verif.Model.Cli
import Verif.Spec.Cli
import Verif.Proofs.Cli
import Verif.Props.Cli
import Verif.Props.Carried
import Verif.Props.Work
import Verif.Spec.Shift
import Verif.Props.Shift
import Verif.Conformance.Clap
import Verif.Props.Pareto
import Verif.Props.Exponent
import Verif.Props.Looser
import Verif.Props.Reorder
import Verif.Props.Restate
import Verif.Props.Shuffle
import Verif.Props.Slots
import Verif.Props.Offer
import Verif.Props.Reword
import Verif.Props.Alike
import Verif.Instances.Pareto
import Verif.Props.Printed
import Verif.Instances.Printed
import Verif.Audit
