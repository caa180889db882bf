import Verif.Audit
import Verif.Base.Binary32
import Verif.Base.Float
import Verif.Base.Outcome
import Verif.Base.RealEnv
import Verif.Base.RollingMean
import Verif.Model.Agents
import Verif.Model.Bytes
import Verif.Model.Cli
import Verif.Model.CommandLine
import Verif.Model.Cycles
import Verif.Model.Duration
import Verif.Model.Events
import Verif.Model.ExpCurve
import Verif.Model.Format
import Verif.Model.Histogram
import Verif.Model.HistogramOp
import Verif.Model.Json
import Verif.Model.JsonText
import Verif.Model.Load
import Verif.Model.Makespan
import Verif.Model.Mutator
import Verif.Model.Optimizer
import Verif.Model.PSquare
import Verif.Model.Page
import Verif.Model.Predict
import Verif.Model.Progress
import Verif.Model.Project
import Verif.Model.Schedule
import Verif.Model.Serial
import Verif.Model.Simulation
import Verif.Model.Slots
import Verif.Model.Stats
import Verif.Model.Stopping
import Verif.Model.Stun
import Verif.Model.Tasks
import Verif.Model.Temperature
import Verif.Model.Terminal
import Verif.Model.Threads
import Verif.Model.Tuner
import Verif.Model.Validation
import Verif.Model.Vector2D
import Verif.Model.Visualizer
import Verif.Model.Yaml
import Verif.Proof.Adaptive
import Verif.Proof.Bare
import Verif.Proof.Chance
import Verif.Proof.Cli
import Verif.Proof.CommandLine
import Verif.Proof.Curve
import Verif.Proof.Cycles
import Verif.Proof.Drift
import Verif.Proof.Duration
import Verif.Proof.DurationLimits
import Verif.Proof.Eval
import Verif.Proof.Events
import Verif.Proof.Examples
import Verif.Proof.Fed
import Verif.Proof.FloatStats
import Verif.Proof.Format
import Verif.Proof.Guide
import Verif.Proof.Histogram
import Verif.Proof.HistogramOp
import Verif.Proof.Hoare
import Verif.Proof.Implied
import Verif.Proof.InitialSchedule
import Verif.Proof.Interleaving
import Verif.Proof.Json
import Verif.Proof.JsonText
import Verif.Proof.Lists
import Verif.Proof.LoadAgents
import Verif.Proof.LoadTasks
import Verif.Proof.LoadTree
import Verif.Proof.Makespan
import Verif.Proof.MakespanBounds
import Verif.Proof.Messages
import Verif.Proof.Mirror
import Verif.Proof.Mutator
import Verif.Proof.Names
import Verif.Proof.NamesRun
import Verif.Proof.Notation
import Verif.Proof.Optimizer
import Verif.Proof.Order
import Verif.Proof.Params
import Verif.Proof.Paths
import Verif.Proof.Patience
import Verif.Proof.Plan
import Verif.Proof.Predict
import Verif.Proof.Reach
import Verif.Proof.Rebind
import Verif.Proof.Restart
import Verif.Proof.Retimed
import Verif.Proof.Rounding
import Verif.Proof.RoundingParams
import Verif.Proof.Scaling
import Verif.Proof.Schema
import Verif.Proof.Simulation
import Verif.Proof.Stats
import Verif.Proof.Stun
import Verif.Proof.Symmetry
import Verif.Proof.Temperature
import Verif.Proof.Termination
import Verif.Proof.Threads
import Verif.Proof.Units
import Verif.Proof.UnitsSim
import Verif.Proof.Utf8
import Verif.Proof.Vector2D
import Verif.Props.Attempts
import Verif.Props.Bars
import Verif.Props.Best
import Verif.Props.BestFloat
import Verif.Props.Bounds
import Verif.Props.BoundsFloat
import Verif.Props.Bytes
import Verif.Props.Certain
import Verif.Props.Chance
import Verif.Props.Cli
import Verif.Props.CommandLine
import Verif.Props.Completes
import Verif.Props.Contains
import Verif.Props.Curve
import Verif.Props.Display
import Verif.Props.Documented
import Verif.Props.DocumentedFloat
import Verif.Props.DocumentedRun
import Verif.Props.Drift
import Verif.Props.Duration
import Verif.Props.Endless
import Verif.Props.Essence
import Verif.Props.Estimate
import Verif.Props.Events
import Verif.Props.Eventually
import Verif.Props.Extremes
import Verif.Props.Files
import Verif.Props.FloatCertain
import Verif.Props.FloatCommand
import Verif.Props.FloatPredict
import Verif.Props.Histogram
import Verif.Props.Implied
import Verif.Props.Json
import Verif.Props.JsonText
import Verif.Props.Limits
import Verif.Props.LimitsFloat
import Verif.Props.Loading
import Verif.Props.LoadingExamples
import Verif.Props.Log
import Verif.Props.LongRun
import Verif.Props.Makespan
import Verif.Props.Median
import Verif.Props.Messages
import Verif.Props.Month
import Verif.Props.Names
import Verif.Props.NearBest
import Verif.Props.Notation
import Verif.Props.Optimizer
import Verif.Props.Order
import Verif.Props.Overflow
import Verif.Props.PSquare
import Verif.Props.Pace
import Verif.Props.Page
import Verif.Props.PageFloat
import Verif.Props.Params
import Verif.Props.Patience
import Verif.Props.Pessimism
import Verif.Props.PessimismFloat
import Verif.Props.Phases
import Verif.Props.PredictCommand
import Verif.Props.PredictedPageFloat
import Verif.Props.Progress
import Verif.Props.Repeated
import Verif.Props.Resolution
import Verif.Props.Rounding
import Verif.Props.Schedule
import Verif.Props.Serial
import Verif.Props.ShortRuns
import Verif.Props.Simulation
import Verif.Props.Slots
import Verif.Props.Split
import Verif.Props.Stopping
import Verif.Props.Stops
import Verif.Props.Symmetry
import Verif.Props.Teams
import Verif.Props.Temperature
import Verif.Props.Terminal
import Verif.Props.Threads
import Verif.Props.Tuner
import Verif.Props.TunerRun
import Verif.Props.Tunneling
import Verif.Props.Units
import Verif.Props.Vector2D
import Verif.Props.Visualizer
import Verif.Props.WorstPageFloat
import Verif.Spec.BestEnd
import Verif.Spec.Cli
import Verif.Spec.CommandLine
import Verif.Spec.Curve
import Verif.Spec.Document
import Verif.Spec.Documented
import Verif.Spec.DocumentedRun
import Verif.Spec.Duration
import Verif.Spec.Essence
import Verif.Spec.Estimator
import Verif.Spec.Events
import Verif.Spec.Histogram
import Verif.Spec.Implied
import Verif.Spec.Json
import Verif.Spec.JsonText
import Verif.Spec.Loading
import Verif.Spec.Log
import Verif.Spec.LongRun
import Verif.Spec.Messages
import Verif.Spec.Names
import Verif.Spec.Notation
import Verif.Spec.Optimizer
import Verif.Spec.Order
import Verif.Spec.PSquare
import Verif.Spec.Pace
import Verif.Spec.Page
import Verif.Spec.Pessimism
import Verif.Spec.PessimismDoc
import Verif.Spec.Plan
import Verif.Spec.Prediction
import Verif.Spec.Progress
import Verif.Spec.Project
import Verif.Spec.Rolling
import Verif.Spec.Rounding
import Verif.Spec.Schedule
import Verif.Spec.SimulatedFloat
import Verif.Spec.Simulation
import Verif.Spec.Split
import Verif.Spec.Stopping
import Verif.Spec.Stops
import Verif.Spec.Symmetry
import Verif.Spec.Teams
import Verif.Spec.Terminal
import Verif.Spec.Tuner
import Verif.Spec.Tunneling
import Verif.Spec.Units
import Verif.Spec.Utf8
import Verif.Spec.Vector2D
import Verif.Spec.Visualizer
