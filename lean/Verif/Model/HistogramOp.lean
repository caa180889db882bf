import Verif.Model.Simulation
import Verif.Model.Stats

/-!
# Building the histogram

Model of `HistogramOp` and `histogram` (`/repo/src/simulation.cpp:386-456`).

The decision to go on (`simulation.cpp:435-439`: the P-square accumulator, the error of the quantiles since the last
batch and its rolling mean) is a function `more` of all makespans so far. It is a parameter: the theorems
hold for every such function. Its contract (`Ensures(error >= 0.F)`, `simulation.cpp:56`) makes it
an `Outcome`.

The loop need not end. `fuel` bounds the number of decisions; `none` means that the loop goes on, or that
sampling used up the random numbers.
-/

namespace Angonoka
open Outcome Stun

variable {K : Type} [Field K] [LinearOrder K] [IsStrictOrderedRing K] [FloorRing K]

/-- The part of `HistogramOp` that changes, and the makespans it has passed to the accumulator. -/
structure HistogramOp (K : Type) where
  sim : Simulation K
  hist : Histogram
  zs : List K
  log : List Int

namespace HistogramOp

/-- `batch_size` (`simulation.cpp:403`) -/
def batchSize : Nat := 10000

/-- The loop of `run_simulation_batch` (`simulation.cpp:414-418`), `n` more times -/
def batchLoop (E : FloatEnv K) (schedule : List Item) :
    Nat → HistogramOp K → Outcome (Option (HistogramOp K))
  | 0, op => ok (some op)
  | n + 1, op => do
    let r ← op.sim.call E schedule op.zs
    match r with
    | none => ok none
    | some (makespan, zs, sim) => do
      let hist ← op.hist.insert makespan
      batchLoop E schedule n { sim := sim, hist := hist, zs := zs, log := op.log ++ [makespan] }

/-- `run_simulation_batch` (`simulation.cpp:410-419`) -/
def runBatch (E : FloatEnv K) (schedule : List Item) (op : HistogramOp K) :
    Outcome (Option (HistogramOp K)) := do
  expects (!schedule.isEmpty) "run_simulation_batch: schedule not empty"
  batchLoop E schedule batchSize op

/-- The loop of `operator()` (`simulation.cpp:435-440`), starting with the decision after a batch -/
def loop (E : FloatEnv K) (schedule : List Item) (more : List Int → Outcome Bool) :
    Nat → HistogramOp K → Outcome (Option (HistogramOp K))
  | 0, _ => ok none
  | fuel + 1, op => do
    let c ← more op.log
    if c then do
      let r ← op.runBatch E schedule
      match r with
      | none => ok none
      | some op => loop E schedule more fuel op
    else ok (some op)

/-- `operator()` (`simulation.cpp:429-444`) -/
def call (E : FloatEnv K) (schedule : List Item) (more : List Int → Outcome Bool) (fuel : Nat)
    (op : HistogramOp K) : Outcome (Option Histogram) := do
  let r ← op.runBatch E schedule
  match r with
  | none => ok none
  | some op => do
    let r ← op.loop E schedule more fuel
    match r with
    | none => ok none
    | some op => do
      expects (decide (0 < op.hist.size)) "HistogramOp: hist not empty"
      return some op.hist

end HistogramOp

/-- `histogram` (`simulation.cpp:449-456`); `binSize` is `config.bin_size`, `makespan` that of the
optimized schedule. -/
def histogram (E : FloatEnv K) (config : Project) (binSize : Option Int) (schedule : List Item)
    (makespan : Int) (more : List Int → Outcome Bool) (fuel : Nat) (zs : List K) :
    Outcome (Option Histogram) := do
  expects (!config.tasks.isEmpty) "histogram: tasks not empty"
  expects (!config.agents.isEmpty) "histogram: agents not empty"
  expects (!schedule.isEmpty) "histogram: schedule not empty"
  let sim ← Simulation.new config
  let width ← parseGranularity binSize makespan
  let hist ← Histogram.new width
  HistogramOp.call E schedule more fuel { sim := sim, hist := hist, zs := zs, log := [] }

end Angonoka
