import Verif.Model.HistogramOp

/-!
# When the simulation stops

Model of `mean_absolute_pct_error` (`/repo/src/simulation.cpp:40-60`) and of the stopping rule of `HistogramOp`
(`/repo/src/simulation.cpp:393-402, 429-440`), as a function of all makespans so far: an instance of the parameter
`more` of `Verif.Model.HistogramOp`.

`boost::accumulators::extended_p_square`, which estimates the quantiles, is a function `quantiles` of the values it has been given;
`rolling_mean` is `E.rolling` of all errors so far.

A division by zero ends the computation with `ub`. For `0 / 0` this is what happens: the sum is NaN and violates
`Ensures(error >= 0.F)`. Other divisions by zero give infinity, which is not modelled.
-/

namespace Angonoka
open Outcome Stun

variable {K : Type} [Field K] [LinearOrder K] [IsStrictOrderedRing K]

/-- The accumulators of `HistogramOp`: `quantiles`, and all values that `rolling_error` has been given, newest first -/
structure Stopping (K : Type) where
  quantiles : List K
  errors : List K
  deriving DecidableEq, Repr

namespace Stopping

/-- The loop of `mean_absolute_pct_error` (`simulation.cpp:46-50`) from `error` on -/
def errorLoop (E : FloatEnv K) : List K → List K → K → Outcome K
  | [], _, error => ok error
  | a :: quantiles, pSquare, error => do
    let b ← at? pSquare 0 "mean_absolute_pct_error: p_square"
    expects (decide (a ≠ 0)) "mean_absolute_pct_error: error >= 0"
    errorLoop E quantiles pSquare.tail (E.add error |E.div (E.sub a b) a|)

/-- `mean_absolute_pct_error` (`simulation.cpp:40-60`): the error and the new quantiles -/
def meanAbsolutePctError (E : FloatEnv K) (pSquare quantiles : List K) : Outcome (K × List K) := do
  expects (!quantiles.isEmpty) "mean_absolute_pct_error: quantiles not empty"
  let error ← errorLoop E quantiles pSquare 0
  expects (decide (0 ≤ error)) "mean_absolute_pct_error: error >= 0"
  return (E.div error (E.ofInt quantiles.length), pSquare)

/-- `window_size` (`simulation.cpp:400`) -/
def windowSize : Nat := 15

/-- `quantile_count` quantiles of 1 (`simulation.cpp:21, 432`), no errors -/
def init : Stopping K := { quantiles := List.replicate 5 1, errors := [] }

/-- `rolling_error(mean_absolute_pct_error(acc, quantiles))` (`simulation.cpp:434, 438`), where `pSquare` is the accumulator's
estimate -/
def step (E : FloatEnv K) (st : Stopping K) (pSquare : List K) : Outcome (Stopping K) := do
  let (error, quantiles) ← meanAbsolutePctError E pSquare st.quantiles
  return { quantiles := quantiles, errors := error :: st.errors }

/-- The accumulators after `n` batches, from the first one on; `log` are all makespans -/
def after (E : FloatEnv K) (quantiles : List Int → List K) (log : List Int) : Nat → Outcome (Stopping K)
  | 0 => ok init
  | n + 1 => do
    let st ← after E quantiles log n
    st.step E (quantiles (log.take (HistogramOp.batchSize * (n + 1))))

/-- The condition of the loop (`simulation.cpp:435-436`) after the makespans `log` -/
def more (E : FloatEnv K) (quantiles : List Int → List K) (log : List Int) : Outcome Bool := do
  let st ← after E quantiles log (log.length / HistogramOp.batchSize)
  return decide (E.rnd (1 / 100) < E.rolling windowSize st.errors)

end Stopping
end Angonoka
