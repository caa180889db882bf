import Mathlib.Algebra.Order.Group.Abs
import Mathlib.Algebra.BigOperators.Group.List.Basic
import Verif.Spec.Simulation

/-!
# When to stop, in exact arithmetic

Definitions used in theorem statements about the stopping rule.
-/

namespace Angonoka

variable {K : Type} [Field K] [LinearOrder K] [IsStrictOrderedRing K]

/-- By how much five quantiles have changed, as the average of the relative changes. -/
def change (old new : List K) : K := (List.zipWith (fun a b => |(a - b) / a|) old new).sum / 5

/-- The change with batch `i` (from 0): the quantiles before the first batch count as 1. -/
def changeAt (quantiles : List Int → List K) (vs : List Int) (i : Nat) : K :=
  change (if i = 0 then [1, 1, 1, 1, 1] else quantiles (vs.take (10000 * i)))
    (quantiles (vs.take (10000 * (i + 1))))

/-- The average of the changes with the last 15 of `k` batches, or with all if there are fewer. -/
def averageChange (quantiles : List Int → List K) (vs : List Int) (k : Nat) : K :=
  (((List.range k).drop (k - 15)).map (changeAt quantiles vs)).sum / (min k 15 : Nat)

/-- What is assumed about the estimator of the five quantiles: it gives five numbers. -/
def FiveQuantiles (quantiles : List Int → List K) : Prop := ∀ vs, (quantiles vs).length = 5

/-- The quantiles of 13 or more equal values are this value. (The program's estimator needs 13 values before it estimates.) -/
def ConstantQuantiles (quantiles : List Int → List K) : Prop :=
  ∀ n v, 13 ≤ n → quantiles (List.replicate n v) = List.replicate 5 (v : K)

end Angonoka
