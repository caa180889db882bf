import Mathlib.Probability.Independence.Basic
import Verif.Spec.Simulation
import Verif.Spec.Prediction
import Verif.Model.HistogramOp

/-!
# What many runs show

Definitions used in theorem statements about the law of the runs of the simulation.
-/

namespace Angonoka.Props
open MeasureTheory ProbabilityTheory Filter Topology

/-- A stream of independent random numbers with the same law, that can be nonnegative. -/
structure RandomNumbers {Ω : Type} [MeasurableSpace Ω] (P : Measure Ω) (Z : Nat → Ω → ℝ) : Prop where
  measurable : ∀ i, Measurable (Z i)
  independent : iIndepFun Z P
  same : ∀ (i : Nat) (A : Set ℝ), MeasurableSet A → P {ω | Z i ω ∈ A} = P {ω | Z 0 ω ∈ A}
  nonneg : P {ω | 0 ≤ Z 0 ω} ≠ 0

/-- `r` are the results of the runs with the random numbers `ζ`: for every `n`, the first `n` runs end and return the first `n` of these. -/
def ResultsOf (E : FloatEnv ℝ) (p : Project) (s : List Item) (ζ : Nat → ℝ) (r : Nat → Int) : Prop :=
  ∀ n, ∃ N rest, Runs E p s ((List.range n).map r) ((List.range N).map ζ) rest

/-- `π` is the law of every run, and the runs are independent: the probability that the first runs end with results in given sets is the product of
the probabilities of these sets. -/
def LawOfRuns {Ω : Type} [MeasurableSpace Ω] (P : Measure Ω) (Z : Nat → Ω → ℝ) (E : FloatEnv ℝ) (p : Project) (s : List Item) (π : Measure Int) : Prop :=
  ∀ As : List (Set Int), P {ω | ∃ N vs rest, Runs E p s vs ((List.range N).map fun i => Z i ω) rest ∧ List.Forall₂ (fun v A => v ∈ A) vs As} =
    (As.map π).prod

/-- The part of the first `n` results that are at most `x` converges to the probability of such results, for every `x`. -/
def FrequenciesConverge (r : Nat → Int) (π : Measure Int) : Prop :=
  ∀ x : Int, Tendsto (fun n : Nat => (((List.range n).countP fun j => decide (r j ≤ x) : Nat) : ℝ) / n) atTop (𝓝 (π (Set.Iic x)).toReal)

/-- The bin from `lo` to `lo + w` contains the quantile for the fraction `q`: the probability of results below the bin is less than this fraction,
that of results below its end is greater. -/
def QuantileBin (π : Measure Int) (w : Int) (q : ℝ) (lo : Int) : Prop :=
  w ∣ lo ∧ (π (Set.Iio lo)).toReal < q ∧ q < (π (Set.Iio (lo + w))).toReal

/-- The stopping rule `more`, asked after every 10000 of the results `r`, says for the first time after `10000 * k` of them to stop. -/
def StopsAfter (more : List Int → Outcome Bool) (r : Nat → Int) (k : Nat) : Prop :=
  1 ≤ k ∧ ∀ j ≥ 1, j ≤ k → more ((List.range (10000 * j)).map r) = .ok (decide (j < k))

/-- `Good` holds in the long run for the histograms of bin width `w` that `histogram` returns with the random numbers `ζ`: there is a number `n` such
that it holds for all of them, whatever the other arguments, if the stopping rule does not stop before it has seen `n` results. -/
def InTheLongRun (E : FloatEnv ℝ) (p : Project) (s : List Item) (ζ : Nat → ℝ) (w : Int) (Good : Histogram → Prop) : Prop :=
  ∃ n, ∀ (binSize : Option Int) (makespan : Int) (more : List Int → Outcome Bool) (fuel N : Nat) (hist : Histogram), w = resolutionOf binSize makespan →
    (∀ vs : List Int, vs.length < n → more vs = .ok true) →
    histogram E p binSize s makespan more fuel ((List.range N).map ζ) = .ok (some hist) → Good hist

/-- The part of the counted runs that the histogram has in the bin that starts at `lo` differs from `x` by less than `ε`. (A bin without runs is not there.) -/
def BinFraction (hist : Histogram) (lo : Int) (x ε : ℝ) : Prop :=
  ∃ bins, hist.toList = .ok bins ∧ (∀ b ∈ bins, b.low = lo → |(b.count : ℝ) / ((bins.map Bin.count).sum : Int) - x| < ε) ∧
    ((∀ b ∈ bins, b.low ≠ lo) → |0 - x| < ε)

/-- Something that the schedule depends on is uncertain: the duration of a task, or the performance of an agent that has a task. -/
def Uncertain (p : Project) (s : List Item) : Prop :=
  (∃ t ∈ p.tasks, t.durMin ≠ t.durMax) ∨ ∃ it ∈ s, ∃ a, p.agents[it.agent]? = some a ∧ a.perfMin ≠ a.perfMax

/-- Random numbers as in `RandomNumbers` that can be in every interval. -/
structure WideNumbers {Ω : Type} [MeasurableSpace Ω] (P : Measure Ω) (Z : Nat → Ω → ℝ) : Prop extends RandomNumbers P Z where
  wide : ∀ a b : ℝ, a < b → P {ω | a < Z 0 ω ∧ Z 0 ω < b} ≠ 0

end Angonoka.Props
