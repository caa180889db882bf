import Verif.Model.Stats
import Verif.Spec.Histogram

/-!
# What a prediction means

Definitions used in theorem statements about the prediction.
-/

namespace Angonoka

/-- The width of the bins, in seconds: what was asked for; otherwise a minute for less than five hours, an hour for less than thirteen
days, and a day. -/
def resolutionOf (binSize : Option Int) (makespan : Int) : Int :=
  match binSize with
  | some b => b
  | none =>
    if makespan < 5 * 60 * 60 then 60 else if makespan < 13 * 24 * 60 * 60 then 60 * 60
    else 24 * 60 * 60

/-- The percentiles and their fractions -/
def HistogramStats.percentiles (K : Type) [Field K] (s : HistogramStats) : List (K × Int) :=
  [(25 / 100, s.p25), (50 / 100, s.p50), (75 / 100, s.p75), (95 / 100, s.p95), (99 / 100, s.p99)]

/-- Each percentile is the middle of a bin, such that at least this fraction of the values lies in the bin or below. -/
def HistogramStats.Conservative (K : Type) [Field K] [LinearOrder K] (s : HistogramStats) (vs : List Int) (bins : List Bin) : Prop :=
  ∀ q x, (q, x) ∈ s.percentiles K → ∃ b ∈ bins, x = b.middle ∧
    q * vs.length ≤ ((vs.countP fun v => v < b.high : Nat) : K)

end Angonoka
