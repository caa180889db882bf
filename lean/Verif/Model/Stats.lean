import Verif.Base.Float
import Verif.Model.Histogram
import Verif.Model.Project

/-!
# Percentiles and histogram resolution

Model of `stats`, `granularity` and `parse_granularity` (`/repo/src/simulation.cpp`).
-/

namespace Angonoka
open Outcome

variable {K : Type} [Field K] [LinearOrder K] [IsStrictOrderedRing K]

/-- `gsl::narrow<float>(count)` (`histogram.h:24-27, 44-49`): throws unless the integer is a `float`. -/
def Bin.toFloat (E : FloatEnv K) (b : Bin) : Outcome K :=
  if E.ofInt b.count = (b.count : K) then ok (b.count : K) else throws .narrowing

/-- `to_seconds` (`simulation.cpp:68-73`) -/
def toSeconds (value : Int) : Outcome Int := do
  expects (decide (0 ≤ value)) "to_seconds: value >= 0"
  return value

/-- `HistogramStats` (`/repo/src/predict.h:20-26`) -/
structure HistogramStats where
  p25 : Int
  p50 : Int
  p75 : Int
  p95 : Int
  p99 : Int
  deriving DecidableEq, Repr

/-- `ranges::accumulate(histogram, 0.F)` (`simulation.cpp:464`) from the value `acc` on. -/
def accumulate (E : FloatEnv K) : List Bin → K → Outcome K
  | [], acc => ok acc
  | b :: rest, acc => do
    let c ← b.toFloat E
    accumulate E rest (E.add c acc)

/-- The loop of `accumulate_until` (`simulation.cpp:473-480`). The bins are those from `bin_index` on,
`none` means that the loop ended without a hit. Returns the bins from the new `bin_index` on and the new
`count`. -/
def scan (E : FloatEnv K) (threshold : K) : List Bin → K → Outcome (Option Bin × List Bin × K)
  | [], count => ok (none, [], count)
  | b :: rest, count => do
    let c ← b.toFloat E
    let count := E.add count c
    if threshold ≤ count then ok (some b, rest, count) else scan E threshold rest count

/-- `accumulate_until` (`simulation.cpp:470-482`); `bins` are all bins, of which `rest` are still to
be scanned. -/
def accumulateUntil (E : FloatEnv K) (bins : List Bin) (threshold : K) (rest : List Bin) (count : K) :
    Outcome (Int × List Bin × K) := do
  expects (decide (0 ≤ threshold)) "accumulate_until: threshold >= 0"
  let (hit, rest, count) ← scan E threshold rest count
  match hit with
  | some b => do
    let s ← toSeconds b.middle
    return (s, rest, count)
  | none =>
    match bins.getLast? with
    | some b => do
      let s ← toSeconds b.middle
      return (s, rest, count)
    | none => ub "stats: back of an empty histogram"

/-- `stats` (`simulation.cpp:458-491`) -/
def stats (E : FloatEnv K) (h : Histogram) : Outcome HistogramStats := do
  expects (decide (0 < h.size)) "stats: histogram not empty"
  let bins ← h.toList
  let total ← accumulate E bins 0
  let (p25, rest, count) ← accumulateUntil E bins (E.mul total (E.rnd (25 / 100))) bins 0
  let (p50, rest, count) ← accumulateUntil E bins (E.mul total (E.rnd (50 / 100))) rest count
  let (p75, rest, count) ← accumulateUntil E bins (E.mul total (E.rnd (75 / 100))) rest count
  let (p95, rest, count) ← accumulateUntil E bins (E.mul total (E.rnd (95 / 100))) rest count
  let (p99, _, _) ← accumulateUntil E bins (E.mul total (E.rnd (99 / 100))) rest count
  return { p25 := p25, p50 := p50, p75 := p75, p95 := p95, p99 := p99 }

/-- `granularity` (`simulation.cpp:341-357`), in seconds -/
def granularity (makespan : Int) : Outcome Int := do
  expects (decide (1 ≤ makespan)) "granularity: makespan >= 1s"
  if makespan < 5 * 3600 then return 60
  else if makespan < 13 * 86400 then return 3600
  else return 86400

/-- `parse_granularity` (`simulation.cpp:374-384`); `binSize` is `config.bin_size`. -/
def parseGranularity (binSize : Option Int) (makespan : Int) : Outcome Int := do
  expects (decide (1 ≤ makespan)) "parse_granularity: makespan >= 1s"
  match binSize with
  | some b => return b
  | none => granularity makespan

end Angonoka
