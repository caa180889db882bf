import Verif.Model.Stopping
import Mathlib.Data.List.Sort

/-!
# The quantiles that decide when to stop

Model of `boost::accumulators::extended_p_square` for the probabilities of `HistogramOp` (`/repo/src/simulation.cpp:395-398, 416`):
the estimator of `mean_absolute_pct_error`, an instance of the parameter `quantiles` of `Verif.Model.Stopping`.

Boost is not in the repository. This is the algorithm of K. Raatikainen (1987) as in Boost's
`boost/accumulators/statistics/extended_p_square.hpp`: for five quantiles there are thirteen markers, with a height, an actual
position and a desired position each. Actual positions are whole numbers here; they are `float`s, which makes no difference for
up to 2²⁴ values.
-/

namespace Angonoka
open Outcome

variable {K : Type} [Field K] [LinearOrder K] [IsStrictOrderedRing K]

/-- `extended_p_square_impl` -/
structure PSquare (K : Type) where
  /-- `heights` -/
  heights : List K
  /-- `actual_positions` -/
  positions : List Int
  /-- `desired_positions` -/
  desired : List K
  deriving DecidableEq, Repr

namespace PSquare

/-- `heights[i]` -/
def height (q : PSquare K) (i : Nat) : K := q.heights.getD i 0

/-- `actual_positions[i]` -/
def position (q : PSquare K) (i : Nat) : Int := q.positions.getD i 0

/-- `num_markers` -/
def markers : Nat := 13

/-- `probs` (`simulation.cpp:396-397`) -/
def probability (E : FloatEnv K) : Nat → K
  | 0 => E.rnd (25 / 100)
  | 1 => E.rnd (50 / 100)
  | 2 => E.rnd (75 / 100)
  | 3 => E.rnd (95 / 100)
  | _ => E.rnd (99 / 100)

/-- `positions_increments` at even indices: 0, the probabilities, 1 -/
def evenIncrement (E : FloatEnv K) (i : Nat) : K := if i = 0 then 0 else if i = 6 then 1 else probability E (i - 1)

/-- `positions_increments`: in between, the middle of both neighbours -/
def increment (E : FloatEnv K) (i : Nat) : K :=
  if i % 2 = 0 then evenIncrement E (i / 2)
  else E.rnd ((1 / 2) * E.add (evenIncrement E (i / 2)) (evenIncrement E (i / 2 + 1)))

/-- The accumulator after the first thirteen samples, which are sorted; also the constructor, for fewer samples (then they are
stored, and the other heights are 0) -/
def start (E : FloatEnv K) (first : List K) : PSquare K where
  heights := if first.length = markers then first.insertionSort (fun a b => a ≤ b)
    else first ++ List.replicate (markers - first.length) 0
  positions := (List.range markers).map fun (i : Nat) => (i : Int) + 1
  desired := (List.range markers).map fun i => E.rnd (1 + 12 * increment E i)

/-- `sample_cell`, where `std::upper_bound` is the number of heights that are not greater than the sample -/
def cell (q : PSquare K) (x : K) : Nat :=
  if x < q.height 0 then 1
  else if q.height (markers - 1) ≤ x then markers - 1
  else (List.range markers).countP fun i => q.height i ≤ x

/-- The sample becomes the lowest or the highest height if it is lower or higher. -/
def extend (q : PSquare K) (x : K) : List K :=
  if x < q.height 0 then q.heights.set 0 x
  else if q.height (markers - 1) ≤ x then q.heights.set (markers - 1) x
  else q.heights

/-- The new height of marker `i` when it moves by `sign` positions: by the parabolic formula if this gives a height between those of the
neighbours, and by the linear one otherwise. -/
def newHeight (E : FloatEnv K) (q : PSquare K) (i : Nat) (sign : Int) : K :=
  let dp := q.position (i + 1) - q.position i
  let dm := q.position (i - 1) - q.position i
  let hp := E.div (E.sub (q.height (i + 1)) (q.height i)) dp
  let hm := E.div (E.sub (q.height (i - 1)) (q.height i)) dm
  let h := E.add (q.height i) (E.mul (E.div sign ((dp - dm : Int) : K))
    (E.add (E.mul ((sign - dm : Int) : K) hp) (E.mul ((dp - sign : Int) : K) hm)))
  if q.height (i - 1) < h ∧ h < q.height (i + 1) then h
  else if 0 < sign then E.add (q.height i) hp else E.sub (q.height i) hm

/-- The body of the loop that adjusts the markers -/
def adjust (E : FloatEnv K) (q : PSquare K) (i : Nat) : PSquare K :=
  let d := E.sub (q.desired.getD i 0) (q.position i)
  if 1 ≤ d ∧ 1 < q.position (i + 1) - q.position i then
    { q with heights := q.heights.set i (newHeight E q i 1), positions := q.positions.set i (q.position i + 1) }
  else if d ≤ -1 ∧ q.position (i - 1) - q.position i < -1 then
    { q with heights := q.heights.set i (newHeight E q i (-1)), positions := q.positions.set i (q.position i - 1) }
  else q

/-- `operator()` for further samples -/
def add (E : FloatEnv K) (q : PSquare K) (x : K) : PSquare K :=
  let c := q.cell x
  let q := { heights := q.extend x
             positions := q.positions.take c ++ (q.positions.drop c).map fun p => p + 1
             desired := (List.range markers).map fun i => E.add (q.desired.getD i 0) (increment E i) }
  (List.range (markers - 2)).foldl (fun q i => q.adjust E (i + 1)) q

/-- All samples -/
def of (E : FloatEnv K) (xs : List K) : PSquare K :=
  (xs.drop markers).foldl (PSquare.add E) (start E (xs.take markers))

/-- `extended_p_square(acc)` after the makespans `vs` (`simulation.cpp:46, 416`) -/
def quantiles (E : FloatEnv K) (vs : List Int) : List K :=
  (List.range 5).map fun i => (of E (vs.map E.ofInt)).height (2 * (i + 1))

end PSquare
end Angonoka
