import Verif.Model.Histogram
import Mathlib.Algebra.BigOperators.Group.List.Basic
import Mathlib.Algebra.Order.Ring.Int
import Verif.Base.Float

/-!
# What a histogram means

Definitions used in theorem statements about histograms.
-/

namespace Angonoka

/-- The value lies in the bin. -/
def Bin.Contains (b : Bin) (v : Int) : Prop := b.low ≤ v ∧ v < b.high

instance (b : Bin) (v : Int) : Decidable (b.Contains v) :=
  inferInstanceAs (Decidable (_ ∧ _))

/-- The bins describe the values exactly. -/
structure Describes (binSize : Int) (values : List Int) (bins : List Bin) : Prop where
  /-- every bin is as wide as asked for and starts at a multiple of the width -/
  width : ∀ b ∈ bins, b.high = b.low + binSize ∧ binSize ∣ b.low
  middle : ∀ b ∈ bins, b.middle = b.low + binSize / 2
  /-- ascending, without overlap -/
  ascending : bins.Pairwise fun a b => a.high ≤ b.low
  /-- the count is the number of values in the bin -/
  counts : ∀ b ∈ bins, b.count = values.countP fun v => b.Contains v
  /-- no empty bins -/
  positive : ∀ b ∈ bins, 0 < b.count
  /-- every value lies in some bin -/
  covers : ∀ v ∈ values, ∃ b ∈ bins, b.Contains v

/-- Number of values in the first `k` bins. -/
def cumulative (bins : List Bin) (k : Nat) : Int := ((bins.take k).map Bin.count).sum

/-- The first bin at which the number of values so far reaches the threshold. -/
def IsPercentile {K : Type} [Field K] [LinearOrder K] (bins : List Bin) (threshold : K) (i : Nat) : Prop :=
  i < bins.length ∧ threshold ≤ (cumulative bins (i + 1) : K) ∧
    ∀ k < i, (cumulative bins (k + 1) : K) < threshold

/-- One use of a histogram. -/
inductive HistogramUse where
  | add (value : Int)
  | clear

/-- The values added since the histogram was created or last cleared, given those before. -/
def HistogramUse.contents : List Int → List HistogramUse → List Int
  | vs, [] => vs
  | vs, .add v :: rest => contents (vs ++ [v]) rest
  | _, .clear :: rest => contents [] rest

/-- Effect of a use. -/
def Histogram.step (h : Histogram) : HistogramUse → Outcome Histogram
  | .add v => h.insert v
  | .clear => .ok h.clear

/-- Effect of a sequence of uses. -/
def Histogram.run (h : Histogram) : List HistogramUse → Outcome Histogram
  | [] => .ok h
  | u :: rest => do
    let h ← h.step u
    h.run rest

/-- A histogram that came from using it with non-negative values; `vs` are its values. -/
def HistogramOf (w : Int) (vs : List Int) (h : Histogram) : Prop :=
  1 ≤ w ∧ ∃ uses, (∀ v, HistogramUse.add v ∈ uses → 0 ≤ v) ∧ HistogramUse.contents [] uses = vs ∧
    (Histogram.new w >>= fun h => h.run uses) = .ok h


section
variable {K : Type} [Field K] [LinearOrder K] [IsStrictOrderedRing K]

/-- Integers up to the total are `float`s, so that sums of counts are exact. -/
def CountsExact (E : FloatEnv K) (total : Int) : Prop :=
  ∀ n : Int, 0 ≤ n → n ≤ total → E.rnd (n : K) = (n : K)

/-- The threshold the code computes for a fraction `q`. -/
def thresholdOf (E : FloatEnv K) (n : Nat) (q : K) : K := E.mul (n : K) (E.rnd q)

end

end Angonoka
