import Verif.Spec.Estimator
import Verif.Model.ExpCurve

/-!
# Histories of curve fitters
-/

namespace Angonoka
open Outcome Stun

variable {K : Type} [Field K] [LinearOrder K] [IsStrictOrderedRing K]

/-- `c` is a fitter that got the given points since its construction or its last reset, newest
first. -/
inductive CurveRun (E : FloatEnv K) : List (K × K) → ExpCurve K → Prop
  | new : CurveRun E [] ExpCurve.zero
  | call {pts c x y v c'} (h : CurveRun E pts c) (hc : c.call E x y = ok (v, c')) :
      CurveRun E ((x, y) :: pts) c'

/-- Sum over the points of the squared error of the logarithm, weighted with the value:
`Σ y (log y - (a + b x))²`. -/
def weightedError (log : K → K) (a b : K) (pts : List (K × K)) : K :=
  (pts.map fun q => q.2 * (log q.2 - (a + b * q.1)) ^ 2).sum

/-- At least two of the points have different `x`. -/
def Spread (pts : List (K × K)) : Prop := ∃ q ∈ pts, ∃ r ∈ pts, q.1 ≠ r.1

end Angonoka
