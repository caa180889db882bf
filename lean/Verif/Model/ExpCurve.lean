import Verif.Base.Float
import Verif.Base.Outcome

/-!
# Exponential curve fitter

Model of `/repo/src/stun/exp_curve_fitter.{h,cpp}`: online weighted least squares
fit of `y = exp (a + b x)`.
-/

namespace Angonoka.Stun
open Angonoka Outcome

variable {K : Type} [Field K] [LinearOrder K] [IsStrictOrderedRing K]

/-- `ExpCurveFitter` -/
structure ExpCurve (K : Type) where
  xxy : K
  ylogy : K
  xy : K
  xylogy : K
  sumy : K
  a : K
  b : K
  divisor : K
  deriving DecidableEq, Repr

/-- Default constructor, also used by `reset` (`exp_curve_fitter.cpp:6-18`) -/
def ExpCurve.zero : ExpCurve K where
  xxy := 0
  ylogy := 0
  xy := 0
  xylogy := 0
  sumy := 0
  a := 0
  b := 0
  divisor := 0

/-- `operator()` (`exp_curve_fitter.cpp:20-38`): add a point, refit, return the value at `x`. -/
def ExpCurve.call (E : FloatEnv K) (c : ExpCurve K) (x y : K) : Outcome (K × ExpCurve K) := do
  expects (decide (0 ≤ x)) "ExpCurveFitter: x >= 0"
  expects (decide (0 ≤ y)) "ExpCurveFitter: y >= 0"
  let xy1 := E.mul x y
  let ylogy1 := E.mul y (E.log y)
  let xxy := E.add c.xxy (E.mul x xy1)
  let ylogy := E.add c.ylogy ylogy1
  let xy := E.add c.xy xy1
  let xylogy := E.add c.xylogy (E.mul x ylogy1)
  let sumy := E.add c.sumy y
  let divisor := E.fma sumy xxy (E.mul (-xy) xy)
  let c := { c with xxy := xxy, ylogy := ylogy, xy := xy, xylogy := xylogy, sumy := sumy,
                    divisor := divisor }
  if divisor = 0 then return (0, c)
  else
    let a := E.div (E.sub (E.mul xxy ylogy) (E.mul xy xylogy)) divisor
    let b := E.div (E.sub (E.mul sumy xylogy) (E.mul xy ylogy)) divisor
    return (E.exp (E.fma b x a), { c with a := a, b := b })

/-- `at` (`exp_curve_fitter.cpp:40-44`) -/
def ExpCurve.at (E : FloatEnv K) (c : ExpCurve K) (x : K) : K :=
  if c.divisor = 0 then 0 else E.exp (E.fma c.b x c.a)

end Angonoka.Stun
