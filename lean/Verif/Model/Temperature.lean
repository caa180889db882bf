import Verif.Base.Float
import Verif.Base.Outcome

/-!
# Temperature

Model of `/repo/src/stun/temperature.{h,cpp}`.
-/

namespace Angonoka.Stun
open Angonoka Outcome

variable {K : Type} [Field K] [LinearOrder K] [IsStrictOrderedRing K]

/-- `Temperature` (`temperature.h:99-104`). The accumulator is modelled by all samples since
the construction or the last reset (newest first) and their number. -/
structure Temperature (K : Type) where
  value : K
  stunWindow : Nat
  samples : List K
  count : Nat
  betaScale : K
  restartPeriodMask : Nat
  deriving DecidableEq, Repr

/-- `std::has_single_bit` -/
def hasSingleBit (n : Nat) : Bool := n ≠ 0 && (n &&& (n - 1)) = 0

/-- Constructor (`temperature.cpp:31-45`) -/
def Temperature.new (betaScale : K) (stunWindow restartPeriod : Nat) :
    Outcome (Temperature K) := do
  expects (decide (0 < betaScale)) "Temperature: beta_scale > 0"
  expects (decide (0 < stunWindow)) "Temperature: stun_window > 0"
  expects (decide (0 < restartPeriod)) "Temperature: restart_period > 0"
  expects (hasSingleBit restartPeriod) "Temperature: restart_period is a power of 2"
  return { value := 1, stunWindow := stunWindow, samples := [], count := 0,
           betaScale := betaScale, restartPeriodMask := restartPeriod - 1 }

/-- `average_stun` (`temperature.cpp:47-51`): the rolling mean of the samples.

Simplified: with rounding, the errors of the rolling mean add up without a bound. In the model it does not fall below
`-E.slack`. Samples between 0 and 1 are all that the program produces; for them this makes no difference in exact arithmetic
(`averageStun_exact`), nor in single precision for the first 83 million samples (`averageStun_float`). -/
def Temperature.averageStun (E : FloatEnv K) (t : Temperature K) : K := max (-E.slack) (E.rolling t.stunWindow t.samples)

/-- Dampening applied after the `count`-th sample (`temperature.cpp:59-61`) -/
def dampening (E : FloatEnv K) (count mask : Nat) : K :=
  E.div (E.ofInt ((count &&& mask : Nat) : Int)) (E.ofInt ((mask + 1 : Nat) : Int))

/-- `Temperature::update` (`temperature.cpp:53-67`). The constant is `0.03F`. -/
def Temperature.update (E : FloatEnv K) (t : Temperature K) (stun : K) :
    Outcome (Temperature K) := do
  expects (decide (0 ≤ stun)) "Temperature::update: stun >= 0"
  let samples := stun :: t.samples
  let count := t.count + 1
  let damp := dampening E count t.restartPeriodMask
  let diff := E.sub (Temperature.averageStun E { t with samples := samples }) (E.rnd (3 / 100))
  let s := E.sub 1 damp
  let value := E.mul t.value (E.add 1 (E.mul (E.mul (E.mul diff t.betaScale) s) s))
  expects (decide (0 ≤ value)) "Temperature::update: value >= 0"
  return { t with value := value, samples := samples, count := count }

/-- `Temperature::reset` (`temperature.cpp:69-78`) -/
def Temperature.reset (t : Temperature K) : Outcome (Temperature K) := do
  expects (decide (0 < t.stunWindow)) "Temperature::reset: stun_window > 0"
  return { t with value := 1, samples := [], count := 0 }

end Angonoka.Stun
