import Verif.Spec.Estimator
import Verif.Model.Stun

/-!
# Histories of temperatures and tunneling states

Every way of using these classes through their public functions.
-/

namespace Angonoka
open Outcome Stun

variable {K : Type} [Field K] [LinearOrder K] [IsStrictOrderedRing K]

/-- `t` is a `Temperature` constructed with the given beta scale and restart period, after any number
of updates (with any arguments) and resets. -/
inductive TemperatureFor (E : FloatEnv K) (beta : K) (period : Nat) : Temperature K → Prop
  | new {t window} (h : Temperature.new beta window period = ok t) : TemperatureFor E beta period t
  | update {t t' stun} (h : TemperatureFor E beta period t) (hu : t.update E stun = ok t') :
      TemperatureFor E beta period t'
  | reset {t t'} (h : TemperatureFor E beta period t) (hr : t.reset = ok t') :
      TemperatureFor E beta period t'

/-- The beta scale is small enough: in exact arithmetic `0.03 * beta <= 1`, and with rounding `(slack + 0.03) * beta <= 1`, where
`slack` is at most 900 (the default of `beta` is 0.001). -/
def SmallBeta (E : FloatEnv K) (beta : K) : Prop := E.rnd (E.slack + E.rnd (3 / 100)) * beta ≤ 1

instance (E : FloatEnv K) (beta : K) : Decidable (SmallBeta E beta) := by
  unfold SmallBeta
  infer_instance

/-- The environment of a tunneling state: estimator and temperature it works with. `beta` must
be small enough (see C34). -/
structure Environment (E : FloatEnv K) (p : ScheduleParams K) (m : Makespan K)
    (temp : Temperature K) : Prop where
  estimator : EstimatorFor E p m
  temperature : ∃ beta period, SmallBeta E beta ∧ TemperatureFor E beta period temp

/-- `t` is a `StochasticTunneling` for the parameters `p` after any history: constructed from a
valid schedule, then any number of updates (with any random numbers), resets to valid schedules,
copies, and changes of the tunneling parameter (which must stay non-negative). -/
inductive TunnelingFor (E : FloatEnv K) (p : ScheduleParams K) : Tunneling K → Prop
  | new {m m' gamma s t} (hm : EstimatorFor E p m) (hg : 0 ≤ gamma) (hs : ValidSchedule p s)
      (h : Tunneling.new E m gamma s = ok (m', t)) : TunnelingFor E p t
  | update {t m temp d m' temp' t'} (ht : TunnelingFor E p t) (he : Environment E p m temp)
      (h : tunnelingUpdate E p d m temp t = ok (m', temp', t')) : TunnelingFor E p t'
  | reset {t m s m' t'} (ht : TunnelingFor E p t) (hm : EstimatorFor E p m)
      (hs : ValidSchedule p s) (h : tunnelingReset E m t s = ok (m', t')) : TunnelingFor E p t'
  | copy {t t'} (ht : TunnelingFor E p t) (h : t.copy = ok t') : TunnelingFor E p t'
  | setGamma {t gamma} (ht : TunnelingFor E p t) (hg : 0 ≤ gamma) :
      TunnelingFor E p (t.setGamma gamma)

/-- `v` is the makespan of the schedule `s`: what a newly constructed estimator returns. -/
def IsMakespan (E : FloatEnv K) (p : ScheduleParams K) (s : List Item) (v : K) : Prop :=
  ∃ m m', Makespan.new p = ok m ∧ m.call E s = ok (v, m')

/-- A sequence of updates that leads from `t` to `t'`; `l` lists the schedules that were tried (the
mutated current schedules), in order. -/
inductive Updates (E : FloatEnv K) (p : ScheduleParams K) :
    Tunneling K → List (List Item) → Tunneling K → Prop
  | nil {t} : Updates E p t [] t
  | cons {t d s m temp m' temp' t' l t''} (he : Environment E p m temp)
      (hs : mutate p d t.currentSchedule = ok s)
      (h : tunnelingUpdate E p d m temp t = ok (m', temp', t'))
      (hrest : Updates E p t' l t'') : Updates E p t (s :: l) t''

/-- `t` is a `Temperature` constructed with the given parameters; `samples` are the arguments of the
updates since the construction or the last reset, newest first. -/
inductive TemperatureRun (E : FloatEnv K) (beta : K) (window period : Nat) :
    List K → Temperature K → Prop
  | new {t} (h : Temperature.new beta window period = ok t) :
      TemperatureRun E beta window period [] t
  | update {samples t t' stun} (h : TemperatureRun E beta window period samples t)
      (hu : t.update E stun = ok t') : TemperatureRun E beta window period (stun :: samples) t'
  | reset {samples t t'} (h : TemperatureRun E beta window period samples t) (hr : t.reset = ok t') :
      TemperatureRun E beta window period [] t'

/-- Volatility at the `n`-th update: 1 at multiples of the period, falling towards 0 within a
period. -/
def volatility (E : FloatEnv K) (period n : Nat) : K :=
  E.sub 1 (E.div (E.ofInt ((n % period : Nat) : Int)) (E.ofInt (period : Int)))

end Angonoka
