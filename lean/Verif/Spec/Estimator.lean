import Verif.Spec.Schedule
import Verif.Model.Makespan

/-!
# Statements about the makespan estimator

An estimator is used through its constructor, its copy constructor and its call
operator; `EstimatorFor` lists all the histories of such uses.
-/

namespace Angonoka
open Outcome Stun

variable {K : Type} [Field K] [LinearOrder K] [IsStrictOrderedRing K]

/-- `m` is an estimator constructed for the parameters `p`, after any number of evaluations
(of any schedules) and copies. -/
inductive EstimatorFor (E : FloatEnv K) (p : ScheduleParams K) : Makespan K → Prop
  | new {m} (h : Makespan.new p = ok m) : EstimatorFor E p m
  | call {m m' s v} (h : EstimatorFor E p m) (hc : m.call E s = ok (v, m')) : EstimatorFor E p m'
  | copy {m m'} (h : EstimatorFor E p m) (hc : m.copy = ok m') : EstimatorFor E p m'

/-- Floating-point sum, from left to right. -/
def FloatEnv.sum (E : FloatEnv K) (l : List K) : K := l.foldl E.add 0

/-- Exact arithmetic. -/
def FloatEnv.IsExact (E : FloatEnv K) : Prop := ∀ x, E.rnd x = x

/-- `p'` describes the same project as `p`, with tasks that are at least as long and agents that
are at most as fast. -/
structure ScheduleParams.Slower (p p' : ScheduleParams K) : Prop where
  deps : p'.dependencies = p.dependencies
  avail : p'.availableAgents = p.availableAgents
  durations : List.Forall₂ (· ≤ ·) p.taskDuration p'.taskDuration
  performance : List.Forall₂ (· ≥ ·) p.agentPerformance p'.agentPerformance

end Angonoka
