import Verif.Spec.Tunneling
import Verif.Model.Optimizer

/-!
# Histories of optimizers
-/

namespace Angonoka
open Outcome Stun

variable {K : Type} [Field K] [LinearOrder K] [IsStrictOrderedRing K]

/-- Options that describe a schedulable project and satisfy the documented ranges. -/
structure ValidOptions (E : FloatEnv K) (o : Options K) : Prop where
  wellFormed : WellFormed o.params
  batch_pos : 0 < o.batchSize
  idle_pos : 0 < o.maxIdleIters
  window_pos : 0 < o.stunWindow
  period : ∃ k, o.restartPeriod = 2 ^ k
  beta_pos : 0 < o.betaScale
  beta_small : SmallBeta E o.betaScale
  gamma_nonneg : 0 ≤ o.gamma

/-- `o` is an optimizer constructed with the given options and number of jobs, after any history of
updates (with any random numbers), resets and copies. `ms` lists the makespans reported after
each update since the construction or the last reset, newest first. -/
inductive OptimizerRun (E : FloatEnv K) (opts : Options K) (threads : Nat) :
    List K → Optimizer K → Prop
  | new {o} (h : Optimizer.new E opts threads = ok o) : OptimizerRun E opts threads [] o
  | update {ms o draws o' v} (hr : OptimizerRun E opts threads ms o)
      (h : o.update E draws = ok o') (hv : o'.normalizedMakespan = ok v) :
      OptimizerRun E opts threads (v :: ms) o'
  | reset {ms o o'} (hr : OptimizerRun E opts threads ms o) (h : o.reset E = ok o') :
      OptimizerRun E opts threads [] o'
  | copy {ms o o'} (hr : OptimizerRun E opts threads ms o) (h : o.copy = ok o') :
      OptimizerRun E opts threads ms o'

/-- Number of places in a list where neighbours differ. -/
def changes : List K → Nat
  | a :: b :: rest => (if a = b then 0 else 1) + changes (b :: rest)
  | _ => 0

/-- Number of elements at the front of a list before the first place where neighbours differ. -/
def unchanged : List K → Nat
  | a :: b :: rest => if a = b then unchanged (b :: rest) + 1 else 0
  | _ => 0

/-- One step of the parallel loop over the jobs: any job that has not yet done its batch does
one iteration. The state lists the jobs with the numbers of iterations they have done. -/
inductive ParallelStep (E : FloatEnv K) (draws : Nat → Nat → Draws K) :
    List (Job K × Nat) → List (Job K × Nat) → Prop
  | step {pre j i post j'} (hi : i < j.batchSize) (h : j.step E (draws pre.length i) = ok j') :
      ParallelStep E draws (pre ++ (j, i) :: post) (pre ++ (j', i + 1) :: post)

/-- All jobs have done their batches. -/
def ParallelDone (l : List (Job K × Nat)) : Prop := ∀ x ∈ l, x.2 = x.1.batchSize

/-- `n` rounds of updates; round `k` uses the random numbers `draws k`. -/
def Stun.Optimizer.rounds (E : FloatEnv K) (draws : Nat → Nat → Nat → Draws K) :
    Nat → Optimizer K → Outcome (Optimizer K)
  | 0, o => ok o
  | n + 1, o => do
    let o ← o.rounds E draws n
    o.update E (draws n)

/-- The two parameter sets agree on everything a makespan depends on; the agents available for the
tasks may differ. -/
structure SameTimes (p q : ScheduleParams K) : Prop where
  performance : p.agentPerformance = q.agentPerformance
  duration : p.taskDuration = q.taskDuration
  dependencies : p.dependencies = q.dependencies

end Angonoka
