import Verif.Model.Simulation
import Verif.Spec.Project

/-!
# What sampling means

Definitions used in theorem statements about simulations.
-/

namespace Angonoka
open Outcome Stun

variable {K : Type} [Field K] [LinearOrder K] [IsStrictOrderedRing K]

/-- `sim` is a simulation of the project `p`, after any number of runs, copies and changes of the project. -/
inductive SimulationFor [FloorRing K] (E : FloatEnv K) : Project → Simulation K → Prop
  | new {p sim} (h : Simulation.new p = ok sim) : SimulationFor E p sim
  | run {p sim s zs v zs' sim'} (h : SimulationFor E p sim)
      (hc : sim.call E s zs = ok (some (v, zs', sim'))) : SimulationFor E p sim'
  | copy {p sim sim'} (h : SimulationFor E p sim) (hc : sim.copy = ok sim') : SimulationFor E p sim'
  | setParams {p sim p' sim'} (h : SimulationFor E p sim) (hc : sim.setParams p' = ok sim') :
      SimulationFor E p' sim'

/-- A normally distributed value around the middle of the bounds, with a standard deviation of a quarter of
their distance, for the standard normal value `z`. -/
def drawn (E : FloatEnv K) (lo hi z : K) : K :=
  E.add (E.mul z (E.div (E.sub hi lo) 4)) (E.div (E.add lo hi) 2)

/-- `Samples E bounds xs zs rest`: sampling one value for each pair of bounds takes the random numbers `zs`,
gives `xs` and leaves `rest`. For equal bounds no random number is used; otherwise the first number that
gives a positive value. -/
inductive Samples (E : FloatEnv K) : List (K × K) → List K → List K → List K → Prop
  | nil {zs} : Samples E [] [] zs zs
  | fixed {b bounds xs zs rest} (h : Samples E bounds xs zs rest) :
      Samples E ((b, b) :: bounds) (b :: xs) zs rest
  | drawn {lo hi bounds z xs zs rest} (rejected : List K) (hne : lo ≠ hi)
      (hr : ∀ r ∈ rejected, drawn E lo hi r ≤ 0) (hz : 0 < drawn E lo hi z)
      (h : Samples E bounds xs zs rest) :
      Samples E ((lo, hi) :: bounds) (drawn E lo hi z :: xs) (rejected ++ z :: zs) rest

/-- Bounds of the agents' performances. -/
def Project.performanceBounds (p : Project) (bounds : List (K × K)) : Prop :=
  List.Forall₂ (fun a b => ∃ lo hi : ℚ, a.PerformanceOk lo hi ∧ b = ((lo : K), (hi : K)))
    p.agents bounds

/-- Bounds of the tasks' durations. -/
def Project.durationBounds (E : FloatEnv K) (p : Project) : List (K × K) :=
  p.tasks.map fun t => (E.ofInt t.durMin, E.ofInt t.durMax)

/-- `v` is the result of some run of some simulation of the project. -/
def RunResult [FloorRing K] (E : FloatEnv K) (p : Project) (s : List Item) (v : Int) : Prop :=
  ∃ sim zs zs' sim', SimulationFor E p sim ∧ sim.call E s zs = ok (some (v, zs', sim'))

/-- `vs` are the results of successive runs of simulations of the project, each with the random numbers that the previous one left:
`zs` before the first, `rest` after the last. -/
inductive Runs [FloorRing K] (E : FloatEnv K) (p : Project) (s : List Item) : List Int → List K → List K → Prop
  | nil {zs} : Runs E p s [] zs zs
  | snoc {vs v zs zs' rest sim sim'} (h : Runs E p s vs zs zs') (hs : SimulationFor E p sim)
      (hc : sim.call E s zs' = ok (some (v, rest, sim'))) : Runs E p s (vs ++ [v]) zs rest

/-- The stopping rule, asked after every 10000 runs that the random numbers `zs` lead to, answers: it violates no contract. -/
def RuleAnswers [FloorRing K] (E : FloatEnv K) (p : Project) (s : List Item) (more : List Int → Outcome Bool) (zs : List K) : Prop :=
  ∀ vs rest (k : Nat), 1 ≤ k → vs.length = 10000 * k → Runs E p s vs zs rest → ∃ c, more vs = ok c

end Angonoka
