import Verif.Model.Predict
import Verif.Model.Events
import Verif.Spec.Optimizer

/-!
# Event sequences

Definitions used in theorem statements about events.
-/

namespace Angonoka
open Outcome Stun

variable {K : Type} [Field K] [LinearOrder K] [IsStrictOrderedRing K]

/-- The event reports the progress of the optimization. -/
def Event.IsProgress : Event K → Prop
  | .optimization _ _ _ => True
  | _ => False

/-- The number of rounds the optimizer needs: it has converged after `n` rounds, not before. -/
def FirstConverged (E : FloatEnv K) (draws : Nat → Nat → Nat → Draws K) (o : Optimizer K) (n : Nat) :
    Prop :=
  (∃ o', o.rounds E draws n = ok o' ∧ o'.hasConverged = true) ∧
    ∀ m < n, ∃ o', o.rounds E draws m = ok o' ∧ o'.hasConverged = false

/-- `es` are progress events, one for each of the `n` rounds, in order; each reports the progress, the
makespan in seconds and the epoch of the optimizer after the round. -/
def ReportsRounds [FloorRing K] (E : FloatEnv K) (sp : ScheduleParams K)
    (draws : Nat → Nat → Nat → Draws K) (o : Optimizer K) (n : Nat) (es : List (Event K)) : Prop :=
  es.length = n ∧ ∀ i < n, ∃ o' v m, o.rounds E draws (i + 1) = ok o' ∧
    o'.normalizedMakespan = ok v ∧ Predict.makespan E sp v = ok m ∧
    es[i]? = some (.optimization o'.estimatedProgress m o'.epochs)

/-- Every thread gets its turn again and again. -/
def Fair (turn : Nat → Channel.Thread) : Prop := ∀ t n, ∃ m, n ≤ m ∧ turn m = t

/-- The rows of the optimization log that the events stand for. -/
def logRows : List (Event K) → List (K × Int × Nat)
  | [] => []
  | .optimization progress makespan epoch :: rest => (progress, makespan, epoch) :: logRows rest
  | _ :: rest => logRows rest

end Angonoka
