import Mathlib.Data.Finset.Prod
import Mathlib.Data.Finset.Card
import Verif.Spec.Schedule
import Verif.Model.Mutator

/-!
# The chance of a mutation

The random numbers of a mutation are drawn with equal chances. Here a draw from `0 .. k - 1` is
`raw % k` with `raw` one of `0 .. L - 1`, which is even if `k` divides `L`.
-/

namespace Angonoka.Stun
open Angonoka Outcome Finset

variable {K : Type} [Field K] [LinearOrder K] [IsStrictOrderedRing K]

/-- Every draw a mutation makes from the raw numbers `0 .. L - 1` is even. -/
structure Even (p : ScheduleParams K) (L : Nat) : Prop where
  /-- there are raw numbers -/
  pos : 0 < L
  /-- the place to swap at, if there is more than one task -/
  swap : p.taskCount - 1 ≠ 0 → p.taskCount - 1 ∣ L
  /-- the place to give another agent to -/
  task : p.taskCount ∣ L
  /-- the agent, for each task -/
  agent : ∀ t < p.taskCount, (p.avail t).length ∣ L

open Classical in
/-- How many of the `L ^ 3` equally likely draws turn `s` into `t`: the chance of the mutation
from `s` to `t` is `ways p L s t / L ^ 3`. -/
noncomputable def ways (p : ScheduleParams K) (L : Nat) (s t : List Item) : Nat :=
  ((range L ×ˢ range L ×ˢ range L).filter fun x => mutate p ⟨x.1, x.2.1, x.2.2, 0⟩ s = ok t).card

end Angonoka.Stun
