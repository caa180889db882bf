import Verif.Base.Outcome

/-!
# When a search stops

Used in theorem statements about the end of the optimization.
-/

namespace Angonoka

/-- Progress is reported once in a round, with the number of the epoch; before the first round it is 0. The search ends with the first round after which the
epoch has been the same for `n` rounds: of the rounds from round `n` on, the last one and only the last one has the epoch of `n` rounds before. -/
structure StopsAfter (n : Nat) (epochs : List Nat) : Prop where
  enough : n ≤ epochs.length
  stops : ∀ r, n ≤ r → r ≤ epochs.length → ((0 :: epochs)[r]? = (0 :: epochs)[r - n]? ↔ r = epochs.length)

end Angonoka
