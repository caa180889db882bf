import Mathlib.Algebra.BigOperators.Group.List.Basic
import Mathlib.Algebra.Order.Field.Basic

/-!
# The average of a window

Used by the theorems about C94.
-/

namespace Angonoka

variable {K : Type} [Field K]

/-- The average of the last `n` samples, or of all if there are fewer. The list has the newest sample first. -/
def windowMean (n : Nat) (samples : List K) : K := (samples.take n).sum / ((samples.take n).length : K)

end Angonoka
