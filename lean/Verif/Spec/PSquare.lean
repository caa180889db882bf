import Verif.Model.PSquare

/-!
# The quantiles that decide when to stop

Definitions used in theorem statements.
-/

namespace Angonoka

variable {K : Type} [Field K] [LinearOrder K] [IsStrictOrderedRing K]

/-- Half the difference of two numbers of the type is not rounded to more than the difference. Holds for exact arithmetic and for single precision. -/
def FloatEnv.Halves (E : FloatEnv K) : Prop :=
  ∀ a b, E.rnd a = a → E.rnd b = b → a ≤ b → E.rnd (E.rnd (b - a) / 2) ≤ b - a

end Angonoka
