import Verif.Spec.Plan
import Verif.Spec.Rounding

/-!
# The least time a document needs

Used in theorem statements about what `schedule` can write in single precision.
-/

namespace Angonoka

variable {K : Type} [_root_.Field K] [LinearOrder K] [IsStrictOrderedRing K]

/-- A plan of the document ends at `V`, and none ends earlier. This does not depend on the program, nor on how it computes. -/
structure Doc.IsBestEnd (rf : String → Option XFloat) (root : Yaml) (V : K) : Prop where
  reached : ∃ (agent : Nat → Nat) (start finish : Nat → K), Doc.Plan rf root agent start finish ∧ ∀ k < (Doc.tasks root).length, finish k ≤ V
  least : ∀ (agent : Nat → Nat) (start finish : Nat → K) (W : K), Doc.Plan rf root agent start finish →
    (∀ k < (Doc.tasks root).length, finish k ≤ W) → V ≤ W

end Angonoka
