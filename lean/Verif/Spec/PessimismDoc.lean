import Verif.Spec.SimulatedFloat

/-!
# More pessimistic estimates, in terms of the document

As `Spec/Pessimism`. Nothing of the model of the program is used but the type of a document.
-/

namespace Angonoka.Doc
open Angonoka

/-- The second document has the same agents and the same tasks in the same order, with the same dependencies. It expects agents to work at most as fast, and tasks to take
at least as long; an estimate is certain (both bounds are equal) in one document if and only if it is in the other. -/
structure Gloomier (rf : String → Option XFloat) (root root' : Yaml) : Prop where
  agents : List.Forall₂ (fun w w' => w'.1 = w.1 ∧ ∀ slow fast slow' fast' : ℚ, Performance rf w.2 (.fin slow) (.fin fast) →
    Performance rf w'.2 (.fin slow') (.fin fast') → slow' ≤ slow ∧ fast' ≤ fast ∧ (slow = fast ↔ slow' = fast')) (agents root) (agents root')
  tasks : List.Forall₂ (fun q q' => ∀ lo hi lo' hi' : Nat, Duration q.2 lo hi → Duration q'.2 lo' hi' →
    lo ≤ lo' ∧ hi ≤ hi' ∧ (lo = hi ↔ lo' = hi')) (tasks root) (tasks root')
  depends : ∀ k d, DependsOn root k d ↔ DependsOn root' k d

/-- No task takes more than 2²⁴ seconds (194 days). -/
def ShortTasks (root : Yaml) : Prop := ∀ q ∈ tasks root, ∀ lo hi, Duration q.2 lo hi → hi ≤ 2 ^ 24

end Angonoka.Doc
