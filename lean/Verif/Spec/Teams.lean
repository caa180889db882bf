import Verif.Spec.Plan

/-!
# Independent teams, phases, chains of tasks

Documents that are parts of a document. From the model only the data types are used.
-/

namespace Angonoka

/-- Document `part` is a part of document `root`: its task number `k` is task `g k` there, its agent number `i` is agent `f i` there. The tasks say and need the same, the
same agents may do them in the same time, and nobody else may. -/
structure Doc.PartOf (rf : String → Option XFloat) (root part : Yaml) (f g : Nat → Nat) : Prop where
  agents_apart : ∀ i < (agents part).length, ∀ j < (agents part).length, f i = f j → i = j
  tasks_apart : ∀ k < (tasks part).length, ∀ l < (tasks part).length, g k = g l → k = l
  agents : ∀ i w, (agents part)[i]? = some w → ∃ w', (agents root)[f i]? = some w'
  tasks : ∀ k q, (tasks part)[k]? = some q → ∃ q', (tasks root)[g k]? = some q' ∧
    (∀ i w w', (Doc.agents part)[i]? = some w → (Doc.agents root)[f i]? = some w' →
      (MayDo w' q'.2 ↔ MayDo w q.2) ∧ ∀ x, Takes rf w' q'.2 x ↔ Takes rf w q.2 x) ∧
    ∀ j w', (Doc.agents root)[j]? = some w' → MayDo w' q'.2 → ∃ i < (Doc.agents part).length, j = f i
  deps : ∀ k d, k < (Doc.tasks part).length → d < (Doc.tasks part).length → (DependsOn root (g k) (g d) ↔ DependsOn part k d)

/-- The document consists of two parts that have nothing to do with each other: every task belongs to one of them, nobody and no task belongs to both, and no
task of the one depends on a task of the other. -/
structure Doc.TwoTeams (rf : String → Option XFloat) (root part₁ part₂ : Yaml) (f₁ g₁ f₂ g₂ : Nat → Nat) : Prop where
  first : PartOf rf root part₁ f₁ g₁
  second : PartOf rf root part₂ f₂ g₂
  tasks : ∀ k < (tasks root).length, (∃ l < (Doc.tasks part₁).length, k = g₁ l) ∨ ∃ l < (Doc.tasks part₂).length, k = g₂ l
  tasks_apart : ∀ k < (Doc.tasks part₁).length, ∀ l < (Doc.tasks part₂).length, g₁ k ≠ g₂ l
  agents_apart : ∀ i < (agents part₁).length, ∀ j < (agents part₂).length, f₁ i ≠ f₂ j
  deps : ∀ k < (Doc.tasks part₁).length, ∀ l < (Doc.tasks part₂).length, ¬ DependsOn root (g₁ k) (g₂ l) ∧ ¬ DependsOn root (g₂ l) (g₁ k)

/-- The document consists of two phases: every task belongs to one of the two parts, and every task of the second depends, directly or not, on every task of the first. The
same agents may work in both. -/
structure Doc.TwoPhases (rf : String → Option XFloat) (root part₁ part₂ : Yaml) (f₁ g₁ f₂ g₂ : Nat → Nat) : Prop where
  first : PartOf rf root part₁ f₁ g₁
  second : PartOf rf root part₂ f₂ g₂
  tasks : ∀ k < (tasks root).length, (∃ l < (Doc.tasks part₁).length, k = g₁ l) ∨ ∃ l < (Doc.tasks part₂).length, k = g₂ l
  after : ∀ k < (Doc.tasks part₁).length, ∀ l < (Doc.tasks part₂).length, Relation.TransGen (DependsOn root) (g₂ l) (g₁ k)

/-- A chain of tasks, each of which depends on the one before it -/
def Doc.IsTaskChain (root : Yaml) (chain : List Nat) : Prop :=
  (∀ k ∈ chain, k < (tasks root).length) ∧ chain.IsChain fun d k => DependsOn root k d

end Angonoka
