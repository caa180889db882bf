import Verif.Spec.Plan

/-!
# Documents in which tasks are split

Used in theorem statements. From the model only the data types are used.
-/

namespace Angonoka

/-- In document `root'` tasks of document `root` are split into parts, with the same agents. Task number `k` of `root'` is the part from `a k` to `b k` of task number `g k`
of `root`, where 0 is the beginning of this task and 1 its end: who may do the whole may do the part, and needs the corresponding part of the time. Parts do not overlap.
A part depends on parts of tasks the whole depends on, or on earlier parts of the same task. -/
structure Doc.SplitOf (rf : String → Option XFloat) (root root' : Yaml) (g : Nat → Nat) (a b : Nat → ℚ) : Prop where
  agents : agents root' = agents root
  part : ∀ k < (tasks root').length, 0 ≤ a k ∧ a k ≤ b k ∧ b k ≤ 1
  apart : ∀ k < (tasks root').length, ∀ l < (tasks root').length, k ≠ l → g k = g l → b k ≤ a l ∨ b l ≤ a k
  tasks : ∀ (k : Nat) q', (tasks root')[k]? = some q' → ∃ q, (tasks root)[g k]? = some q ∧
    ∀ w ∈ Doc.agents root, MayDo w q.2 → MayDo w q'.2 ∧ ∀ x, Takes rf w q.2 x → Takes rf w q'.2 (x * (b k - a k))
  deps : ∀ k d : Nat, DependsOn root' k d → DependsOn root (g k) (g d) ∨ g k = g d ∧ b d ≤ a k

end Angonoka
