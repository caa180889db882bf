import Verif.Spec.Documented

/-!
# Plans

A plan of a project is any assignment of agents and times to the tasks; it mentions no order of the tasks and no schedule.
-/

namespace Angonoka

variable {K : Type} [_root_.Field K] [LinearOrder K] [IsStrictOrderedRing K]

/-- A plan: every task is done by an agent that may do it, starts at time 0 or later and takes its time; no task starts before its
dependencies have ended; nobody does two tasks at the same time. -/
structure Plan (E : FloatEnv K) (p : ScheduleParams K) (agent : Nat → Nat) (start finish : Nat → K) : Prop where
  eligible : ∀ t < p.taskCount, agent t ∈ p.avail t
  nonneg : ∀ t < p.taskCount, 0 ≤ start t
  time : ∀ t < p.taskCount, finish t = E.add (start t) (p.itemTime E ⟨t, agent t⟩)
  deps : ∀ t < p.taskCount, ∀ d ∈ p.deps t, finish d ≤ start t
  alone : ∀ t < p.taskCount, ∀ u < p.taskCount, t ≠ u → agent t = agent u → finish t ≤ start u ∨ finish u ≤ start t

/-- A plan of the document, with the numbers of the agents and the times of the tasks of the document, in seconds: every task is done by an
agent that may do it, starts at time 0 or later and takes the time this agent is expected to need; no task starts before the end of the tasks it
depends on; nobody does two tasks at the same time. -/
structure Doc.Plan (rf : String → Option XFloat) (root : Yaml) (agent : Nat → Nat) (start finish : Nat → K) : Prop where
  time : ∀ (k : Nat) q, (tasks root)[k]? = some q → 0 ≤ start k ∧
    ∃ w x, (agents root)[agent k]? = some w ∧ MayDo w q.2 ∧ Takes rf w q.2 x ∧ finish k = start k + x
  deps : ∀ k d : Nat, DependsOn root k d → finish d ≤ start k
  alone : ∀ k < (tasks root).length, ∀ l < (tasks root).length, k ≠ l → agent k = agent l → finish k ≤ start l ∨ finish l ≤ start k

/-- Document `root'` asks for less, or has more to do it with, than document `root`: its task number `k` is task `g k` of the other, and its agents
include the other's agents, of which number `i` now has number `f i`. These may still do the tasks they could do, and need no more time for them; and tasks depend
only on tasks they depended on. There may be fewer tasks, and more agents. -/
structure Doc.Eases (rf : String → Option XFloat) (root root' : Yaml) (f g : Nat → Nat) : Prop where
  agents_apart : ∀ i < (agents root).length, ∀ j < (agents root).length, f i = f j → i = j
  tasks_apart : ∀ k < (tasks root').length, ∀ l < (tasks root').length, g k = g l → k = l
  tasks : ∀ (k : Nat) q', (tasks root')[k]? = some q' → ∃ q, (tasks root)[g k]? = some q ∧
    ∀ (i : Nat) w, (agents root)[i]? = some w → MayDo w q.2 →
      ∃ w', (agents root')[f i]? = some w' ∧ MayDo w' q'.2 ∧ ∀ x, Takes rf w q.2 x → ∃ x' ≤ x, Takes rf w' q'.2 x'
  deps : ∀ k d : Nat, DependsOn root' k d → DependsOn root (g k) (g d)

end Angonoka
