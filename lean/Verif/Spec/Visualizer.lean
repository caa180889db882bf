import Verif.Model.Visualizer
import Verif.Spec.Json
import Verif.Spec.Histogram

/-!
# What the visualizer should show

Definitions used in theorem statements about the visualizer.
-/

namespace Angonoka.Visualizer
open Angonoka

variable {K : Type} [Field K] [LinearOrder K] [IsStrictOrderedRing K]

/-- The name of the item's agent -/
def agentOf (p : Project) (it : Item) : Option String := (p.agents[it.agent]?).map Agent.name

/-- The strip shows the item: the name of its task, and start and duration in whole seconds in percent of the makespan. -/
def Shows (E : FloatEnv K) (p : Project) (q : ScheduleParams K) (start : Nat → K) (makespan : Int) (it : Item) (x : Strip K) : Prop :=
  (p.tasks[it.task]?).map Task.name = some x.name ∧
    ∃ a b : Int, IsWholePart a (start it.task) ∧ IsWholePart b (q.itemTime E it) ∧
      x.left = (a : K) / makespan * 100 ∧ x.width = (b : K) / makespan * 100

/-- The rows show the schedule: one row for each agent that works, in the order of their names; in it all items of the agent, in the order of the schedule,
from left to right without overlap. -/
structure ShowsSchedule (E : FloatEnv K) (p : Project) (q : ScheduleParams K) (start : Nat → K) (makespan : Int) (s : List Item)
    (rows : List (String × List (Strip K))) : Prop where
  sorted : (rows.map Prod.fst).Pairwise (· < ·)
  names : ∀ v, v ∈ rows.map Prod.fst ↔ ∃ it ∈ s, agentOf p it = some v
  items : ∀ r ∈ rows, List.Forall₂ (Shows E p q start makespan) (s.filter fun it => agentOf p it = some r.1) r.2
  starts : ∀ r ∈ rows, ∀ x ∈ r.2, 0 ≤ x.left ∧ 0 ≤ x.width
  disjoint : ∀ r ∈ rows, r.2.Pairwise fun x y => x.left + x.width ≤ y.left

/-- Different agents have different names. -/
def NamesDiffer (p : Project) : Prop :=
  ∀ (i j : Nat) (a b : Agent), p.agents[i]? = some a → p.agents[j]? = some b → a.name = b.name → i = j

/-- The percentiles that get a label -/
def labels (st : HistogramStats) : List (Nat × Int) := [(25, st.p25), (50, st.p50), (75, st.p75), (95, st.p95)]

end Angonoka.Visualizer
