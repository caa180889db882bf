import Verif.Model.Json
import Verif.Spec.Project
import Verif.Spec.Estimator

/-!
# What the JSON output means

Definitions used in theorem statements about the timetable.
-/

namespace Angonoka

variable {K : Type} [Field K] [LinearOrder K] [IsStrictOrderedRing K]

/-- The schedule's parameters with task durations in seconds instead of normalised ones. -/
def Project.secondsParams (E : FloatEnv K) (p : Project) (sp : ScheduleParams K) : ScheduleParams K :=
  { sp with taskDuration := p.tasks.map fun t => E.ofInt t.meanDuration }

/-- `i` is the whole part of the non-negative number `x`. -/
def IsWholePart (i : Int) (x : K) : Prop := (i : K) ≤ x ∧ x < (i : K) + 1

/-- What the entry for item `i` of the schedule says, where `start` are the start times by task. -/
structure TaskEntry.Correct (E : FloatEnv K) (p : Project) (q : ScheduleParams K) (s : List Item)
    (start : Nat → K) (i : Nat) (it : Item) (e : TaskEntry) : Prop where
  task : (p.tasks[it.task]?).map Task.name = some e.task
  agent : (p.agents[it.agent]?).map Agent.name = some e.agent
  /-- the number of items the agent has earlier in the schedule -/
  priority : e.priority = (s.take i).countP fun x => x.agent = it.agent
  start : IsWholePart e.start (start it.task)
  duration : IsWholePart e.duration (q.itemTime E it)

/-- How an entry is written in the output file -/
def TaskEntry.object (e : TaskEntry) : Json := .obj [
  ("agent", .str e.agent),
  ("expected_duration", .int e.duration),
  ("expected_start", .int e.start),
  ("priority", .int e.priority),
  ("task", .str e.task)]

/-- How the percentiles are written in the output file -/
def HistogramStats.object (st : HistogramStats) : Json := .obj [
  ("p25", .int st.p25),
  ("p50", .int st.p50),
  ("p75", .int st.p75),
  ("p95", .int st.p95),
  ("p99", .int st.p99)]

end Angonoka
