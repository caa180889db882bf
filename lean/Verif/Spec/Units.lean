import Verif.Model.Json

/-!
# Units of time

Plans in which everything takes `k` times as long, and times that are `k` times as long up to rounding down to whole
seconds. From the model only the data types are used.
-/

namespace Angonoka.Doc
open Angonoka

/-- The same plan, except that every task takes `k` times as long -/
def slower (k : Nat) (p : Project) : Project :=
  { p with tasks := p.tasks.map fun t => { t with durMin := k * t.durMin, durMax := k * t.durMax } }

/-- The mean of the shortest and the longest duration is a whole number of seconds, for every task. -/
def WholeMeans (p : Project) : Prop := ∀ t ∈ p.tasks, 2 ∣ t.durMin + t.durMax

/-- `b` is the whole part of `k` times a time with the whole part `a`. -/
def Scaled (k : Nat) (a b : Int) : Prop := k * a ≤ b ∧ b < k * (a + 1)

/-- The same line of two timetables, the second of which takes `k` times as long -/
structure SameLine (k : Nat) (e e' : TaskEntry) : Prop where
  task : e'.task = e.task
  agent : e'.agent = e.agent
  priority : e'.priority = e.priority
  duration : Scaled k e.duration e'.duration
  start : Scaled k e.start e'.start

end Angonoka.Doc
