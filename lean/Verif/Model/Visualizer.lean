import Mathlib.Data.List.Sort
import Mathlib.Data.String.Basic
import Verif.Model.Json

/-!
# The visualizer

Model of what `/repo/tools/visualizer/src/components` computes from the JSON: the rows and strips of the timeline
(`App.tsx`, `AgentTimeline.tsx`, `TaskStrip.tsx`) and the bars of the histogram (`Histogram.tsx`).

Numbers of JavaScript are whole numbers here unless they come from a division, which gives numbers of `K` rounded by `D`. Not modelled: reading
the JSON text, the conversion of numbers to text, and everything about how the page looks besides positions and sizes in
percent. Names are compared by code points; `sort` compares by UTF-16 code units, which puts some names outside the basic plane in another order.
-/

namespace Angonoka.Visualizer
open Angonoka Outcome

/-- lodash's `uniq`: first occurrences -/
def uniq : List String → List String
  | [] => []
  | x :: xs => x :: (uniq xs).filter (· != x)

/-- `agentNames` (`App.tsx:93-95`) -/
def agentNames (tasks : List TaskEntry) : List String :=
  (uniq (tasks.map TaskEntry.agent)).insertionSort (· ≤ ·)

/-- `agentTasks(tasks)[name] || []` (`App.tsx:97-103, 153, 159`); lodash's `sortBy` is stable. -/
def agentTasks (tasks : List TaskEntry) (name : String) : List TaskEntry :=
  (tasks.filter fun e => e.agent == name).insertionSort fun a b => a.priority ≤ b.priority

/-- A task on the timeline: position and width in percent of the timeline's width -/
structure Strip (K : Type) where
  name : String
  left : K
  width : K
  deriving DecidableEq, Repr

variable {K : Type} [Field K] [LinearOrder K] [IsStrictOrderedRing K]

/-- `TaskStrip` with the properties that `AgentTimeline` gives it (`AgentTimeline.tsx:12-20`, `TaskStrip.tsx:11-14`) -/
def strip (D : FloatEnv K) (makespan : Int) (e : TaskEntry) : Strip K where
  name := e.task
  left := D.mul (D.div e.start makespan) 100
  width := D.mul (D.div e.duration makespan) 100

/-- The rows of the timeline with the agents' names (`App.tsx:141-166`) -/
def timelines (D : FloatEnv K) (tasks : List TaskEntry) (makespan : Int) : List (String × List (Strip K)) :=
  (agentNames tasks).map fun v => (v, (agentTasks tasks v).map (strip D makespan))

/-- What `showAgentInfo` shows (`App.tsx:110-128`), before numbers are turned into text -/
structure AgentInfo (K : Type) where
  tasks : Nat
  busy : Int
  idle : Int
  /-- in percent -/
  utilization : K
  deriving DecidableEq, Repr

/-- `showAgentInfo` (`App.tsx:110-128`) -/
def agentInfo (D : FloatEnv K) (tasks : List TaskEntry) (makespan : Int) : AgentInfo K :=
  let busy := tasks.foldl (fun a v => a + v.duration) 0
  { tasks := tasks.length, busy := busy, idle := makespan - busy,
    utilization := D.div ((100 * busy : Int) : K) makespan }

/-- A bar of the histogram -/
structure Bar (K : Type) where
  key : Int
  /-- in percent; `none` for a transparent bar -/
  height : Option K
  /-- the percentage in its title -/
  share : K
  /-- the percentile label -/
  hint : Option Nat
  deriving DecidableEq, Repr

/-- `bins.get(key)` of `new Map(bins)` (`Histogram.tsx:65`): of several entries with the same key, the last one -/
def get (bins : List (Int × Int)) (key : Int) : Option Int := bins.reverse.lookup key

/-- lodash's `max` of the counts (`Histogram.tsx:63`); there is at least one. -/
def maxCount (bins : List (Int × Int)) : Int := (bins.map Prod.snd).foldl max 0

/-- `bin` with `inlineStyle` and `title` (`Histogram.tsx:26-57`) -/
def bar (D : FloatEnv K) (bins : List (Int × Int)) (key : Int) (hint : Option Nat) : Bar K where
  key := key
  height := (get bins key).map fun c => D.add (D.div ((99 * c : Int) : K) (maxCount bins : K)) 1
  share := D.div ((100 * (get bins key).getD 0 : Int) : K) ((bins.map Prod.snd).sum : Int)
  hint := hint

/-- lodash's `range(start, end, step)` for a positive step -/
def range (start stop step : Int) : List Int :=
  (List.range ((stop - start + step - 1) / step).toNat).map fun (k : Nat) => start + k * step

/-- The label of the bar at `i` (`Histogram.tsx:70-75`) -/
def hintAt (binSize : Int) (st : HistogramStats) (i : Int) : Option Nat :=
  ([(95, st.p95), (75, st.p75), (50, st.p50), (25, st.p25)].find? fun (_, pVal) =>
    decide (pVal ≤ i ∧ i < pVal + binSize)).map Prod.fst

/-- `bins` (`Histogram.tsx:59-77`) -/
def bars (D : FloatEnv K) (binSize : Int) (bins : List (Int × Int)) (st : HistogramStats) : Outcome (List (Bar K)) :=
  match bins with
  | [] => ub "bins: histogram.bins[0] is undefined"
  | (start, _) :: _ => ok ((range start (st.p95 + binSize) binSize).map fun i => bar D bins i (hintAt binSize st i))

end Angonoka.Visualizer
