import Verif.Model.Page

/-!
# What the visualizer's page should show

Definitions used in theorem statements about the page.
-/

namespace Angonoka.Visualizer
open Angonoka

variable {K : Type} [Field K] [LinearOrder K] [IsStrictOrderedRing K]

/-- The rows show the timetable: one row for each agent in it, in the order of their names; in it all entries of the agent, in the order
of the timetable, from left to right without overlap; positions and widths are starts and durations in percent of the makespan, and nothing
sticks out. -/
structure ShowsTimetable (es : List TaskEntry) (makespan : Int) (rows : List (String × List (Strip K))) : Prop where
  sorted : (rows.map Prod.fst).Pairwise (· < ·)
  names : ∀ v, v ∈ rows.map Prod.fst ↔ ∃ e ∈ es, e.agent = v
  strips : ∀ r ∈ rows, r.2 = (es.filter fun e => e.agent = r.1).map fun e =>
    { name := e.task, left := e.start / makespan * 100, width := e.duration / makespan * 100 }
  inside : ∀ r ∈ rows, ∀ x ∈ r.2, 0 ≤ x.left ∧ 0 ≤ x.width ∧ x.left + x.width ≤ 100
  disjoint : ∀ r ∈ rows, r.2.Pairwise fun x y => x.left + x.width ≤ y.left

/-- The rows show the timetable, as in `ShowsTimetable`, but the last strips may stick out a little: by two seconds and 0.025 percent of the makespan. -/
structure ShowsAbout (es : List TaskEntry) (makespan : Int) (rows : List (String × List (Strip K))) : Prop where
  sorted : (rows.map Prod.fst).Pairwise (· < ·)
  names : ∀ v, v ∈ rows.map Prod.fst ↔ ∃ e ∈ es, e.agent = v
  strips : ∀ r ∈ rows, r.2 = (es.filter fun e => e.agent = r.1).map fun e =>
    { name := e.task, left := e.start / makespan * 100, width := e.duration / makespan * 100 }
  inside : ∀ r ∈ rows, ∀ x ∈ r.2, 0 ≤ x.left ∧ 0 ≤ x.width ∧ x.left + x.width ≤ 100 + 25 / 1000 + 200 / makespan
  disjoint : ∀ r ∈ rows, r.2.Pairwise fun x y => x.left + x.width ≤ y.left

/-- The bars show the values, in bins of width `w`: there are bars for the multiples of `w` from the first bin until beyond the 95th percentile, in
ascending order. The title of a bar is the percentage of values that lie in it; it is transparent if there are none; otherwise its height is
proportional to the number of values above 1 percent, and 100 percent for the bin with the most values. -/
structure ShowsHistogram (w : Int) (vs : List Int) (p95 : Int) (bs : List (Bar K)) : Prop where
  ascending : (bs.map Bar.key).Pairwise (· < ·)
  bins : ∀ i, i ∈ bs.map Bar.key ↔ w ∣ i ∧ (∃ v ∈ vs, v < i + w) ∧ i < p95 + w
  heights : ∃ most : Nat, (∃ i, w ∣ i ∧ vs.countP (fun v => i ≤ v ∧ v < i + w) = most) ∧
    ∀ x ∈ bs, ∀ n, n = vs.countP (fun v => x.key ≤ v ∧ v < x.key + w) →
      n ≤ most ∧ x.share = 100 * (n : K) / vs.length ∧ x.height = if n = 0 then none else some (99 * (n : K) / most + 1)

/-- The text is the JSON of the project. -/
def IsProject (parse : String → Option Json) (text : String) (project : Shown) : Prop :=
  ∃ j, parse text = some j ∧ readProject j = some project

/-- A duration as the panel shows it: `None` if it is less than a second -/
def Texts.Duration (T : Texts K) (d : Int) (text : String) : Prop :=
  (d ≤ 0 → text = "None") ∧ (0 < d → text = T.humanize d)

/-- The panel is about the task: its name, its duration, and its position among its agent's tasks, counted from 1. -/
def Panel.OfTask (T : Texts K) (e : TaskEntry) (p : Panel) : Prop :=
  p.title = e.task ∧ ∃ d, T.Duration e.duration d ∧ p.content = [("Duration", d), ("Priority", toString (e.priority + 1))]

/-- The panel is about the agent with this name: the number of the agent's tasks in the project, the time they take together, the rest of the
makespan, and the former in percent of the makespan. -/
def Panel.OfAgent (T : Texts K) (project : Shown) (name : String) (p : Panel) : Prop :=
  p.title = name ∧ ∃ (mine : List TaskEntry) (busy idle : String),
    mine = project.tasks.filter (fun e => e.agent = name) ∧
    T.Duration (mine.map TaskEntry.duration).sum busy ∧
    T.Duration (project.makespan - (mine.map TaskEntry.duration).sum) idle ∧
    p.content = [("Total tasks", toString mine.length), ("Total busy time", busy), ("Total idle time", idle),
      ("Utilization", T.toFixed (100 * ((mine.map TaskEntry.duration).sum : K) / project.makespan) ++ "%")]

/-- The panel is about an agent or a task of the project. -/
def Panel.Describes (T : Texts K) (project : Shown) (p : Panel) : Prop :=
  (∃ e ∈ project.tasks, p.OfTask T e) ∨ ∃ e ∈ project.tasks, p.OfAgent T project e.agent

/-- Events that give the page a project -/
def PageEvent.Brings : PageEvent → Prop
  | .paste _ => True
  | .fileRead _ => True
  | _ => False

/-- On a page that has been opened with `project`, the dialog is open after the events. -/
def DialogOpen (D : FloatEnv K) (T : Texts K) (parse : String → Option Json) (project : Shown) (es : List PageEvent) : Prop :=
  ∃ pg, (Page.start project).run D T parse es = .ok pg ∧ pg.dialog ≠ none

/-- Text that is not JSON has been pasted, and the dialog has been open before and since. -/
def PastedInvalid (D : FloatEnv K) (T : Texts K) (parse : String → Option Json) (project : Shown) (es : List PageEvent) : Prop :=
  ∃ pre text post, es = pre ++ .paste text :: post ∧ parse text = none ∧ DialogOpen D T parse project pre ∧
    ∀ k ≤ post.length, DialogOpen D T parse project (pre ++ .paste text :: post.take k)

end Angonoka.Visualizer
