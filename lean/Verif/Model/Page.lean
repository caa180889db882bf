import Verif.Model.Visualizer

/-!
# The visualizer's page

Model of what happens on the visualizer's page (`/repo/tools/visualizer/src/components`): opening a project from a file
or from pasted text (`OpenDialog.tsx`, `ProjectPaste.tsx`, `ProjectUpload.tsx`) and the panel with information on an agent or a
task (`App.tsx`, `InfoPanel.tsx`).

The state is that of the components (`useState`), and every handler is a step. `JSON.parse` is a parameter `parse` (`none`
is a `SyntaxError`), as are `humanize` of dayjs and `toFixed` (`Texts`). JSON that is not a project in the sense of `types.ts`
makes components fail when they are rendered; this is `ub`. (What `Histogram` needs in addition is in `bars`.) Components keep their state while they are shown; references to
elements (`useRef`) are `null` once the component is gone, which is why a dialog has a number here.
-/

namespace Angonoka.Visualizer
open Angonoka Outcome

/-- `Project` (`types.ts:22-27`) -/
structure Shown where
  makespan : Int
  tasks : List TaskEntry
  histogram : Option (Int × List (Int × Int))
  stats : Option HistogramStats
  deriving DecidableEq, Repr

/-! ### Access to properties of parsed JSON -/

/-- `j.key`; `none` is `undefined`. -/
def property : Json → String → Option Json
  | .obj l, key => l.lookup key
  | _, _ => none

/-- A number -/
def asInt : Json → Option Int
  | .int i => some i
  | _ => none

/-- A string -/
def asString : Json → Option String
  | .str s => some s
  | _ => none

/-- An array -/
def asArray : Json → Option (List Json)
  | .arr l => some l
  | _ => none

/-- `Task` (`types.ts:1-7`) -/
def readTask (j : Json) : Option TaskEntry := do
  let agent ← property j "agent" >>= asString
  let duration ← property j "expected_duration" >>= asInt
  let start ← property j "expected_start" >>= asInt
  let priority ← property j "priority" >>= asInt
  let task ← property j "task" >>= asString
  if 0 ≤ priority then
    some { task := task, agent := agent, priority := priority.toNat, duration := duration, start := start }
  else none

/-- An element of `bins` (`types.ts:11`) -/
def readBin : Json → Option (Int × Int)
  | .arr [.int low, .int count] => some (low, count)
  | _ => none

/-- `Histogram` (`types.ts:9-12`) -/
def readHistogram (j : Json) : Option (Int × List (Int × Int)) := do
  let w ← property j "bin_size" >>= asInt
  let bins ← property j "bins" >>= asArray
  let bins ← bins.mapM readBin
  return (w, bins)

/-- `Stats` (`types.ts:14-20`). Nothing uses `p99`, so it may be missing. -/
def readStats (j : Json) : Option HistogramStats := do
  let p25 ← property j "p25" >>= asInt
  let p50 ← property j "p50" >>= asInt
  let p75 ← property j "p75" >>= asInt
  let p95 ← property j "p95" >>= asInt
  return { p25 := p25, p50 := p50, p75 := p75, p95 := p95, p99 := (property j "p99" >>= asInt).getD 0 }

/-- Reading an optional part: absent is fine, malformed is not. -/
def readOptional {α : Type} (read : Json → Option α) : Option Json → Option (Option α)
  | none => some none
  | some j => (read j).map some

/-- `Project` (`types.ts:22-27`) -/
def readProject (j : Json) : Option Shown := do
  let makespan ← property j "makespan" >>= asInt
  let tasks ← property j "tasks" >>= asArray
  let tasks ← tasks.mapM readTask
  let histogram ← readOptional readHistogram (property j "histogram")
  let stats ← readOptional readStats (property j "stats")
  return { makespan := makespan, tasks := tasks, histogram := histogram, stats := stats }

/-! ### The information panel -/

variable {K : Type} [Field K] [LinearOrder K] [IsStrictOrderedRing K]

/-- How numbers become text: `dayjs.duration(d, "seconds").humanize()` and `x.toFixed(0)` -/
structure Texts (K : Type) where
  humanize : Int → String
  toFixed : K → String

/-- `formatDuration` (`App.tsx:105-108`) -/
def Texts.formatDuration (T : Texts K) (d : Int) : String := if d < 1 then "None" else T.humanize d

/-- `InfoPanelState` (`App.tsx:73-77`) of a visible panel -/
structure Panel where
  title : String
  content : List (String × String)
  deriving DecidableEq, Repr

/-- `showAgentInfo` (`App.tsx:110-128`) -/
def agentPanel (D : FloatEnv K) (T : Texts K) (name : String) (tasks : List TaskEntry) (makespan : Int) : Panel :=
  let info := agentInfo D tasks makespan
  { title := name
    content := [("Total tasks", toString info.tasks), ("Total busy time", T.formatDuration info.busy),
      ("Total idle time", T.formatDuration info.idle), ("Utilization", T.toFixed info.utilization ++ "%")] }

/-- `showTaskInfo` (`App.tsx:130-139`) -/
def taskPanel (T : Texts K) (e : TaskEntry) : Panel where
  title := e.task
  content := [("Duration", T.formatDuration e.duration), ("Priority", toString (e.priority + 1))]

/-! ### The page -/

/-- The state of the page -/
structure Page where
  /-- `project` of `App` (`App.tsx:169-171`) -/
  project : Shown
  /-- `infoPanelState` of `App` (`App.tsx:172-174`); `none` is `isVisible: false`. -/
  panel : Option Panel
  /-- `isVisible` of `OpenDialog` (`OpenDialog.tsx:88`) and `errorText` of the `ProjectPaste` in it (`ProjectPaste.tsx:27`) -/
  dialog : Option String
  /-- the number of dialogs so far -/
  opened : Nat
  /-- the files that were chosen: the number of the dialog, and the text -/
  files : List (Nat × String)
  deriving DecidableEq, Repr

/-- What can happen -/
inductive PageEvent where
  /-- click on `Open` -/
  | openDialog
  /-- click on the cross or beside the dialog -/
  | closeDialog
  /-- click on `Load` with this text in the text area -/
  | paste (text : String)
  /-- a file with this text is chosen -/
  | choose (text : String)
  /-- the file that was chosen as number `k` has been read -/
  | fileRead (k : Nat)
  /-- click on the name in row `i` of the timeline -/
  | agent (i : Nat)
  /-- click on strip `j` in row `i` of the timeline -/
  | task (i j : Nat)
  /-- click on the cross of the panel -/
  | closePanel
  deriving DecidableEq, Repr

namespace Page

/-- A page that shows a project (`App.tsx:168-174`) -/
def start (project : Shown) : Page := { project := project, panel := none, dialog := none, opened := 0, files := [] }

/-- `opener(project)` (`OpenDialog.tsx:12-20`, `App.tsx:182`) -/
def openProject (pg : Page) (j : Json) : Outcome Page :=
  match readProject j with
  | some project => ok { pg with dialog := none, project := project }
  | none => ub "App: not a project"

/-- `loadProject` of `ProjectPaste` (`ProjectPaste.tsx:10-24`) -/
def pasteProject (parse : String → Option Json) (pg : Page) (text : String) : Outcome Page :=
  match parse text with
  | some j => pg.openProject j
  | none => ok { pg with dialog := some "Invalid JSON" }

/-- `loadProject` of `ProjectUpload` after `await` (`ProjectUpload.tsx:16-18`) in dialog `n`: if the dialog is gone,
`fileUpload.current` is `null` and the assignment fails; if the text is not JSON, `JSON.parse` does. Nobody catches the error. -/
def uploadProject (parse : String → Option Json) (pg : Page) (n : Nat) (text : String) : Outcome Page :=
  if pg.dialog.isSome ∧ n = pg.opened then
    match parse text with
    | some j => pg.openProject j
    | none => ok pg
  else ok pg

/-- What happens at an event. Events that are not possible, such as a click in a dialog that is not there, have no effect. -/
def step (D : FloatEnv K) (T : Texts K) (parse : String → Option Json) (pg : Page) : PageEvent → Outcome Page
  | .openDialog =>
    if pg.dialog.isSome then ok pg else ok { pg with dialog := some "", opened := pg.opened + 1 }
  | .closeDialog => ok { pg with dialog := none }
  | .paste text => if pg.dialog.isSome then pg.pasteProject parse text else ok pg
  | .choose text => if pg.dialog.isSome then ok { pg with files := pg.files ++ [(pg.opened, text)] } else ok pg
  | .fileRead k =>
    match pg.files[k]? with
    | some (n, text) => pg.uploadProject parse n text
    | none => ok pg
  | .agent i =>
    match (agentNames pg.project.tasks)[i]? with
    | some name =>
      ok { pg with panel := some (agentPanel D T name (agentTasks pg.project.tasks name) pg.project.makespan) }
    | none => ok pg
  | .task i j =>
    match ((agentNames pg.project.tasks)[i]?).bind fun name => (agentTasks pg.project.tasks name)[j]? with
    | some e => ok { pg with panel := some (taskPanel T e) }
    | none => ok pg
  | .closePanel => ok { pg with panel := none }

/-- All that happens -/
def run (D : FloatEnv K) (T : Texts K) (parse : String → Option Json) : Page → List PageEvent → Outcome Page
  | pg, [] => ok pg
  | pg, e :: es => do
    let pg ← pg.step D T parse e
    run D T parse pg es

end Page
end Angonoka.Visualizer
