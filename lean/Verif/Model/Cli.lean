import Verif.Model.Load
import Verif.Model.Json
import Verif.Model.Events
import Verif.Model.Progress

/-!
# The command line program

Model of `/repo/src/cli/cli.cpp`, `/repo/src/cli/schedule.cpp`, `/repo/src/cli/utils.h`, the messages of
`/repo/src/exceptions.cpp` and the part of `/repo/src/main.cpp` after the command line has been parsed (by the library CLI11,
which is not modelled).

A computation is the list of its effects in order and how it ended. Not modelled: how JSON is written as text, memory running
out, standard streams that cannot be written.
-/

namespace Angonoka.Cli
open Angonoka Outcome Stun

/-- What the program does that can be seen from outside. -/
inductive Effect (K : Type) where
  | stdout (text : String)
  | stderr (text : String)
  /-- drawing of progress on `stdout` -/
  | progress (op : ProgressOp K)
  /-- the optimization log file with these rows -/
  | log (rows : List (K × Int × Nat))
  /-- the output file with this content -/
  | file (name : String) (content : Json)
  /-- the output file with only a part of its content -/
  | truncated (name : String)

/-- How a computation ended. -/
inductive Flow (α : Type) where
  | ok (a : α)
  /-- `UserError` (`cli/options.h:16`) -/
  | user
  /-- another exception -/
  | throws (e : Err)
  /-- violated contract or undefined behaviour -/
  | ub (site : String)
  /-- it waits forever -/
  | hang
  /-- not over yet: the optimizer or the simulation would go on -/
  | running

/-- A computation with effects -/
structure Io (K α : Type) where
  effects : List (Effect K)
  flow : Flow α

namespace Io
variable {K α β : Type}

/-- Continue if the computation has returned. -/
def bind (x : Io K α) (f : α → Io K β) : Io K β :=
  match x.flow with
  | .ok a => ⟨x.effects ++ (f a).effects, (f a).flow⟩
  | .user => ⟨x.effects, .user⟩
  | .throws e => ⟨x.effects, .throws e⟩
  | .ub s => ⟨x.effects, .ub s⟩
  | .hang => ⟨x.effects, .hang⟩
  | .running => ⟨x.effects, .running⟩

instance : Monad (Io K) where
  pure a := ⟨[], .ok a⟩
  bind := Io.bind

/-- A computation without effects -/
def lift (x : Outcome α) : Io K α :=
  ⟨[], match x with
    | ok a => .ok a
    | throws e => .throws e
    | ub s => .ub s⟩

/-- A computation with effects that returns -/
def emit (es : List (Effect K)) : Io K Unit := ⟨es, .ok ()⟩

/-- `throw UserError{}` -/
def fail : Io K α := ⟨[], .user⟩

end Io

/-- `what()` (`exceptions.cpp:6-81`). The texts of exceptions that are not the project's own are left out. -/
def what : Err → String
  | .invalidDuration task text => "Task \"" ++ task ++ "\" has invalid duration \"" ++ text ++ "\"."
  | .schema message => message
  | .invalidAgentPerformance who => "Agent \"" ++ who ++ "\" has invalid performance."
  | .invalidTaskAssignment task =>
    "Task \"" ++ task ++ "\" must have at most one of: agent, group, groups."
  | .agentPerformanceMinMax who =>
    "The minimum performance of the agent \"" ++ who ++ "\" is greater than maximum."
  | .duplicateAgentDefinition who => "Agent \"" ++ who ++ "\" is specified more than once."
  | .taskDurationMinMax task =>
    "Task \"" ++ task ++ "\" has min duration that is greater than max duration."
  | .noSuitableAgent task => "No suitable agent for task \"" ++ task ++ "\"."
  | .duplicateTaskDefinition id => "Duplicate task id \"" ++ id ++ "\"."
  | .negativePerformance who => "Agent \"" ++ who ++ "\" can't have a negative performance value."
  | .cantBeEmpty what => what ++ " can't be empty."
  | .taskNotFound id => "Task with id \"" ++ id ++ "\" doesn't exist."
  | .agentNotFound name => "Agent \"" ++ name ++ "\" doesn't exist."
  | .dependencyCycle => "Dependency cycle detected."
  | .duration _ => "std::exception"
  | .range => "..."
  | .yaml => "..."
  | .narrowing => "..."
  | .system => "..."
  | .encoding => "..."

/-- `Options` (`cli/options.h:54-63`); the optimization parameters are natural numbers and numbers of `K`, the command line
rejects negative ones (`main.cpp:41-78`). -/
structure Options (K : Type) where
  filename : String
  verbose : Bool
  color : Bool
  quiet : Bool
  output : String
  opt : OptParams K
  logOptimization : Bool
  binSize : Option Int

/-- What is behind the file name: nothing that can be read (`YAML::BadFile`), text that is not YAML
(`YAML::ParserException`, with line and column from 0) or a document. -/
inductive Source where
  | badFile
  | syntaxError (line column : Nat) (message : String)
  | doc (root : Yaml)

/-- Everything the program gets from its surroundings. The arguments of `Predict.predict` are explained there. -/
structure Machine (K : Type) where
  source : Source
  readFloat : Load.ReadFloat
  /-- the output file can be opened for writing -/
  writable : Bool
  /-- there is room for the output file -/
  room : Bool
  /-- the file `optimization_log.csv` can be opened for writing -/
  logWritable : Bool
  /-- the number of columns of the terminal that `indicators::terminal_width` returns, 0 if there is none -/
  columns : Nat
  threads : Nat
  draws : Nat → Nat → Nat → Draws K
  fuel : Nat
  more : List Int → Outcome Bool
  fuel' : Nat
  zs : List K

variable {K : Type}

/-- `print` (`cli/utils.h:15-23`) -/
def print (o : Options K) (text : String) : Io K Unit :=
  Io.emit (if o.quiet then [] else [.stdout text])

/-- The text of `print_error` (`cli/utils.h:33-49`); red is an escape sequence. -/
def red (o : Options K) (text : String) : String :=
  if o.color then "\x1b[31m" ++ text ++ "\x1b[0m" else text

/-- `print_error(options, stderr, ...)` (`cli/utils.h:33-49`) -/
def printError (o : Options K) (text : String) : Io K Unit := Io.emit [.stderr (red o text)]

/-- `die` (`cli/utils.h:61-70`) -/
def die (o : Options K) (text : String) : Io K Unit :=
  Io.emit ((if o.quiet then [] else [.stdout (red o "Error\n")]) ++ [.stderr (red o text)])

/-- `parse_config` (`cli/cli.cpp:88-114`) with `print_yaml_error` (`cli/cli.cpp:21-32`). `config.bin_size`
is passed on in `runPrediction`. -/
def parseConfig (m : Machine K) (o : Options K) : Io K Project := do
  print o "Parsing configuration... "
  Io.lift (expects (o.filename != "") "load_file: path not empty")
  match m.source with
  | .badFile => do
    die o ("Error reading tasks and agents from file \"" ++ o.filename ++ "\".\n")
    Io.fail
  | .syntaxError line column message => do
    die o "Error parsing YAML: "
    printError o ("Error at line " ++ toString (line + 1) ++ ", column " ++ toString (column + 1) ++ ": "
      ++ message ++ "\n")
    Io.fail
  | .doc root =>
    match load m.readFloat root with
    | ok p => do
      print o "OK\n"
      return p
    | throws e =>
      if e.isValidationError then do
        die o ("Validation error: " ++ what e ++ "\n")
        Io.fail
      else do
        die o ("Unexpected error: " ++ what e ++ "\n")
        Io.lift (throws e)
    | ub s => Io.lift (ub s)

variable [Field K] [LinearOrder K] [IsStrictOrderedRing K]

/-- `consume_events` and what happens before the result is available (`cli/cli.cpp:124-131`,
`cli/schedule.cpp:178-185`): the handler gets the events in order, and the function returns after the end event (this is
what `Verif.Props.Events` proves for all interleavings). Text and progress drawing are listed separately here.

If the log cannot be opened, `fmt::output_file` throws while the first event is handled (`cli/events.cpp:21-24`), which is always
`ScheduleOptimizationStart` (`predict_starts`, `schedule_starts`); nothing but a violated contract in the other thread can come before. -/
def consumeEvents {α : Type} (logWritable : Bool) (columns : Nat) (o : Options K) (r : Run K (Option α)) : Io K Unit :=
  match Progress.choose o.color columns with
  | throws e =>
    ⟨[], match r.result with
      | ub s => .ub s
      | _ => .throws e⟩
  | ub s => ⟨[], .ub s⟩
  | ok _ =>
  if o.logOptimization && !logWritable then
    ⟨[.stdout "Optimizing the schedule...\n", .progress .start],
      match r.result with
      | ub s => .ub s
      | _ => .throws .system⟩
  else match ({ color := o.color, verbose := o.verbose, logOptimization := o.logOptimization } :
      Handler K).handleAll r.events with
  | throws e => ⟨[], .throws e⟩
  | ub s => ⟨[], .ub s⟩
  | ok h =>
    ⟨h.output.map .stdout ++ h.display.map .progress ++ (h.log.toList.map .log),
      match r.result with
      | ub s => .ub s
      | ok none => .running
      | _ => if .simple .finished ∈ r.events then .ok () else .hang⟩

/-- `future.get()` -/
def getFuture {α : Type} (r : Run K (Option α)) : Io K α :=
  match r.result with
  | ok (some a) => ⟨[], .ok a⟩
  | ok none => ⟨[], .running⟩
  | throws e => ⟨[], .throws e⟩
  | ub s => ⟨[], .ub s⟩

variable [FloorRing K]

/-- `json_schedule` (`cli/schedule.cpp:170-188`) -/
def jsonSchedule (E : FloatEnv K) (m : Machine K) (config : Project) (o : Options K) : Io K Json := do
  Io.lift (expects (!config.tasks.isEmpty) "json_schedule: tasks not empty")
  Io.lift (expects (!config.agents.isEmpty) "json_schedule: agents not empty")
  let r := Predict.schedule E config o.opt m.threads m.draws m.fuel
  (if o.quiet then pure () else consumeEvents m.logWritable m.columns o r)
  let s ← getFuture r
  Io.lift (Timetable.toJson E config s.schedule s.makespan)

/-- `print_histogram_stats` (`cli/cli.cpp:40-57`) -/
def printHistogramStats (o : Options K) (s : HistogramStats) : Io K Unit :=
  print o ("Estimation:\n"
    ++ "  25% chance to complete the project in under " ++ Format.verbose s.p25 ++ ".\n"
    ++ "  50% chance to complete the project in under " ++ Format.verbose s.p50 ++ ".\n"
    ++ "  75% chance to complete the project in under " ++ Format.verbose s.p75 ++ ".\n"
    ++ "  95% chance to complete the project in under " ++ Format.verbose s.p95 ++ ".\n"
    ++ "  99% chance to complete the project in under " ++ Format.verbose s.p99 ++ ".\n")

/-- Insertion into a map sorted by key -/
def setKey (key : String) (v : Json) : List (String × Json) → List (String × Json)
  | [] => [(key, v)]
  | (k, w) :: rest =>
    if key = k then (key, v) :: rest
    else if key < k then (key, v) :: (k, w) :: rest
    else (k, w) :: setKey key v rest

/-- `json[key] = value`; an exception of the library if `json` is not an object -/
def setField (j : Json) (key : String) (v : Json) : Outcome Json :=
  match j with
  | .obj l => ok (.obj (setKey key v l))
  | _ => ub "json: operator[] on something that is not an object"

/-- `run_prediction` (`cli/cli.cpp:116-145`) -/
def runPrediction (E : FloatEnv K) (m : Machine K) (config : Project) (o : Options K) : Io K Json := do
  Io.lift (expects (!config.tasks.isEmpty) "run_prediction: tasks not empty")
  Io.lift (expects (!config.agents.isEmpty) "run_prediction: agents not empty")
  let r := Predict.predict E config o.binSize o.opt m.threads m.draws m.fuel m.more m.fuel' m.zs
  (if o.quiet then pure () else consumeEvents m.logWritable m.columns o r)
  let p ← getFuture r
  printHistogramStats o p.stats
  let j ← Io.lift (Timetable.toJson E config p.schedule p.makespan)
  let j ← Io.lift (setField j "stats" p.stats.toJson)
  let h ← Io.lift p.histogram.toJson
  Io.lift (setField j "histogram" h)

/-- `json.empty()` for objects and arrays -/
def isEmptyJson : Json → Bool
  | .obj l => l.isEmpty
  | .arr l => l.isEmpty
  | _ => false

/-- `save_schedule_json` (`cli/schedule.cpp:190-216`) and `save_prediction_json` (`cli/cli.cpp:159-185`); the text of the
system's error message is left out. Only opening the file throws an exception: if writing fails, the stream catches what its buffer throws and
remembers it in a flag that nobody looks at, and its destructor ignores the failure of the last part. -/
def saveJson (m : Machine K) (o : Options K) (failure success : String) (j : Json) : Io K Unit := do
  Io.lift (expects (o.output != "") "save_json: output not empty")
  Io.lift (expects (!isEmptyJson j) "save_json: json not empty")
  if m.writable then do
    Io.emit [if m.room then .file o.output j else .truncated o.output]
    print o success
  else do
    printError o failure
    Io.fail

/-- The two modes of the program -/
inductive Command where
  | schedule
  | predict
  deriving DecidableEq, Repr

/-- `main` after the command line has been parsed, inside its `try` (`main.cpp:175-191`) -/
def body (E : FloatEnv K) (m : Machine K) (c : Command) (o : Options K) : Io K Unit := do
  let config ← parseConfig m o
  match c with
  | .schedule => do
    let j ← jsonSchedule E m config o
    saveJson m o "Error saving the schedule:\n" ("Saving the optimized schedule to \"" ++ o.output ++ "\".\n") j
  | .predict => do
    let j ← runPrediction E m config o
    saveJson m o "Error saving the prediction results:\n" ("Time estimation written to \"" ++ o.output ++ "\"\n") j

/-- How the process ends -/
inductive Status where
  | exit (code : Nat)
  /-- `std::terminate` because of an exception that nobody catches -/
  | aborted (e : Err)
  | ub (site : String)
  | hang
  | running
  deriving DecidableEq, Repr

/-- What `main` makes of it (`main.cpp:174-194`) -/
def status {α : Type} : Flow α → Status
  | .ok _ => .exit 0
  | .user => .exit 1
  | .throws e => .aborted e
  | .ub s => .ub s
  | .hang => .hang
  | .running => .running

end Angonoka.Cli
