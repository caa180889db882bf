/-!
# The cursor

Model of `/repo/src/cli/terminal.cpp` and the terminal part of `ProgressBar` (`/repo/src/cli/progress.cpp:27-44`).

`stdout` is a buffer in front of the terminal; the C library may pass on any amount of it at any time (when the buffer is full, at
the end of a line, at a flush by the progress bar's library). `quick_exit` throws the rest away. Operations of the C library on
`stdout` are taken to be atomic; the functions here are not safe in signal handlers, what goes wrong beyond the order of
these operations is not modelled.
-/

namespace Angonoka.Terminal

/-- What is written to `stdout` -/
inductive Out where
  /-- the escape sequence of `indicators::show_console_cursor(false)` -/
  | hide
  /-- the escape sequence of `indicators::show_console_cursor(true)` -/
  | show
  | text (s : String)
  deriving DecidableEq, Repr

/-- `cursor_suppressed` (`terminal.cpp:28-30`), what is in the buffer and what the terminal has received -/
structure State where
  flag : Bool := false
  buffer : List Out := []
  screen : List Out := []
  deriving DecidableEq, Repr

/-- Atomic operations -/
inductive Step where
  /-- `cursor_suppressed.test_and_set()` -/
  | set
  /-- `cursor_suppressed.clear()` -/
  | clear
  | put (o : Out)
  /-- `std::fflush(stdout)` -/
  | flush
  deriving DecidableEq, Repr

/-- The buffer's first `k` items reach the terminal. -/
def State.spill (t : State) (k : Nat) : State :=
  { t with buffer := t.buffer.drop k, screen := t.screen ++ t.buffer.take k }

def State.step (t : State) : Step → State
  | .set => { t with flag := true }
  | .clear => { t with flag := false }
  | .put o => { t with buffer := t.buffer ++ [o] }
  | .flush => t.spill t.buffer.length

/-- `hide_cursor` (`terminal.cpp:70-74`) -/
def hideCursor : List Step := [.set, .put .hide]

/-- `show_cursor` (`terminal.cpp:76-80`) -/
def showCursor : List Step := [.put .show, .clear]

/-- What the main thread does to the terminal: the operations of the progress bar, and printing (`fmt::print`) -/
inductive Op where
  | start
  | update (bar : String)
  | stop
  | print (text : String)
  deriving DecidableEq, Repr

/-- `ProgressBar::start` (with the bar at zero), `update`, `stop` (`progress.cpp:27-44`) and `erase_line` (`terminal.cpp:66`) -/
def Op.steps : Op → List Step
  | .start => hideCursor ++ [.put (.text "")]
  | .update bar => [.put (.text bar)]
  | .stop => showCursor ++ [.put (.text "\x1b[2K")]
  | .print text => [.put (.text text)]

/-- What `at_exit` does after testing the flag (`terminal.cpp:43-53`) -/
def atExitSteps (flag : Bool) : List Step := if flag then showCursor ++ [.flush] else []

/-- Where the signal handler is: `quick_exit` runs `at_exit` (`terminal.cpp:14-18`, `57`). -/
inductive Handler where
  /-- no signal yet, or `at_exit` has not tested the flag yet -/
  | waiting
  | exiting (rest : List Step)
  deriving DecidableEq, Repr

/-- Both threads and the terminal -/
structure Process where
  state : State := {}
  main : List Step
  handler : Handler := .waiting
  deriving DecidableEq, Repr

/-- Who acts next; the handler's first action is the test of the flag. -/
inductive Turn where
  | main
  | handler
  | spill (k : Nat)
  deriving DecidableEq, Repr

def Process.turn (p : Process) : Turn → Process
  | .main =>
    match p.main with
    | [] => p
    | s :: rest => { p with state := p.state.step s, main := rest }
  | .handler =>
    match p.handler with
    | .waiting => { p with handler := .exiting (atExitSteps p.state.flag) }
    | .exiting [] => p
    | .exiting (s :: rest) => { p with state := p.state.step s, handler := .exiting rest }
  | .spill k => { p with state := p.state.spill k }

def Process.run (p : Process) (turns : List Turn) : Process := turns.foldl Process.turn p

/-- The program, before it touches the terminal -/
def Process.new (ops : List Op) : Process := { main := ops.flatMap Op.steps }

/-- `at_exit` is over, so the process ends and what is in the buffer is lost. -/
def Process.over (p : Process) : Prop := p.handler = .exiting []

end Angonoka.Terminal
