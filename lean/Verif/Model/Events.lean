import Verif.Model.Predict
import Verif.Model.Format

/-!
# Consuming events

Model of `/repo/src/cli/events.{h,cpp}`: the two threads that share the event queue, and the event handler.

The queue is `moodycamel::ReaderWriterQueue`, a queue for one producer and one consumer; it is modelled as a list with
atomic `enqueue` and `try_dequeue`. A step of a thread is one call of these.
-/

namespace Angonoka
open Outcome

variable {K : Type}

/-- `is_final_event` (`cli/events.cpp:8-14`) -/
def Event.isFinal : Event K → Bool
  | .simple .finished => true
  | _ => false

/-- The queue and the threads at its ends. -/
structure Channel (K : Type) where
  /-- events the producer has yet to enqueue; it ends after these (by returning or by an exception) -/
  pending : List (Event K)
  queue : List (Event K)
  /-- the consumer's variable `evt` -/
  evt : Event K
  /-- events passed to the handler -/
  handled : List (Event K)
  /-- `consume_events` has returned -/
  returned : Bool
  deriving DecidableEq, Repr

namespace Channel

/-- The beginning. `evt` is default-initialised: the first enumerator of the first alternative
(`cli/events.h:77`, `predict.h:69, 99-102`). -/
def init (events : List (Event K)) : Channel K where
  pending := events
  queue := []
  evt := .simple .scheduleOptimizationStart
  handled := []
  returned := false

/-- The producer enqueues its next event (`predict.cpp:75, 97, 102, 104, 108, 126, 131, 133`). -/
def produce (c : Channel K) : Channel K :=
  match c.pending with
  | [] => c
  | e :: rest => { c with pending := rest, queue := c.queue ++ [e] }

/-- One turn of the loop of `consume_events` (`cli/events.h:78-84`); with an empty queue it waits and
continues (`wait_for` ends after 100 ms, or at once if the producer has ended). -/
def consume (c : Channel K) : Channel K :=
  if c.returned then c
  else if c.evt.isFinal then { c with returned := true }
  else match c.queue with
    | [] => c
    | e :: rest => { c with queue := rest, evt := e, handled := c.handled ++ [e] }

/-- Which thread makes the next step. -/
inductive Thread where
  | producer
  | consumer
  deriving DecidableEq, Repr

/-- A step of a thread -/
def step (c : Channel K) : Thread → Channel K
  | .producer => c.produce
  | .consumer => c.consume

/-- The state after `n` steps, for a choice of threads. -/
def run (events : List (Event K)) (turn : Nat → Thread) : Nat → Channel K
  | 0 => init events
  | n + 1 => (run events turn n).step (turn n)

end Channel

/-- What the handler asks of the progress display. -/
inductive ProgressOp (K : Type) where
  | start
  | update (progress : K)
  | stop
  deriving DecidableEq, Repr

/-- `EventHandler` (`cli/events.h:32-57`): the options it reads, what it has printed, what it
asked of the progress display, and the rows of the optimization log (`none`: not open). -/
structure Handler (K : Type) where
  color : Bool
  verbose : Bool
  logOptimization : Bool
  output : List String := []
  display : List (ProgressOp K) := []
  log : Option (List (K × Int × Nat)) := none

namespace Handler
variable [Field K] [LinearOrder K]

/-- `EventHandler::operator()` (`cli/events.cpp:17-62`). That the log file cannot be opened (an exception) is
modelled in `Cli.consumeEvents`. `cursor_up` is an escape sequence in front of the message. -/
def handle (h : Handler K) : Event K → Outcome (Handler K)
  | .simple .scheduleOptimizationStart =>
    ok { h with output := h.output ++ ["Optimizing the schedule...\n"],
                display := h.display ++ [.start],
                log := if h.logOptimization then some [] else h.log }
  | .simple _ => ok h
  | .optimization progress makespan epoch => do
    expects (decide (0 ≤ progress ∧ progress ≤ 1)) "EventHandler: progress"
    let h := { h with display := h.display ++ [ProgressOp.update progress] }
    if h.logOptimization then
      match h.log with
      | none => ub "EventHandler: opt_log"
      | some rows => ok { h with log := some (rows ++ [(progress, makespan, epoch)]) }
    else ok h
  | .complete makespan =>
    ok { h with display := h.display ++ [.stop],
                output := h.output ++
                  [if h.color then "\x1b[A\rOptimizing the schedule... OK\n"
                   else "Schedule optimization complete.\n",
                   "Optimal makespan: "
                     ++ (if h.verbose then Format.verbose makespan else Format.humanize makespan)
                     ++ ".\n"] }

/-- Several events in order -/
def handleAll (h : Handler K) : List (Event K) → Outcome (Handler K)
  | [] => ok h
  | e :: rest => do
    let h ← h.handle e
    h.handleAll rest

end Handler
end Angonoka
