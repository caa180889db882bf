import Verif.Model.Project

/-!
# Cycle detection

Model of `depth_first_search` and `check_for_cycles`
(`/repo/src/config/tasks.cpp:432-481`).
-/

namespace Angonoka.Load
open Angonoka Outcome

/-- `VertexState` (`tasks.cpp:432-436`) -/
inductive VertexState where
  | notVisited
  | visited
  | complete
  deriving DecidableEq, Repr

mutual
/-- `depth_first_search` (`tasks.cpp:445-465`). The first argument bounds the recursion
depth (a C++ call stack has no such bound); `checkForCycles` passes the number
of tasks, which is always enough (`Verif.Proof.Cycles`). Out-of-range indices are `ub`. -/
def dfs (tasks : List Task) : Nat → List VertexState → Nat → Outcome (List VertexState)
  | 0, _, _ => ub "depth_first_search: recursion bound"
  | fuel + 1, state, i => do
    expects (!tasks.isEmpty) "depth_first_search: tasks not empty"
    expects (tasks.length == state.length) "depth_first_search: sizes"
    expects (state[i]? == some .notVisited) "depth_first_search: not visited"
    match tasks[i]? with
    | none => ub "depth_first_search: task index"
    | some t =>
      let state := state.set i .visited
      let state ← dfsDeps tasks fuel t.dependencies state
      return state.set i .complete
/-- The loop over the dependencies (`tasks.cpp:456-463`); the `not_visited` case falls through
to `continue`. -/
def dfsDeps (tasks : List Task) : Nat → List Nat → List VertexState → Outcome (List VertexState)
  | _, [], state => ok state
  | fuel, d :: rest, state =>
    match state[d]? with
    | none => ub "depth_first_search: dependency index"
    | some .visited => throws .dependencyCycle
    | some .notVisited => do
      let state ← dfs tasks fuel state d
      dfsDeps tasks fuel rest state
    | some .complete => dfsDeps tasks fuel rest state
end

/-- Body of the loop of `check_for_cycles` (`tasks.cpp:478-479`) -/
def visit (tasks : List Task) (state : List VertexState) (i : Nat) : Outcome (List VertexState) :=
  match state[i]? with
  | some .notVisited => dfs tasks tasks.length state i
  | some _ => ok state
  | none => ub "check_for_cycles: index"

/-- Loop of `check_for_cycles` (`tasks.cpp:477-480`) from index `i`, with `k` indices to go.
`++task_id` on an `int8` throws when the value would become 128. -/
def checkForCyclesLoop (tasks : List Task) : Nat → Nat → List VertexState → Outcome Unit
  | 0, _, _ => ok ()
  | k + 1, i, state => do
    let state ← visit tasks state i
    let i ← toInt8 (i + 1)
    checkForCyclesLoop tasks k i state

/-- `check_for_cycles` (`tasks.cpp:472-481`) -/
def checkForCycles (tasks : List Task) : Outcome Unit := do
  expects (!tasks.isEmpty) "check_for_cycles: tasks not empty"
  checkForCyclesLoop tasks tasks.length 0 (List.replicate tasks.length .notVisited)

end Angonoka.Load
