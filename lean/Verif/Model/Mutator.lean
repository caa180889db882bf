import Verif.Model.Makespan

/-!
# Schedule mutation

Model of `Mutator` (`/repo/src/stun/utils.cpp:143-245`) and
`RandomUtils::uniform_int` (`/repo/src/stun/random_utils.cpp:16-21`).
-/

namespace Angonoka.Stun
open Angonoka Outcome

variable {K : Type} [Field K] [LinearOrder K] [IsStrictOrderedRing K]

/-- `uniform_int(max)`: `raw` is what the generator yields; reducing an arbitrary
number modulo `max + 1` gives an arbitrary number from 0 to `max`. -/
def uniformInt (raw : Nat) (max : Int) : Outcome Nat := do
  expects (decide (0 ≤ max)) "uniform_int: max >= 0"
  return raw % (max.toNat + 1)

/-- `lower_bound` by halving, as in the standard library: `first` is the start, `count` the
number of elements left. Returns the position of the first element that is not less than `x`. -/
def lowerBound (l : List Nat) (x : Nat) (first count : Nat) : Nat :=
  if h : count = 0 then first
  else
    let step := count / 2
    let mid := first + step
    if l.getD mid 0 < x then lowerBound l x (mid + 1) (count - step - 1)
    else lowerBound l x first step
termination_by count
decreasing_by all_goals omega

/-- `ranges::binary_search`: lower bound, then compare. -/
def binarySearch (l : List Nat) (x : Nat) : Bool :=
  match l[lowerBound l x 0 l.length]? with
  | some y => !decide (x < y)
  | none => false

/-- `Impl::is_swappable` (`utils.cpp:156-173`) -/
def isSwappable (p : ScheduleParams K) (task predecessor : Nat) : Outcome Bool := do
  expects (decide (task < p.dependencies.size)) "is_swappable: task"
  expects (decide (predecessor < p.dependencies.size)) "is_swappable: predecessor"
  expects (decide (task ≠ predecessor)) "is_swappable: distinct"
  return !binarySearch (p.dependencies.row task) predecessor

/-- `std::swap(s[i], s[i - 1])` -/
def swapAt (s : List Item) (i : Nat) (a b : Item) : List Item :=
  (s.set i b).set (i - 1) a

/-- `Impl::try_swap` (`utils.cpp:179-191`) -/
def trySwap (p : ScheduleParams K) (raw : Nat) (s : List Item) : Outcome (List Item) := do
  expects (!s.isEmpty) "try_swap: schedule not empty"
  if s.length = 1 then return s
  else do
    let r ← uniformInt raw ((s.length : Int) - 2)
    let swapIndex := 1 + r
    let a ← at? s swapIndex "try_swap: index"
    let b ← at? s (swapIndex - 1) "try_swap: index - 1"
    let swappable ← isSwappable p a.task b.task
    if !swappable then return s
    else return swapAt s swapIndex a b

/-- `Impl::update_agent` (`utils.cpp:196-213`) -/
def updateAgent (p : ScheduleParams K) (rawTask rawAgent : Nat) (s : List Item) :
    Outcome (List Item) := do
  expects (!s.isEmpty) "update_agent: schedule not empty"
  expects (s.length == p.availableAgents.size) "update_agent: schedule size"
  let taskIndex ← uniformInt rawTask ((s.length : Int) - 1)
  let item ← at? s taskIndex "update_agent: index"
  expects (decide (item.task < p.availableAgents.size)) "update_agent: task"
  let agents := p.availableAgents.row item.task
  let k ← uniformInt rawAgent ((agents.length : Int) - 1)
  let agent ← at? agents k "update_agent: agent index"
  return s.set taskIndex { item with agent := agent }

/-- Random draws of one mutation and one acceptance test. -/
structure Draws (K : Type) where
  /-- `uniform_int` for the swap position -/
  swap : Nat
  /-- `uniform_int` for the task that gets a new agent -/
  task : Nat
  /-- `uniform_int` for the new agent -/
  agent : Nat
  /-- `uniform_01` -/
  u : K
  deriving Repr

/-- `Mutator::operator()` (`utils.cpp:240-245`) -/
def mutate (p : ScheduleParams K) (d : Draws K) (s : List Item) : Outcome (List Item) := do
  expects (!s.isEmpty) "Mutator: schedule not empty"
  let s ← trySwap p d.swap s
  updateAgent p d.task d.agent s

end Angonoka.Stun
