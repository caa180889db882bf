import Verif.Model.Mutator
import Verif.Model.Temperature

/-!
# Stochastic tunneling

Model of `/repo/src/stun/stochastic_tunneling.{h,cpp}`.

The three schedules are views (offset into one buffer, common length `n`), as in the code.
The objects that a `StochasticTunneling` points to (mutator parameters, makespan estimator,
temperature) are kept next to it in `Verif.Model.OptimizerJob`; here they are
passed in and returned.
-/

namespace Angonoka.Stun
open Angonoka Outcome

variable {K : Type} [Field K] [LinearOrder K] [IsStrictOrderedRing K]

/-- `StochasticTunneling` (`stochastic_tunneling.h`) without its pointers. -/
structure Tunneling (K : Type) where
  /-- `schedule_buffer` -/
  buffer : List Item
  /-- length of each view -/
  n : Nat
  /-- offset of `best_schedule` -/
  best : Nat
  /-- offset of `current_schedule` -/
  current : Nat
  /-- offset of `target_schedule` -/
  target : Nat
  currentE : K
  lowestE : K
  targetE : K
  gamma : K
  currentS : K
  targetS : K
  deriving DecidableEq, Repr

namespace Tunneling

/-- Contents of the view at an offset. -/
def view (t : Tunneling K) (off : Nat) : List Item := (t.buffer.drop off).take t.n

/-- `best_schedule` -/
def bestSchedule (t : Tunneling K) : List Item := t.view t.best
/-- `current_schedule` -/
def currentSchedule (t : Tunneling K) : List Item := t.view t.current
/-- `target_schedule` -/
def targetSchedule (t : Tunneling K) : List Item := t.view t.target

/-- `ranges::copy(s, view.begin())` -/
def write (t : Tunneling K) (off : Nat) (s : List Item) : Tunneling K :=
  { t with buffer := t.buffer.take off ++ s ++ t.buffer.drop (off + s.length) }

end Tunneling

/-- `stun_fn` (`stochastic_tunneling.cpp:19-28`) -/
def stunFn (E : FloatEnv K) (lowestE energy gamma : K) : Outcome K := do
  expects (decide (0 ≤ lowestE)) "stun_fn: lowest_e >= 0"
  expects (decide (lowestE ≤ energy)) "stun_fn: energy >= lowest_e"
  let result := E.sub 1 (E.exp (E.mul (-gamma) (E.sub energy lowestE)))
  expects (decide (0 ≤ result ∧ result ≤ 1)) "stun_fn: result in [0, 1]"
  return result

/-- `Impl::get_new_neighbor` (`stochastic_tunneling.cpp:41-53`). `p` are the mutator's
parameters, `m` is the makespan estimator. -/
def getNewNeighbor (E : FloatEnv K) (p : ScheduleParams K) (d : Draws K) (m : Makespan K)
    (t : Tunneling K) : Outcome (Makespan K × Tunneling K) := do
  expects (!t.currentSchedule.isEmpty) "get_new_neighbor: current not empty"
  expects (!t.targetSchedule.isEmpty) "get_new_neighbor: target not empty"
  let t := t.write t.target t.currentSchedule
  let s ← mutate p d t.targetSchedule
  let t := t.write t.target s
  let (e, m) ← m.call E t.targetSchedule
  let t := { t with targetE := e }
  expects (decide (0 ≤ t.targetE)) "get_new_neighbor: target_e >= 0"
  return (m, t)

/-- `std::swap(current_schedule, target_schedule)`: swaps the views, not the contents. -/
def Tunneling.swapViews (t : Tunneling K) : Tunneling K :=
  { t with current := t.target, target := t.current }

/-- `Impl::neighbor_is_better` (`stochastic_tunneling.cpp:62-88`) -/
def neighborIsBetter (E : FloatEnv K) (t : Tunneling K) : Outcome (Bool × Tunneling K) := do
  expects (decide (0 ≤ t.targetE)) "neighbor_is_better: target_e >= 0"
  expects (decide (0 ≤ t.currentE)) "neighbor_is_better: current_e >= 0"
  expects (decide (0 ≤ t.lowestE)) "neighbor_is_better: lowest_e >= 0"
  expects (decide (t.lowestE ≤ t.currentE)) "neighbor_is_better: current_e >= lowest_e"
  expects (!t.targetSchedule.isEmpty) "neighbor_is_better: target not empty"
  expects (!t.currentSchedule.isEmpty) "neighbor_is_better: current not empty"
  expects (!t.bestSchedule.isEmpty) "neighbor_is_better: best not empty"
  if t.targetE < t.currentE then do
    let t ←
      if t.targetE < t.lowestE then do
        let t := { t with lowestE := t.targetE }
        let t := t.write t.best t.targetSchedule
        let s ← stunFn E t.lowestE t.currentE t.gamma
        pure { t with currentS := s }
      else pure t
    let t := t.swapViews
    return (true, { t with currentE := t.targetE })
  else return (false, t)

/-- `Impl::perform_stun` (`stochastic_tunneling.cpp:93-115`) -/
def performStun (E : FloatEnv K) (d : Draws K) (temp : Temperature K) (t : Tunneling K) :
    Outcome (Temperature K × Tunneling K) := do
  expects (decide (0 ≤ t.targetE)) "perform_stun: target_e >= 0"
  expects (decide (0 ≤ t.lowestE)) "perform_stun: lowest_e >= 0"
  expects (decide (0 ≤ t.currentS)) "perform_stun: current_s >= 0"
  expects (!t.targetSchedule.isEmpty) "perform_stun: target not empty"
  expects (!t.currentSchedule.isEmpty) "perform_stun: current not empty"
  let targetS ← stunFn E t.lowestE t.targetE t.gamma
  let t := { t with targetS := targetS }
  let deltaS := E.sub t.targetS t.currentS
  let pr := min 1 (E.exp (E.mul (-temp.value) deltaS))
  let (temp, t) ←
    if d.u ≤ pr then do
      let t := t.swapViews
      let t := { t with currentE := t.targetE, currentS := t.targetS }
      let temp ← temp.update E t.targetS
      pure (temp, t)
    else pure (temp, t)
  expects (decide (0 ≤ t.targetS)) "perform_stun: target_s >= 0"
  expects (decide (0 ≤ t.currentS)) "perform_stun: current_s >= 0 at the end"
  return (temp, t)

/-- `StochasticTunneling::update` (`stochastic_tunneling.cpp:180-187`) -/
def tunnelingUpdate (E : FloatEnv K) (p : ScheduleParams K) (d : Draws K) (m : Makespan K)
    (temp : Temperature K) (t : Tunneling K) :
    Outcome (Makespan K × Temperature K × Tunneling K) := do
  expects (!t.buffer.isEmpty) "update: buffer not empty"
  expects (!t.currentSchedule.isEmpty) "update: current not empty"
  let (m, t) ← getNewNeighbor E p d m t
  let (better, t) ← neighborIsBetter E t
  if better then return (m, temp, t)
  else do
    let (temp, t) ← performStun E d temp t
    return (m, temp, t)

/-- `Impl::prepare_schedules` (`stochastic_tunneling.cpp:139-159`): resize the buffer to three
times the size (new elements are value-initialised) and lay out the views in order. -/
def prepareSchedules (t : Tunneling K) (size : Nat) : Outcome (Tunneling K) := do
  expects (decide (0 < size)) "prepare_schedules: size > 0"
  let buffer := (t.buffer ++ List.replicate (size * 3 - t.buffer.length) (Item.mk 0 0)).take (size * 3)
  return { t with buffer := buffer, n := size, best := 0, current := size, target := 2 * size }

/-- `Impl::init_schedules` (`stochastic_tunneling.cpp:166-177`) -/
def initSchedules (t : Tunneling K) (s : List Item) : Outcome (Tunneling K) := do
  expects (s.length == t.bestSchedule.length) "init_schedules: size of best"
  expects (s.length == t.currentSchedule.length) "init_schedules: size of current"
  expects (!s.isEmpty) "init_schedules: not empty"
  let t := t.write t.best s
  return t.write t.current s

/-- `Impl::init_energies` (`stochastic_tunneling.cpp:120-132`) -/
def initEnergies (E : FloatEnv K) (m : Makespan K) (t : Tunneling K) :
    Outcome (Makespan K × Tunneling K) := do
  expects (!t.currentSchedule.isEmpty) "init_energies: current not empty"
  let (e, m) ← m.call E t.currentSchedule
  let t := { t with currentE := e, lowestE := e }
  let s ← stunFn E t.lowestE t.currentE t.gamma
  let t := { t with currentS := s }
  expects (decide (0 ≤ t.currentE)) "init_energies: current_e >= 0"
  expects (decide (0 ≤ t.lowestE)) "init_energies: lowest_e >= 0"
  expects (decide (0 ≤ t.currentS ∧ t.currentS ≤ 1)) "init_energies: current_s in [0, 1]"
  return (m, t)

/-- `StochasticTunneling::reset` (`stochastic_tunneling.cpp:189-195`) -/
def tunnelingReset (E : FloatEnv K) (m : Makespan K) (t : Tunneling K) (s : List Item) :
    Outcome (Makespan K × Tunneling K) := do
  expects (!s.isEmpty) "reset: schedule not empty"
  let t ← prepareSchedules t s.length
  let t ← initSchedules t s
  initEnergies E m t

/-- A `StochasticTunneling` as constructed from options only (`stochastic_tunneling.cpp:210-217`):
empty buffer and views. The energies are left uninitialised by the code and are 0 here; `reset`
overwrites all of them that are read. -/
def Tunneling.blank (gamma : K) : Tunneling K where
  buffer := []
  n := 0
  best := 0
  current := 0
  target := 0
  currentE := 0
  lowestE := 0
  targetE := 0
  gamma := gamma
  currentS := 0
  targetS := 0

/-- Constructor with a schedule (`stochastic_tunneling.cpp:219-226`) -/
def Tunneling.new (E : FloatEnv K) (m : Makespan K) (gamma : K) (s : List Item) :
    Outcome (Makespan K × Tunneling K) := do
  expects (!s.isEmpty) "StochasticTunneling: schedule not empty"
  tunnelingReset E m (Tunneling.blank gamma) s

/-- Copy constructor (`stochastic_tunneling.cpp:228-244`): the buffer is copied, and the views
are laid out afresh in the order best, current, target. -/
def Tunneling.copy (t : Tunneling K) : Outcome (Tunneling K) :=
  if !t.bestSchedule.isEmpty then prepareSchedules t t.bestSchedule.length
  else ok { t with n := 0, best := 0, current := 0, target := 0 }

/-- `StochasticTunneling::options(options)` (`stochastic_tunneling.cpp:281-288`); of the options only the
tunneling parameter is part of this state. -/
def Tunneling.setGamma (t : Tunneling K) (gamma : K) : Tunneling K := { t with gamma := gamma }

/-- `StochasticTunneling::schedule` (`stochastic_tunneling.cpp:197-202`) -/
def Tunneling.schedule (t : Tunneling K) : Outcome (List Item) := do
  expects (!t.buffer.isEmpty) "schedule: buffer not empty"
  expects (!t.bestSchedule.isEmpty) "schedule: best not empty"
  return t.bestSchedule

/-- `StochasticTunneling::normalized_makespan` (`stochastic_tunneling.cpp:204-208`) -/
def Tunneling.normalizedMakespan (t : Tunneling K) : Outcome K := do
  expects (!t.buffer.isEmpty) "normalized_makespan: buffer not empty"
  return t.lowestE

end Angonoka.Stun
