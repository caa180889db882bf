import Verif.Model.Optimizer
import Mathlib.Logic.Relation

/-!
# The optimizer's jobs in memory

`Verif.Model.Optimizer` gives every job its own state and a list of random numbers. In the code jobs are objects that refer to each other's parts by
pointers, draw from random generators and are updated by several threads (`#pragma omp parallel for`, `/repo/src/stun/optimizer.cpp:175-177`).
Here are the slots of `Optimizer::jobs` as a list, pointers as places in this list, and one step of one thread at a time.
-/

namespace Angonoka.Threads
open Angonoka Outcome Stun

variable {K G : Type} [Field K] [LinearOrder K] [IsStrictOrderedRing K]

/-- A random generator with states `G` (`/repo/src/stun/random_utils.cpp:13-24`). `mutation` are the numbers that the mutator draws, which may
depend on the parameters and the schedule in any way; `real` is `uniform_01`. -/
structure Rng (K G : Type) where
  mutation : G → ScheduleParams K → List Item → (Nat × Nat × Nat) × G
  real : G → K × G

/-- What the thread does next in an iteration of a job -/
inductive Phase where
  /-- call the mutator (`stochastic_tunneling.cpp:46-49`) -/
  | mutate
  /-- call the makespan estimator (`stochastic_tunneling.cpp:50`) -/
  | evaluate
  /-- `neighbor_is_better` (`stochastic_tunneling.cpp:62-88`) -/
  | compare
  /-- `perform_stun` (`stochastic_tunneling.cpp:93-115`) -/
  | accept
  deriving DecidableEq, Repr

/-- `JobSlot` (`optimizer.h:124-137`): a generator and a job. `job` has the values of the job's members; then come the pointers: of the
mutator to a generator, and of the tunneling state to a mutator, a generator, an estimator and a temperature. A pointer is the number of the slot that
it points into. The last two fields are the position of the thread that works on the job: the phase and the number of iterations done. -/
structure Slot (K G : Type) where
  gen : G
  job : Job K
  mutatorRandom : Nat
  stunMutator : Nat
  stunRandom : Nat
  stunMakespan : Nat
  stunTemp : Nat
  phase : Phase
  done : Nat

/-- Constructors `JobSlot` (`optimizer.cpp:134-143`) and `OptimizerJob` (`optimizer_job.cpp:20-32`) at address `k`. The vector has been reserved
(`optimizer.cpp:161`), so slots are never moved. -/
def Slot.new (E : FloatEnv K) (o : Options K) (k : Nat) (g : G) : Outcome (Slot K G) := do
  let j ← Job.new E o
  return { gen := g, job := j, mutatorRandom := k, stunMutator := k, stunRandom := k, stunMakespan := k, stunTemp := k,
           phase := .mutate, done := 0 }

/-- The slots of the constructor of `Optimizer` (`optimizer.cpp:162`), from address `k`; the generators are seeded from `random_device`. -/
def newSlots (E : FloatEnv K) (o : Options K) : Nat → List G → Outcome (List (Slot K G))
  | _, [] => ok []
  | k, g :: gs => do
    let s ← Slot.new E o k g
    let rest ← newSlots E o (k + 1) gs
    return s :: rest

/-- One step of the thread that works on the job in slot `k`: what is read and written is found by following the pointers. -/
def act (E : FloatEnv K) (R : Rng K G) (h : List (Slot K G)) (k : Nat) : Outcome (List (Slot K G)) := do
  let self ← at? h k "slot"
  let t := self.job.stun
  match self.phase with
  | .mutate => do
    expects (!t.buffer.isEmpty) "update: buffer not empty"
    expects (!t.currentSchedule.isEmpty) "update: current not empty"
    expects (!t.targetSchedule.isEmpty) "get_new_neighbor: target not empty"
    let t := t.write t.target t.currentSchedule
    let mutator ← at? h self.stunMutator "mutator"
    let random ← at? h mutator.mutatorRandom "mutator's generator"
    let r := R.mutation random.gen mutator.job.params t.targetSchedule
    let s ← Stun.mutate mutator.job.params { swap := r.1.1, task := r.1.2.1, agent := r.1.2.2, u := 0 } t.targetSchedule
    let h := h.modify mutator.mutatorRandom fun x => { x with gen := r.2 }
    return h.modify k fun x => { x with job := { x.job with stun := t.write t.target s }, phase := .evaluate }
  | .evaluate => do
    let estimator ← at? h self.stunMakespan "estimator"
    let (e, m) ← estimator.job.makespan.call E t.targetSchedule
    expects (decide (0 ≤ e)) "get_new_neighbor: target_e >= 0"
    let h := h.modify self.stunMakespan fun x => { x with job := { x.job with makespan := m } }
    return h.modify k fun x => { x with job := { x.job with stun := { t with targetE := e } }, phase := .compare }
  | .compare => do
    let (better, t) ← neighborIsBetter E t
    if better then return h.modify k fun x => { x with job := { x.job with stun := t }, phase := .mutate, done := x.done + 1 }
    else return h.modify k fun x => { x with job := { x.job with stun := t }, phase := .accept }
  | .accept => do
    let random ← at? h self.stunRandom "generator"
    let temperature ← at? h self.stunTemp "temperature"
    let (u, g) := R.real random.gen
    let (temp, t) ← performStun E { swap := 0, task := 0, agent := 0, u := u } temperature.job.temperature t
    let h := h.modify self.stunRandom fun x => { x with gen := g }
    let h := h.modify self.stunTemp fun x => { x with job := { x.job with temperature := temp } }
    return h.modify k fun x => { x with job := { x.job with stun := t }, phase := .mutate, done := x.done + 1 }

/-- Some thread makes a step: on any job that has iterations left. -/
inductive Step (E : FloatEnv K) (R : Rng K G) : List (Slot K G) → List (Slot K G) → Prop where
  | act {h h' : List (Slot K G)} {k : Nat} {s : Slot K G} (hk : h[k]? = some s) (hd : s.done < s.job.batchSize)
      (ha : Threads.act E R h k = ok h') : Step E R h h'

/-- The end of the parallel loop, where the threads wait for each other: all iterations are done. -/
def Finished (h : List (Slot K G)) : Prop := ∀ s ∈ h, s.done = s.job.batchSize

/-- The beginning of the parallel loop -/
def begin (h : List (Slot K G)) : List (Slot K G) := h.map fun s => { s with phase := .mutate, done := 0 }

/-- The copy of a job at address `k` (`optimizer_job.cpp:67-81`, `99-122`): the pointers to the siblings are set, that to the generator is copied. -/
def Slot.copyJob (source : Slot K G) (k : Nat) (target : Slot K G) : Outcome (Slot K G) := do
  let j ← source.job.copy
  return { target with job := j, mutatorRandom := source.mutatorRandom, stunMutator := k, stunRandom := source.mutatorRandom,
                       stunMakespan := k, stunTemp := k }

/-- `OptimizerJob::params` (`optimizer_job.cpp:124-135`) of the job at address `k` with the generator at address `r` -/
def Slot.setParams (s : Slot K G) (k : Nat) (p : ScheduleParams K) (r : Nat) : Slot K G :=
  { s with job := s.job.setParams p, mutatorRandom := r, stunMutator := k, stunRandom := r, stunMakespan := k, stunTemp := k }

/-- `ranges::min` over the slots (`optimizer.cpp:117-120`) -/
def minSlot : Slot K G → List (Slot K G) → Outcome (Slot K G)
  | best, [] => ok best
  | best, s :: rest => do
    let b ← best.job.normalizedMakespan
    let c ← s.job.normalizedMakespan
    minSlot (if c < b then s else best) rest

/-- Loop of `replicate_best_job` (`optimizer.cpp:124-129`) from address `k` -/
def replicateSlots (target : Slot K G) (bestMakespan : K) (p : ScheduleParams K) : Nat → List (Slot K G) → Outcome (List (Slot K G))
  | _, [] => ok []
  | k, s :: rest => do
    let e ← s.job.normalizedMakespan
    let s ← if e = bestMakespan then pure s
            else do
              let s ← target.copyJob k s
              pure (s.setParams k p k)
    let rest ← replicateSlots target bestMakespan p (k + 1) rest
    return s :: rest

/-- `Impl::replicate_best_job` (`optimizer.cpp:113-130`). The copy of the best slot is a local variable, here with the address after
the last slot. -/
def replicate (h : List (Slot K G)) : Outcome (List (Slot K G)) := do
  match h with
  | [] => ub "replicate_best_job: jobs not empty"
  | first :: rest => do
    let best ← minSlot first rest
    let target ← best.copyJob h.length best
    let bestMakespan ← target.job.normalizedMakespan
    replicateSlots target bestMakespan first.job.params 0 h

/-- The end of `Optimizer::update`, after the parallel loop (`optimizer.cpp:178-189`). `o` has the members of the optimizer; its `jobs` are the
values of the jobs in the slots. -/
def finishUpdate (E : FloatEnv K) (o : Optimizer K) (h : List (Slot K G)) : Outcome (Optimizer K × List (Slot K G)) := do
  let h ← replicate h
  let o := { o with jobs := h.map Slot.job, idleIters := o.idleIters + o.batchSize }
  let e ← o.normalizedMakespan
  let o ← if e = o.lastMakespan then o.interpolateProgress E else o.estimateProgress E
  return (o, h)

/-- `Optimizer::update` (`optimizer.cpp:170-190`), with any order of the steps of the threads -/
inductive Update (E : FloatEnv K) (R : Rng K G) : Optimizer K × List (Slot K G) → Optimizer K × List (Slot K G) → Prop where
  | update {o o' : Optimizer K} {h h₁ h' : List (Slot K G)} (hb : 0 < o.batchSize) (hne : h ≠ [])
      (hsteps : Relation.ReflTransGen (Step E R) (begin h) h₁) (hfin : Finished h₁)
      (hend : finishUpdate E o h₁ = ok (o', h')) : Update E R (o, h) (o', h')

/-- `n` updates -/
inductive Updates (E : FloatEnv K) (R : Rng K G) : Nat → Optimizer K × List (Slot K G) → Optimizer K × List (Slot K G) → Prop where
  | zero (x) : Updates E R 0 x x
  | succ {n : Nat} {x y z} (h : Updates E R n x y) (hu : Update E R y z) : Updates E R (n + 1) x z

end Angonoka.Threads
