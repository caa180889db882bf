import Verif.Base.Outcome

/-!
# Which random generator a job uses

Model of the pointers between the slots of optimizers: `Optimizer::JobSlot`
(`/repo/src/stun/optimizer.h:124-137`) holds a generator and a job, and the job (its mutator and its
tunneling state, always set together) holds a pointer to a generator.

A generator is identified by the vector of slots it lives in and its index there. Vectors are numbered
in the order of their creation; moving an optimizer moves the vector and keeps all addresses.
What the jobs compute is modelled in `Verif.Model.Optimizer`; here a batch only draws numbers.
-/

namespace Angonoka.Slots
open Angonoka Outcome

/-- Address of a generator: number of the slot vector, index in it. -/
structure Ptr where
  vec : Nat
  index : Nat
  deriving DecidableEq, Repr

/-- A slot: state of its generator (how many numbers it has produced) and the pointer of its job. -/
structure Slot where
  drawn : Nat
  random : Ptr
  deriving DecidableEq, Repr

/-- All slot vectors ever created; `none` for destroyed ones. -/
abbrev World := List (Option (List Slot))

/-- The slots of a live vector; using a destroyed one is undefined behaviour. -/
def World.slots (w : World) (i : Nat) : Outcome (List Slot) :=
  match w[i]? with
  | some (some l) => ok l
  | _ => ub "destroyed optimizer"

/-- Constructor (`optimizer.cpp:103-124, 134-153`): every job points to the generator of its slot. -/
def World.create (w : World) (threads : Nat) : World :=
  w ++ [some ((List.range threads).map fun k => ⟨0, ⟨w.length, k⟩⟩)]

/-- Implicit copy constructor of `Optimizer`: the generators are copied, and the copied jobs keep the
pointers of the originals (`optimizer_job.cpp:67-81`). -/
def World.copy (w : World) (i : Nat) : Outcome World := do
  let l ← w.slots i
  return w ++ [some l]

/-- Destructor -/
def World.destroy (w : World) (i : Nat) : World := w.set i none

/-- Draw `n` numbers from a generator. -/
def World.draw (w : World) (p : Ptr) (n : Nat) : Outcome World := do
  let l ← w.slots p.vec
  match l[p.index]? with
  | some s => return w.set p.vec (some (l.set p.index { s with drawn := s.drawn + n }))
  | none => ub "no such generator"

/-- The batches of the jobs with the given pointers; job `k` draws `n k` numbers. -/
def World.batches (n : Nat → Nat) : World → Nat → List Ptr → Outcome World
  | w, _, [] => ok w
  | w, k, p :: rest => do
    let w ← w.draw p (n k)
    World.batches n w (k + 1) rest

/-- Point the jobs of the slots for which `which` holds to the generators of their slots. -/
def World.own (w : World) (i : Nat) (which : Nat → Bool) : Outcome World := do
  let l ← w.slots i
  return w.set i (some (l.mapIdx fun k s => if which k then { s with random := ⟨i, k⟩ } else s))

/-- `Optimizer::update` (`optimizer.cpp:170-190`): all jobs draw numbers, then the jobs for which
`worse` holds are replaced by the best one and pointed to their slots (`optimizer.cpp:124-129`). -/
def World.update (w : World) (i : Nat) (n : Nat → Nat) (worse : Nat → Bool) : Outcome World := do
  let l ← w.slots i
  let w ← w.batches n 0 (l.map Slot.random)
  w.own i worse

/-- `Optimizer::params(params)` (`optimizer.cpp:239-246`) -/
def World.setParams (w : World) (i : Nat) : Outcome World := w.own i fun _ => true

end Angonoka.Slots
