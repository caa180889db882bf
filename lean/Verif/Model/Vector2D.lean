import Verif.Base.Outcome

/-!
# `Vector2D` with addresses

Model of `Vector2D` (`/repo/src/stun/schedule_params.h:18-87`, `schedule_params.cpp:140-221`) at the level
of memory: the data of a table is a block of memory, a span is a pointer into some block and a
length. Blocks are numbered in the order of their allocation. A default-constructed or moved-from
`std::vector` owns a block without elements.

The constructor from arbitrary spans (`schedule_params.cpp:140-147`) is not modelled: the program
uses it nowhere except in tests.
-/

namespace Angonoka.Memory
open Angonoka Outcome

/-- A span: pointer (block and offset) and length. -/
structure Span where
  block : Nat
  offset : Nat
  len : Nat
  deriving DecidableEq, Repr

/-- A table: the block of `data` and the spans. -/
structure Table where
  block : Nat
  spans : List Span
  deriving DecidableEq, Repr

/-- Memory blocks (`none`: freed) and tables (`none`: destroyed). -/
structure World where
  heap : List (Option (List Int))
  tables : List (Option Table)
  deriving DecidableEq, Repr

/-- Contents of a live block -/
def World.block (w : World) (b : Nat) : Outcome (List Int) :=
  match w.heap[b]? with
  | some (some data) => ok data
  | _ => ub "freed memory"

/-- A live table -/
def World.table (w : World) (i : Nat) : Outcome Table :=
  match w.tables[i]? with
  | some (some t) => ok t
  | _ => ub "destroyed table"

/-- Allocate a block; its number is the previous length of the heap. -/
def World.alloc (w : World) (data : List Int) : World := { w with heap := w.heap ++ [some data] }
/-- Free a block. -/
def World.free (w : World) (b : Nat) : World := { w with heap := w.heap.set b none }
/-- Start the life of a table. -/
def World.add (w : World) (t : Table) : World := { w with tables := w.tables ++ [some t] }
/-- Overwrite the members of a table. -/
def World.put (w : World) (i : Nat) (t : Table) : World := { w with tables := w.tables.set i (some t) }

/-- Spans over consecutive parts of a block (`schedule_params.cpp:182-187`) -/
def spansFrom (b head : Nat) : List Nat → List Span
  | [] => []
  | size :: rest => ⟨b, head, size⟩ :: spansFrom b (head + size) rest

/-- Constructor from data and sizes (`schedule_params.cpp:176-190`) -/
def World.create (w : World) (data : List Int) (sizes : List Nat) : World :=
  (w.alloc data).add ⟨w.heap.length, spansFrom w.heap.length 0 sizes⟩

/-- The loop of the copy constructor (`schedule_params.cpp:164-169`): non-empty spans are moved to the new
block `nb`, at the same distance from its front. The distance between pointers into different
blocks is undefined. -/
def rebase (front nb : Nat) : List Span → Outcome (List Span)
  | [] => ok []
  | s :: rest => do
    if s.len = 0 then do
      let rest ← rebase front nb rest
      return s :: rest
    else do
      expects (s.block == front) "distance of unrelated pointers"
      let rest ← rebase front nb rest
      return ⟨nb, s.offset, s.len⟩ :: rest

/-- The members of a copy (`Vector2D(const Vector2D&)`, `schedule_params.cpp:156-172`), not yet
attached to a table. -/
def World.copyOf (w : World) (t : Table) : Outcome (World × Table) := do
  let nb := w.heap.length
  if t.spans.isEmpty then return (w.alloc [], ⟨nb, []⟩)
  else do
    let data ← w.block t.block
    if data.isEmpty then return (w.alloc data, ⟨nb, t.spans⟩)
    else do
      let spans ← rebase t.block nb t.spans
      return (w.alloc data, ⟨nb, spans⟩)

/-- Copy construction -/
def World.copy (w : World) (i : Nat) : Outcome World := do
  let t ← w.table i
  let (w, t) ← w.copyOf t
  return w.add t

/-- Copy assignment of table `j` to table `i` (`schedule_params.cpp:202-206`): move from a temporary copy. -/
def World.assign (w : World) (i j : Nat) : Outcome World := do
  let src ← w.table j
  let (w, tmp) ← w.copyOf src
  let dst ← w.table i
  return (w.free dst.block).put i tmp

/-- Move construction (`schedule_params.cpp:208`): the new table takes the block and the spans. -/
def World.move (w : World) (i : Nat) : Outcome World := do
  let t ← w.table i
  return ((w.alloc []).put i ⟨w.heap.length, []⟩).add t

/-- Move assignment of table `j` to table `i` (`schedule_params.cpp:209-215`) -/
def World.moveAssign (w : World) (i j : Nat) : Outcome World := do
  let dst ← w.table i
  if i = j then return w
  else do
    let src ← w.table j
    return (((w.free dst.block).alloc []).put i src).put j ⟨w.heap.length, []⟩

/-- `clear` (`schedule_params.cpp:149-153`) -/
def World.clear (w : World) (i : Nat) : Outcome World := do
  let t ← w.table i
  return { w with heap := w.heap.set t.block (some []) }.put i ⟨t.block, []⟩

/-- Destructor -/
def World.destroy (w : World) (i : Nat) : Outcome World := do
  let t ← w.table i
  return { w.free t.block with tables := w.tables.set i none }

/-- Assignment to element `c` of row `r` through `operator[]` (`schedule_params.h:59-63`) -/
def World.write (w : World) (i r c : Nat) (x : Int) : Outcome World := do
  let t ← w.table i
  match t.spans[r]? with
  | none => ub "row index"
  | some s => do
    expects (decide (c < s.len)) "column index"
    let data ← w.block s.block
    expects (decide (s.offset + c < data.length)) "out of the block"
    return { w with heap := w.heap.set s.block (some (data.set (s.offset + c) x)) }

/-- Elements of a span. A span without elements reads nothing. -/
def World.readSpan (w : World) (s : Span) : Outcome (List Int) :=
  if s.len = 0 then ok []
  else do
    let data ← w.block s.block
    expects (decide (s.offset + s.len ≤ data.length)) "out of the block"
    return (data.drop s.offset).take s.len

/-- All rows of a table, read through `operator[]` -/
def World.read (w : World) (i : Nat) : Outcome (List (List Int)) := do
  let t ← w.table i
  t.spans.mapM w.readSpan

/-- One use of a table. -/
inductive Op where
  | create (data : List Int) (sizes : List Nat)
  | copy (i : Nat)
  | assign (i j : Nat)
  | move (i : Nat)
  | moveAssign (i j : Nat)
  | clear (i : Nat)
  | destroy (i : Nat)
  | write (i r c : Nat) (x : Int)

/-- Effect of a use. -/
def World.step (w : World) : Op → Outcome World
  | .create data sizes => ok (w.create data sizes)
  | .copy i => w.copy i
  | .assign i j => w.assign i j
  | .move i => w.move i
  | .moveAssign i j => w.moveAssign i j
  | .clear i => w.clear i
  | .destroy i => w.destroy i
  | .write i r c x => w.write i r c x

/-- Effect of a sequence of uses. -/
def World.run (w : World) : List Op → Outcome World
  | [] => ok w
  | op :: ops => do
    let w ← w.step op
    w.run ops

end Angonoka.Memory
