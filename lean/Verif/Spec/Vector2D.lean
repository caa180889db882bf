import Verif.Model.Vector2D

/-!
# Tables as plain values

What the operations on tables mean when a table is nothing but a list of rows.
-/

namespace Angonoka.Memory

/-- Values of the tables; `none` for destroyed ones. -/
abbrev Values := List (Option (List (List Int)))

/-- Cut data into rows of the given sizes. -/
def splitRows (data : List Int) : List Nat → List (List Int)
  | [] => []
  | n :: sizes => data.take n :: splitRows (data.drop n) sizes

/-- Value of a table that is alive. -/
def Values.get (v : Values) (i : Nat) : Option (List (List Int)) := v[i]?.join

/-- Meaning of a use on values; `none` if a destroyed table or an element that does not exist is used,
or a table is created with rows that need more data than there is. -/
def Values.step (v : Values) : Op → Option Values
  | .create data sizes =>
    if sizes.sum ≤ data.length then some (v ++ [some (splitRows data sizes)]) else none
  | .copy i => (v.get i).map fun rows => v ++ [some rows]
  | .assign i j => do
    let _ ← v.get i
    let rows ← v.get j
    return v.set i (some rows)
  | .move i => (v.get i).map fun rows => v.set i (some []) ++ [some rows]
  | .moveAssign i j => do
    let _ ← v.get i
    let rows ← v.get j
    if i = j then return v else return (v.set i (some rows)).set j (some [])
  | .clear i => (v.get i).map fun _ => v.set i (some [])
  | .destroy i => (v.get i).map fun _ => v.set i none
  | .write i r c x => do
    let rows ← v.get i
    let row ← rows[r]?
    if c < row.length then return v.set i (some (rows.set r (row.set c x))) else none

/-- Meaning of a sequence of uses. -/
def Values.run (v : Values) : List Op → Option Values
  | [] => some v
  | op :: ops => do
    let v ← v.step op
    v.run ops

end Angonoka.Memory
