/-!
# YAML trees

Model of the part of `YAML::Node` (yaml-cpp) that the loader uses. A document
is a finite tree. Anchors that make it cyclic, tags and undefined nodes are not modelled.
-/

namespace Angonoka

/-- A YAML node. Map entries are kept in document order, duplicates included. -/
inductive Yaml where
  | null
  | scalar (text : String)
  | seq (items : List Yaml)
  | map (entries : List (Yaml × Yaml))
  deriving Repr

namespace Yaml

/-- `Node::Scalar()`: the text of a scalar, the empty string for any other node. -/
def text : Yaml → String
  | scalar s => s
  | _ => ""

/-- `Node::IsScalar()` -/
def isScalar : Yaml → Bool
  | scalar _ => true
  | _ => false

/-- `Node::IsSequence()` -/
def isSequence : Yaml → Bool
  | seq _ => true
  | _ => false

/-- `Node::IsMap()` -/
def isMap : Yaml → Bool
  | map _ => true
  | _ => false

/-- `Node::IsNull()` -/
def isNull : Yaml → Bool
  | null => true
  | _ => false

/-- First entry of a map whose key is the scalar `key`. -/
def lookup (key : String) : List (Yaml × Yaml) → Option Yaml
  | [] => none
  | (scalar k, v) :: rest => if k = key then some v else lookup key rest
  | (_, _) :: rest => lookup key rest

/-- `const Node::operator[](const char*)` followed by the test whether the result is
defined. On a scalar yaml-cpp throws `BadSubscript`; the loader only subscripts
nodes that the schema check has found not to be scalars, so the model returns
`none` there. -/
def get (key : String) : Yaml → Option Yaml
  | map es => lookup key es
  | _ => none

/-- Elements when iterating over a sequence. -/
def items : Yaml → List Yaml
  | seq l => l
  | _ => []

/-- Entries when iterating over a map. -/
def entries : Yaml → List (Yaml × Yaml)
  | map l => l
  | _ => []

/-- `Node::size()` -/
def size : Yaml → Nat
  | seq l => l.length
  | map l => l.length
  | _ => 0

theorem sizeOf_lookup {key : String} {es : List (Yaml × Yaml)} {v : Yaml}
    (h : lookup key es = some v) : sizeOf v < sizeOf es := by
  induction es with
  | nil => simp [lookup] at h
  | cons e rest ih =>
    obtain ⟨k, w⟩ := e
    have hrest : lookup key rest = some v → sizeOf v < sizeOf ((k, w) :: rest) := by
      intro h'
      have := ih h'
      simp only [List.cons.sizeOf_spec]
      omega
    cases k with
    | scalar s =>
      simp only [lookup] at h
      split at h
      · cases h
        simp only [List.cons.sizeOf_spec, Prod.mk.sizeOf_spec]
        omega
      · exact hrest h
    | null => exact hrest h
    | seq l => exact hrest h
    | map l => exact hrest h

theorem sizeOf_get {key : String} {n v : Yaml} (h : n.get key = some v) :
    sizeOf v < sizeOf n := by
  cases n with
  | map es =>
    have := sizeOf_lookup (key := key) (es := es) (v := v) h
    simp only [map.sizeOf_spec]
    omega
  | null => simp [get] at h
  | scalar s => simp [get] at h
  | seq l => simp [get] at h

theorem sizeOf_items (n : Yaml) : sizeOf n.items ≤ sizeOf n := by
  cases n <;> simp [items] <;> omega

end Yaml
end Angonoka
