import Verif.Model.Json
import Verif.Spec.Loading

/-!
# UTF-8

Definitions used in theorem statements about bytes.
-/

namespace Angonoka

/-- The encoding of a text in UTF-8 (RFC 3629); that of a character is `String.utf8EncodeChar` of Lean's library. -/
def utf8 (cs : List Char) : List UInt8 := cs.flatMap String.utf8EncodeChar

/-- The bytes are UTF-8. -/
def IsUtf8 (l : List UInt8) : Prop := ∃ cs : List Char, l = utf8 cs

/-- A text in which each character stands for a byte, and these bytes are UTF-8. -/
def Utf8Text (s : String) : Prop := IsUtf8 (s.toList.map fun c => UInt8.ofNat c.toNat)

/-- The text in which each character stands for a byte of the encoding -/
def asBytes (s : String) : String := String.ofList ((utf8 s.toList).map fun b => Char.ofNat b.toNat)

/-- The text occurs in the value, as a text or as a key. -/
inductive HasText (s : String) : Json → Prop
  | str : HasText s (.str s)
  | arr {l : List Json} {x : Json} : x ∈ l → HasText s x → HasText s (.arr l)
  | key {l : List (String × Json)} {x : Json} : (s, x) ∈ l → HasText s (.obj l)
  | obj {l : List (String × Json)} {k : String} {x : Json} : (k, x) ∈ l → HasText s x → HasText s (.obj l)

mutual

/-- The value with all texts encoded -/
def Json.asBytes : Json → Json
  | .int i => .int i
  | .str s => .str (Angonoka.asBytes s)
  | .arr l => .arr (asBytesList l)
  | .obj l => .obj (asBytesMembers l)

/-- Elements with all texts encoded -/
def Json.asBytesList : List Json → List Json
  | [] => []
  | x :: xs => x.asBytes :: asBytesList xs

/-- Members with all texts encoded -/
def Json.asBytesMembers : List (String × Json) → List (String × Json)
  | [] => []
  | (k, x) :: ms => (Angonoka.asBytes k, x.asBytes) :: asBytesMembers ms

end

namespace Doc

/-- All names of tasks and agents in the document are UTF-8. -/
def Utf8Names (root : Yaml) : Prop :=
  (∀ q ∈ tasks root, ∀ s, Field q.2 "name" (.scalar s) → Utf8Text s) ∧ ∀ w ∈ agents root, ∀ s, w.1 = .scalar s → Utf8Text s

/-- The name of some task of the document is not UTF-8. -/
def OtherName (root : Yaml) : Prop := ∃ q ∈ tasks root, ∀ s, Field q.2 "name" (.scalar s) → ¬ Utf8Text s

end Doc

end Angonoka
