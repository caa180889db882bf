import Mathlib.Logic.Relation
import Verif.Model.Yaml

/-!
# The order of a document

Two documents that say the same in another order. Only the data type `Yaml` comes from the model.
-/

namespace Angonoka.Doc
open Angonoka

/-- Somewhere in the document two neighbours have changed places: elements of a list or entries of a map. -/
inductive Moved : Yaml → Yaml → Prop
  | elements (a : List Yaml) (x y : Yaml) (b : List Yaml) : Moved (.seq (a ++ x :: y :: b)) (.seq (a ++ y :: x :: b))
  | entries (a : List (Yaml × Yaml)) (x y : Yaml × Yaml) (b : List (Yaml × Yaml)) :
    Moved (.map (a ++ x :: y :: b)) (.map (a ++ y :: x :: b))
  | inElement (a : List Yaml) {x y : Yaml} (b : List Yaml) (h : Moved x y) : Moved (.seq (a ++ x :: b)) (.seq (a ++ y :: b))
  | inEntry (a : List (Yaml × Yaml)) (key : Yaml) {x y : Yaml} (b : List (Yaml × Yaml)) (h : Moved x y) :
    Moved (.map (a ++ (key, x) :: b)) (.map (a ++ (key, y) :: b))

/-- The two documents differ only in the order in which things are listed: agents, their properties and groups; tasks, subtasks, their properties,
groups and dependencies. -/
def Reordered : Yaml → Yaml → Prop := Relation.ReflTransGen Moved

end Angonoka.Doc
