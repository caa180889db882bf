import Verif.Model.Cli

/-!
# The log of the optimization

Definitions used in theorem statements about `optimization_log.csv`.
-/

namespace Angonoka

variable {K : Type} [Field K] [LinearOrder K]

/-- The rows (progress, makespan, epoch) are a log of an optimization that has ended with the makespan `makespan`: progress is a number from 0 to 1
and 1 at the end; an epoch is a row in which the makespan becomes less or stays the same in whole seconds; in rows that are not a new epoch
the makespan stays the same. -/
structure OptimizationLog (rows : List (K × Int × Nat)) (makespan : Int) : Prop where
  last : ∃ before epoch, rows = before ++ [(1, makespan, epoch)]
  fraction : ∀ row ∈ rows, 0 ≤ row.1 ∧ row.1 ≤ 1
  first : ∀ row, rows.head? = some row → row.2.2 ≤ 1
  step : ∀ (i : Nat) (row next : K × Int × Nat), rows[i]? = some row → rows[i + 1]? = some next →
    next.2.2 = row.2.2 ∧ next.2.1 = row.2.1 ∨ next.2.2 = row.2.2 + 1 ∧ next.2.1 ≤ row.2.1

namespace Cli

/-- The logs that are written -/
def logs (es : List (Effect K)) : List (List (K × Int × Nat)) :=
  es.filterMap fun
    | .log rows => some rows
    | _ => none

/-- The output files that are written -/
def files (es : List (Effect K)) : List (String × Json) :=
  es.filterMap fun
    | .file name content => some (name, content)
    | _ => none

end Cli
end Angonoka
