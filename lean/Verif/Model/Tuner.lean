import Verif.Base.Binary32
import Verif.Model.CommandLine

/-!
# The tuner

Model of `/repo/tools/hyperparameters/hyperparameters.py`, the script that tries values of the optimizer's parameters, and of the text of
`optimization_log.csv`, which it reads. Not modelled: the library that suggests values and chooses the best ones (`optuna`), the measurement
of time, starting the program and reading the file.
-/

namespace Angonoka.Tuner
open Angonoka CommandLine

/-- What the library suggests (`hyperparameters.py:24-34`) -/
structure Trial where
  batchSize : Nat
  maxIdleIters : Nat
  betaScale : Int
  gamma : Nat
  deriving DecidableEq, Repr

/-- The ranges in the calls of `suggest_int`; both ends are included. -/
def Trial.Suggested (t : Trial) : Prop :=
  (1 ≤ t.batchSize ∧ t.batchSize ≤ 6) ∧ (1 ≤ t.maxIdleIters ∧ t.maxIdleIters ≤ 5) ∧
    (-7 ≤ t.betaScale ∧ t.betaScale ≤ 0) ∧ (1 ≤ t.gamma ∧ t.gamma ≤ 100)

/-- The value of a positive number as Python's `float`: 53 significant bits, to nearest, ties to even. The ends of the range are left
out. -/
def double (x : ℚ) : ℚ := Binary32.nearest (x / 2 ^ (Int.log 2 x - 52)) * 2 ^ (Int.log 2 x - 52)

/-- `batch_size * 100 * (k / 5)`, converted to `int` (`hyperparameters.py:28-31`) -/
def idleIters (batch k : Nat) : Nat := ⌊double (double (batch * 100 : Nat) * double (k / 5))⌋.toNat

/-- `str` of the `float` that `1e-k` denotes, for `k` up to 99: the shortest text that denotes this number, with an exponent from `1e-05` on. -/
def powerText (k : Nat) : String :=
  if k = 0 then "1.0"
  else if k ≤ 4 then "0." ++ String.ofList (List.replicate (k - 1) '0') ++ "1"
  else "1e-" ++ (if k < 10 then "0" else "") ++ toString k

/-- `str(n / 10)` for `n` up to 10¹⁶ -/
def tenthsText (n : Nat) : String := toString (n / 10) ++ "." ++ toString (n % 10)

/-- `parameters` and the call in `run` (`hyperparameters.py:23-37, 44`) -/
def Trial.arguments (t : Trial) : Arguments where
  input := "tasks.yml"
  logOptimization := true
  batchSize := some (toString (10 ^ t.batchSize))
  maxIdleIters := some (toString (idleIters (10 ^ t.batchSize) t.maxIdleIters))
  betaScale := some (powerText t.betaScale.natAbs)
  stunWindow := some (toString 100)
  gamma := some (tenthsText t.gamma)
  restartPeriod := some (toString 256)

/-! ## The log -/

/-- The first line of the log (`cli/events.cpp:25`) -/
def logHeader : String := "progress,makespan,current_epoch" ++ "\n"

/-- A line of the log (`cli/events.cpp:37-43`). `fmtFloat` is how `fmt` prints a `float`. -/
def rowText {K : Type} (fmtFloat : K → String) (row : K × Int × Nat) : String :=
  fmtFloat row.1 ++ "," ++ toString row.2.1 ++ "," ++ toString row.2.2 ++ "\n"

/-- The text of `optimization_log.csv`. The file is supposed to have this content after the program has ended. -/
def logText {K : Type} (fmtFloat : K → String) (rows : List (K × Int × Nat)) : String :=
  logHeader ++ String.join (rows.map (rowText fmtFloat))

/-- The characters at which `str.splitlines` splits -/
def isBoundary (c : Char) : Bool :=
  c ∈ ['\n', '\r', '\x0b', '\x0c', '\x1c', '\x1d', '\x1e', '\u0085', '\u2028', '\u2029']

/-- `str.splitlines`; `line` is the current line in reverse. -/
def splitLines (line : List Char) : List Char → List (List Char)
  | [] => if line = [] then [] else [line.reverse]
  | '\r' :: '\n' :: rest => line.reverse :: splitLines [] rest
  | c :: rest => if isBoundary c then line.reverse :: splitLines [] rest else splitLines (c :: line) rest

/-- `str.split(",")`; `field` is the current field in reverse. -/
def splitCommas (field : List Char) : List Char → List (List Char)
  | [] => [field.reverse]
  | c :: rest => if c = ',' then field.reverse :: splitCommas [] rest else splitCommas (c :: field) rest

/-- `int(text)` for ASCII characters without `_`, and without white space at the end; `none`: an exception -/
def int (text : List Char) : Option Int :=
  let s := sign text
  if s.2 ≠ [] ∧ s.2.all (isDigit 10) then some (signed s.1 (number 10 s.2)) else none

/-- Makespan and epoch from the text of the log (`hyperparameters.py:47-48`); `none`: an exception -/
def readLog (text : String) : Option (Int × Int) :=
  match (splitLines [] text.toList).getLast? with
  | none => none
  | some line =>
    match ((splitCommas [] line).drop 1).take 2 with
    | [makespan, epoch] => do
      let makespan ← int makespan
      let epoch ← int epoch
      return (makespan, epoch)
    | _ => none

/-- The value of a run (`hyperparameters.py:50`). `rnd` is the rounding of `float`; `seconds` is the difference of the two
times. -/
def score {K : Type} [Field K] (rnd : K → K) (makespan : Int) (seconds : K) : K :=
  rnd (rnd (rnd ((makespan - 3200 : Int) / 50) + rnd (seconds / 3)) / 2)

/-- The value of a trial (`hyperparameters.py:53-55`), from the makespans and the times of its runs, of which there are five. `sum` adds from the left, as before
Python 3.12; since then it compensates for rounding. -/
def objective {K : Type} [Field K] (rnd : K → K) (runs : List (Int × K)) : K :=
  (runs.map fun r => score rnd r.1 r.2).foldl (fun sum x => rnd (sum + x)) 0

end Angonoka.Tuner
