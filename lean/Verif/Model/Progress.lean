import Verif.Base.Outcome
import Mathlib.Algebra.Order.Floor.Defs
import Mathlib.Algebra.Order.Floor.Ring
import Mathlib.Algebra.Order.Field.Basic
import Verif.Base.Float

/-!
# The progress display

Model of `/repo/src/cli/progress.{h,cpp}` (what the bar does to the cursor is in `Verif.Model.Terminal`).
-/

namespace Angonoka.Progress
open Angonoka Outcome

/-! ## The bar -/

/-- `terminal_width` (`cli/progress.cpp:18-25`); `columns` is what `indicators::terminal_width` returns. `int16` is 64 bits wide on the supported
platform (`int_fast16_t`). -/
def terminalWidth (columns : Nat) : Int :=
  if columns < 5 then 50 else columns

/-- The width of the bar (`cli/progress.h:63-65`). `BarWidth` holds a `size_t`, and a negative `safe` number is not converted to it: that
throws a `std::system_error`. -/
def barWidth (columns : Nat) : Outcome Nat :=
  if 0 ≤ terminalWidth columns - 9 then ok (terminalWidth columns - 9).toNat else throws .system

/-- The display that `json_schedule` and `run_prediction` choose (`cli/schedule.cpp:179-180`, `cli/cli.cpp:125-126`): text, or a bar, given by its
width -/
def choose (color : Bool) (columns : Nat) : Outcome (Option Nat) := do
  if color then
    let w ← barWidth columns
    return some w
  else return none

/-! ## Text -/

variable {K : Type} [Field K] [LinearOrder K] [IsStrictOrderedRing K]

/-- `ProgressText` (`cli/progress.h:17-31`): the time of the last update, and what has been printed, with the time. Times are nanoseconds on the
steady clock; `last_update` starts at the epoch of the clock. -/
structure Text where
  lastUpdate : Int := 0
  lines : List (Int × String) := []
  deriving DecidableEq, Repr

/-- The number with two decimals that `{:.2f}` prints; `hundredths` rounds to a whole number. -/
def percentText (hundredths : K → Int) (x : K) : String :=
  let h := (hundredths (100 * x)).toNat
  toString (h / 100) ++ "." ++ toString (h % 100 / 10) ++ toString (h % 10) ++ "%"

/-- `ProgressText::update` (`cli/progress.cpp:7-16`) at the time `now` -/
def Text.update (E : FloatEnv K) (hundredths : K → Int) (now : Int) (progress : K) (message : String) (t : Text) : Outcome Text := do
  expects (decide (0 ≤ progress ∧ progress ≤ 1)) "ProgressText::update: progress"
  if now - t.lastUpdate < 1000000000 then return t
  return { lastUpdate := now,
           lines := t.lines ++ [(now, message ++ ": " ++ percentText hundredths (E.mul progress (E.rnd 100)) ++ "\n")] }

/-- Updates one after the other -/
def Text.updates (E : FloatEnv K) (hundredths : K → Int) (message : String) : List (Int × K) → Text → Outcome Text
  | [], t => ok t
  | (now, progress) :: us, t => do
    let t ← t.update E hundredths now progress message
    t.updates E hundredths message us

end Angonoka.Progress
