import Verif.Model.Duration

/-!
# Printing durations

Model of `/repo/src/cli/verbose.h` and `/repo/src/cli/humanize.h`. The program only prints
`std::chrono::seconds`, so values are integers; negative ones are included.
`fmt`'s `{}` for an integer is `toString`.
-/

namespace Angonoka.Format
open Angonoka

/-- State of the verbose formatter: the rest of the duration, the text so far and
`needs_space`. -/
structure VerboseState where
  total : Int
  out : String := ""
  needsSpace : Bool := false

/-- `verbose_duration<T>(name)` (`verbose.h:27-38`); `std::chrono::floor` to a unit of
`unit` seconds. -/
def verboseDuration (unit : Int) (name : String) (st : VerboseState) : VerboseState :=
  let dur := st.total / unit
  if dur = 0 then st
  else
    { total := st.total - dur * unit
      out := st.out ++ (if st.needsSpace then " " else "") ++ (toString dur ++ name)
      needsSpace := true }

/-- `formatter<verbose<seconds>>::format` (`verbose.h:57-75`) -/
def verbose (v : Int) : String :=
  if v = 0 then "0s"
  else
    (verboseDuration 1 "s" (verboseDuration 60 "m" (verboseDuration 3600 "h"
      (verboseDuration 86400 "d" (verboseDuration 2629746 "mo" { total := v }))))).out

/-- `std::chrono::round` to a unit of `unit` seconds: to nearest, ties to even. -/
def chronoRound (unit v : Int) : Int :=
  let t0 := v / unit
  let t1 := t0 + 1
  let diff0 := v - t0 * unit
  let diff1 := t1 * unit - v
  if diff0 = diff1 then (if t0 % 2 = 1 then t1 else t0)
  else if diff0 < diff1 then t0 else t1

/-- `humanize_duration<T>(article, name)` (`humanize.h:46-64`); `none` is
`DurationParsing::continue_`. -/
def humanizeDuration (unit : Int) (article name : String) (v : Int) : Option String :=
  let ticks := chronoRound unit v
  if ticks = 0 then none
  else if ticks = 1 then some s!"about {article} {name}"
  else some s!"{ticks} {name}s"

/-- `formatter<humanize<seconds>>::format` (`humanize.h:82-99`): the first function that prints
something ends the chain. -/
def humanize (v : Int) : String :=
  if v ≤ 5 then "a few seconds"
  else
    ((humanizeDuration 2629746 "a" "month" v).orElse fun _ =>
      (humanizeDuration 86400 "a" "day" v).orElse fun _ =>
        (humanizeDuration 3600 "an" "hour" v).orElse fun _ =>
          (humanizeDuration 60 "a" "minute" v).orElse fun _ =>
            humanizeDuration 1 "a" "second" v).getD ""

end Angonoka.Format
