import Mathlib.Algebra.Order.Group.Int
import Mathlib.Algebra.Order.Group.Unbundled.Abs

/-!
# Grammar of duration texts

The language that `/repo/src/config/parse_duration.rl.cpp:18-27` denotes, together with the number of
seconds a text stands for. Independent of the state machine in `Verif.Model.Duration`.
-/

namespace Angonoka.DurationText

/-- A blank: space, tab, line feed, carriage return, vertical tab or form feed. -/
def Blank (c : Char) : Prop :=
  c ∈ [' ', '\t', '\n', '\r', '\x0b', '\x0c']

/-- A possibly empty run of blanks. -/
def Blanks (s : List Char) : Prop := ∀ c ∈ s, Blank c

/-- The ten decimal digits and what they stand for. -/
def digits : List (Char × Nat) :=
  [('0', 0), ('1', 1), ('2', 2), ('3', 3), ('4', 4), ('5', 5), ('6', 6), ('7', 7), ('8', 8), ('9', 9)]

/-- A decimal number and its value. -/
inductive Number : List Char → Nat → Prop
  | one {c : Char} {d : Nat} : (c, d) ∈ digits → Number [c] d
  | snoc {s : List Char} {n : Nat} {c : Char} {d : Nat} :
      Number s n → (c, d) ∈ digits → Number (s ++ [c]) (10 * n + d)

/-- One-letter units and their length in seconds. -/
def letters : List (Char × Nat) :=
  [('s', 1), ('m', 60), ('h', 60 * 60), ('d', 24 * 60 * 60), ('w', 7 * 24 * 60 * 60)]

/-- Unit words and their length in seconds; a month is a twelfth of 365.2425 days. -/
def unitWords : List (String × Nat) :=
  [("sec", 1), ("second", 1), ("min", 60), ("minute", 60), ("hour", 60 * 60),
    ("day", 24 * 60 * 60), ("week", 7 * 24 * 60 * 60), ("month", 3652425 * 24 * 36 / 100 / 12)]

/-- What may follow the number of a component: a letter, with or without blanks before
it, or a word in the singular or plural with at least one blank before it. -/
inductive Unit : List Char → Nat → Prop
  | letter {b : List Char} {c : Char} {u : Nat} : Blanks b → (c, u) ∈ letters → Unit (b ++ [c]) u
  | word {b : List Char} {w : String} {u : Nat} :
      Blanks b → b ≠ [] → (w, u) ∈ unitWords → Unit (b ++ w.toList) u
  | words {b : List Char} {w : String} {u : Nat} :
      Blanks b → b ≠ [] → (w, u) ∈ unitWords → Unit (b ++ w.toList ++ ['s']) u

/-- What may stand between two components: blanks (or nothing), or `and` between blanks. -/
inductive Separator : List Char → Prop
  | blanks {b : List Char} : Blanks b → Separator b
  | and {b b' : List Char} :
      Blanks b → b ≠ [] → Blanks b' → b' ≠ [] → Separator (b ++ ['a', 'n', 'd'] ++ b')

/-- `Components P s v`: the text `s` is a duration of `v` seconds, each number in it satisfying `P`. -/
inductive Components (P : Nat → Prop) : List Char → Nat → Prop
  | one {s t : List Char} {n u : Nat} :
      Number s n → P n → Unit t u → Components P (s ++ t) (n * u)
  | more {p b s t : List Char} {v n u : Nat} :
      Components P p v → Separator b → Number s n → P n → Unit t u →
      Components P (p ++ b ++ (s ++ t)) (v + n * u)

/-- The text is a duration of `v` seconds, which fit 64 bits, and all its numbers fit an `int`. -/
def Means (text : String) (v : Nat) : Prop := Components (· ≤ 2147483647) text.toList v ∧ v < 2 ^ 63

/-- The text has the form of a duration, whatever its numbers. -/
def WellFormed (text : String) : Prop := ∃ v, Components (fun _ => True) text.toList v

/-- Some run of digits in the text stands for a number that does not fit an `int`. -/
def HugeNumber (text : String) : Prop :=
  ∃ (p s t : List Char) (n : Nat), text.toList = p ++ s ++ t ∧ Number s n ∧ 2147483647 < n

/-- The text begins with a duration that does not fit 64 bits. -/
def Overlong (text : String) : Prop :=
  ∃ (p t : List Char) (v : Nat), text.toList = p ++ t ∧ Components (· ≤ 2147483647) p v ∧ 2 ^ 63 ≤ v

end Angonoka.DurationText

namespace Angonoka.DurationText

/-- A duration written out: counts with their unit, those with count zero left out, separated by
single blanks. -/
def render (parts : List (Nat × String)) : String :=
  " ".intercalate ((parts.filter (fun p => p.1 ≠ 0)).map fun p => toString p.1 ++ p.2)

/-- Units for human-readable durations from the largest to the smallest: seconds, article and
name. -/
def humanUnits : List (Int × String × String) :=
  [(2629746, "a", "month"), (24 * 60 * 60, "a", "day"), (60 * 60, "an", "hour"), (60, "a", "minute"),
    (1, "a", "second")]

/-- `k` is `v / u` rounded to the nearest integer, to an even one if two are equally near. -/
def RoundsTo (v u k : Int) : Prop :=
  2 * |v - k * u| ≤ u ∧ (2 * |v - k * u| = u → k % 2 = 0)

/-- How many of a unit, in words. -/
def countText (k : Int) (article name : String) : String :=
  if k = 1 then "about " ++ article ++ " " ++ name else toString k ++ " " ++ name ++ "s"

end Angonoka.DurationText
