import Verif.Model.CommandLine

/-!
# What the command line options should mean

Used by the theorems about C71 and C72.
-/

namespace Angonoka.CommandLine
open Angonoka

/-- Reading a text as a real number and as a whole number gives the same sign. -/
def SignsAgree (read : ReadReal) : Prop :=
  ∀ text v, toInt text = some v → v ≤ 0 → ∃ q, read text = some (.fin q) ∧ q ≤ 0

/-- Decimal numbers are read as such (up to the greatest `int`, which any `double` can hold). -/
def ReadsNaturals (read : ReadReal) : Prop := ∀ n : Nat, n < 2 ^ 31 → read (toString n) = some (.fin n)

/-- The number starts with the digit 0. -/
def LeadingZero (text : String) : Prop :=
  ∃ pre rest, text.toList = pre ++ '0' :: rest ∧ ∀ c ∈ pre, isSpace c = true ∨ c = '+' ∨ c = '-'

/-- A beta scale that is neither too small nor too large: in exact arithmetic it is at most 33, with rounding the limit depends
on `E.slack`. The default, 0.001, is below it. -/
def ModerateBeta {K : Type} [_root_.Field K] [LinearOrder K] [IsStrictOrderedRing K] (E : FloatEnv K) (q : ℚ) : Prop :=
  2 ^ (-126 : Int) ≤ q ∧ (q : K) * (E.slack + 3 / 100) ≤ 99 / 100

/-- A positive `int` -/
def IsPositiveInt (n : Nat) : Prop := 0 < n ∧ n < 2 ^ 31

/-- The option is not given or is the decimal notation of a number satisfying `P`; `v` is that number or the default. -/
def Given (P : Nat → Prop) (default v : Nat) (text : Option String) : Prop :=
  text = none ∧ v = default ∨ text = some (toString v) ∧ P v

/-- The same for an option of type `float` -/
def GivenReal (read : ReadReal) (default v : ℚ) (text : Option String) : Prop :=
  text = none ∧ v = default ∨ ∃ t, text = some t ∧ read t = some (.fin v) ∧ 2 ^ (-126 : Int) ≤ v ∧ v ≤ 2 ^ 127

/-- A character that can be part of a whole number: white space, a sign, a digit (hexadecimal digits included) or `x` -/
def NumberChar (c : Char) : Prop :=
  c = ' ' ∨ c = '\t' ∨ c = '\n' ∨ c = '\x0b' ∨ c = '\x0c' ∨ c = '\r' ∨ c = '+' ∨ c = '-' ∨ c = 'x' ∨ c = 'X' ∨
    ('0' ≤ c ∧ c ≤ '9') ∨ ('a' ≤ c ∧ c ≤ 'f') ∨ ('A' ≤ c ∧ c ≤ 'F')

/-- The text cannot be the value of an option that is a positive `int`: it is the decimal notation of 0 or of a number that is too large, or
it starts with a minus sign, or it contains a character that does not belong to numbers. -/
def NotPositiveInt (text : String) : Prop :=
  (∃ n : Nat, ¬ IsPositiveInt n ∧ text = toString n) ∨ (∃ rest, text = "-" ++ rest) ∨ ∃ c ∈ text.toList, ¬ NumberChar c

end Angonoka.CommandLine
