import Verif.Model.CommandLine
import Verif.Spec.Duration

/-!
# Decimal notation

Used in theorem statements about the tuner.
-/

namespace Angonoka.Tuner
open Angonoka CommandLine DurationText

/-- A number in decimal notation with a decimal point, or with an exponent below zero, and its value -/
inductive Decimal : String → ℚ → Prop
  | point {a b : List Char} {m n : Nat} : Number a m → Number b n → Decimal (String.ofList (a ++ '.' :: b)) (m + n / 10 ^ b.length)
  | exponent {a b : List Char} {m n : Nat} : Number a m → Number b n → Decimal (String.ofList (a ++ 'e' :: '-' :: b)) (m / 10 ^ n)

/-- `q` is `v` with a relative error of at most 2⁻⁶⁰ -/
def NearTo (q v : ℚ) : Prop := |q - v| ≤ v / 2 ^ 60

/-- Numbers in decimal notation that are not extreme are read as such, with an error of at most 2⁻⁶⁰. (A `long double` has 64 significant
bits.) -/
def ReadsDecimals (read : ReadReal) : Prop :=
  ∀ text v, Decimal text v → 1 / 10 ^ 10 ≤ v → v ≤ 10 ^ 10 → ∃ q, read text = some (.fin q) ∧ NearTo q v

end Angonoka.Tuner
