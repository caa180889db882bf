import Mathlib.Algebra.Order.Field.Basic
import Mathlib.Algebra.Order.Ring.Rat
import Mathlib.Order.Monotone.Basic
import Mathlib.Tactic.Linarith
import Mathlib.Tactic.Positivity
import Mathlib.Tactic.Ring
import Verif.Base.RollingMean

/-!
# Floating-point environments

`float` values of the code are elements of an ordered field `K` (the rationals or
the reals). A floating-point operation is the exact operation followed by the rounding
function `rnd`. Everything that is proved for an arbitrary `FloatEnv` holds for exact
arithmetic (`rnd = id`) as well as for IEEE round-to-nearest as long as no
operation overflows (`Verif.Base.Binary32` constructs that instance).

Not modelled: infinities and NaN as results of operations, and the reassociation
allowed by `-ffast-math`.
-/

namespace Angonoka

/-- Rounding and the elementary functions used by the code, with the laws the proofs rely on. -/
structure FloatEnv (K : Type) [Field K] [LinearOrder K] [IsStrictOrderedRing K] where
  /-- rounding of an exact result to a `float` -/
  rnd : K → K
  rnd_mono : Monotone rnd
  rnd_idem : ∀ x, rnd (rnd x) = rnd x
  rnd_neg : ∀ x, rnd (-x) = -rnd x
  rnd_one : rnd 1 = 1
  /-- twice a `float` is a `float` -/
  rnd_double : ∀ x, rnd (2 * rnd x) = 2 * rnd x
  /-- `std::exp` -/
  exp : K → K
  exp_nonneg : ∀ x, 0 ≤ exp x
  exp_le_one : ∀ x, x ≤ 0 → exp x ≤ 1
  /-- `std::log` -/
  log : K → K
  /-- How far the rolling mean of non-negative numbers may fall below zero. In exact arithmetic it does not; with rounding
  its errors add up. See `Temperature.averageStun` and `Verif.Props.Drift`. -/
  slack : K
  slack_nonneg : 0 ≤ slack
  slack_le : slack ≤ 900
  slack_exact : (∀ x, rnd x = x) → slack = 0

namespace FloatEnv

variable {K : Type} [Field K] [LinearOrder K] [IsStrictOrderedRing K] (E : FloatEnv K)

/-- `x + y` on floats -/
def add (x y : K) : K := E.rnd (x + y)
/-- `x - y` on floats -/
def sub (x y : K) : K := E.rnd (x - y)
/-- `x * y` on floats -/
def mul (x y : K) : K := E.rnd (x * y)
/-- `x / y` on floats -/
def div (x y : K) : K := E.rnd (x / y)
/-- `std::fma(x, y, z)` -/
def fma (x y z : K) : K := E.rnd (x * y + z)
/-- conversion from an integer -/
def ofInt (n : Int) : K := E.rnd (n : K)
/-- the rolling mean of the last `n` of the samples `l`, newest first -/
def rolling (n : Nat) (l : List K) : K := rollingMean E.rnd n l

theorem rnd_zero : E.rnd 0 = 0 := by
  have h := E.rnd_neg 0
  rw [neg_zero] at h
  linarith

theorem rnd_nonneg {x : K} (h : 0 ≤ x) : 0 ≤ E.rnd x := by
  have := E.rnd_mono h
  rwa [E.rnd_zero] at this

theorem rnd_nonpos {x : K} (h : x ≤ 0) : E.rnd x ≤ 0 := by
  have := E.rnd_mono h
  rwa [E.rnd_zero] at this

theorem rnd_le_one {x : K} (h : x ≤ 1) : E.rnd x ≤ 1 := by
  have := E.rnd_mono h
  rwa [E.rnd_one] at this

theorem one_le_rnd {x : K} (h : 1 ≤ x) : 1 ≤ E.rnd x := by
  have := E.rnd_mono h
  rwa [E.rnd_one] at this

theorem neg_one_le_rnd {x : K} (h : -1 ≤ x) : -1 ≤ E.rnd x := by
  have := E.rnd_mono h
  rwa [E.rnd_neg, E.rnd_one] at this

/-- Exact arithmetic with given elementary functions. -/
def exact (exp log : K → K) (h0 : ∀ x, 0 ≤ exp x) (h1 : ∀ x, x ≤ 0 → exp x ≤ 1) :
    FloatEnv K where
  rnd x := x
  rnd_mono := monotone_id
  rnd_idem _ := rfl
  rnd_neg _ := rfl
  rnd_one := rfl
  rnd_double _ := rfl
  exp := exp
  exp_nonneg := h0
  exp_le_one := h1
  log := log
  slack := 0
  slack_nonneg := le_rfl
  slack_le := by norm_num
  slack_exact _ := rfl

/-- Exact rational arithmetic, with a simple rational function in the role of `exp`. Used
in examples, where computability matters. -/
def rat : FloatEnv ℚ :=
  exact (fun x => if x ≤ 0 then 1 / (1 - x) else 1 + x) (fun x => x - 1)
    (fun x => by
      split
      · have : (0 : ℚ) < 1 - x := by linarith
        positivity
      · linarith)
    (fun x hx => by
      simp only [hx, if_true]
      rw [div_le_one (by linarith)]
      linarith)

end FloatEnv
end Angonoka
