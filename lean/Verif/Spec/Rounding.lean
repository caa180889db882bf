import Verif.Base.Binary32
import Verif.Spec.Project
import Verif.Spec.Json

/-!
# Rounding

Definitions used in theorem statements about single precision arithmetic.
-/

namespace Angonoka

variable {K : Type} [Field K] [LinearOrder K] [IsStrictOrderedRing K]

/-- Operations round to single precision. -/
def FloatEnv.IsFloat [FloorRing K] (E : FloatEnv K) : Prop := ∀ x, E.rnd x = Binary32.round x

/-- The same environment without rounding -/
def FloatEnv.unrounded (E : FloatEnv K) : FloatEnv K where
  rnd x := x
  rnd_mono := monotone_id
  rnd_idem _ := rfl
  rnd_neg _ := rfl
  rnd_one := rfl
  rnd_double _ := rfl
  exp := E.exp
  exp_nonneg := E.exp_nonneg
  exp_le_one := E.exp_le_one
  log := E.log
  slack := 0
  slack_nonneg := le_rfl
  slack_le := by norm_num
  slack_exact _ := rfl

/-- A project for which no operation overflows or underflows: up to 127 tasks and agents (this is all that the loader accepts), durations
that fit 62 bits, and performances between 2⁻⁴⁰ and 2⁴⁰ -/
structure Project.InRange (p : Project) : Prop where
  tasks : p.tasks.length ≤ 127
  agents : p.agents.length ≤ 127
  durations : ∀ t ∈ p.tasks, t.durMax < 2 ^ 62
  performance : ∀ a ∈ p.agents, ∀ q : ℚ, a.perfMin = .fin q ∨ a.perfMax = .fin q →
    1 / 2 ^ 40 ≤ q ∧ q ≤ 2 ^ 40

/-- `x` is `y` with a relative error of at most `r`. -/
def Within (r x y : K) : Prop := |x - y| ≤ r * y

/-- The whole number `i` is `x`, up to a relative error of 2⁻¹⁴ (0.0061 %) and one second. -/
def CloseTo (i : Int) (x : K) : Prop := |(i : K) - x| ≤ x / 2 ^ 14 + 1

end Angonoka
