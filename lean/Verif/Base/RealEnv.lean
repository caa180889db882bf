import Verif.Base.Float
import Mathlib.Analysis.SpecialFunctions.Log.Basic

/-!
# Exact real arithmetic

The environment in which no operation rounds and `exp`, `log` are the real functions.
-/

namespace Angonoka

/-- Exact real arithmetic. -/
noncomputable def FloatEnv.real : FloatEnv ℝ :=
  FloatEnv.exact Real.exp Real.log (fun x => (Real.exp_pos x).le)
    (fun _ h => Real.exp_le_one_iff.2 h)

end Angonoka
