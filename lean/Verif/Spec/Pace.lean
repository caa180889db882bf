import Verif.Model.Project

/-!
# The same plan with faster agents

From the model only the data types are used.
-/

namespace Angonoka.Doc
open Angonoka

/-- `c` times a number; infinities and NaN stay as they are. -/
def times (c : ℚ) : XFloat → XFloat
  | .fin q => .fin (c * q)
  | x => x

/-- The same plan, except that every agent is `c` times as fast -/
def faster (c : ℚ) (p : Project) : Project :=
  { p with agents := p.agents.map fun a => { a with perfMin := times c a.perfMin, perfMax := times c a.perfMax } }

end Angonoka.Doc
