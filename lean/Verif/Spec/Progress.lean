/-!
# Lines about progress
-/

namespace Angonoka.Props

/-- The line that shows a progress of `h` hundredths of a percent -/
def progressLine (message : String) (h : Nat) : String :=
  message ++ ": " ++ (toString (h / 100) ++ "." ++ toString (h % 100 / 10) ++ toString (h % 10) ++ "%") ++ "\n"

end Angonoka.Props
