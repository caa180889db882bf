import Verif.Proof.InitialSchedule
import Verif.Proof.Mutator
import Verif.Proof.Examples

/-!
# C21-C23: the initial schedule and mutations
-/

namespace Angonoka.Props
open Angonoka Outcome Stun

variable {K : Type} [Field K] [LinearOrder K] [IsStrictOrderedRing K]

/-- C21. `initial_schedule` violates no contract, ends (the recursion and loop bounds of the model are
never hit) and returns a valid schedule. -/
theorem initialSchedule_valid {p : ScheduleParams K} (hp : WellFormed p) :
    ∃ s, initialSchedule p = ok s ∧ ValidSchedule p s :=
  initialSchedule_ok hp

/-- C22. Mutating a valid schedule yields a valid schedule, whatever the random numbers are. -/
theorem mutate_valid {p : ScheduleParams K} (hp : WellFormed p) {s : List Item}
    (hs : ValidSchedule p s) (d : Draws K) : ∃ s', mutate p d s = ok s' ∧ ValidSchedule p s' :=
  mutate_ok hp hs d

/-- C23. Every valid schedule can be reached from every other one by a sequence of mutations. -/
theorem mutate_connected {p : ScheduleParams K} (hp : WellFormed p) {s t : List Item}
    (hs : ValidSchedule p s) (ht : ValidSchedule p t) :
    Relation.ReflTransGen (fun a b => ∃ d : Draws K, mutate p d a = ok b) s t :=
  mutate_connected_aux hp t [] s hs ht

/-! ### Examples -/

example : ∃ s, initialSchedule Example.params = ok s ∧ ValidSchedule Example.params s :=
  initialSchedule_valid Example.params_wellFormed

example : initialSchedule Example.params = ok [⟨0, 0⟩, ⟨1, 1⟩, ⟨2, 0⟩] := by
  simp [initialSchedule, initialLoop, pushTask, pushTasks, Example.params, expects, Vector2D.row,
    Vector2D.ofSizes, Vector2D.spansOf, List.range, List.range.loop]

example (d : Draws ℚ) : ∃ s', mutate Example.params d Example.schedule = ok s' ∧
    ValidSchedule Example.params s' :=
  mutate_valid Example.params_wellFormed Example.schedule_valid d

/-- Two different schedules of the example project are connected. -/
example : Relation.ReflTransGen (fun a b => ∃ d : Draws ℚ, mutate Example.params d a = ok b)
    Example.schedule [⟨0, 1⟩, ⟨1, 1⟩, ⟨2, 1⟩] :=
  mutate_connected Example.params_wellFormed Example.schedule_valid
    (by apply validSchedule_of_check <;> decide)

end Angonoka.Props
