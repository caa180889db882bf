import Verif.Spec.Schedule
import Mathlib.Data.List.TakeDrop

/-!
# Checking concrete projects and schedules

Decidable conditions that imply the specifications, and a small project that the examples
next to the theorems use.
-/

set_option linter.unusedSectionVars false

namespace Angonoka

variable {K : Type} [Field K] [LinearOrder K] [IsStrictOrderedRing K]

omit [IsStrictOrderedRing K] [LinearOrder K] in
theorem validSchedule_of_check {p : ScheduleParams K} {s : List Item}
    (h1 : (s.map Item.task).Perm (List.range p.taskCount))
    (h2 : ∀ i, (h : i < s.length) → ∀ d ∈ p.deps s[i].task, d ∈ (s.take i).map Item.task)
    (h3 : ∀ it ∈ s, it.agent ∈ p.avail it.task) : ValidSchedule p s where
  complete := h1
  ordered := by
    intro pre it post hs d hd
    have h := h2 pre.length (by simp [hs])
    simp only [hs, List.getElem_append_right (le_refl _), Nat.sub_self, List.getElem_cons_zero,
      List.take_left] at h
    exact h d hd
  eligible := h3

omit [IsStrictOrderedRing K] in
/-- Well-formedness when every dependency has a smaller index. -/
theorem wellFormed_of_check {p : ScheduleParams K}
    (h1 : 0 < p.taskCount) (h2 : p.dependencies.size = p.taskCount)
    (h3 : p.availableAgents.size = p.taskCount)
    (h4 : ∀ t < p.taskCount, ∀ d ∈ p.deps t, d < t)
    (h5 : ∀ t < p.taskCount, (p.deps t).Pairwise (· < ·))
    (h6 : ∀ t < p.taskCount, p.avail t ≠ [])
    (h7 : ∀ t < p.taskCount, ∀ a ∈ p.avail t, a < p.agentCount)
    (h8 : ∀ x ∈ p.agentPerformance, 0 < x) (h9 : ∀ x ∈ p.taskDuration, 0 ≤ x) :
    WellFormed p where
  tasks_pos := h1
  deps_size := h2
  avail_size := h3
  deps_lt t ht d hd := (h4 t ht d hd).trans ht
  deps_sorted := h5
  acyclic t ht := by
    have : ∀ a b, Relation.TransGen p.Needs a b → b < a := by
      intro a b hab
      induction hab with
      | single h => exact h4 _ h.1 _ h.2
      | tail _ h ih => exact (h4 _ h.1 _ h.2).trans ih
    exact lt_irrefl _ (this t t ht)
  avail_ne := h6
  avail_lt := h7
  perf_pos := h8
  dur_nonneg := h9

namespace Example

/-- Three tasks and two agents. Task 2 needs tasks 0 and 1. Task 1 can only be
done by agent 1, the other tasks by both; agent 1 is twice as fast as agent 0. -/
def params : ScheduleParams ℚ where
  agentPerformance := [1, 2]
  taskDuration := [2, 3, 4]
  availableAgents := Vector2D.ofSizes [0, 1, 1, 0, 1] [2, 1, 2]
  dependencies := Vector2D.ofSizes [0, 1] [0, 0, 2]
  durationMultiplier := 1

theorem params_wellFormed : WellFormed params := by
  apply wellFormed_of_check
  all_goals decide

/-- Task 1 first (agent 1), then task 0 (agent 0), then task 2 (agent 0). -/
def schedule : List Item := [⟨1, 1⟩, ⟨0, 0⟩, ⟨2, 0⟩]

theorem schedule_valid : ValidSchedule params schedule := by
  apply validSchedule_of_check
  all_goals decide

end Example
end Angonoka
