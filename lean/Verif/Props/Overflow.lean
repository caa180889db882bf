import Verif.Props.Documented
import Verif.Props.Duration
import Verif.Props.LoadingExamples

/-!
# C79: durations fit 64 bits
-/

set_option linter.unusedSectionVars false

namespace Angonoka.Props
open Angonoka Outcome Doc DurationText

variable {rf : String → Option XFloat} {root : Yaml} {p : Project}

/-- C79. Durations that a document gives in texts of at most 5000 characters fit 62 bits, so that the sum of two of them fits 64. -/
theorem short_durations {n : Yaml} (h : ∀ s, InDuration n s → s.length ≤ 5000) {lo hi : Nat} (hd : Duration n lo hi) :
    lo < 2 ^ 62 ∧ hi < 2 ^ 62 := by
  have key : ∀ {s : String} {v : Nat}, InDuration n s → Means s v → v < 2 ^ 62 := by
    intro s v hs hm
    exact duration_62 (h s hs) (((duration_language_partial s).1 v).2 hm)
  rcases hd with ⟨s, h1, h2, rfl⟩ | ⟨v, a, b, h1, h2, h3, h4, h5⟩
  · exact ⟨key (Or.inl h1) h2, key (Or.inl h1) h2⟩
  · exact ⟨key (Or.inr ⟨v, h1, Or.inl h2⟩) h4, key (Or.inr ⟨v, h1, Or.inr h3⟩) h5⟩

/-- C79. If a document with such texts loads, the average of no task's duration overflows. -/
theorem average_fits_partial (h : load rf root = ok p) (hs : ∀ q ∈ tasks root, ∀ s, InDuration q.2 s → s.length ≤ 5000) :
    ∀ t ∈ p.tasks, t.durMin ≠ 0 → t.averageDuration = ok ((t.durMin + t.durMax) / 2) := by
  obtain ⟨_, hl⟩ := load_faithful h
  intro t ht h0
  obtain ⟨k, hk, rfl⟩ := List.mem_iff_getElem.1 ht
  have hk' := List.getElem?_eq_getElem hk
  obtain ⟨q, hq⟩ := task_of hl hk'
  obtain ⟨lo, hi, hd, hle, h1, h2⟩ := (hl.tasks_loaded k q _ hq hk').duration
  have := short_durations (hs q (List.mem_of_getElem? hq)) hd
  exact averageDuration_eq ⟨by omega, by omega, by omega⟩

/-- C79 does not hold for longer texts: the average of an accepted duration can overflow. -/
theorem average_overflow : ∃ (text : String) (v : Nat), parseDuration text = ok v ∧
    ∀ t : Task, t.durMin = v → t.durMax = v → ∃ s, t.averageDuration = ub s := by
  have hc := months_components 817
  generalize (List.replicate (817 + 1) "2147483647 months".toList).flatten = cs at hc
  have hlist : (String.ofList cs).toList = cs := String.toList_ofList
  refine ⟨String.ofList cs, _, ((duration_language_partial _).1 _).2 ⟨by rw [hlist]; exact hc, by norm_num⟩, ?_⟩
  intro t h1 h2
  refine ⟨"Duration::average: overflow", ?_⟩
  unfold Task.averageDuration
  rw [h1, h2, expects_true (by decide), ok_bind, expects_true (by decide), ok_bind, if_neg (by norm_num)]

/-- The texts of the example document are short. -/
example : ∀ t ∈ Sample.project.tasks, t.averageDuration = ok ((t.durMin + t.durMax) / 2) := by
  intro t ht
  refine average_fits_partial Sample.plan_loads ?_ t ht ?_
  · intro q hq s hs
    have : s = "2h" ∨ s = "1h and 30m" ∨ s = "10 minutes" ∨ s = "1h" ∨ s = "45s" := by
      simp [tasks, Sample.plan, Sample.obj, Sample.str, Yaml.get, Yaml.lookup, listAt, tasksAt_eq, subs] at hq
      rcases hq with rfl | rfl | rfl | rfl <;>
        simp [InDuration, Doc.Field] at hs <;> grind
    rcases this with rfl | rfl | rfl | rfl | rfl <;> decide
  · revert t; decide

end Angonoka.Props
