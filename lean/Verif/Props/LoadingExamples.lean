import Verif.Props.Loading
import Verif.Props.Duration

/-!
# A document with exactly one defect

The theorems of `Verif.Props.Loading` that say which error is raised ask for a document without other
defects. Here is one, checked against the list of causes and not by running the loader.
-/

namespace Angonoka.Props
open Angonoka Outcome Doc Load Sample

theorem number_lt {s : List Char} {n : Nat} (h : DurationText.Number s n) : n < 10 ^ s.length := by
  have hd : ∀ c d, (c, d) ∈ DurationText.digits → d < 10 := by
    intro c d h
    simp only [DurationText.digits, List.mem_cons, Prod.mk.injEq, List.not_mem_nil, or_false] at h
    omega
  induction h with
  | one h => simpa using hd _ _ h
  | snoc _ h ih =>
    have := hd _ _ h
    simp only [List.length_append, List.length_cons, List.length_nil, pow_succ]
    omega

/-- Nine characters cannot hold a number beyond the range of `int`. -/
theorem not_huge {s : String} (h : s.length ≤ 9) : ¬ DurationText.HugeNumber s := by
  rintro ⟨p, m, t, n, hs, hn, hgt⟩
  have h1 := number_lt hn
  have : m.length ≤ 9 := by
    have := congrArg List.length hs
    simp only [List.length_append, String.length_toList] at this
    omega
  have := Nat.pow_le_pow_right (n := 10) (by decide) this
  omega

theorem field_obj {es : List (String × Yaml)} {k : String} {v : Yaml} :
    Field (obj es) k v ↔ (k, v) ∈ es := by
  constructor
  · rintro ⟨l, h, hm⟩
    cases h
    simpa using hm
  · intro h
    exact ⟨_, rfl, by simpa using h⟩

theorem field_scalar {s : String} {k : String} {v : Yaml} : ¬ Field (.scalar s) k v := by
  rintro ⟨l, h, hm⟩
  cases h

theorem field_null {k : String} {v : Yaml} : ¬ Field .null k v := by
  rintro ⟨l, h, hm⟩
  cases h

theorem duration_obj {es : List (String × Yaml)} {s : String}
    (he : ∀ v, ("duration", v) ∈ es → v = .scalar s) {lo hi : Nat}
    (h : Doc.Duration (obj es) lo hi) : hi = lo := by
  rcases h with ⟨_, -, -, h⟩ | ⟨v, a, b, h1, h2, -⟩
  · exact h
  · rw [he v (field_obj.1 h1)] at h2
    exact absurd h2 field_scalar

theorem wellFormed_of {s : String} {v : Nat} (h : parseDuration s = ok v) :
    DurationText.WellFormed s := by
  have := ((parseDuration_spec s).1 v).1 h
  exact ⟨v, this.1.mono fun _ _ => trivial⟩

theorem tasks_cyclic : tasks cyclic = [
    ([0], obj [("name", str "build"), ("id", str "b"), ("duration", str "2h"),
      ("subtasks", .seq [
        obj [("name", str "walls"), ("duration", str "1h"), ("depends_on", str "p")]])]),
    ([0, 0], obj [("name", str "walls"), ("duration", str "1h"), ("depends_on", str "p")]),
    ([1], obj [("name", str "paint"), ("id", str "p"), ("duration", str "45s"),
      ("depends_on", .seq [str "b"])])] := by
  simp [tasks, cyclic, obj, str, Yaml.get, Yaml.lookup, listAt, tasksAt_eq, subs]

/-- The cycle is the only defect of `cyclic`, so it meets the hypotheses of `cycles_rejected`. -/
theorem cyclic_only : ¬ Degenerate cyclic ∧ ∀ e, Cause number cyclic e → e = .dependencyCycle := by
  have ha : agents cyclic = [(.scalar "Jack", .null)] := by
    simp [agents, cyclic, obj, Yaml.get, Yaml.lookup]
  have ht := tasks_cyclic
  constructor
  · unfold Degenerate Mentioned
    simp [ha, ht, InDuration, field_obj, field_null, field_scalar, AgentGroup, TaskGroup, str,
      Yaml.text]
    exact ⟨⟨not_huge (by decide), duration_short (by decide)⟩, ⟨not_huge (by decide), duration_short (by decide)⟩,
      not_huge (by decide), duration_short (by decide)⟩
  · intro e he
    cases e <;> unfold Cause at he <;> simp [ha, ht, field_obj, field_null, field_scalar,
      TaskGroup, AgentGroup, DependsOnId, InPerformance, InDuration, str] at he ⊢
    case invalidDuration =>
      rcases he with ⟨-, rfl, h⟩ | ⟨-, rfl, h⟩ | ⟨-, rfl, h⟩
      · exact h (wellFormed_of (v := 7200) (by decide +kernel))
      · exact h (wellFormed_of (v := 3600) (by decide +kernel))
      · exact h (wellFormed_of (v := 45) (by decide +kernel))
    case schema => exact he ((schema_exact cyclic).1 (by decide +kernel))
    case duplicateAgentDefinition =>
      obtain ⟨i, j, hij, ⟨x, hi⟩, ⟨y, hj⟩⟩ := he
      have := (List.getElem?_eq_some_iff.1 hj).1
      simp at this
      omega
    case taskDurationMinMax =>
      rcases he with ⟨-, lo, hi, h, hlt⟩ | ⟨-, lo, hi, h, hlt⟩ | ⟨-, lo, hi, h, hlt⟩
      · have := duration_obj (s := "2h") (by simp) h
        omega
      · have := duration_obj (s := "1h") (by simp) h
        omega
      · have := duration_obj (s := "45s") (by simp) h
        omega
    case duplicateTaskDefinition =>
      obtain ⟨i, j, hij, pa, a, hi, pb, b, hj, h1, h2⟩ := he
      have hj' := (List.getElem?_eq_some_iff.1 hj).1
      simp only [List.length_cons, List.length_nil] at hj'
      have : i = 0 ∧ j = 1 ∨ i = 0 ∧ j = 2 ∨ i = 1 ∧ j = 2 := by omega
      rcases this with ⟨rfl, rfl⟩ | ⟨rfl, rfl⟩ | ⟨rfl, rfl⟩
      · simp at hi hj
        rw [← hj.2, field_obj] at h2
        simp at h2
      · simp at hi hj
        rw [← hi.2, field_obj] at h1
        rw [← hj.2, field_obj] at h2
        simp at h1 h2
        rw [h1] at h2
        exact absurd h2 (by decide)
      · simp at hi hj
        rw [← hi.2, field_obj] at h1
        simp at h1
    case taskNotFound => tauto
    case range =>
      obtain ⟨gs, -, hl, h⟩ := he
      cases gs with
      | nil => simp at hl
      | cons g _ =>
        have := h g (by simp)
        unfold Mentioned at this
        simp [ha, ht, field_obj, field_null, AgentGroup, TaskGroup, str] at this

/-- The cycle of `cyclic`: task 0 needs its subtask 1, which needs 2 by id, which needs 0 by id. -/
theorem cyclic_cycle : ∃ i, Relation.TransGen (Doc.DependsOn cyclic) i i := by
  refine ⟨0, .tail (b := 2) (.tail (b := 1) (.single ?_) ?_) ?_⟩ <;> unfold Doc.DependsOn <;>
    simp only [tasks_cyclic]
  · exact ⟨_, _, rfl, rfl, Or.inl ⟨0, rfl⟩⟩
  · refine ⟨_, _, rfl, rfl, Or.inr ⟨"p", Or.inl ?_, ?_⟩⟩ <;> simp [field_obj, str]
  · refine ⟨_, _, rfl, rfl, Or.inr ⟨"b", Or.inr ⟨[str "b"], ?_, ?_⟩, ?_⟩⟩ <;> simp [field_obj, str]

/-- So the theorem predicts the error that `cyclic_rejected` finds by computing. -/
theorem cyclic_predicted : load number cyclic = throws .dependencyCycle :=
  (cycles_rejected.2.2 cyclic_cycle).2 cyclic_only.1 cyclic_only.2

end Angonoka.Props
