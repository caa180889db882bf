import Verif.Proof.Messages
import Verif.Props.Cli

/-!
# C63: validation messages are true
-/

namespace Angonoka.Props
open Angonoka Outcome Doc Cli

variable {rf : String → Option XFloat} {root : Yaml}

/-- C63 in part. When a document is rejected, the message that the program prints is true of the document: what it names is
there and has the defect it describes. What is missing: the message that there is no suitable agent for a task names a group instead
of the task, see `message_names_group`; and an agent with the performance 0 is said to have a negative performance, see
`message_zero_negative`. -/
theorem messages_true_partial {e : Err} (h : load rf root = throws e) (hv : e.isValidationError = true)
    (hg : ∀ g, e ≠ .noSuitableAgent g)
    (hz : ∀ a ∈ agents root, ∀ text, InPerformance a.2 text → rf text ≠ some (.fin 0)) :
    TrueMessage rf root (what e) := by
  have hc := load_error_true h
  cases e with
  | schema m =>
    unfold load at h
    split at h
    · rename_i e he
      injection h with h
      injection h with h
      subst h
      exact Validation.validateConfiguration_truthful he
    · exfalso
      rename_i he
      exact hc ((Validation.validateConfiguration_ok root).1 he)
  | cantBeEmpty w =>
    rcases hc with ⟨rfl, hc⟩ | ⟨rfl, hc⟩ | ⟨q, hq, hc⟩
    · exact .noAgents hc
    · exact .noTasks hc
    · have hq' : IsTaskOf root q.2 := ⟨q.1, hq⟩
      rcases hc with ⟨rfl, hc⟩ | ⟨rfl, hc⟩ | ⟨name, hn, ⟨rfl, hc⟩ | ⟨rfl, hc⟩⟩
      · exact .noName ⟨hq', hc⟩
      · exact .noAgentName hq' hc
      · have := TrueMessage.noId (rf := rf) (name := name) ⟨hq', hn⟩ hc
        rw [show "\" can't be empty." = "\"" ++ " can't be empty." by decide, ← String.append_assoc] at this
        exact this
      · have := TrueMessage.noDependency (rf := rf) (name := name) ⟨hq', hn⟩ hc
        rw [show "\" can't be empty." = "\"" ++ " can't be empty." by decide, ← String.append_assoc] at this
        exact this
  | duplicateAgentDefinition who =>
    obtain ⟨i, j, ⟨k, v⟩, ⟨k', w⟩, hij, hi, hj, h1, h2⟩ := hc
    dsimp only at h1 h2
    subst h1 h2
    exact .duplicateAgent hij hi hj
  | invalidAgentPerformance who =>
    obtain ⟨⟨k, v⟩, ha, h1, s, h2, h3⟩ := hc
    dsimp only at h1 h2
    subst h1
    exact .invalidPerformance ha h2 h3
  | negativePerformance who =>
    obtain ⟨⟨k, v⟩, ha, h1, s, x, h2, h3, h4⟩ := hc
    dsimp only at h1 h2
    subst h1
    refine .negativePerformance ha h2 h3 ?_
    have h0 := hz _ ha s h2
    cases x with
    | fin q =>
      have hq : q ≤ 0 := by simpa [XFloat.le] using h4
      have hne : q ≠ 0 := by rintro rfl; exact h0 h3
      simpa [XFloat.gt] using lt_of_le_of_ne hq hne
    | pinf => cases h4
    | ninf => rfl
    | nan => cases h4
  | agentPerformanceMinMax who =>
    obtain ⟨⟨k, v⟩, ha, h1, w, a, b, x, y, h2, h3, h4, h5, h6, h7⟩ := hc
    dsimp only at h1 h2
    subst h1
    exact .performanceMinMax ha h2 h3 h4 h5 h6 h7
  | duplicateTaskDefinition id =>
    obtain ⟨i, j, q, r, hij, hi, hj, h1, h2⟩ := hc
    exact .duplicateTask hij hi hj h1 h2
  | invalidDuration task text =>
    obtain ⟨q, hq, h1, h2, h3⟩ := hc
    exact .invalidDuration ⟨⟨q.1, hq⟩, h1⟩ h2 h3
  | taskDurationMinMax task =>
    obtain ⟨q, hq, h1, lo, hi, h2, h3⟩ := hc
    exact .durationMinMax ⟨⟨q.1, hq⟩, h1⟩ h2 h3
  | invalidTaskAssignment task =>
    obtain ⟨q, hq, h1, ⟨v, w, h2, h3⟩ | ⟨v, w, h2, h3⟩ | ⟨v, w, h2, h3⟩⟩ := hc
    · exact .assignment ⟨⟨q.1, hq⟩, h1⟩ (key := "group") (key' := "groups") (by simp) h2 h3
    · exact .assignment ⟨⟨q.1, hq⟩, h1⟩ (key := "agent") (key' := "group") (by simp) h3 h2
    · exact .assignment ⟨⟨q.1, hq⟩, h1⟩ (key := "agent") (key' := "groups") (by simp) h3 h2
  | noSuitableAgent g => exact absurd rfl (hg g)
  | agentNotFound name =>
    obtain ⟨⟨q, hq, h1⟩, h2⟩ := hc
    exact .agentNotFound ⟨q.1, hq⟩ h1 fun body hb => h2 _ hb rfl
  | taskNotFound id =>
    obtain ⟨⟨q, hq, h1⟩, h2⟩ := hc
    exact .taskNotFound ⟨q.1, hq⟩ h1 h2
  | dependencyCycle =>
    obtain ⟨i, hi⟩ := hc
    exact .cycle hi
  | duration t => cases hv
  | range => cases hv
  | yaml => cases hv
  | narrowing => cases hv
  | system => cases hv
  | encoding => cases hv

/-- C58 and C63 together: a document that is rejected makes the program exit with the failure status, and the last thing it does is
to print a true explanation on the standard error stream. -/
theorem rejection_explained {K : Type} [Field K] [LinearOrder K] [IsStrictOrderedRing K] [FloorRing K]
    {E : FloatEnv K} {m : Machine K} {c : Command} {o : Cli.Options K} (hf : o.filename ≠ "") {e : Err}
    (hs : m.source = .doc root) (h : load m.readFloat root = throws e) (hv : e.isValidationError = true)
    (hg : ∀ g, e ≠ .noSuitableAgent g)
    (hz : ∀ a ∈ agents root, ∀ text, InPerformance a.2 text → m.readFloat text ≠ some (.fin 0)) :
    status (body E m c o).flow = .exit 1 ∧
    ∃ (pre : List (Effect K)) (text : String), (∀ e ∈ pre, e.OnStdout) ∧ TrueMessage m.readFloat root text ∧
      (body E m c o).effects = pre ++ [.stderr (red o ("Validation error: " ++ text ++ "\n"))] := by
  obtain ⟨h1, pre, h2, h3⟩ := failed_load_reported (E := E) (c := c) hf (.invalid hs h hv)
  exact ⟨h1, pre, what e, h2, messages_true_partial h hv hg hz, h3⟩

namespace Sample

/-- Nobody is in the group that the task "paint" is for. -/
def nobody : Yaml := obj [
  ("agents", obj [("Bob", obj [("groups", .seq [str "masons"])])]),
  ("tasks", .seq [obj [("name", str "paint"), ("duration", str "1h"), ("group", str "painters")]])]

/-- Bob has the performance 0. -/
def idle : Yaml := obj [
  ("agents", obj [("Bob", obj [("performance", str "0")])]),
  ("tasks", .seq [obj [("name", str "paint"), ("duration", str "1h")]])]

/-- The second subtask has a misspelt attribute. -/
def misspelt : Yaml := obj [
  ("agents", obj [("Bob", .null)]),
  ("tasks", .seq [obj [("name", str "build"), ("duration", str "1h"), ("subtasks", .seq [
    obj [("name", str "walls"), ("duration", str "1h")],
    obj [("name", str "roof"), ("duraton", str "1h")]])]])]

end Sample

open Sample

/-- The message claims that there is no suitable agent for a task that does not exist: what it gives as the name of the task is
that of the group. -/
theorem message_names_group : ∃ (e : Err), load number nobody = throws e ∧
    what e = "No suitable agent for task \"painters\"." ∧ ∀ task, ¬ TaskNamed nobody "painters" task := by
  refine ⟨.noSuitableAgent "painters", ?_, rfl, ?_⟩
  · rw [Load.load_eval 20 _ _ (by decide)]
    decide +kernel
  · rintro task ⟨⟨path, ht⟩, es, rfl, hn⟩
    have ht' : (path, Yaml.map es) = ([0], obj [("name", str "paint"), ("duration", str "1h"), ("group", str "painters")]) := by
      simpa [tasks, nobody, obj, Yaml.get, Yaml.lookup, listAt, tasksAt_eq, subs] using ht
    simp only [obj, Prod.mk.injEq, Yaml.map.injEq] at ht'
    rw [ht'.2] at hn
    simp [str] at hn

/-- The message claims that an agent has a negative performance though it is 0. -/
theorem message_zero_negative : ∃ (rf : String → Option XFloat) (e : Err), load rf idle = throws e ∧
    what e = "Agent \"Bob\" can't have a negative performance value." ∧
    ∀ body text, AgentNamed idle "Bob" body → InPerformance body text → rf text = some (.fin 0) := by
  refine ⟨fun s => if s = "0" then some (.fin 0) else none, .negativePerformance "Bob", ?_, rfl, ?_⟩
  · rw [Load.load_eval 20 _ _ (by decide)]
    decide +kernel
  · intro body text hb ht
    have hb' : body = obj [("performance", str "0")] := by
      simpa [AgentNamed, agents, idle, obj, Yaml.get, Yaml.lookup] using hb
    subst hb'
    rcases ht with ⟨es, he, ht⟩ | ⟨v, ⟨es, he, hv⟩, ⟨es', rfl, -⟩ | ⟨es', rfl, -⟩⟩
    · simp only [obj, Yaml.map.injEq] at he
      subst he
      have : text = "0" := by simpa [str] using ht
      rw [this]
      exact if_pos rfl
    · simp only [obj, Yaml.map.injEq] at he
      subst he
      simp [str] at hv
    · simp only [obj, Yaml.map.injEq] at he
      subst he
      simp [str] at hv

/-- A case of `messages_true_partial`: the message about the misspelt attribute, and what it means. -/
example : load number misspelt = throws (.schema "Unexpected attribute \"duraton\" in \"tasks[0].subtasks[1]\".") := by
  rw [Load.load_eval 20 _ _ (by decide)]
  decide +kernel

example : TrueMessage number misspelt "Unexpected attribute \"duraton\" in \"tasks[0].subtasks[1]\"." := by
  refine messages_true_partial (e := .schema _) ?_ rfl (by simp) ?_
  · rw [Load.load_eval 20 _ _ (by decide)]
    decide +kernel
  · intro a ha text ht
    have ha' : a = (.scalar "Bob", .null) := by
      simpa [agents, misspelt, obj, Yaml.get, Yaml.lookup] using ha
    subst ha'
    rcases ht with ⟨es, he, -⟩ | ⟨v, ⟨es, he, -⟩, -⟩ <;> cases he

end Angonoka.Props
