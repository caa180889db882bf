import Verif.Spec.Notation
import Verif.Proof.LoadTree
import Verif.Proof.Order

/-! # Loading a document in another notation -/

namespace Angonoka
open Outcome Doc Load Validation

theorem get_missing {al rq : List String} {n : Yaml} (h : HasKeys al rq n) {key : String} (hm : Missing n key) : n.get key = none := by
  rw [Option.eq_none_iff_forall_ne_some]
  exact fun v hv => hm ⟨v, (get_iff h key v).1 hv⟩

/-! ### Agents -/

section
variable {rf : ReadFloat} {n n' : Yaml} {a : Agent}

theorem groups_field {l : List Yaml} (hn : IsAgent n) (h : AgentGroups n l) (a : Agent) (groups : List String) :
    parseGroupsField n a groups = parseAgentGroups l a.groupIds groups >>= fun r => ok ({ a with groupIds := r.1 }, r.2) := by
  unfold parseGroupsField
  cases h with
  | written h => rw [(get_iff hn.1 _ _).2 h]; rfl
  | left h => rw [get_missing hn.1 h]; rfl

/-- What reading a performance does, in terms of its bounds -/
def performanceBounds (a : Agent) (lo hi : XFloat) : Outcome Agent :=
  if lo.le (.fin 0) then throws (.negativePerformance a.name)
  else if hi.le (.fin 0) then throws (.negativePerformance a.name)
  else if lo.gt hi then throws (.agentPerformanceMinMax a.name)
  else ok { a with perfMin := lo, perfMax := hi }

theorem read_performance {who s : String} {x : XFloat} (h : rf s = some x) :
    readPerformance rf who (some (.scalar s)) = if x.le (.fin 0) then throws (.negativePerformance who) else ok x := by
  unfold readPerformance validatePerformance
  dsimp only
  rw [h]
  dsimp only
  cases x.le (.fin 0) <;> rfl

theorem performance_field {lo hi : XFloat} (hn : IsAgent n) (h : Performance rf n lo hi) (ha : a.perfMin = .fin 1 ∧ a.perfMax = .fin 1) :
    parsePerformanceField rf n a = performanceBounds a lo hi := by
  unfold parsePerformanceField performanceBounds
  rcases h with ⟨h, rfl, rfl⟩ | ⟨s, h, hs, rfl⟩ | ⟨v, x, y, h, hx, hy, hlo, hhi⟩
  · rw [get_missing hn.1 h]
    have h1 : (XFloat.fin 1).le (.fin 0) = false := by decide +kernel
    have h2 : (XFloat.fin 1).gt (.fin 1) = false := by decide +kernel
    obtain ⟨i, nm, g, p, q⟩ := a
    obtain ⟨rfl, rfl⟩ := ha
    simp only [h1, h2]
    rfl
  · rw [(get_iff hn.1 _ _).2 h]
    simp only [parseAgentPerformance, readPerformances, Yaml.isScalar, if_true, read_performance hs]
    cases hi.le (.fin 0) <;> rfl
  · rw [(get_iff hn.1 _ _).2 h]
    have hk : HasKeys ["min", "max"] ["min", "max"] v := by
      rcases hn.2.1 v h with ⟨s, rfl⟩ | h'
      · obtain ⟨_, h', _⟩ := hx; cases h'
      · exact h'.1
    have hsc : v.isScalar = false := by
      obtain ⟨es, rfl, _⟩ := hx; rfl
    simp only [parseAgentPerformance, readPerformances, hsc, (get_iff hk _ _).2 hx, (get_iff hk _ _).2 hy,
      read_performance hlo, read_performance hhi]
    cases lo.le (.fin 0)
    · cases hi.le (.fin 0) <;> rfl
    · rfl

theorem agent_same {e f : Yaml × Yaml} (he : IsAgent e.2) (hf : IsAgent f.2) (h : SameAgent rf e f) (p : Project) :
    parseAgent rf f.1 f.2 p = parseAgent rf e.1 e.2 p := by
  obtain ⟨l, g1, g2⟩ := h.groups
  obtain ⟨lo, hi, p1, p2⟩ := h.performance
  unfold parseAgent
  rw [h.name]
  dsimp only
  congr 1; funext _; congr 1; funext _; congr 1; funext i
  rw [groups_field he g1, groups_field hf g2, bind_assoc, bind_assoc]
  congr 1; funext r
  simp only [ok_bind]
  rw [performance_field he p1 ⟨rfl, rfl⟩, performance_field hf p2 ⟨rfl, rfl⟩]

theorem agentsLoop_same {es fs : List (Yaml × Yaml)} (h : List.Forall₂ (SameAgent rf) es fs) (he : ∀ e ∈ es, IsAgent e.2)
    (hf : ∀ f ∈ fs, IsAgent f.2) (p : Project) : parseAgentsLoop rf fs p = parseAgentsLoop rf es p := by
  induction h generalizing p with
  | nil => rfl
  | cons hab _ ih =>
    rename_i a b l l' hrest
    rw [show a = (a.1, a.2) from rfl, show b = (b.1, b.2) from rfl, parseAgentsLoop, parseAgentsLoop,
      agent_same (he _ (by simp)) (hf _ (by simp)) hab]
    congr 1; funext q
    exact ih (fun e h => he e (by simp [h])) (fun e h => hf e (by simp [h])) q

end

/-! ### Tasks -/

section
variable {n n' : Yaml}

theorem read_duration {who s : String} {v : Nat} (h : DurationText.Means s v) : readDuration who (some (.scalar s)) = ok (v : Int) := by
  unfold readDuration
  rw [show ((some (Yaml.scalar s)).map Yaml.text).getD "" = s from rfl, ((parseDuration_spec s).1 v).2 h]
  rfl

/-- What reading a duration does, in terms of its bounds -/
def durationBounds (t : Task) (lo hi : Nat) : Outcome Task :=
  if (hi : Int) < lo then throws (.taskDurationMinMax t.name) else ok { t with durMin := lo, durMax := hi }

theorem task_duration (hn : IsTask n) {lo hi : Nat} (h : Duration n lo hi) (t : Task) :
    parseTaskDuration ((n.get "duration").getD .null) t = durationBounds t lo hi := by
  unfold parseTaskDuration durationBounds
  rcases h with ⟨s, h, hs, rfl⟩ | ⟨v, x, y, h, hx, hy, hlo, hhi⟩
  · rw [(hn.get _ _).2 h]
    simp only [Option.getD_some, readDurations, Yaml.isScalar, if_true, read_duration hs]
    rfl
  · rw [(hn.get _ _).2 h]
    have hk : HasKeys ["min", "max"] ["min", "max"] v := by
      have : ∀ v, Field n "duration" v → IsRange v := by cases hn; assumption
      rcases this v h with ⟨s, rfl⟩ | h'
      · obtain ⟨_, h', _⟩ := hx; cases h'
      · exact h'.1
    have hsc : v.isScalar = false := by
      obtain ⟨es, rfl, _⟩ := hx; rfl
    simp only [Option.getD_some, readDurations, hsc, (get_iff hk _ _).2 hx, (get_iff hk _ _).2 hy,
      read_duration hlo, read_duration hhi]
    rfl

/-- What reading an assignment does, in terms of groups and agent -/
def assignTask (agents : List Agent) (gs : List Yaml) (a : Option Yaml) (t : Task) (groups : List String) : Outcome (Task × List String) := do
  expects (!t.name.isEmpty) "parse_groups_and_agents: name not empty"
  match a with
  | none => parseTaskGroups agents gs t groups
  | some a => do
    let t ← parseTaskAgent a t agents
    return (t, groups)

theorem task_assignment (hn : IsTask n) {gs : List Yaml} {a : Option Yaml} (h : Assignment n gs a) (agents : List Agent) (t : Task)
    (groups : List String) : parseGroupsAndAgents n agents t groups = assignTask agents gs a t groups := by
  unfold parseGroupsAndAgents assignTask
  congr 1; funext _
  cases h with
  | group h1 h2 h3 =>
    rw [(hn.get _ _).2 h1, get_missing hn.keys' h2, get_missing hn.keys' h3]
    simp only [countDefined, parseTaskGroups]
    change parseTaskGroup _ _ _ _ = _
    exact (bind_pure _).symm
  | groups h1 h2 h3 => rw [(hn.get _ _).2 h2, get_missing hn.keys' h1, get_missing hn.keys' h3]; rfl
  | agent h1 h2 h3 => rw [(hn.get _ _).2 h3, get_missing hn.keys' h1, get_missing hn.keys' h2]; rfl
  | left h1 h2 h3 => rw [get_missing hn.keys' h1, get_missing hn.keys' h2, get_missing hn.keys' h3]; rfl

theorem dependencies_nonempty (t : Task) {l : List Yaml} (hl : l ≠ []) :
    (parseDependenciesLoop t l >>= fun ids => expects (!ids.isEmpty) "parse_dependencies: dependencies not empty" >>= fun _ => ok ids)
      = parseDependenciesLoop t l := by
  cases l with
  | nil => exact absurd rfl hl
  | cons d rest =>
    rw [parseDependenciesLoop]
    cases validateTaskId d.text t with
    | ok id =>
      simp only [ok_bind]
      cases parseDependenciesLoop t rest <;> rfl
    | throws e => rfl
    | ub s => rfl

theorem task_dependencies (hn : IsTask n) {ds : List Yaml} (h : Dependencies n ds) (t : Task) :
    parseDependsOnField n t = parseDependenciesLoop t ds := by
  unfold parseDependsOnField
  cases h with
  | one h =>
    rw [(hn.get _ _).2 h]
    simp only [parseDependencies, dependencyIds, parseDependenciesLoop]
    rename_i s
    change (validateTaskId s t >>= fun id => ok [id]) >>= _ = validateTaskId s t >>= _
    cases validateTaskId s t <;> rfl
  | list h hl =>
    rw [(hn.get _ _).2 h]
    exact dependencies_nonempty t hl
  | left h => rw [get_missing hn.keys' h]; rfl

theorem get_same (hn : IsTask n) (hn' : IsTask n') {key : String} (h : ∀ v, Field n' key v ↔ Field n key v) : n'.get key = n.get key := by
  refine Option.ext fun v => ?_
  rw [hn.get, hn'.get]
  exact h v

theorem task_notNull (hn : IsTask n) : n.isNull = false := by
  obtain ⟨v, hv⟩ := get_required hn.keys' (key := "name") (by simp)
  cases n <;> first | rfl | cases hv

theorem subtasks_subs {l : List Yaml} (hn : IsTask n) (h : Subtasks n l) : subs n = l := by
  cases h with
  | written h => exact subs_field hn h
  | left h => exact subs_none hn h

theorem length_tasksAt (path : List Nat) (n : Yaml) : (tasksAt path n).length = (tasksAt [] n).length := by
  have := (shifted_aux (sizeOf n + 1)).1 n (by omega) path []
  rw [List.append_nil] at this
  rw [this, List.length_map]

theorem length_listAt (k : Nat) (l : List Yaml) : (listAt [] k l).length = (l.map fun n => (tasksAt [] n).length).sum := by
  induction l generalizing k with
  | nil => rw [listAt]; rfl
  | cons n rest ih => rw [listAt, List.length_append, length_tasksAt, ih, List.map_cons, List.sum_cons]

/-- The number of tasks in a tree -/
def taskCount (n : Yaml) : Nat := (tasksAt [] n).length

theorem taskCount_eq {l : List Yaml} (hn : IsTask n) (h : Subtasks n l) : taskCount n = (l.map taskCount).sum + 1 := by
  unfold taskCount
  rw [tasksAt_eq, List.length_cons, length_listAt, subtasks_subs hn h]

theorem head_length {agents : List Agent} {st st' : TasksState} (h : parseTaskHead n agents st = ok st') :
    st'.tasks.length = st.tasks.length + 1 := by
  unfold parseTaskHead at h
  obtain ⟨_, -, h⟩ := bind_eq_ok.1 h
  obtain ⟨_, -, h⟩ := bind_eq_ok.1 h
  dsimp only at h
  split at h
  · cases h
  · obtain ⟨_, -, h⟩ := bind_eq_ok.1 h
    obtain ⟨_, -, h⟩ := bind_eq_ok.1 h
    obtain ⟨_, -, h⟩ := bind_eq_ok.1 h
    obtain ⟨_, -, h⟩ := bind_eq_ok.1 h
    cases h
    simp

/-- The subtasks of a task, if there is room for their indices -/
theorem parseTask_subtasks {l : List Yaml} (hn : IsTask n) (h : Subtasks n l) (agents : List Agent) (st : TasksState)
    (hs : st.tasks.length ≤ 127) :
    parseTask n agents st = parseTaskHead n agents st >>= fun st' => parseSubtasks l agents (st'.tasks.length - 1) st' := by
  rw [parseTask]
  cases hh : parseTaskHead n agents st with
  | throws e => rfl
  | ub s => rfl
  | ok st' =>
    have hlen := head_length hh
    simp only [ok_bind]
    cases h with
    | written h =>
      have hg := (hn.get _ _).2 h
      split
      · rename_i v hv
        rw [hg] at hv
        cases hv
        unfold toInt8
        rw [if_pos (by omega)]
        rfl
      · rename_i hv
        rw [hg] at hv
        cases hv
    | left h =>
      have hg := get_missing hn.keys' h
      split
      · rename_i v hv
        rw [hg] at hv
        cases hv
      · rw [parseSubtasks]; rfl

/-- What has to be shown about a task and its other notation -/
structure ReadsAlike (n n' : Yaml) : Prop where
  count : taskCount n' = taskCount n
  length : ∀ (agents : List Agent) (st st' : TasksState), parseTask n agents st = ok st' →
    st.tasks.length + taskCount n ≤ 128 → st'.tasks.length = st.tasks.length + taskCount n
  same : ∀ (agents : List Agent) (st : TasksState), st.tasks.length + taskCount n ≤ 128 → parseTask n' agents st = parseTask n agents st

theorem readsAlike_subtasks {l l' : List Yaml} (hl : List.Forall₂ ReadsAlike l l') :
    (l'.map taskCount).sum = (l.map taskCount).sum ∧
    (∀ (agents : List Agent) (index : Nat) (st st' : TasksState), parseSubtasks l agents index st = ok st' →
      st.tasks.length + (l.map taskCount).sum ≤ 128 → st'.tasks.length = st.tasks.length + (l.map taskCount).sum) ∧
    ∀ (agents : List Agent) (index : Nat) (st : TasksState), st.tasks.length + (l.map taskCount).sum ≤ 128 →
      parseSubtasks l' agents index st = parseSubtasks l agents index st := by
  induction hl with
  | nil =>
    refine ⟨rfl, fun agents index st st' h _ => ?_, fun _ _ _ _ => rfl⟩
    rw [parseSubtasks] at h
    cases h
    rfl
  | cons hab _ ih =>
    rename_i a b l l' hrest
    refine ⟨?_, fun agents index st st' h hs => ?_, fun agents index st hs => ?_⟩
    · rw [List.map_cons, List.map_cons, List.sum_cons, List.sum_cons, hab.count, ih.1]
    · rw [List.map_cons, List.sum_cons] at hs ⊢
      rw [parseSubtasks] at h
      obtain ⟨i, -, h⟩ := bind_eq_ok.1 h
      obtain ⟨st1, h1, h⟩ := bind_eq_ok.1 h
      have e1 := hab.length _ _ _ h1 (by rw [addDependency_length]; omega)
      rw [addDependency_length] at e1
      have e2 := ih.2.1 _ _ _ _ h (by omega)
      omega
    · rw [List.map_cons, List.sum_cons] at hs
      rw [parseSubtasks, parseSubtasks]
      congr 1; funext next
      rw [hab.same _ _ (by rw [addDependency_length]; omega)]
      cases h1 : parseTask a agents { st with tasks := addDependency st.tasks index next } with
      | throws e => rfl
      | ub s => rfl
      | ok st1 =>
        have e1 := hab.length _ _ _ h1 (by rw [addDependency_length]; omega)
        rw [addDependency_length] at e1
        exact ih.2.2 _ _ _ (by omega)

theorem subtask_isTask {l : List Yaml} (hn : IsTask n) (hk : Subtasks n l) : ∀ x ∈ l, IsTask x := by
  intro x hx
  cases hk with
  | written h => cases hn with | mk _ _ _ _ _ _ _ _ _ sub => exact sub l x h hx
  | left h => cases hx

theorem task_same (h : SameTask n n') (hn : IsTask n) (hn' : IsTask n') : ReadsAlike n n' := by
  induction h with
  | mk name id duration assignment dependencies subtasks subtasks' length same ih =>
    rename_i n n' l l'
    obtain ⟨lo, hi, d1, d2⟩ := duration
    obtain ⟨gs, a, a1, a2⟩ := assignment
    obtain ⟨ds, e1, e2⟩ := dependencies
    have hhead : ∀ agents st, parseTaskHead n' agents st = parseTaskHead n agents st := by
      intro agents st
      unfold parseTaskHead parseIdField
      simp only [task_notNull hn, task_notNull hn', get_same hn hn' name, get_same hn hn' id, task_duration hn d1, task_duration hn' d2,
        task_assignment hn a1, task_assignment hn' a2, task_dependencies hn e1, task_dependencies hn' e2]
    have hall : List.Forall₂ ReadsAlike l l' := by
      refine List.forall₂_iff_get.2 ⟨length.symm, fun i h1 h2 => ?_⟩
      exact ih i _ _ (List.getElem?_eq_getElem h1) (List.getElem?_eq_getElem h2) (subtask_isTask hn subtasks _ (List.getElem_mem h1))
        (subtask_isTask hn' subtasks' _ (List.getElem_mem h2))
    obtain ⟨r1, r2, r3⟩ := readsAlike_subtasks hall
    have hc := taskCount_eq hn subtasks
    have hc' := taskCount_eq hn' subtasks'
    refine ⟨by rw [hc, hc', r1], fun agents st st' h hs => ?_, fun agents st hs => ?_⟩
    · rw [parseTask_subtasks hn subtasks _ _ (by omega)] at h
      obtain ⟨st1, h1, h⟩ := bind_eq_ok.1 h
      have e1 := head_length h1
      have e2 := r2 _ _ _ _ h (by omega)
      omega
    · rw [parseTask_subtasks hn subtasks _ _ (by omega), parseTask_subtasks hn' subtasks' _ _ (by omega), hhead]
      cases h1 : parseTaskHead n agents st with
      | throws e => rfl
      | ub s => rfl
      | ok st1 =>
        have e1 := head_length h1
        exact r3 _ _ _ (by omega)

theorem taskList_same {l l' : List Yaml} (hl : List.Forall₂ ReadsAlike l l') (agents : List Agent) (st : TasksState)
    (hs : st.tasks.length + (l.map taskCount).sum ≤ 128) : parseTaskList agents l' st = parseTaskList agents l st := by
  induction hl generalizing st with
  | nil => rfl
  | cons hab _ ih =>
    rename_i a b l l' hrest
    rw [List.map_cons, List.sum_cons] at hs
    rw [parseTaskList, parseTaskList, hab.same _ _ (by omega)]
    cases h1 : parseTask a agents st with
    | throws e => rfl
    | ub s => rfl
    | ok st1 =>
      have e1 := hab.length _ _ _ h1 (by omega)
      exact ih _ (by omega)

end

section
variable {rf : ReadFloat} {root root' : Yaml}

theorem tasks_same (h : SameProject rf root root') (hc : IsConfiguration root) (hc' : IsConfiguration root') :
    ∃ l l', root.get "tasks" = some (.seq l) ∧ root'.get "tasks" = some (.seq l') ∧ List.Forall₂ ReadsAlike l l' ∧
      (tasks root).length = (l.map taskCount).sum ∧ (tasks root').length = (l.map taskCount).sum := by
  obtain ⟨l, l', h1, h2, hs⟩ := h.tasks
  have ht : ∀ {r k}, IsConfiguration r → Field r "tasks" (.seq k) → r.get "tasks" = some (.seq k) ∧ (∀ x ∈ k, IsTask x) ∧
      (tasks r).length = (k.map taskCount).sum := by
    intro r k hr hf
    have hg := (get_iff hr.1 _ _).2 hf
    obtain ⟨k', e, hk⟩ := hr.2.2 _ hf
    cases e
    refine ⟨hg, hk, ?_⟩
    rw [tasks, hg]
    exact length_listAt 0 k
  obtain ⟨g1, t1, c1⟩ := ht hc h1
  obtain ⟨g2, t2, c2⟩ := ht hc' h2
  have hall : List.Forall₂ ReadsAlike l l' := by
    obtain ⟨hlen, hget⟩ := List.forall₂_iff_get.1 hs
    exact List.forall₂_iff_get.2 ⟨hlen, fun i a b => task_same (hget i a b) (t1 _ (List.getElem_mem a)) (t2 _ (List.getElem_mem b))⟩
  exact ⟨l, l', g1, g2, hall, c1, by rw [c2, (readsAlike_subtasks hall).1]⟩

theorem load_same (h : SameProject rf root root') (hc : IsConfiguration root) (hc' : IsConfiguration root')
    (hs : (tasks root).length ≤ 128) : load rf root' = load rf root := by
  obtain ⟨l, l', g1, g2, hall, c1, -⟩ := tasks_same h hc hc'
  have a1 := (get_iff hc.1 _ _).2 (agents_field hc)
  have a2 := (get_iff hc'.1 _ _).2 (agents_field hc')
  obtain ⟨es, e1, i1⟩ := hc.2.1 _ (agents_field hc)
  obtain ⟨es', e2, i2⟩ := hc'.2.1 _ (agents_field hc')
  cases e1
  cases e2
  have hp : ∀ p, parseAgents rf (.map (agents root')) p = parseAgents rf (.map (agents root)) p := by
    intro p
    unfold parseAgents
    rw [show (Yaml.map (agents root')).entries = agents root' from rfl, show (Yaml.map (agents root)).entries = agents root from rfl,
      agentsLoop_same h.agents i1 i2, show (Yaml.map (agents root')).size = (Yaml.map (agents root)).size from h.agents.length_eq.symm]
  have hq : ∀ p, parseTasks (.seq l') p = parseTasks (.seq l) p := by
    intro p
    unfold parseTasks
    rw [show (Yaml.seq l').items = l' from rfl, show (Yaml.seq l).items = l from rfl,
      taskList_same hall _ _ (by simpa [c1] using hs), show (Yaml.seq l').size = (Yaml.seq l).size from hall.length_eq.symm]
  unfold load
  rw [(validateConfiguration_ok root).2 hc, (validateConfiguration_ok root').2 hc', g1, g2, a1, a2]
  simp only [Option.getD_some, hp, hq]

end

end Angonoka
