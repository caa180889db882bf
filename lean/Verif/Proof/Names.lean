import Verif.Spec.Names
import Verif.Proof.Schema

/-! # Loading a document with other names -/

namespace Angonoka
open Outcome Doc Load

/-- The project with the new names -/
def Agent.named (ν : Naming) (a : Agent) : Agent := { a with name := ν.agent a.name }
/-- The task with the new names -/
def Task.named (ν : Naming) (t : Task) : Task := { t with name := ν.task t.name, id := ν.id t.id }
/-- The project with the new names -/
def Project.named (ν : Naming) (p : Project) : Project where
  groups := p.groups.map ν.group
  agents := p.agents.map (Agent.named ν)
  tasks := p.tasks.map (Task.named ν)
/-- The state of the task loader with the new names -/
def TasksState.named (ν : Naming) (st : TasksState) : TasksState where
  groups := st.groups.map ν.group
  tasks := st.tasks.map (Task.named ν)
  deps := st.deps.map (List.map ν.id)

/-- The second outcome is the first, with its value changed by `g` and perhaps another text in the exception. -/
def Follows {α β : Type} (g : α → β) : Outcome α → Outcome β → Prop
  | ok a, y => y = ok (g a)
  | throws e, y => ∃ e', y = throws e' ∧ e'.ctorIdx = e.ctorIdx ∧ (e.isValidationError = false → e' = e)
  | ub s, y => y = ub s

variable {α β γ δ : Type}

theorem Follows.ok' {g : α → β} {a : α} {b : β} (h : b = g a) : Follows g (ok a) (ok b) := by
  subst h; rfl

theorem Follows.throws' {g : α → β} {e e' : Err} (h : e'.ctorIdx = e.ctorIdx) (hv : e.isValidationError = true := by rfl) :
    Follows g (throws e) (throws e') := ⟨e', rfl, h, fun h => by rw [hv] at h; cases h⟩

theorem Follows.ub' {g : α → β} {s : String} : Follows g (ub s) (ub s) := rfl

theorem Follows.bind {g : α → β} {h : γ → δ} {x : Outcome α} {y : Outcome β} {f : α → Outcome γ} {f' : β → Outcome δ}
    (hx : Follows g x y) (hf : ∀ a, Follows h (f a) (f' (g a))) : Follows h (x >>= f) (y >>= f') := by
  cases x with
  | ok a => rw [show y = ok (g a) from hx]; exact hf a
  | throws e => obtain ⟨e', rfl, he⟩ := hx; exact ⟨e', rfl, he⟩
  | ub s => rw [show y = ub s from hx]; rfl

theorem Follows.expects {c d : Bool} {s : String} (h : d = c) : Follows id (expects c s) (expects d s) := by
  subst h
  unfold Outcome.expects
  split <;> rfl

theorem Follows.same (x : Outcome α) : Follows id x x := by
  cases x with
  | ok a => rfl
  | throws e => exact ⟨e, rfl, rfl, fun _ => rfl⟩
  | ub s => rfl

theorem Follows.ite {g : α → β} {c d : Bool} {x x' : Outcome α} {y y' : Outcome β} (hc : d = c)
    (h : Follows g x y) (h' : Follows g x' y') : Follows g (if c then x else x') (if d then y else y') := by
  subst hc
  split
  · exact h
  · exact h'

section
variable {f : String → String}

theorem named_isEmpty (hf : f.Injective ∧ f "" = "") (s : String) : (f s).isEmpty = s.isEmpty := by
  rw [Bool.eq_iff_iff, String.isEmpty_iff, String.isEmpty_iff]
  constructor
  · intro h; exact hf.1 (h.trans hf.2.symm)
  · rintro rfl; exact hf.2

theorem name_isEmpty {ν : Naming} (hν : ν.Proper) (s : String) : (ν.task s).isEmpty = s.isEmpty := by
  rw [Bool.eq_iff_iff, String.isEmpty_iff, String.isEmpty_iff]
  exact hν.task s

theorem scalar_text (hf : f "" = "") (n : Yaml) : (Naming.scalar f n).text = f n.text := by
  cases n <;> simp [Naming.scalar, Yaml.text, hf]

theorem scalars_text (hf : f "" = "") (n : Yaml) : (Naming.scalars f n).text = f n.text := by
  cases n <;> simp [Naming.scalars, Naming.scalar, Yaml.text, hf]

theorem scalars_items (n : Yaml) : (Naming.scalars f n).items = n.items.map (Naming.scalar f) := by
  cases n <;> simp [Naming.scalars, Naming.scalar, Yaml.items]

theorem scalars_isScalar (n : Yaml) : (Naming.scalars f n).isScalar = n.isScalar := by
  cases n <;> simp [Naming.scalars, Naming.scalar, Yaml.isScalar]

theorem scalars_isSequence (n : Yaml) : (Naming.scalars f n).isSequence = n.isSequence := by
  cases n <;> simp [Naming.scalars, Naming.scalar, Yaml.isSequence]

theorem findIdx_map {α : Type} [BEq α] [LawfulBEq α] {f : α → α} (hf : f.Injective) (x : α) (l : List α) : findIdx (f x) (l.map f) = findIdx x l := by
  induction l with
  | nil => rfl
  | cons y ys ih =>
    have hb : (f y == f x) = (y == x) := by
      rw [Bool.eq_iff_iff, beq_iff_eq, beq_iff_eq, hf.eq_iff]
    rw [List.map_cons, findIdx, findIdx, hb, ih]

end

/-- Attributes of a map whose values change depending on the key -/
theorem lookup_map (g : String → Yaml → Yaml) (key : String) (es : List (Yaml × Yaml)) :
    Yaml.lookup key (es.map fun e => (e.1, g e.1.text e.2)) = (Yaml.lookup key es).map (g key) := by
  induction es with
  | nil => rfl
  | cons e rest ih =>
    obtain ⟨k, v⟩ := e
    cases k with
    | scalar s =>
      by_cases h : s = key
      · subst h; simp [Yaml.lookup, Yaml.text]
      · simpa [Yaml.lookup, h, Yaml.text] using ih
    | null => simpa [Yaml.lookup] using ih
    | seq l => simpa [Yaml.lookup] using ih
    | map l => simpa [Yaml.lookup] using ih

variable {ν : Naming}

theorem inAttributes_eq (es : List (Yaml × Yaml)) : ν.inAttributes es = es.map fun e =>
    (e.1, if e.1.text = "subtasks" then ν.inTasks e.2 else ν.inValue e.1.text e.2) := by
  induction es with
  | nil => rfl
  | cons e rest ih => obtain ⟨k, v⟩ := e; rw [Naming.inAttributes, ih]; rfl

theorem inTaskList_eq (l : List Yaml) : ν.inTaskList l = l.map ν.inTask := by
  induction l with
  | nil => rfl
  | cons n rest ih => rw [Naming.inTaskList, ih]; rfl

theorem inTask_get (n : Yaml) (key : String) : (ν.inTask n).get key =
    (n.get key).map fun v => if key = "subtasks" then ν.inTasks v else ν.inValue key v := by
  cases n with
  | map es =>
    rw [Naming.inTask, Yaml.get, Yaml.get, inAttributes_eq]
    exact lookup_map (fun k v => if k = "subtasks" then ν.inTasks v else ν.inValue k v) key es
  | null => rfl
  | scalar s => rfl
  | seq l => rfl

theorem inTasks_items (n : Yaml) : (ν.inTasks n).items = n.items.map ν.inTask := by
  cases n <;> simp [Naming.inTasks, Yaml.items, inTaskList_eq]

theorem inTasks_size (n : Yaml) : (ν.inTasks n).size = n.size := by
  cases n <;> simp [Naming.inTasks, Yaml.size, inTaskList_eq]

theorem inAgent_get (n : Yaml) (key : String) : (ν.inAgent n).get key =
    (n.get key).map fun v => if key = "groups" then Naming.scalars ν.group v else v := by
  cases n with
  | map es => exact lookup_map (fun k v => if k = "groups" then Naming.scalars ν.group v else v) key es
  | null => rfl
  | scalar s => rfl
  | seq l => rfl

theorem inDocument_get (n : Yaml) (key : String) : (ν.inDocument n).get key =
    (n.get key).map fun v => if key = "agents" then ν.inAgents v else if key = "tasks" then ν.inTasks v else v := by
  cases n with
  | map es =>
    exact lookup_map (fun k v => if k = "agents" then ν.inAgents v else if k = "tasks" then ν.inTasks v else v) key es
  | null => rfl
  | scalar s => rfl
  | seq l => rfl

/-! ### Agents -/

section
variable (hν : ν.Proper)
include hν

theorem group_follows (groups : List String) (g : String) :
    Follows (fun r : List String × Nat × Bool => (r.1.map ν.group, r.2)) (findOrInsertGroup groups g)
      (findOrInsertGroup (groups.map ν.group) (ν.group g)) := by
  unfold findOrInsertGroup
  refine Follows.bind (Follows.expects (by rw [named_isEmpty hν.group])) fun _ => ?_
  rw [findIdx_map hν.group.1]
  cases findIdx g groups with
  | some i => exact Follows.bind (Follows.same _) fun i => Follows.ok' rfl
  | none =>
    dsimp only
    rw [show (groups.map ν.group ++ [ν.group g]).length = (groups ++ [g]).length by simp]
    exact Follows.bind (Follows.same _) fun i => Follows.ok' (by simp)

theorem agentGroups_follows (l : List Yaml) (gids : IndexSet) (groups : List String) :
    Follows (fun r : IndexSet × List String => (r.1, r.2.map ν.group)) (parseAgentGroups l gids groups)
      (parseAgentGroups (l.map (Naming.scalar ν.group)) gids (groups.map ν.group)) := by
  induction l generalizing gids groups with
  | nil => rfl
  | cons g rest ih =>
    rw [List.map_cons, parseAgentGroups, parseAgentGroups, scalar_text hν.group.2]
    exact Follows.bind (group_follows hν _ _) fun r => ih _ _

theorem groupsField_follows (data : Yaml) (a : Agent) (groups : List String) :
    Follows (fun r : Agent × List String => (r.1.named ν, r.2.map ν.group)) (parseGroupsField data a groups)
      (parseGroupsField (ν.inAgent data) (a.named ν) (groups.map ν.group)) := by
  unfold parseGroupsField
  rw [inAgent_get]
  cases data.get "groups" with
  | none => exact Follows.ok' rfl
  | some g =>
    simp only [Option.map_some, if_true, scalars_items]
    exact Follows.bind (agentGroups_follows hν _ _ _) fun r => Follows.ok' rfl

end

theorem readPerformance_follows (rf : ReadFloat) (who who' : String) (n : Option Yaml) :
    Follows id (readPerformance rf who n) (readPerformance rf who' n) := by
  unfold readPerformance
  split
  · split
    · exact Follows.throws' rfl
    · split
      · exact Follows.throws' rfl
      · rfl
  · exact Follows.throws' rfl

theorem performance_follows (rf : ReadFloat) (node : Yaml) (a : Agent) :
    Follows (Agent.named ν) (parseAgentPerformance rf node a) (parseAgentPerformance rf node (a.named ν)) := by
  unfold parseAgentPerformance
  refine Follows.bind (g := Agent.named ν) ?_ fun b => ?_
  · unfold readPerformances
    refine Follows.ite rfl ?_ ?_
    · exact Follows.bind (readPerformance_follows _ _ _ _) fun x => Follows.ok' rfl
    · exact Follows.bind (readPerformance_follows _ _ _ _) fun x =>
        Follows.bind (readPerformance_follows _ _ _ _) fun y => Follows.ok' rfl
  · exact Follows.ite rfl (Follows.throws' rfl) (Follows.ok' rfl)

theorem performanceField_follows (rf : ReadFloat) (data : Yaml) (a : Agent) :
    Follows (Agent.named ν) (parsePerformanceField rf data a) (parsePerformanceField rf (ν.inAgent data) (a.named ν)) := by
  unfold parsePerformanceField
  rw [inAgent_get]
  cases data.get "performance" with
  | none => exact Follows.ok' rfl
  | some n => exact performance_follows _ _ _

theorem inAgents_entries (n : Yaml) :
    (ν.inAgents n).entries = n.entries.map fun e => (Naming.scalar ν.agent e.1, ν.inAgent e.2) := by
  cases n <;> simp [Naming.inAgents, Yaml.entries]

theorem inAgents_size (n : Yaml) : (ν.inAgents n).size = n.size := by
  cases n <;> simp [Naming.inAgents, Yaml.size]

section
variable (hν : ν.Proper)
include hν

theorem agentName_any (agents : List Agent) (name : String) :
    (agents.map (Agent.named ν)).any (fun a => a.name == ν.agent name) = agents.any (fun a => a.name == name) := by
  rw [List.any_map]
  congr 1
  funext a
  rw [Bool.eq_iff_iff, Function.comp, beq_iff_eq, beq_iff_eq]
  exact hν.agent.1.eq_iff

theorem agent_follows (rf : ReadFloat) (node data : Yaml) (p : Project) :
    Follows (Project.named ν) (parseAgent rf node data p)
      (parseAgent rf (Naming.scalar ν.agent node) (ν.inAgent data) (p.named ν)) := by
  unfold parseAgent
  dsimp only
  rw [scalar_text hν.agent.2, named_isEmpty hν.agent]
  refine Follows.bind (Follows.same _) fun _ => ?_
  refine Follows.bind (g := id) ?_ fun _ => ?_
  · unfold checkAgentDuplicates
    refine Follows.bind (Follows.expects (by rw [named_isEmpty hν.agent])) fun _ => ?_
    exact Follows.ite (agentName_any hν _ _) (Follows.throws' rfl) (Follows.same _)
  · rw [show (p.named ν).agents.length = p.agents.length from List.length_map _]
    refine Follows.bind (Follows.same _) fun i => ?_
    refine Follows.bind (groupsField_follows hν data { id := i, name := node.text } p.groups) fun r => ?_
    refine Follows.bind (performanceField_follows rf data r.1) fun a => ?_
    exact Follows.ok' (by simp [Project.named])

theorem agentsLoop_follows (rf : ReadFloat) (l : List (Yaml × Yaml)) (p : Project) :
    Follows (Project.named ν) (parseAgentsLoop rf l p)
      (parseAgentsLoop rf (l.map fun e => (Naming.scalar ν.agent e.1, ν.inAgent e.2)) (p.named ν)) := by
  induction l generalizing p with
  | nil => rfl
  | cons e rest ih =>
    obtain ⟨k, v⟩ := e
    rw [List.map_cons, parseAgentsLoop, parseAgentsLoop]
    exact Follows.bind (agent_follows hν _ _ _ _) fun q => ih q

theorem agents_follows (rf : ReadFloat) (node : Yaml) (p : Project) :
    Follows (Project.named ν) (parseAgents rf node p) (parseAgents rf (ν.inAgents node) (p.named ν)) := by
  unfold parseAgents
  refine Follows.bind (Follows.expects (by simp [Project.named])) fun _ => ?_
  rw [inAgents_size, inAgents_entries]
  split
  · exact Follows.throws' rfl
  · refine Follows.bind (agentsLoop_follows hν _ _ _) fun q => ?_
    exact Follows.bind (Follows.expects (by simp [Project.named])) fun _ => Follows.ok' rfl

/-! ### Tasks -/

theorem taskGroup_follows (agents : List Agent) (node : Yaml) (t : Task) (groups : List String)
    {node' : Yaml} (hn : node'.text = ν.group node.text) :
    Follows (fun r : Task × List String => (r.1.named ν, r.2.map ν.group)) (parseTaskGroup agents node t groups)
      (parseTaskGroup (agents.map (Agent.named ν)) node' (t.named ν) (groups.map ν.group)) := by
  unfold parseTaskGroup
  dsimp only
  rw [hn, named_isEmpty hν.group]
  refine Follows.bind (Follows.same _) fun _ => ?_
  refine Follows.bind (group_follows hν _ _) fun r => ?_
  refine Follows.bind (g := id) ?_ fun _ => Follows.ok' rfl
  unfold checkSuitable
  refine Follows.ite rfl ?_ (Follows.same _)
  refine Follows.bind (Follows.expects (by simp)) fun _ => ?_
  refine Follows.ite ?_ (Follows.throws' rfl) (Follows.same _)
  rw [List.any_map]
  rfl

theorem taskGroups_follows (agents : List Agent) (l : List Yaml) (t : Task) (groups : List String) :
    Follows (fun r : Task × List String => (r.1.named ν, r.2.map ν.group)) (parseTaskGroups agents l t groups)
      (parseTaskGroups (agents.map (Agent.named ν)) (l.map (Naming.scalar ν.group)) (t.named ν)
        (groups.map ν.group)) := by
  induction l generalizing t groups with
  | nil => rfl
  | cons g rest ih =>
    rw [List.map_cons, parseTaskGroups, parseTaskGroups]
    exact Follows.bind (taskGroup_follows hν _ _ _ _ (scalar_text hν.group.2 _)) fun r => ih _ _

theorem taskAgent_follows (node : Yaml) (t : Task) (agents : List Agent) :
    Follows (Task.named ν) (parseTaskAgent node t agents)
      (parseTaskAgent (Naming.scalars ν.agent node) (t.named ν) (agents.map (Agent.named ν))) := by
  unfold parseTaskAgent
  dsimp only
  refine Follows.bind (Follows.expects (by simp)) fun _ => ?_
  refine Follows.bind (Follows.expects (scalars_isScalar _)) fun _ => ?_
  rw [scalars_text hν.agent.2, named_isEmpty hν.agent]
  refine Follows.ite rfl (Follows.throws' rfl) ?_
  refine Follows.bind (g := id) ?_ fun i => Follows.ok' rfl
  unfold findAgentIndexByName
  refine Follows.bind (Follows.expects (by simp)) fun _ => ?_
  refine Follows.bind (Follows.expects (by rw [named_isEmpty hν.agent])) fun _ => ?_
  rw [List.find?_map]
  have : (fun a : Agent => a.name == ν.agent node.text) ∘ Agent.named ν = fun a => a.name == node.text := by
    funext a
    rw [Bool.eq_iff_iff, Function.comp, beq_iff_eq, beq_iff_eq]
    exact hν.agent.1.eq_iff
  rw [this]
  cases agents.find? (fun a => a.name == node.text) with
  | none => exact Follows.throws' rfl
  | some a => rfl

theorem assignment_follows (node : Yaml) (agents : List Agent) (t : Task) (groups : List String)
    (hname : (t.named ν).name.isEmpty = t.name.isEmpty) :
    Follows (fun r : Task × List String => (r.1.named ν, r.2.map ν.group)) (parseGroupsAndAgents node agents t groups)
      (parseGroupsAndAgents (ν.inTask node) (agents.map (Agent.named ν)) (t.named ν) (groups.map ν.group)) := by
  unfold parseGroupsAndAgents
  refine Follows.bind (Follows.expects (by rw [hname])) fun _ => ?_
  rw [inTask_get, inTask_get, inTask_get]
  have hc : countDefined [(node.get "group").map fun v => if "group" = "subtasks" then ν.inTasks v else ν.inValue "group" v,
      (node.get "groups").map fun v => if "groups" = "subtasks" then ν.inTasks v else ν.inValue "groups" v,
      (node.get "agent").map fun v => if "agent" = "subtasks" then ν.inTasks v else ν.inValue "agent" v]
      = countDefined [node.get "group", node.get "groups", node.get "agent"] := by
    cases node.get "group" <;> cases node.get "groups" <;> cases node.get "agent" <;> rfl
  rw [hc]
  split
  · exact Follows.throws' rfl
  · cases node.get "group" with
    | some g => exact taskGroup_follows hν _ _ _ _ (scalars_text hν.group.2 _)
    | none =>
      cases node.get "groups" with
      | some g =>
        have : (ν.inValue "groups" g).items = g.items.map (Naming.scalar ν.group) := scalars_items g
        simp only [Option.map_some, Option.map_none]
        rw [if_neg (by decide), this]
        exact taskGroups_follows hν _ _ _ _
      | none =>
        cases node.get "agent" with
        | some a => exact Follows.bind (taskAgent_follows hν a t agents) fun t => Follows.ok' rfl
        | none => rfl

theorem id_any (tasks : List Task) (id : String) :
    (tasks.map (Task.named ν)).any (fun t => t.id == ν.id id) = tasks.any (fun t => t.id == id) := by
  rw [List.any_map]
  congr 1
  funext a
  rw [Bool.eq_iff_iff, Function.comp, beq_iff_eq, beq_iff_eq]
  exact hν.id.1.eq_iff

theorem idField_follows (node : Yaml) (tasks : List Task) (t : Task) :
    Follows (Task.named ν) (parseIdField node tasks t)
      (parseIdField (ν.inTask node) (tasks.map (Task.named ν)) (t.named ν)) := by
  unfold parseIdField
  rw [inTask_get]
  cases node.get "id" with
  | none => rfl
  | some n =>
    change Follows _ (parseTaskId n tasks t) (parseTaskId (Naming.scalars ν.id n) _ _)
    unfold parseTaskId
    dsimp only
    rw [scalars_text hν.id.2, named_isEmpty hν.id]
    refine Follows.ite rfl (Follows.throws' rfl) ?_
    refine Follows.bind (g := id) ?_ fun _ => Follows.ok' rfl
    unfold checkTaskDuplicates
    refine Follows.bind (Follows.expects (by rw [named_isEmpty hν.id])) fun _ => ?_
    refine Follows.ite ?_ (Follows.throws' rfl) (Follows.same _)
    rw [show tasks.map (Task.named ν) ++ [t.named ν] = (tasks ++ [t]).map (Task.named ν) by simp]
    exact id_any hν _ _

theorem validateId_follows (id : String) (t t' : Task) :
    Follows ν.id (validateTaskId id t) (validateTaskId (ν.id id) t') := by
  unfold validateTaskId
  exact Follows.ite (named_isEmpty hν.id _) (Follows.throws' rfl) rfl

theorem dependencies_follows (node : Yaml) (t t' : Task) :
    Follows (List.map ν.id) (parseDependsOnField node t) (parseDependsOnField (ν.inTask node) t') := by
  unfold parseDependsOnField
  rw [inTask_get]
  cases node.get "depends_on" with
  | none => rfl
  | some n =>
    change Follows _ (parseDependencies n t) (parseDependencies (Naming.scalars ν.id n) _)
    unfold parseDependencies
    rw [scalars_isScalar, scalars_isSequence]
    refine Follows.bind (Follows.same _) fun _ => ?_
    refine Follows.bind (g := List.map ν.id) ?_ fun ids =>
      Follows.bind (Follows.expects (by simp)) fun _ => Follows.ok' rfl
    unfold dependencyIds
    rw [scalars_isSequence, scalars_items, scalars_text hν.id.2]
    refine Follows.ite rfl ?_ ?_
    · generalize n.items = l
      induction l with
      | nil => rfl
      | cons d rest ih =>
        rw [List.map_cons, parseDependenciesLoop, parseDependenciesLoop, scalar_text hν.id.2]
        exact Follows.bind (validateId_follows hν _ _ _) fun i => Follows.bind ih fun ids => Follows.ok' rfl
    · exact Follows.bind (validateId_follows hν _ _ _) fun i => Follows.ok' rfl

end

theorem readDuration_follows (who who' : String) (n : Option Yaml) :
    Follows id (readDuration who n) (readDuration who' n) := by
  unfold readDuration
  split
  · rfl
  · exact Follows.throws' rfl
  · exact Follows.same _
  · rfl

theorem duration_follows (node : Yaml) (t : Task) :
    Follows (Task.named ν) (parseTaskDuration node t) (parseTaskDuration node (t.named ν)) := by
  unfold parseTaskDuration
  refine Follows.bind (g := Task.named ν) ?_ fun b => ?_
  · unfold readDurations
    refine Follows.ite rfl ?_ ?_
    · exact Follows.bind (readDuration_follows _ _ _) fun x => Follows.ok' rfl
    · exact Follows.bind (readDuration_follows _ _ _) fun x =>
        Follows.bind (readDuration_follows _ _ _) fun y => Follows.ok' rfl
  · change Follows (Task.named ν) (if b.durMax < b.durMin then throws _ else ok b)
      (if b.durMax < b.durMin then throws _ else ok (b.named ν))
    split
    · exact Follows.throws' rfl
    · rfl

theorem inTask_isNull (n : Yaml) : (ν.inTask n).isNull = n.isNull := by
  cases n <;> rfl

theorem addDependency_map (tasks : List Task) (i d : Nat) :
    (addDependency tasks i d).map (Task.named ν) = addDependency (tasks.map (Task.named ν)) i d := by
  unfold addDependency
  refine List.ext_getElem? fun j => ?_
  rw [List.getElem?_map, List.getElem?_modify, List.getElem?_modify, List.getElem?_map]
  cases tasks[j]? with
  | none => rfl
  | some t =>
    by_cases h : i = j
    · simp [h, Task.named]
    · simp [h]

section
variable (hν : ν.Proper)
include hν

theorem head_follows (node : Yaml) (agents : List Agent) (st : TasksState) :
    Follows (TasksState.named ν) (parseTaskHead node agents st)
      (parseTaskHead (ν.inTask node) (agents.map (Agent.named ν)) (TasksState.named ν st)) := by
  unfold parseTaskHead
  dsimp only
  refine Follows.bind (Follows.expects (by rw [inTask_isNull])) fun _ => ?_
  refine Follows.bind (Follows.expects (by simp [TasksState.named])) fun _ => ?_
  have hn : (((ν.inTask node).get "name").map Yaml.text).getD "" = ν.task (((node.get "name").map Yaml.text).getD "") := by
    rw [inTask_get]
    cases node.get "name" with
    | none => exact ((hν.task _).2 rfl).symm
    | some v => exact scalars_text ((hν.task _).2 rfl) v
  have hd : ((ν.inTask node).get "duration").getD .null = (node.get "duration").getD .null := by
    rw [inTask_get]
    cases node.get "duration" <;> rfl
  rw [hn, hd, name_isEmpty hν]
  refine Follows.ite rfl (Follows.throws' rfl) ?_
  generalize ((node.get "name").map Yaml.text).getD "" = name
  have h0 : ({ name := ν.task name } : Task) = Task.named ν { name := name } := by
    simp [Task.named, hν.id.2]
  rw [h0]
  refine Follows.bind (idField_follows hν node st.tasks _) fun t => ?_
  refine Follows.bind (duration_follows _ t) fun t => ?_
  refine Follows.bind (assignment_follows hν node agents t st.groups (name_isEmpty hν _)) fun r => ?_
  refine Follows.bind (dependencies_follows hν node _ _) fun ids => ?_
  exact Follows.ok' (by simp [TasksState.named])

omit hν

mutual
theorem task_follows (hν : ν.Proper) (node : Yaml) (agents : List Agent) (st : TasksState) :
    Follows (TasksState.named ν) (parseTask node agents st)
      (parseTask (ν.inTask node) (agents.map (Agent.named ν)) (TasksState.named ν st)) := by
  rw [parseTask, parseTask]
  refine Follows.bind (head_follows hν _ _ _) fun st => ?_
  have hg := inTask_get (ν := ν) node "subtasks"
  simp only [↓reduceIte] at hg
  split
  · rename_i subs h
    have hlt : sizeOf subs.items < sizeOf node := by
      have h1 := Yaml.sizeOf_get h
      have h2 := Yaml.sizeOf_items subs
      omega
    rw [h, Option.map_some] at hg
    split
    · rename_i subs' h'
      rw [hg, Option.some.injEq] at h'
      subst h'
      rw [show (TasksState.named ν st).tasks.length = st.tasks.length from List.length_map _]
      refine Follows.bind (Follows.same _) fun i => ?_
      rw [inTasks_items]
      exact subtasks_follows hν subs.items agents i st
    · rename_i h'
      rw [hg] at h'
      cases h'
  · rename_i h
    rw [h, Option.map_none] at hg
    split
    · rename_i h'
      rw [hg] at h'
      cases h'
    · rfl
termination_by sizeOf node
decreasing_by exact hlt
theorem subtasks_follows (hν : ν.Proper) (subs : List Yaml) (agents : List Agent) (index : Nat) (st : TasksState) :
    Follows (TasksState.named ν) (parseSubtasks subs agents index st)
      (parseSubtasks (subs.map ν.inTask) (agents.map (Agent.named ν)) index (TasksState.named ν st)) := by
  match subs with
  | [] => rw [List.map_nil, parseSubtasks, parseSubtasks]; rfl
  | sub :: rest =>
    rw [List.map_cons, parseSubtasks, parseSubtasks]
    rw [show (TasksState.named ν st).tasks.length = st.tasks.length from List.length_map _]
    refine Follows.bind (Follows.same _) fun next => ?_
    refine Follows.bind (g := TasksState.named ν) ?_ fun st => subtasks_follows hν rest agents index st
    have := task_follows hν sub agents { st with tasks := addDependency st.tasks index next }
    rw [show TasksState.named ν { st with tasks := addDependency st.tasks index next }
      = { TasksState.named ν st with tasks := addDependency (TasksState.named ν st).tasks index next } by
      simp [TasksState.named, addDependency_map]] at this
    exact this
termination_by sizeOf subs
end

include hν

theorem taskList_follows (agents : List Agent) (l : List Yaml) (st : TasksState) :
    Follows (TasksState.named ν) (parseTaskList agents l st)
      (parseTaskList (agents.map (Agent.named ν)) (l.map ν.inTask) (TasksState.named ν st)) := by
  induction l generalizing st with
  | nil => rfl
  | cons n rest ih =>
    rw [List.map_cons, parseTaskList, parseTaskList]
    exact Follows.bind (task_follows hν _ _ _) fun st => ih st

end

section
variable (hν : ν.Proper)
include hν

theorem findTask_follows (tasks : List Task) (id : String) :
    Follows _root_.id (findTaskIndexById tasks id) (findTaskIndexById (tasks.map (Task.named ν)) (ν.id id)) := by
  unfold findTaskIndexById
  refine Follows.bind (Follows.expects (by rw [named_isEmpty hν.id])) fun _ => ?_
  rw [show (tasks.map (Task.named ν)).map Task.id = (tasks.map Task.id).map ν.id by simp [Task.named, Function.comp_def],
    findIdx_map hν.id.1]
  cases findIdx id (tasks.map Task.id) with
  | none => exact Follows.throws' rfl
  | some i => exact Follows.same _

theorem resolveIds_follows (i : Nat) (ids : List String) (tasks : List Task) :
    Follows (List.map (Task.named ν)) (resolveIds i ids tasks)
      (resolveIds i (ids.map ν.id) (tasks.map (Task.named ν))) := by
  induction ids generalizing tasks with
  | nil => rfl
  | cons id rest ih =>
    rw [List.map_cons, resolveIds, resolveIds]
    refine Follows.bind (findTask_follows hν _ _) fun d => ?_
    have := ih (addDependency tasks i d)
    rw [addDependency_map] at this
    exact this

theorem resolveAll_follows (i : Nat) (deps : List (List String)) (tasks : List Task) :
    Follows (List.map (Task.named ν)) (resolveAll i deps tasks)
      (resolveAll i (deps.map (List.map ν.id)) (tasks.map (Task.named ν))) := by
  induction deps generalizing i tasks with
  | nil => rfl
  | cons ids rest ih =>
    rw [List.map_cons, resolveAll, resolveAll]
    exact Follows.bind (resolveIds_follows hν _ _ _) fun tasks => ih _ _

end

/-! ### Cycles -/

mutual
theorem dfs_named (tasks : List Task) (fuel : Nat) (state : List VertexState) (i : Nat) :
    dfs (tasks.map (Task.named ν)) fuel state i = dfs tasks fuel state i := by
  match fuel with
  | 0 => rw [dfs, dfs]
  | fuel + 1 =>
    rw [dfs, dfs, List.isEmpty_map, List.length_map, List.getElem?_map]
    cases tasks[i]? with
    | none => rfl
    | some t => simp only [Option.map_some, Task.named, dfsDeps_named tasks fuel]
theorem dfsDeps_named (tasks : List Task) (fuel : Nat) (deps : List Nat) (state : List VertexState) :
    dfsDeps (tasks.map (Task.named ν)) fuel deps state = dfsDeps tasks fuel deps state := by
  match deps with
  | [] => rw [dfsDeps, dfsDeps]
  | d :: rest =>
    rw [dfsDeps, dfsDeps]
    cases state[d]? with
    | none => rfl
    | some v =>
      cases v with
      | visited => rfl
      | notVisited =>
        simp only [dfs_named tasks fuel]
        congr 1
        funext state
        exact dfsDeps_named tasks fuel rest state
      | complete => exact dfsDeps_named tasks fuel rest state
end

theorem cyclesLoop_named (tasks : List Task) (k i : Nat) (state : List VertexState) :
    checkForCyclesLoop (tasks.map (Task.named ν)) k i state = checkForCyclesLoop tasks k i state := by
  induction k generalizing i state with
  | zero => rfl
  | succ k ih =>
    simp only [checkForCyclesLoop, ih]
    congr 1
    unfold visit
    simp only [dfs_named, List.length_map]

theorem cycles_named (tasks : List Task) : checkForCycles (tasks.map (Task.named ν)) = checkForCycles tasks := by
  unfold checkForCycles
  rw [cyclesLoop_named, List.length_map, List.isEmpty_map]

theorem tasks_follows (hν : ν.Proper) (node : Yaml) (p : Project) :
    Follows (Project.named ν) (parseTasks node p) (parseTasks (ν.inTasks node) (p.named ν)) := by
  unfold parseTasks
  refine Follows.bind (Follows.expects (by simp [Project.named])) fun _ => ?_
  rw [inTasks_size, inTasks_items]
  split
  · exact Follows.throws' rfl
  · refine Follows.bind (taskList_follows hν p.agents node.items ⟨p.groups, [], []⟩) fun st => ?_
    refine Follows.bind (g := List.map (Task.named ν)) ?_ fun tasks => ?_
    · unfold parseDependencies2ndPhase
      refine Follows.bind (Follows.expects (by simp [TasksState.named])) fun _ => ?_
      refine Follows.bind (Follows.expects (by simp [TasksState.named])) fun _ => ?_
      exact resolveAll_follows hν 0 st.deps st.tasks
    · rw [cycles_named]
      refine Follows.bind (Follows.same _) fun _ => ?_
      exact Follows.bind (Follows.expects (by simp)) fun _ => Follows.ok' (by simp [Project.named, TasksState.named])

end Angonoka

/-! ### The schema -/

namespace Angonoka
open Outcome Doc Load Validation

/-- The check accepts the changed node if and only if it accepts the node. -/
def Agrees (g : Yaml → Yaml) (c : Check) : Prop := ∀ n s s', c (g n) s' = .ok () ↔ c n s = .ok ()

variable {ν : Naming} {g h : Yaml → Yaml} {c c' : Check}

theorem agrees_scalar (hs : ∀ n : Yaml, (g n).isScalar = n.isScalar) : Agrees g scalar := by
  intro n s s'
  have key : ∀ (m : Yaml) (t : String), scalar m t = .ok () ↔ m.isScalar = true := fun m t => by
    cases m <;> simp [scalar, Yaml.isScalar]
  rw [key, key, hs]

theorem agrees_anyOf (hc : Agrees g c) (hc' : Agrees g c') : Agrees g (anyOf c c') := by
  intro n s s'
  unfold anyOf
  have h1 := hc n s s'
  have h2 := hc' n s s'
  cases hx : c n s with
  | ok u =>
    cases u
    rw [h1.2 hx]
  | error e =>
    cases hy : c (g n) s' with
    | ok u => cases u; rw [h1.1 hy] at hx; cases hx
    | error e' => exact h2

theorem agrees_loop (hc : Agrees g c) (l : List Yaml) (i : Nat) (s s' : String) :
    sequenceLoop c s' i (l.map g) = .ok () ↔ sequenceLoop c s i l = .ok () := by
  induction l generalizing i with
  | nil => exact ⟨fun _ => rfl, fun _ => rfl⟩
  | cons n rest ih =>
    rw [List.map_cons, sequenceLoop, sequenceLoop]
    have h1 := hc n s!"{s}[{i}]" s!"{s'}[{i}]"
    cases hx : c n s!"{s}[{i}]" with
    | ok u =>
      cases u
      rw [h1.2 hx]
      exact ih (i + 1)
    | error e =>
      cases hy : c (g n) s!"{s'}[{i}]" with
      | ok u => cases u; rw [h1.1 hy] at hx; cases hx
      | error e' => simp

theorem agrees_sequence (hs : ∀ n : Yaml, h n = match n with | .seq l => .seq (l.map g) | n => h n)
    (hk : ∀ n : Yaml, (h n).isSequence = n.isSequence) (hc : Agrees g c) : Agrees h (sequence c) := by
  intro n s s'
  have key : ∀ (m : Yaml) (t : String), m.isSequence = false → ¬ sequence c m t = .ok () := fun m t hm => by
    cases m with
    | seq l => cases hm
    | null => simp [sequence]
    | scalar t => simp [sequence]
    | map es => simp [sequence]
  cases n with
  | seq l => rw [hs]; exact agrees_loop hc l 0 s s'
  | null => exact iff_of_false (key _ _ (hk _)) (key _ _ rfl)
  | scalar t => exact iff_of_false (key _ _ (hk _)) (key _ _ rfl)
  | map es => exact iff_of_false (key _ _ (hk _)) (key _ _ rfl)

theorem agrees_required {name : String} (hg : ∀ n, (g n).get name = (n.get name).map h) (hc : Agrees h c) :
    Agrees g (required name c).run := by
  intro n s s'
  change (match (g n).get name with | some n => _ | none => _) = _ ↔ (match n.get name with | some n => _ | none => _) = _
  rw [hg]
  cases n.get name with
  | none => simp
  | some v => exact hc v _ _

theorem agrees_optional {name : String} (hg : ∀ n, (g n).get name = (n.get name).map h) (hc : Agrees h c) :
    Agrees g (optional name c).run := by
  intro n s s'
  change (match (g n).get name with | some n => _ | none => _) = _ ↔ (match n.get name with | some n => _ | none => _) = _
  rw [hg]
  cases n.get name with
  | none => simp
  | some v => exact hc v _ _

theorem agrees_keys (names : List String) (s s' : String) (l l' : List (Yaml × Yaml)) (seen : List String)
    (hl : l'.map (fun e => e.1) = l.map (fun e => e.1)) :
    checkKeys names s' seen l' = .ok () ↔ checkKeys names s seen l = .ok () := by
  induction l generalizing l' seen with
  | nil =>
    rw [List.map_nil, List.map_eq_nil_iff] at hl
    subst hl
    exact ⟨fun _ => rfl, fun _ => rfl⟩
  | cons e rest ih =>
    cases l' with
    | nil => simp at hl
    | cons e' rest' =>
      obtain ⟨k, v⟩ := e
      obtain ⟨k', v'⟩ := e'
      rw [List.map_cons, List.map_cons, List.cons.injEq] at hl
      obtain ⟨hk, hr⟩ := hl
      dsimp only at hk
      subst hk
      simp only [checkKeys]
      split
      · simp
      · split
        · simp
        · split
          · simp
          · exact ih _ _ hr

theorem agrees_attributes {attrs : List Attr} (hs : ∀ n : Yaml, (g n).isScalar = n.isScalar)
    (hq : ∀ n : Yaml, (g n).isSequence = n.isSequence)
    (hk : ∀ n : Yaml, (g n).entries.map (fun e => e.1) = n.entries.map (fun e => e.1))
    (ha : ∀ a ∈ attrs, Agrees g a.run) : Agrees g (attributes attrs) := by
  intro n s s'
  unfold attributes
  rw [hs, hq]
  split
  · simp
  · have h1 := agrees_keys (attrs.map Attr.name) s s' n.entries (g n).entries [] (hk n)
    cases hx : checkKeys (attrs.map Attr.name) s [] n.entries with
    | error e =>
      cases hy : checkKeys (attrs.map Attr.name) s' [] (g n).entries with
      | ok u => cases u; rw [h1.1 hy] at hx; cases hx
      | error e' => simp
    | ok u =>
      cases u
      rw [h1.2 hx]
      dsimp only
      clear h1 hx
      induction attrs with
      | nil => exact ⟨fun _ => rfl, fun _ => rfl⟩
      | cons a rest ih =>
        have h1 := ha a (by simp) n s s'
        have ih := ih fun b hb => ha b (by simp [hb])
        rw [runAttrs, runAttrs]
        cases hx : a.run n s with
        | ok u => cases u; rw [h1.2 hx]; exact ih
        | error e =>
          cases hy : a.run (g n) s' with
          | ok u => cases u; rw [h1.1 hy] at hx; cases hx
          | error e' => simp

theorem agrees_bounds : Agrees id (anyOf (attributes [required "min", required "max"]) scalar) := by
  refine agrees_anyOf (agrees_attributes (fun _ => rfl) (fun _ => rfl) (fun _ => rfl) ?_) (agrees_scalar fun _ => rfl)
  intro a ha
  simp only [List.mem_cons, List.not_mem_nil, or_false] at ha
  rcases ha with rfl | rfl <;>
    exact agrees_required (h := id) (fun n => by simp) (agrees_scalar fun _ => rfl)

theorem agrees_scalars (f : String → String) : Agrees (Naming.scalars f) scalar := agrees_scalar scalars_isScalar

theorem agrees_scalarList (f : String → String) : Agrees (Naming.scalars f) (sequence scalar) := by
  refine agrees_sequence (g := Naming.scalar f) (fun n => by cases n <;> rfl) scalars_isSequence (agrees_scalar fun n => ?_)
  cases n <;> rfl

theorem agrees_agent : Agrees ν.inAgent agentAttributes := by
  refine agrees_attributes (fun n => by cases n <;> rfl) (fun n => by cases n <;> rfl)
    (fun n => by cases n <;> simp [Naming.inAgent, Yaml.entries]) ?_
  intro a ha
  simp only [List.mem_cons, List.not_mem_nil, or_false] at ha
  rcases ha with rfl | rfl
  · exact agrees_optional (h := id) (fun n => by rw [inAgent_get]; cases n.get "performance" <;> rfl) agrees_bounds
  · exact agrees_optional (h := Naming.scalars ν.group) (fun n => by rw [inAgent_get]; cases n.get "groups" <;> rfl)
      (agrees_scalarList _)

theorem agrees_tasks (d : Nat) : Agrees ν.inTasks (validateTaskList d) := by
  induction d with
  | zero => intro n s s'; simp [validateTaskList]
  | succ d ih =>
    rw [validateTaskList]
    refine agrees_sequence (g := ν.inTask) (fun n => by cases n <;> simp [Naming.inTasks, inTaskList_eq])
      (fun n => by cases n <;> rfl) ?_
    refine agrees_attributes (fun n => by cases n <;> rfl) (fun n => by cases n <;> rfl)
      (fun n => by cases n <;> simp [Naming.inTask, inAttributes_eq, Yaml.entries]) ?_
    intro a ha
    simp only [List.mem_cons, List.not_mem_nil, or_false] at ha
    rcases ha with rfl | rfl | rfl | rfl | rfl | rfl | rfl | rfl
    · exact agrees_optional (h := Naming.scalars ν.group) (fun n => by rw [inTask_get]; cases n.get "group" <;> rfl)
        (agrees_scalars _)
    · exact agrees_optional (h := Naming.scalars ν.group) (fun n => by rw [inTask_get]; cases n.get "groups" <;> rfl)
        (agrees_scalarList _)
    · exact agrees_optional (h := Naming.scalars ν.agent) (fun n => by rw [inTask_get]; cases n.get "agent" <;> rfl)
        (agrees_scalars _)
    · exact agrees_required (h := Naming.scalars ν.task) (fun n => by rw [inTask_get]; cases n.get "name" <;> rfl)
        (agrees_scalars _)
    · exact agrees_optional (h := Naming.scalars ν.id) (fun n => by rw [inTask_get]; cases n.get "id" <;> rfl)
        (agrees_scalars _)
    · exact agrees_optional (h := Naming.scalars ν.id) (fun n => by rw [inTask_get]; cases n.get "depends_on" <;> rfl)
        (agrees_anyOf (agrees_scalars _) (agrees_scalarList _))
    · exact agrees_required (h := id) (fun n => by rw [inTask_get]; cases n.get "duration" <;> rfl) agrees_bounds
    · exact agrees_optional (h := ν.inTasks) (fun n => by rw [inTask_get]; cases n.get "subtasks" <;> rfl) ih

theorem agrees_agents : Agrees ν.inAgents (values agentAttributes) := by
  intro n s s'
  cases n with
  | map es =>
    change valuesLoop agentAttributes s' (es.map _) = _ ↔ valuesLoop agentAttributes s es = _
    induction es with
    | nil => exact ⟨fun _ => rfl, fun _ => rfl⟩
    | cons e rest ih =>
      obtain ⟨k, v⟩ := e
      rw [List.map_cons, valuesLoop, valuesLoop]
      dsimp only
      have h1 := agrees_agent (ν := ν) v (join s k.text) (join s' (Naming.scalar ν.agent k).text)
      cases hx : agentAttributes v (join s k.text) with
      | ok u => cases u; rw [h1.2 hx]; exact ih
      | error e =>
        cases hy : agentAttributes (ν.inAgent v) (join s' (Naming.scalar ν.agent k).text) with
        | ok u => cases u; rw [h1.1 hy] at hx; cases hx
        | error e' => simp
  | null => simp [Naming.inAgents, values]
  | scalar t => simp [Naming.inAgents, values]
  | seq l => simp [Naming.inAgents, values]

/-! ### The depth of the document -/

theorem depthList_map {f : Yaml → Yaml} (hf : ∀ n, (f n).depth = n.depth) (l : List Yaml) :
    Yaml.depthList (l.map f) = Yaml.depthList l := by
  induction l with
  | nil => rfl
  | cons n rest ih => rw [List.map_cons, Yaml.depthList, Yaml.depthList, hf, ih]

theorem depthEntries_map {f : Yaml × Yaml → Yaml × Yaml} (l : List (Yaml × Yaml))
    (hf : ∀ e ∈ l, (f e).2.depth = e.2.depth) : Yaml.depthEntries (l.map f) = Yaml.depthEntries l := by
  induction l with
  | nil => rfl
  | cons e rest ih =>
    obtain ⟨k, v⟩ := e
    have h1 := hf (k, v) (by simp)
    rw [List.map_cons, ← Prod.mk.eta (p := f (k, v)), Yaml.depthEntries, Yaml.depthEntries, h1,
      ih fun e he => hf e (by simp [he])]

theorem depth_scalars (f : String → String) (n : Yaml) : (Naming.scalars f n).depth = n.depth := by
  cases n with
  | seq l =>
    rw [Naming.scalars, Yaml.depth, Yaml.depth, depthList_map]
    intro n
    cases n <;> simp [Naming.scalar, Yaml.depth]
  | null => rfl
  | scalar s => simp [Naming.scalars, Naming.scalar, Yaml.depth]
  | map es => rfl

theorem depth_inValue (key : String) (v : Yaml) : (ν.inValue key v).depth = v.depth := by
  unfold Naming.inValue
  split_ifs <;> first | exact depth_scalars _ _ | rfl

mutual
theorem depth_inTask (n : Yaml) : (ν.inTask n).depth = n.depth := by
  match n with
  | .map es => rw [Naming.inTask, Yaml.depth, Yaml.depth, depth_inAttributes es]
  | .null => rfl
  | .scalar s => rfl
  | .seq l => rfl
theorem depth_inAttributes (es : List (Yaml × Yaml)) : Yaml.depthEntries (ν.inAttributes es) = Yaml.depthEntries es := by
  match es with
  | [] => rfl
  | (k, v) :: rest =>
    rw [Naming.inAttributes, Yaml.depthEntries, Yaml.depthEntries, depth_inAttributes rest]
    split
    · rw [depth_inTasks v]
    · rw [depth_inValue]
theorem depth_inTasks (n : Yaml) : (ν.inTasks n).depth = n.depth := by
  match n with
  | .seq l => rw [Naming.inTasks, Yaml.depth, Yaml.depth, depth_inTaskList l]
  | .null => rfl
  | .scalar s => rfl
  | .map es => rfl
theorem depth_inTaskList (l : List Yaml) : Yaml.depthList (ν.inTaskList l) = Yaml.depthList l := by
  match l with
  | [] => rfl
  | n :: rest => rw [Naming.inTaskList, Yaml.depthList, Yaml.depthList, depth_inTask n, depth_inTaskList rest]
end

theorem depth_inAgents (n : Yaml) : (ν.inAgents n).depth = n.depth := by
  cases n with
  | map es =>
    rw [Naming.inAgents, Yaml.depth, Yaml.depth, depthEntries_map]
    rintro ⟨k, v⟩ -
    dsimp only
    cases v with
    | map es =>
      rw [Naming.inAgent, Yaml.depth, Yaml.depth, depthEntries_map]
      rintro ⟨k, v⟩ -
      dsimp only
      split
      · exact depth_scalars _ _
      · rfl
    | null => rfl
    | scalar s => rfl
    | seq l => rfl
  | null => rfl
  | scalar s => rfl
  | seq l => rfl

theorem depth_inDocument (n : Yaml) : (ν.inDocument n).depth = n.depth := by
  cases n with
  | map es =>
    rw [Naming.inDocument, Yaml.depth, Yaml.depth, depthEntries_map]
    rintro ⟨k, v⟩ -
    dsimp only
    split
    · exact depth_inAgents v
    · split
      · exact depth_inTasks v
      · rfl
  | null => rfl
  | scalar s => rfl
  | seq l => rfl

theorem configuration_named (root : Yaml) :
    validateConfiguration (ν.inDocument root) = .ok () ↔ validateConfiguration root = .ok () := by
  unfold validateConfiguration
  rw [depth_inDocument]
  refine agrees_attributes (g := ν.inDocument) (fun n => by cases n <;> rfl) (fun n => by cases n <;> rfl)
    (fun n => by cases n <;> simp [Naming.inDocument, Yaml.entries]) ?_ root "" ""
  intro a ha
  simp only [List.mem_cons, List.not_mem_nil, or_false] at ha
  rcases ha with rfl | rfl
  · exact agrees_required (h := ν.inAgents) (fun n => by rw [inDocument_get]; cases n.get "agents" <;> rfl) agrees_agents
  · exact agrees_required (h := ν.inTasks) (fun n => by rw [inDocument_get]; cases n.get "tasks" <;> rfl) (agrees_tasks _)

/-- Loading a document with other names -/
theorem load_follows (hν : ν.Proper) (rf : ReadFloat) (root : Yaml) :
    Follows (Project.named ν) (load rf root) (load rf (ν.inDocument root)) := by
  unfold load
  have hc := configuration_named (ν := ν) root
  cases hx : validateConfiguration root with
  | error e =>
    cases hy : validateConfiguration (ν.inDocument root) with
    | ok u => cases u; rw [hc.1 hy] at hx; cases hx
    | error e' => exact Follows.throws' rfl
  | ok u =>
    cases u
    rw [hc.2 hx]
    dsimp only
    have h1 : ((ν.inDocument root).get "agents").getD .null = ν.inAgents ((root.get "agents").getD .null) := by
      rw [inDocument_get]; cases root.get "agents" <;> rfl
    have h2 : ((ν.inDocument root).get "tasks").getD .null = ν.inTasks ((root.get "tasks").getD .null) := by
      rw [inDocument_get]; cases root.get "tasks" <;> rfl
    rw [h1, h2]
    refine Follows.bind (agents_follows hν rf _ {}) fun p => ?_
    refine Follows.bind (tasks_follows hν _ p) fun p => ?_
    refine Follows.bind (Follows.expects (by simp [Project.named])) fun _ => ?_
    exact Follows.bind (Follows.expects (by simp [Project.named])) fun _ => Follows.ok' rfl

end Angonoka
