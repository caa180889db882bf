import Verif.Model.Load
import Verif.Proof.Schema

/-!
# Evaluating the loader on concrete documents

The same functions with the recursion on the tree replaced by recursion on a bound for its depth, so that
they compute; equal to the model for every document. Only used for examples.
-/

namespace Angonoka.Load
open Angonoka Outcome Doc Validation

/-- `parseSubtasks` for a given `parseTask`. -/
def subtasksF (f : Yaml → TasksState → Outcome TasksState) (index : Nat) :
    List Yaml → TasksState → Outcome TasksState
  | [], st => ok st
  | sub :: rest, st => do
    let next ← toInt8 st.tasks.length
    let st ← f sub { st with tasks := addDependency st.tasks index next }
    subtasksF f index rest st

/-- `parseTask` for trees of a limited depth. -/
def taskF : Nat → List Agent → Yaml → TasksState → Outcome TasksState
  | 0, _, _, _ => ub "out of fuel"
  | fuel + 1, agents, node, st => do
    let st ← parseTaskHead node agents st
    match node.get "subtasks" with
    | some subs => do
      let index ← toInt8 (st.tasks.length - 1)
      subtasksF (taskF fuel agents) index subs.items st
    | none => return st

theorem depth_get {n v : Yaml} {key : String} (h : n.get key = some v) : v.depth < n.depth := by
  cases n with
  | map es =>
    simp only [Yaml.get] at h
    have : ∃ k, (k, v) ∈ es := by
      induction es with
      | nil => cases h
      | cons e rest ih =>
        obtain ⟨k, w⟩ := e
        have hr : Yaml.lookup key rest = some v → ∃ k', (k', v) ∈ (k, w) :: rest := by
          intro h'
          obtain ⟨k', hk⟩ := ih h'
          exact ⟨k', by simp [hk]⟩
        cases k with
        | scalar s =>
          simp only [Yaml.lookup] at h
          split at h
          · cases h
            exact ⟨.scalar s, by simp⟩
          · exact hr h
        | null => exact hr h
        | seq l => exact hr h
        | map l => exact hr h
    obtain ⟨k, hk⟩ := this
    have := depth_entry hk
    simp only [Yaml.depth]
    omega
  | null => cases h
  | scalar s => cases h
  | seq l => cases h

theorem depth_items {v x : Yaml} (h : x ∈ v.items) : x.depth < v.depth := by
  cases v with
  | seq l =>
    have := depth_item (l := l) h
    simp only [Yaml.depth]
    omega
  | null => cases h
  | scalar s => cases h
  | map l => cases h

theorem taskF_eq (fuel : Nat) (agents : List Agent) (node : Yaml) (st : TasksState)
    (h : node.depth < fuel) : taskF fuel agents node st = parseTask node agents st := by
  induction fuel generalizing node st with
  | zero => omega
  | succ fuel ih =>
    rw [taskF, parseTask]
    congr 1
    funext st'
    have hsub : ∀ (l : List Yaml) (index : Nat) (st : TasksState), (∀ x ∈ l, x.depth < fuel) →
        subtasksF (taskF fuel agents) index l st = parseSubtasks l agents index st := by
      intro l
      induction l with
      | nil =>
        intro index st _
        rw [parseSubtasks, subtasksF]
      | cons x rest ih' =>
        intro index st hx
        rw [parseSubtasks, subtasksF]
        congr 1
        funext next
        rw [ih x _ (hx x (by simp))]
        congr 1
        funext st2
        exact ih' index st2 fun y hy => hx y (by simp [hy])
    split
    · rename_i subs hs
      split
      · rename_i subs' hs'
        rw [hs] at hs'
        cases hs'
        congr 1
        funext index
        refine hsub _ _ _ fun x hx => ?_
        have := depth_get hs
        have := depth_items hx
        omega
      · rename_i hs'
        rw [hs] at hs'
        cases hs'
    · rename_i hs
      split
      · rename_i subs' hs'
        rw [hs] at hs'
        cases hs'
      · rfl

/-- `parseTaskList` -/
def listF (fuel : Nat) (agents : List Agent) : List Yaml → TasksState → Outcome TasksState
  | [], st => ok st
  | n :: rest, st => do
    let st ← taskF fuel agents n st
    listF fuel agents rest st

theorem listF_eq (fuel : Nat) (agents : List Agent) (l : List Yaml) (st : TasksState)
    (h : ∀ x ∈ l, x.depth < fuel) : listF fuel agents l st = parseTaskList agents l st := by
  induction l generalizing st with
  | nil => rfl
  | cons x rest ih =>
    rw [listF, parseTaskList, taskF_eq fuel agents x st (h x (by simp))]
    congr 1
    funext st'
    exact ih st' fun y hy => h y (by simp [hy])

/-- `dfsDeps` for a given `dfs`. -/
def depsF (f : List VertexState → Nat → Outcome (List VertexState)) :
    List Nat → List VertexState → Outcome (List VertexState)
  | [], state => ok state
  | d :: rest, state =>
    match state[d]? with
    | none => ub "depth_first_search: dependency index"
    | some .visited => throws .dependencyCycle
    | some .notVisited => do
      let state ← f state d
      depsF f rest state
    | some .complete => depsF f rest state

/-- `dfs` -/
def dfsF (tasks : List Task) : Nat → List VertexState → Nat → Outcome (List VertexState)
  | 0, _, _ => ub "depth_first_search: recursion bound"
  | fuel + 1, state, i => do
    expects (!tasks.isEmpty) "depth_first_search: tasks not empty"
    expects (tasks.length == state.length) "depth_first_search: sizes"
    expects (state[i]? == some .notVisited) "depth_first_search: not visited"
    match tasks[i]? with
    | none => ub "depth_first_search: task index"
    | some t =>
      let state := state.set i .visited
      let state ← depsF (dfsF tasks fuel) t.dependencies state
      return state.set i .complete

theorem dfsF_eq (tasks : List Task) (fuel : Nat) (state : List VertexState) (i : Nat) :
    dfsF tasks fuel state i = dfs tasks fuel state i := by
  induction fuel generalizing state i with
  | zero => rw [dfsF, dfs]
  | succ fuel ih =>
    have hd : ∀ (l : List Nat) (st : List VertexState),
        depsF (dfsF tasks fuel) l st = dfsDeps tasks fuel l st := by
      intro l
      induction l with
      | nil =>
        intro st
        rw [depsF, dfsDeps]
      | cons d rest ih' =>
        intro st
        rw [depsF, dfsDeps]
        split <;> simp_all
    rw [dfsF, dfs]
    simp only [hd]
    rfl

/-- `visit` -/
def visitF (tasks : List Task) (state : List VertexState) (i : Nat) : Outcome (List VertexState) :=
  match state[i]? with
  | some .notVisited => dfsF tasks tasks.length state i
  | some _ => ok state
  | none => ub "check_for_cycles: index"

theorem visitF_eq (tasks : List Task) (state : List VertexState) (i : Nat) :
    visitF tasks state i = visit tasks state i := by
  unfold visitF visit
  rw [dfsF_eq]
  rfl

/-- `checkForCyclesLoop` -/
def cyclesF (tasks : List Task) : Nat → Nat → List VertexState → Outcome Unit
  | 0, _, _ => ok ()
  | k + 1, i, state => do
    let state ← visitF tasks state i
    let i ← toInt8 (i + 1)
    cyclesF tasks k i state

theorem cyclesF_eq (tasks : List Task) (k i : Nat) (state : List VertexState) :
    cyclesF tasks k i state = checkForCyclesLoop tasks k i state := by
  induction k generalizing i state with
  | zero => rfl
  | succ k ih =>
    simp only [cyclesF, checkForCyclesLoop, visitF_eq, ih]

/-- `parseTasks` -/
def tasksF (fuel : Nat) (node : Yaml) (p : Project) : Outcome Project := do
  expects p.tasks.isEmpty "parse_tasks: no tasks yet"
  if node.size = 0 then throws (.cantBeEmpty "\"tasks\"")
  else do
    let st ← listF fuel p.agents node.items { groups := p.groups, tasks := [], deps := [] }
    let tasks ← parseDependencies2ndPhase st.tasks st.deps
    expects (!tasks.isEmpty) "check_for_cycles: tasks not empty"
    cyclesF tasks tasks.length 0 (List.replicate tasks.length .notVisited)
    expects (!tasks.isEmpty) "parse_tasks: tasks not empty"
    return { p with groups := st.groups, tasks := tasks }

/-- `load` -/
def loadF (fuel : Nat) (rf : ReadFloat) (root : Yaml) : Outcome Project := do
  match Validation.validateConfiguration root with
  | .error e => throws (.schema e)
  | .ok () => do
    let p ← parseAgents rf ((root.get "agents").getD .null) {}
    let p ← tasksF fuel ((root.get "tasks").getD .null) p
    expects (!p.tasks.isEmpty) "parse_yaml: tasks not empty"
    expects (!p.agents.isEmpty) "parse_yaml: agents not empty"
    return p

theorem load_eval (fuel : Nat) (rf : ReadFloat) (root : Yaml) (h : root.depth < fuel) :
    load rf root = loadF fuel rf root := by
  unfold load loadF
  have : ∀ p, parseTasks ((root.get "tasks").getD .null) p =
      tasksF fuel ((root.get "tasks").getD .null) p := by
    intro p
    unfold parseTasks tasksF
    rw [listF_eq]
    · simp only [checkForCycles, cyclesF_eq, bind_assoc]
    intro x hx
    cases hg : root.get "tasks" with
    | none =>
      rw [hg] at hx
      cases hx
    | some v =>
      rw [hg, Option.getD_some] at hx
      have := depth_get hg
      have := depth_items hx
      omega
  simp only [this]
  rfl

end Angonoka.Load
