import Verif.Proof.NamesRun
import Verif.Proof.Params

/-! # What the program uses of a project besides who may do what -/

set_option linter.unusedSectionVars false

namespace Angonoka
open Outcome Stun

variable {K : Type} [Field K] [LinearOrder K] [IsStrictOrderedRing K]
variable {E : FloatEnv K}

/-- The agent without the groups -/
def Agent.bare (a : Agent) : Agent := { a with groupIds := [] }

/-- The task without id, groups, and assigned agent -/
def Task.bare (t : Task) : Task := { t with id := "", groupIds := [], agentId := none }

/-- The project without what only concerns who may do what -/
def Project.bare (p : Project) : Project := { groups := [], agents := p.agents.map Agent.bare, tasks := p.tasks.map Task.bare }

/-! ### Scheduling -/

theorem agentPerformance_bare (l : List Agent) : agentPerformance E (l.map Agent.bare) = agentPerformance E l := by
  unfold agentPerformance
  rw [List.isEmpty_map, List.mapM_map]
  rfl

theorem durationLoop_bare (l : List Task) (t : K) : durationLoop E (l.map Task.bare) t = durationLoop E l t := by
  induction l generalizing t with
  | nil => rfl
  | cons x rest ih =>
    simp only [List.map_cons, durationLoop, ih]
    rfl

theorem taskDuration_bare (l : List Task) (n : Nat) : taskDuration E (l.map Task.bare) n = taskDuration E l n := by
  unfold taskDuration
  rw [List.isEmpty_map, durationLoop_bare]

theorem dependenciesLoop_bare (l : List Task) (data sizes : List Nat) :
    dependenciesLoop (l.map Task.bare) data sizes = dependenciesLoop l data sizes := by
  induction l generalizing data sizes with
  | nil => rfl
  | cons t rest ih =>
    simp only [List.map_cons, dependenciesLoop]
    exact ih _ _

theorem dependencies_bare (l : List Task) : dependencies (l.map Task.bare) = dependencies l := by
  unfold dependencies
  rw [List.isEmpty_map, dependenciesLoop_bare]

/-- The parameters for the optimizer are the same if the projects agree apart from who may do what, and about that too. -/
theorem params_bare {p p' : Project} (h : p'.bare = p.bare)
    (he : p'.tasks.map (fun t => eligible t 0 p'.agents) = p.tasks.map fun t => eligible t 0 p.agents) :
    toScheduleParams E p' = toScheduleParams E p := by
  obtain ⟨-, ha, ht⟩ := Project.mk.inj h
  have h1 : p'.agents.isEmpty = p.agents.isEmpty := by rw [← List.isEmpty_map (f := Agent.bare), ha, List.isEmpty_map]
  have h2 : p'.tasks.isEmpty = p.tasks.isEmpty := by rw [← List.isEmpty_map (f := Task.bare), ht, List.isEmpty_map]
  have h3 : p'.agents.length = p.agents.length := by rw [← List.length_map Agent.bare, ha, List.length_map]
  have h4 : ∀ n, taskDuration E p'.tasks n = taskDuration E p.tasks n := fun n => by rw [← taskDuration_bare, ht, taskDuration_bare]
  have h5 : agentPerformance E p'.agents = agentPerformance E p.agents := by rw [← agentPerformance_bare, ha, agentPerformance_bare]
  have h6 : dependencies p'.tasks = dependencies p.tasks := by rw [← dependencies_bare, ht, dependencies_bare]
  have h7 : availableAgents p' = availableAgents p := by
    unfold availableAgents
    rw [h1, h2, availableAgentsLoop_eq, availableAgentsLoop_eq, he]
  unfold toScheduleParams
  rw [h1, h2, h3, h4, h5, h6, h7]

/-! ### Simulations -/

/-- The simulation of the project without what only concerns who may do what -/
def Simulation.bare (s : Simulation K) : Simulation K := { s with config := s.config.bare }

theorem new_bare (p : Project) : (Simulation.new p.bare : Outcome (Simulation K)) = Simulation.bare <$> Simulation.new p := by
  unfold Simulation.new Simulation.assignBuffers
  simp only [Project.bare, List.isEmpty_map, List.length_map]
  refine bind_same fun _ => bind_same fun _ => bind_same fun _ => bind_same fun _ => ?_
  rfl

namespace Simulation

theorem loop_bare (s : Simulation K) (l : List Item) (buffer : List K) :
    s.bare.loop E l buffer = s.loop E l buffer := by
  induction l generalizing buffer with
  | nil => rfl
  | cons it rest ih =>
    obtain ⟨task, agent⟩ := it
    rw [loop, loop]
    have h1 : at? s.bare.config.tasks task "Simulation: tasks" = Task.bare <$> at? s.config.tasks task "Simulation: tasks" := by
      unfold at?
      rw [show s.bare.config.tasks[task]? = (s.config.tasks[task]?).map Task.bare from List.getElem?_map ..]
      cases s.config.tasks[task]? <;> rfl
    have h2 : ∀ b, s.bare.workTime E b task agent = s.workTime E b task agent := fun b => by
      unfold workTime
      simp only [bare, Project.bare, List.length_map]
    rw [h1]
    simp only [h2, ih, map_eq_pure_bind, bind_assoc, Outcome.pure_eq, Outcome.ok_bind]
    rfl

variable [FloorRing K]

theorem call_bare (s : Simulation K) (l : List Item) (zs : List K) :
    s.bare.call E l zs = (Option.map fun r => (r.1, r.2.1, r.2.2.bare)) <$> s.call E l zs := by
  unfold call
  refine bind_same fun _ => bind_same fun _ => bind_same fun _ => bind_same fun _ => bind_same fun _ =>
    bind_same fun _ => bind_same fun _ => ?_
  dsimp only
  refine map_bind' (g := id) ?_ fun r => ?_
  · unfold randomAgentPerformances
    simp only [bare, Project.bare, List.isEmpty_map, List.length_map, List.mapM_map, id_map]
    rfl
  · cases r with
    | none => rfl
    | some r =>
      obtain ⟨buffer, zs⟩ := r
      dsimp only [id]
      refine map_bind' (g := id) ?_ fun r => ?_
      · unfold randomTaskDurations
        simp only [bare, Project.bare, List.isEmpty_map, List.length_map, List.map_map, id_map]
        rfl
      · cases r with
        | none => rfl
        | some r =>
          obtain ⟨buffer', zs'⟩ := r
          dsimp only [id]
          refine map_bind' (g := id) ?_ fun r => rfl
          rw [id_map]
          exact loop_bare { s with buffer := buffer } l buffer'

end Simulation

variable [FloorRing K]

/-- The state without what only concerns who may do what -/
def HistogramOp.bare (op : HistogramOp K) : HistogramOp K := { op with sim := op.sim.bare }

namespace HistogramOp

theorem batch_bare (l : List Item) (n : Nat) (op : HistogramOp K) :
    batchLoop E l n op.bare = Option.map HistogramOp.bare <$> batchLoop E l n op := by
  induction n generalizing op with
  | zero => rfl
  | succ n ih =>
    rw [batchLoop, batchLoop]
    refine map_bind' (Simulation.call_bare op.sim l op.zs) fun r => ?_
    cases r with
    | none => rfl
    | some r =>
      obtain ⟨mk, zs, sim⟩ := r
      exact bind_same fun h => ih ⟨sim, h, zs, op.log ++ [mk]⟩

theorem runBatch_bare (l : List Item) (op : HistogramOp K) :
    op.bare.runBatch E l = Option.map HistogramOp.bare <$> op.runBatch E l := by
  unfold runBatch
  exact bind_same fun _ => batch_bare l _ op

theorem loop_bare (l : List Item) (more : List Int → Outcome Bool) (fuel : Nat) (op : HistogramOp K) :
    op.bare.loop E l more fuel = Option.map HistogramOp.bare <$> op.loop E l more fuel := by
  induction fuel generalizing op with
  | zero => rfl
  | succ fuel ih =>
    rw [loop, loop]
    refine bind_same fun c => ?_
    cases c with
    | false => rfl
    | true =>
      refine map_bind' (runBatch_bare l op) fun r => ?_
      cases r with
      | none => rfl
      | some op => exact ih op

theorem call_bare (l : List Item) (more : List Int → Outcome Bool) (fuel : Nat) (op : HistogramOp K) :
    op.bare.call E l more fuel = op.call E l more fuel := by
  unfold call
  refine Eq.trans ?_ (id_map _)
  refine map_bind' (runBatch_bare l op) fun r => ?_
  cases r with
  | none => rfl
  | some op =>
    refine map_bind' (loop_bare l more fuel op) fun r => ?_
    cases r with
    | none => rfl
    | some op => exact (id_map _).symm

end HistogramOp

theorem histogram_bare (p : Project) (binSize : Option Int) (l : List Item) (mk : Int) (more : List Int → Outcome Bool)
    (fuel : Nat) (zs : List K) : histogram E p.bare binSize l mk more fuel zs = histogram E p binSize l mk more fuel zs := by
  unfold histogram
  simp only [Project.bare, List.isEmpty_map]
  refine Eq.trans ?_ (id_map _)
  refine bind_same fun _ => bind_same fun _ => bind_same fun _ => ?_
  refine map_bind' (new_bare p) fun sim => bind_same fun w => bind_same fun h => ?_
  rw [id_map]
  exact HistogramOp.call_bare l more fuel ⟨sim, h, zs, []⟩

/-! ### The timetable -/

namespace Timetable

theorem call_bare (p : Project) (d : Durations K) (agent task : Nat) :
    d.call E p.bare agent task = d.call E p agent task := by
  unfold Durations.call
  simp only [Project.bare, at_map]
  refine Eq.trans ?_ (id_map _)
  refine bind_same fun done => bind_same fun _ => map_bind' rfl fun a => map_bind' rfl fun t => ?_
  rw [id_map]
  rfl

theorem entries_bare (p : Project) (l : List Item) (d : Durations K) (prio : List Nat) :
    entries E p.bare l d prio = entries E p l d prio := by
  refine Eq.trans ?_ (id_map _)
  induction l generalizing d prio with
  | nil => rfl
  | cons it rest ih =>
    obtain ⟨task, agent⟩ := it
    rw [entries, entries, call_bare]
    refine bind_same fun r => ?_
    obtain ⟨dur, start, d'⟩ := r
    dsimp only
    simp only [Project.bare, at_map]
    refine map_bind' rfl fun t => map_bind' rfl fun a => bind_same fun n => ?_
    exact map_bind' (ih _ _) fun es => rfl

theorem toJson_bare (p : Project) (l : List Item) (mk : Int) : toJson E p.bare l mk = toJson E p l mk := by
  unfold toJson Durations.new
  simp only [entries_bare]
  simp only [Project.bare, List.isEmpty_map, List.length_map]

end Timetable
end Angonoka
