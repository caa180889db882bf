import Verif.Proof.Names
import Verif.Proof.Cli
import Verif.Proof.Predict

/-! # Running the program on a project with other names -/

set_option linter.unusedSectionVars false

namespace Angonoka
open Outcome Doc Stun

variable {K : Type} [Field K] [LinearOrder K] [IsStrictOrderedRing K]
variable {E : FloatEnv K} {ν : Naming}

theorem map_bind' {α β γ δ : Type} {g : α → β} {h : γ → δ} {x : Outcome α} {y : Outcome β} {f : α → Outcome γ}
    {f' : β → Outcome δ} (hx : y = g <$> x) (hf : ∀ a, f' (g a) = h <$> f a) : (y >>= f') = h <$> (x >>= f) := by
  subst hx
  cases x with
  | ok a => exact hf a
  | throws e => rfl
  | ub s => rfl

theorem bind_same {α γ δ : Type} {h : γ → δ} {x : Outcome α} {f : α → Outcome γ}
    {f' : α → Outcome δ} (hf : ∀ a, f' a = h <$> f a) : (x >>= f') = h <$> (x >>= f) :=
  map_bind' (g := id) (by cases x <;> rfl) hf

/-! ### Scheduling -/

theorem agentPerformance_named (l : List Agent) : agentPerformance E (l.map (Agent.named ν)) = agentPerformance E l := by
  unfold agentPerformance
  rw [List.isEmpty_map, List.mapM_map]
  rfl

theorem durationLoop_named (l : List Task) (t : K) : durationLoop E (l.map (Task.named ν)) t = durationLoop E l t := by
  induction l generalizing t with
  | nil => rfl
  | cons x rest ih =>
    simp only [List.map_cons, durationLoop, ih]
    rfl

theorem taskDuration_named (l : List Task) (n : Nat) : taskDuration E (l.map (Task.named ν)) n = taskDuration E l n := by
  unfold taskDuration
  rw [List.isEmpty_map, durationLoop_named]

theorem eligible_named (t : Task) (i : Nat) (l : List Agent) : eligible (t.named ν) i (l.map (Agent.named ν)) = eligible t i l := by
  induction l generalizing i with
  | nil => rfl
  | cons a rest ih =>
    rw [List.map_cons, eligible, eligible, ih]
    rfl

theorem availableLoop_named (agents : List Agent) (l : List Task) (data sizes : List Nat) :
    availableAgentsLoop (agents.map (Agent.named ν)) (l.map (Task.named ν)) data sizes
      = availableAgentsLoop agents l data sizes := by
  induction l generalizing data sizes with
  | nil => rfl
  | cons t rest ih =>
    simp only [List.map_cons, availableAgentsLoop, eligible_named]
    exact ih _ _

theorem dependenciesLoop_named (l : List Task) (data sizes : List Nat) :
    dependenciesLoop (l.map (Task.named ν)) data sizes = dependenciesLoop l data sizes := by
  induction l generalizing data sizes with
  | nil => rfl
  | cons t rest ih =>
    simp only [List.map_cons, dependenciesLoop]
    exact ih _ _

theorem params_named (p : Project) : toScheduleParams E (p.named ν) = toScheduleParams E p := by
  unfold toScheduleParams availableAgents dependencies
  simp only [Project.named, List.isEmpty_map, List.length_map, taskDuration_named, agentPerformance_named,
    availableLoop_named, dependenciesLoop_named]

/-! ### Simulations -/

/-- The simulation of the project with the new names -/
def Simulation.named (ν : Naming) (s : Simulation K) : Simulation K := { s with config := s.config.named ν }

theorem new_named (p : Project) : (Simulation.new (p.named ν) : Outcome (Simulation K)) = Simulation.named ν <$> Simulation.new p := by
  unfold Simulation.new Simulation.assignBuffers
  simp only [Project.named, List.isEmpty_map, List.length_map]
  refine bind_same fun _ => bind_same fun _ => bind_same fun _ => bind_same fun _ => ?_
  rfl

namespace Simulation

theorem loop_named (s : Simulation K) (l : List Item) (buffer : List K) :
    (s.named ν).loop E l buffer = s.loop E l buffer := by
  induction l generalizing buffer with
  | nil => rfl
  | cons it rest ih =>
    obtain ⟨task, agent⟩ := it
    rw [loop, loop]
    have h1 : at? (s.named ν).config.tasks task "Simulation: tasks" = Task.named ν <$> at? s.config.tasks task "Simulation: tasks" := by
      unfold at?
      rw [show (s.named ν).config.tasks[task]? = (s.config.tasks[task]?).map (Task.named ν) from List.getElem?_map ..]
      cases s.config.tasks[task]? <;> rfl
    have h2 : ∀ b, (s.named ν).workTime E b task agent = s.workTime E b task agent := fun b => by
      unfold workTime
      simp only [named, Project.named, List.length_map]
    rw [h1]
    simp only [h2, ih, map_eq_pure_bind, bind_assoc, Outcome.pure_eq, Outcome.ok_bind]
    rfl

variable [FloorRing K]

theorem call_named (s : Simulation K) (l : List Item) (zs : List K) :
    (s.named ν).call E l zs = (Option.map fun r => (r.1, r.2.1, r.2.2.named ν)) <$> s.call E l zs := by
  unfold call
  refine bind_same fun _ => bind_same fun _ => bind_same fun _ => bind_same fun _ => bind_same fun _ =>
    bind_same fun _ => bind_same fun _ => ?_
  dsimp only
  refine map_bind' (g := id) ?_ fun r => ?_
  · unfold randomAgentPerformances
    simp only [named, Project.named, List.isEmpty_map, List.length_map, List.mapM_map, id_map]
    rfl
  · cases r with
    | none => rfl
    | some r =>
      obtain ⟨buffer, zs⟩ := r
      dsimp only [id]
      refine map_bind' (g := id) ?_ fun r => ?_
      · unfold randomTaskDurations
        simp only [named, Project.named, List.isEmpty_map, List.length_map, List.map_map, id_map]
        rfl
      · cases r with
        | none => rfl
        | some r =>
          obtain ⟨buffer', zs'⟩ := r
          dsimp only [id]
          refine map_bind' (g := id) ?_ fun r => rfl
          rw [id_map]
          exact loop_named { s with buffer := buffer } l buffer'

end Simulation

variable [FloorRing K]

/-- The state with the new names -/
def HistogramOp.named (ν : Naming) (op : HistogramOp K) : HistogramOp K := { op with sim := op.sim.named ν }

namespace HistogramOp

theorem batch_named (l : List Item) (n : Nat) (op : HistogramOp K) :
    batchLoop E l n (op.named ν) = Option.map (HistogramOp.named ν) <$> batchLoop E l n op := by
  induction n generalizing op with
  | zero => rfl
  | succ n ih =>
    rw [batchLoop, batchLoop]
    refine map_bind' (Simulation.call_named op.sim l op.zs) fun r => ?_
    cases r with
    | none => rfl
    | some r =>
      obtain ⟨mk, zs, sim⟩ := r
      exact bind_same fun h => ih ⟨sim, h, zs, op.log ++ [mk]⟩

theorem runBatch_named (l : List Item) (op : HistogramOp K) :
    (op.named ν).runBatch E l = Option.map (HistogramOp.named ν) <$> op.runBatch E l := by
  unfold runBatch
  exact bind_same fun _ => batch_named l _ op

theorem loop_named (l : List Item) (more : List Int → Outcome Bool) (fuel : Nat) (op : HistogramOp K) :
    (op.named ν).loop E l more fuel = Option.map (HistogramOp.named ν) <$> op.loop E l more fuel := by
  induction fuel generalizing op with
  | zero => rfl
  | succ fuel ih =>
    rw [loop, loop]
    refine bind_same fun c => ?_
    cases c with
    | false => rfl
    | true =>
      refine map_bind' (runBatch_named l op) fun r => ?_
      cases r with
      | none => rfl
      | some op => exact ih op

theorem call_named (l : List Item) (more : List Int → Outcome Bool) (fuel : Nat) (op : HistogramOp K) :
    (op.named ν).call E l more fuel = op.call E l more fuel := by
  unfold call
  refine Eq.trans ?_ (id_map _)
  refine map_bind' (runBatch_named l op) fun r => ?_
  cases r with
  | none => rfl
  | some op =>
    refine map_bind' (loop_named l more fuel op) fun r => ?_
    cases r with
    | none => rfl
    | some op => exact (id_map _).symm

end HistogramOp

theorem histogram_named (p : Project) (binSize : Option Int) (l : List Item) (mk : Int) (more : List Int → Outcome Bool)
    (fuel : Nat) (zs : List K) : histogram E (p.named ν) binSize l mk more fuel zs = histogram E p binSize l mk more fuel zs := by
  unfold histogram
  simp only [Project.named, List.isEmpty_map]
  refine Eq.trans ?_ (id_map _)
  refine bind_same fun _ => bind_same fun _ => bind_same fun _ => ?_
  refine map_bind' (new_named p) fun sim => bind_same fun w => bind_same fun h => ?_
  rw [id_map]
  exact HistogramOp.call_named l more fuel ⟨sim, h, zs, []⟩

theorem schedule_named (p : Project) (opt : OptParams K) (threads : Nat) (draws : Nat → Nat → Nat → Draws K) (fuel : Nat) :
    Predict.schedule E (p.named ν) opt threads draws fuel = Predict.schedule E p opt threads draws fuel := by
  unfold Predict.schedule
  rw [params_named]

theorem predict_named (p : Project) (binSize : Option Int) (opt : OptParams K) (threads : Nat) (draws : Nat → Nat → Nat → Draws K)
    (fuel : Nat) (more : List Int → Outcome Bool) (fuel' : Nat) (zs : List K) :
    Predict.predict E (p.named ν) binSize opt threads draws fuel more fuel' zs
      = Predict.predict E p binSize opt threads draws fuel more fuel' zs := by
  unfold Predict.predict
  simp only [params_named, histogram_named]

/-! ### The timetable -/

/-- The entry with the new names -/
def TaskEntry.named (ν : Naming) (e : TaskEntry) : TaskEntry := { e with task := ν.task e.task, agent := ν.agent e.agent }

theorem at_map {α β : Type} (f : α → β) (l : List α) (i : Nat) (s : String) : at? (l.map f) i s = f <$> at? l i s := by
  unfold at?
  rw [List.getElem?_map]
  cases l[i]? <;> rfl

namespace Timetable

theorem call_named (p : Project) (d : Durations K) (agent task : Nat) :
    d.call E (p.named ν) agent task = d.call E p agent task := by
  unfold Durations.call
  simp only [Project.named, at_map]
  refine Eq.trans ?_ (id_map _)
  refine bind_same fun done => bind_same fun _ => map_bind' rfl fun a => map_bind' rfl fun t => ?_
  rw [id_map]
  rfl

theorem entries_named (p : Project) (l : List Item) (d : Durations K) (prio : List Nat) :
    entries E (p.named ν) l d prio = List.map (TaskEntry.named ν) <$> entries E p l d prio := by
  induction l generalizing d prio with
  | nil => rfl
  | cons it rest ih =>
    obtain ⟨task, agent⟩ := it
    rw [entries, entries, call_named]
    refine bind_same fun r => ?_
    obtain ⟨dur, start, d'⟩ := r
    dsimp only
    simp only [Project.named, at_map]
    refine map_bind' rfl fun t => map_bind' rfl fun a => bind_same fun n => ?_
    exact map_bind' (ih _ _) fun es => rfl

theorem entry_named (e : TaskEntry) : (e.named ν).toJson = ν.inEntry e.toJson := by
  simp [TaskEntry.toJson, TaskEntry.named, Naming.inEntry, Naming.inField]

theorem toJson_named (p : Project) (l : List Item) (mk : Int) :
    toJson E (p.named ν) l mk = ν.inOutput <$> toJson E p l mk := by
  unfold toJson Durations.new
  simp only [Project.named, List.isEmpty_map, List.length_map]
  refine bind_same fun _ => bind_same fun _ => bind_same fun d => ?_
  refine map_bind' (entries_named p l d _) fun es => ?_
  rw [List.isEmpty_map]
  refine bind_same fun _ => bind_same fun _ => ?_
  rw [Outcome.pure_eq, Outcome.pure_eq, show ∀ j, ν.inOutput <$> ok j = ok (ν.inOutput j) from fun _ => rfl]
  simp [Naming.inOutput, entry_named, Function.comp_def]

end Timetable
end Angonoka
