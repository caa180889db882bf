import Verif.Model.Serial
import Verif.Props.Cli

/-!
# C107: without OpenMP the program does what it does with one thread
-/

namespace Angonoka.Props
open Outcome Stun

variable {K : Type} [Field K] [LinearOrder K] [IsStrictOrderedRing K]
variable {E : FloatEnv K} {opts : Stun.Options K}

theorem replicate_one (ho : ValidOptions E opts) {j : Job K} (h : JobInv E opts j) :
    replicateBestJob [j] = ok [j] := by
  obtain ⟨c, c1, c2, c3, _⟩ := Job.copy_ok ho h
  simp only [replicateBestJob, minJob, ok_bind, c1, c2.makespan_eq ho, replicateLoop, h.makespan_eq ho, c3, if_true]
  rfl

theorem serial_step (ho : ValidOptions E opts) {ms : List K} {o : Optimizer K} {v : K} (h : OptInv E opts 1 ms o v)
    (draws : Nat → Nat → Draws K) : Serial.update E o (draws 0) = o.update E draws := by
  obtain ⟨j, hj⟩ := List.length_eq_one_iff.1 h.len
  obtain ⟨j', h1, h2, _⟩ := Job.update_ok ho (h.jobs j (by simp [hj])).1 (draws 0)
  unfold Serial.update Optimizer.update
  have e1 : at? o.jobs 0 "front of an empty vector" = ok j := by rw [hj]; rfl
  have e2 : updateJobs E draws 0 o.jobs = ok [j'] := by
    rw [hj]; simp only [updateJobs, h1, ok_bind]; rfl
  have e3 : Serial.setFront o.jobs j' = ok [j'] := by rw [hj]; rfl
  simp only [e1, e2, e3, ok_bind, h1, replicate_one ho h2]

/-- In every state an optimizer with one job can reach, the update without OpenMP is the update with OpenMP. -/
theorem serial_update (ho : ValidOptions E opts) {ms : List K} {o : Optimizer K} (h : OptimizerRun E opts 1 ms o)
    (draws : Nat → Nat → Draws K) : Serial.update E o (draws 0) = o.update E draws := by
  obtain ⟨v, hv⟩ := h.inv ho
  exact serial_step ho hv draws

/-- Any number of rounds. -/
theorem serial_rounds (ho : ValidOptions E opts) {o : Optimizer K} (hn : Serial.new E opts = ok o)
    (draws : Nat → Nat → Nat → Draws K) (n : Nat) :
    Serial.rounds E (fun k => draws k 0) n o = o.rounds E draws n := by
  obtain ⟨o₀, v, h1, h2⟩ := Optimizer.new_ok (threads := 1) ho one_pos
  obtain rfl : o₀ = o := by rw [Serial.new, h1] at hn; cases hn; rfl
  suffices h : Serial.rounds E (fun k => draws k 0) n o₀ = o₀.rounds E draws n ∧
      ∃ o' ms v, o₀.rounds E draws n = ok o' ∧ OptInv E opts 1 ms o' v from h.1
  induction n with
  | zero => exact ⟨rfl, o₀, [], v, rfl, h2⟩
  | succ n ih =>
    obtain ⟨g1, o', ms, v, g2, g3⟩ := ih
    obtain ⟨o'', v', _, k1, k2, _⟩ := Optimizer.update_ok ho g3 (draws n)
    simp only [Serial.rounds, Optimizer.rounds, g1, g2, ok_bind]
    exact ⟨serial_step ho g3 _, o'', _, v', k1, k2⟩

omit [Field K] [LinearOrder K] [IsStrictOrderedRing K] in
theorem lift_ok {α β : Type} (a : α) (f : α → Run K β) : (Run.lift (ok a) >>= f) = f a := rfl

omit [Field K] [LinearOrder K] [IsStrictOrderedRing K] in
theorem lift_throws {α β : Type} (e : Err) (f : α → Run K β) : (Run.lift (throws e) >>= f) = ⟨[], throws e⟩ := rfl

omit [Field K] [LinearOrder K] [IsStrictOrderedRing K] in
theorem lift_ub {α β : Type} (e : String) (f : α → Run K β) : (Run.lift (ub e) >>= f) = ⟨[], ub e⟩ := rfl

omit [Field K] [LinearOrder K] [IsStrictOrderedRing K] in
theorem bind_congr' {α β : Type} {x : Run K α} {f g : α → Run K β} (h : ∀ a, f a = g a) : (x >>= f) = (x >>= g) :=
  congrArg _ (funext h)

variable [FloorRing K]

theorem serial_loop (ho : ValidOptions E opts) (sp : ScheduleParams K) (draws : Nat → Nat → Nat → Draws K)
    (fuel : Nat) : ∀ (n : Nat) (o : Optimizer K) (ms : List K) (v : K), OptInv E opts 1 ms o v →
    Serial.optimizeLoop E sp (fun k => draws k 0) fuel n o = Predict.optimizeLoop E sp draws fuel n o := by
  induction fuel with
  | zero => intros; rfl
  | succ fuel ih =>
    intro n o ms v h
    obtain ⟨o', v', _, k1, k2, _⟩ := Optimizer.update_ok ho h (draws n)
    simp only [Serial.optimizeLoop, Predict.optimizeLoop, serial_step ho h, k1]
    split
    · rfl
    · simp only [lift_ok]
      exact bind_congr' fun _ => bind_congr' fun _ => bind_congr' fun _ => ih _ _ _ _ k2

/-- The optimization: the same events in the same order, the same schedule and makespan, the same failures. -/
theorem serial_optimize {sp : ScheduleParams K} {opt : OptParams K} (ho : ValidOptions E (opt.options sp))
    (draws : Nat → Nat → Nat → Draws K) (fuel : Nat) :
    Serial.optimize E sp opt (fun k => draws k 0) fuel = Predict.optimize E sp opt 1 draws fuel := by
  obtain ⟨o, v, h1, h2⟩ := Optimizer.new_ok (threads := 1) ho one_pos
  unfold Serial.optimize Predict.optimize
  simp only [Serial.new, h1]
  refine bind_congr' fun _ => bind_congr' fun _ => bind_congr' fun _ => bind_congr' fun _ => ?_
  simp only [lift_ok, serial_loop ho sp draws fuel 0 o [] v h2]
  exact bind_congr' fun r => by cases r <;> rfl

/-- `schedule`: the same events, the same schedule. -/
theorem serial_schedule {config : Project} {opt : OptParams K}
    (ho : ∀ sp, toScheduleParams E config = ok sp → ValidOptions E (opt.options sp))
    (draws : Nat → Nat → Nat → Draws K) (fuel : Nat) :
    Serial.schedule E config opt (fun k => draws k 0) fuel = Predict.schedule E config opt 1 draws fuel := by
  unfold Serial.schedule Predict.schedule
  refine bind_congr' fun _ => ?_
  cases h : toScheduleParams E config with
  | ok sp =>
    simp only [lift_ok, serial_optimize (ho sp h)]
    exact bind_congr' fun r => by
      cases r with
      | none => rfl
      | some r => rfl
  | throws e => simp only [lift_throws]
  | ub s => simp only [lift_ub]

/-- `predict`: the same events, the same prediction. -/
theorem serial_predict {config : Project} {opt : OptParams K}
    (ho : ∀ sp, toScheduleParams E config = ok sp → ValidOptions E (opt.options sp)) (binSize : Option Int)
    (draws : Nat → Nat → Nat → Draws K) (fuel : Nat) (more : List Int → Outcome Bool) (fuel' : Nat) (zs : List K) :
    Serial.predict E config binSize opt (fun k => draws k 0) fuel more fuel' zs =
      Predict.predict E config binSize opt 1 draws fuel more fuel' zs := by
  unfold Serial.predict Predict.predict
  refine bind_congr' fun _ => ?_
  cases h : toScheduleParams E config with
  | ok sp =>
    simp only [lift_ok, serial_optimize (ho sp h)]
    exact bind_congr' fun r => by
      cases r with
      | none => rfl
      | some r => exact bind_congr' fun _ => bind_congr' fun _ => bind_congr' fun h => by cases h <;> rfl
  | throws e => simp only [lift_throws]
  | ub s => simp only [lift_ub]

omit [Field K] [LinearOrder K] [IsStrictOrderedRing K] [FloorRing K] in
theorem io_congr {α β : Type} {x : Cli.Io K α} {f g : α → Cli.Io K β} (h : ∀ a, x.flow = .ok a → f a = g a) :
    (x >>= f) = (x >>= g) := by
  change Cli.Io.bind x f = Cli.Io.bind x g
  unfold Cli.Io.bind
  split
  · rw [h _ ‹_›]
  all_goals rfl

omit [Field K] [LinearOrder K] [IsStrictOrderedRing K] [FloorRing K] in
theorem io_bind_ok {α β : Type} {x : Cli.Io K α} {f : α → Cli.Io K β} {b : β} (h : (x >>= f).flow = .ok b) :
    ∃ a, x.flow = .ok a ∧ (f a).flow = .ok b := by
  change (Cli.Io.bind x f).flow = .ok b at h
  unfold Cli.Io.bind at h
  split at h
  · exact ⟨_, ‹_›, h⟩
  all_goals cases h

omit [LinearOrder K] [IsStrictOrderedRing K] [Field K] [FloorRing K] in
theorem parsed {m : Cli.Machine K} {o : Cli.Options K} {p : Project} (h : (Cli.parseConfig m o).flow = .ok p) :
    ∃ root, m.source = .doc root ∧ load m.readFloat root = ok p := by
  unfold Cli.parseConfig at h
  obtain ⟨_, _, h⟩ := io_bind_ok h
  obtain ⟨_, _, h⟩ := io_bind_ok h
  split at h
  · obtain ⟨_, _, h⟩ := io_bind_ok h; cases h
  · obtain ⟨_, _, h⟩ := io_bind_ok h
    obtain ⟨_, _, h⟩ := io_bind_ok h; cases h
  · refine ⟨_, ‹_›, ?_⟩
    split at h
    · obtain ⟨_, _, h⟩ := io_bind_ok h
      cases h
      assumption
    · split at h
      · obtain ⟨_, _, h⟩ := io_bind_ok h; cases h
      · obtain ⟨_, _, h⟩ := io_bind_ok h; cases h
    · cases h

/-- The whole program: the same output, the same files, the same exit code as with one thread. -/
theorem serial_program {m : Cli.Machine K} {o : Cli.Options K}
    (ho : ∀ root p sp, m.source = .doc root → load m.readFloat root = ok p → toScheduleParams E p = ok sp →
      ValidOptions E (o.opt.options sp)) (c : Cli.Command) :
    Serial.body E m c o = Cli.body E { m with threads := 1 } c o := by
  unfold Serial.body Cli.body
  refine io_congr fun p hp => ?_
  obtain ⟨root, h1, h2⟩ := parsed hp
  cases c with
  | schedule =>
    simp only [Serial.jsonSchedule, Cli.jsonSchedule, serial_schedule (fun sp => ho root p sp h1 h2)]
    rfl
  | predict =>
    simp only [Serial.runPrediction, Cli.runPrediction, serial_predict (fun sp => ho root p sp h1 h2)]
    rfl

/-! ### Examples -/

/-- The example optimizer with one job after a round without OpenMP. -/
example (draws : Nat → Nat → Nat → Draws ℚ) : ∃ o o', Serial.new FloatEnv.rat exampleOptions = ok o ∧
    Serial.rounds FloatEnv.rat (fun k => draws k 0) 3 o = ok o' ∧ o'.jobs.length = 1 := by
  obtain ⟨o, v, h1, h2⟩ := Optimizer.new_ok (threads := 1) exampleOptions_valid one_pos
  obtain ⟨o₁, v₁, _, k1, i1, _⟩ := Optimizer.update_ok exampleOptions_valid h2 (draws 0)
  obtain ⟨o₂, v₂, _, k2, i2, _⟩ := Optimizer.update_ok exampleOptions_valid i1 (draws 1)
  obtain ⟨o₃, v₃, _, k3, i3, _⟩ := Optimizer.update_ok exampleOptions_valid i2 (draws 2)
  refine ⟨o, o₃, h1, ?_, i3.len⟩
  rw [serial_rounds exampleOptions_valid h1]
  simp only [Optimizer.rounds, ok_bind, k1, k2, k3]

/-- With the default options and the example document the program without OpenMP ends like any other. -/
example (draws : Nat → Nat → Nat → Draws ℚ) : ∃ N, ∀ fuel, N ≤ fuel →
    Cli.status (Serial.body FloatEnv.rat { exampleMachine draws with fuel := fuel } .schedule cliOptions).flow
      = .exit 0 := by
  obtain ⟨sp, hsp, hw⟩ := params_wellFormed (E := FloatEnv.rat) plan_sound (fun _ _ _ _ => rfl)
  obtain ⟨N, _, _, _, _, _, _, _, _, _, _, _, _, h⟩ := schedule_command
    (m := { exampleMachine draws with threads := 1 })
    (fun _ => rfl) (by decide) (by decide) rfl Sample.plan_loads plan_sound plan_moderate
    ⟨⟨rfl, rfl⟩, fun _ => ⟨fun _ => rfl, fun _ => Or.inr (by exact (by decide : 9 ≤ 80))⟩⟩ (by exact one_pos) hsp
    (cliOptions_valid hw)
  refine ⟨N, fun fuel hN => ?_⟩
  rw [serial_program]
  · exact (h fuel hN).1
  · intro root p sp' h1 h2 h3
    cases h1
    obtain rfl : Sample.project = p := by
      have := h2.symm.trans Sample.plan_loads
      cases this; rfl
    rw [hsp] at h3
    cases h3
    exact cliOptions_valid hw

end Angonoka.Props
