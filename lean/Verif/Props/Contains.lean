import Verif.Props.Units
import Verif.Props.FloatCertain

/-!
# C120: the schedule in the prediction
-/

set_option linter.unusedSectionVars false

namespace Angonoka.Props
open Outcome Stun Cli Doc

variable {K : Type} [_root_.Field K] [LinearOrder K] [IsStrictOrderedRing K] [FloorRing K]
variable {E : FloatEnv K} {m : Machine K} {o : Cli.Options K} {p : Project}

theorem run_ok {α β : Type} {x : Run K α} {f : α → Run K β} {a : α} (h : x.result = ok a) :
    x >>= f = ⟨x.events ++ (f a).events, (f a).result⟩ := by
  change Run.bind x f = _
  unfold Run.bind
  rw [h]

/-- Both commands search for a schedule in the same way and report it in the same way. -/
theorem predict_run {binSize : Option Int} {opt : OptParams K} {threads : Nat} {draws : Nat → Nat → Nat → Draws K} {fuel : Nat}
    {more : List Int → Outcome Bool} {fuel' : Nat} {zs : List K} {r : Prediction}
    (h : (Predict.predict E p binSize opt threads draws fuel more fuel' zs).result = ok (some r)) :
    ∃ es, (Predict.predict E p binSize opt threads draws fuel more fuel' zs).events = es ++ [.simple .simulationStart, .simple .finished] ∧
      (Predict.schedule E p opt threads draws fuel).events = es ++ [.simple .finished] ∧
      (Predict.schedule E p opt threads draws fuel).result = ok (some ⟨r.schedule, r.makespan⟩) := by
  unfold Predict.predict at h ⊢
  unfold Predict.schedule
  obtain ⟨u, h1, h⟩ := run_bind_result h
  obtain ⟨sp, h2, h⟩ := run_bind_result h
  obtain ⟨s, h3, h⟩ := run_bind_result h
  cases s with
  | none => cases h
  | some s =>
    obtain ⟨_, h4, h⟩ := run_bind_result h
    obtain ⟨_, h5, h⟩ := run_bind_result h
    obtain ⟨g, h6, h⟩ := run_bind_result h
    cases g with
    | none => cases h
    | some g =>
      obtain ⟨st, h7, h⟩ := run_bind_result h
      obtain ⟨_, h8, h⟩ := run_bind_result h
      cases h
      rw [run_ok h1, run_ok h2, run_ok h3, run_ok h1, run_ok h2, run_ok h3]
      dsimp only
      rw [run_ok h4, run_ok h5, run_ok h6, run_ok h4, run_ok (a := ()) (x := Run.enqueue (.simple .finished)) rfl]
      dsimp only
      rw [run_ok h7, run_ok h8]
      refine ⟨Event.simple .scheduleOptimizationStart :: (Predict.optimize E sp opt threads draws fuel).events ++ [.complete s.makespan], ?_, ?_, rfl⟩
      · simp [Run.lift, Run.enqueue, pure]
      · simp [Run.lift, Run.enqueue, pure]

theorem handleAll_append {h : Handler K} (l l' : List (Event K)) : h.handleAll (l ++ l') = h.handleAll l >>= fun h' => h'.handleAll l' := by
  induction l generalizing h with
  | nil => rfl
  | cons e l ih =>
    rw [List.cons_append, Handler.handleAll, Handler.handleAll, bind_assoc]
    congr 1; funext h'
    exact ih

/-- What is reported is the same. -/
theorem consume_same {α β : Type} {r : Run K (Option α)} {r' : Run K (Option β)} {a : α} {b : β} {es : List (Event K)}
    (h1 : r.events = es ++ [.simple .simulationStart, .simple .finished]) (h2 : r.result = ok (some a))
    (h1' : r'.events = es ++ [.simple .finished]) (h2' : r'.result = ok (some b)) (w : Bool) (n : Nat) :
    consumeEvents w n o r' = consumeEvents w n o r := by
  have hh : ∀ h : Handler K, h.handleAll r'.events = h.handleAll r.events := by
    intro h
    rw [h1, h1', handleAll_append, handleAll_append]
    rfl
  have m1 : Event.simple .finished ∈ r.events := by rw [h1]; simp
  have m2 : Event.simple .finished ∈ r'.events := by rw [h1']; simp
  unfold consumeEvents
  rw [hh, h2, h2']
  dsimp only
  rw [if_pos m1, if_pos m2]

theorem io_ok {α β : Type} {x : Io K α} {f : α → Io K β} {a : α} (h : x.flow = .ok a) : x >>= f = ⟨x.effects ++ (f a).effects, (f a).flow⟩ := by
  obtain ⟨es, fl⟩ := x
  cases h
  rfl

theorem lift_flow {α : Type} {x : Outcome α} {a : α} (h : (Io.lift x : Io K α).flow = .ok a) : x = ok a := by
  cases x with
  | ok b => cases h; rfl
  | throws e => cases h
  | ub s => cases h

/-- C120. If the program without a command is successful, then with the same document, options, and random numbers so is the command `schedule`. Both print the same up to the
end of the search, where the former goes on with the estimation. Both write the same timetable and makespan, to which the former adds statistics and the
histogram. The random numbers for the simulation, the rule when to stop it, the size of the bins, and the name of the output file have no influence on the schedule. This holds
for any arithmetic, single precision in particular. -/
theorem prediction_contains_schedule (hroom : m.room = true) (h : status (body E m .predict o).flow = .exit 0)
    (more : List Int → Outcome Bool) (fuel' : Nat) (zs : List K) (binSize : Option Int) {output : String} (ho : output ≠ "") :
    ∃ (search : List (Effect K)) (estimation success success' : String) (makespan tasks stats histogram : Json),
      body E m .predict o = ⟨search ++ (if o.quiet then [] else [.stdout estimation]) ++
        [.file o.output (.obj [("histogram", histogram), ("makespan", makespan), ("stats", stats), ("tasks", tasks)])] ++
        (if o.quiet then [] else [.stdout success]), .ok ()⟩ ∧
      body E { m with more := more, fuel' := fuel', zs := zs } .schedule { o with binSize := binSize, output := output } = ⟨search ++
        [.file output (.obj [("makespan", makespan), ("tasks", tasks)])] ++ (if o.quiet then [] else [.stdout success']), .ok ()⟩ ∧
      ∀ e ∈ search, ¬ e.IsFile := by
  obtain ⟨j, pre, h1, hw, h2, h3⟩ := body_ok h
  have hno := compute_no_file (E := E) (m := m) (c := .predict) (o := o)
  have hfl : (compute E m .predict o).flow = .ok j := by rw [h1]
  unfold compute at hfl
  obtain ⟨p, hp, hfl⟩ := io_bind_ok hfl
  have hpre : (compute E m .predict o).effects = (parseConfig m o).effects ++ (runPrediction E m p o).effects := by
    unfold compute
    rw [io_ok hp]
  dsimp only at hfl
  unfold runPrediction at hfl hpre
  obtain ⟨_, e1, hfl⟩ := io_bind_ok hfl
  obtain ⟨_, e2, hfl⟩ := io_bind_ok hfl
  obtain ⟨⟨⟩, e3, hfl⟩ := io_bind_ok hfl
  obtain ⟨r, e4, hfl⟩ := io_bind_ok hfl
  obtain ⟨_, e5, hfl⟩ := io_bind_ok hfl
  obtain ⟨j0, e6, hfl⟩ := io_bind_ok hfl
  obtain ⟨j1, e7, hfl⟩ := io_bind_ok hfl
  obtain ⟨j2, e8, hfl⟩ := io_bind_ok hfl
  obtain ⟨hr, hre⟩ := getFuture_flow_ok e4
  obtain ⟨es, v1, v2, v3⟩ := predict_run hr
  have f6 := lift_flow e6
  have f7 := lift_flow e7
  have f8 := lift_flow e8
  have f9 := lift_flow hfl
  have hj0 : ∃ ts, j0 = .obj [("makespan", .int r.makespan), ("tasks", ts)] := by
    unfold Timetable.toJson at f6
    obtain ⟨_, -, f6⟩ := bind_eq_ok.1 f6
    obtain ⟨_, -, f6⟩ := bind_eq_ok.1 f6
    obtain ⟨_, -, f6⟩ := bind_eq_ok.1 f6
    obtain ⟨_, -, f6⟩ := bind_eq_ok.1 f6
    obtain ⟨_, -, f6⟩ := bind_eq_ok.1 f6
    obtain ⟨_, -, f6⟩ := bind_eq_ok.1 f6
    exact ⟨_, (ok.inj f6).symm⟩
  obtain ⟨ts, rfl⟩ := hj0
  obtain rfl := ok.inj f7
  obtain rfl := ok.inj f9
  rw [io_ok e1, io_ok e2, io_ok e3, io_ok e4, io_ok e5, io_ok e6, io_ok e7, io_ok e8] at hpre
  have hpre' : pre = ((parseConfig m o).effects ++ ((if o.quiet then pure () else consumeEvents m.logWritable m.columns o
      (Predict.predict E p o.binSize o.opt m.threads m.draws m.fuel m.more m.fuel' m.zs)) : Io K Unit).effects) ++
        (printHistogramStats o r.stats : Io K Unit).effects := by
    have : pre = (compute E m .predict o).effects := by rw [h1]
    rw [this, hpre, hre]
    simp [Io.lift, f6, f8, setField]
  obtain ⟨text, ht⟩ : ∃ text, (printHistogramStats o r.stats : Io K Unit).effects = if o.quiet then [] else [.stdout text] := ⟨_, rfl⟩
  have hk : setKey "histogram" j2 (setKey "stats" r.stats.toJson [("makespan", Json.int r.makespan), ("tasks", ts)])
      = [("histogram", j2), ("makespan", .int r.makespan), ("stats", r.stats.toJson), ("tasks", ts)] := by
    simp [setKey, show ¬ ("stats" < "makespan") by decide, show "stats" < "tasks" by decide, show "histogram" < "makespan" by decide]
  refine ⟨(parseConfig m o).effects ++ ((if o.quiet then pure () else consumeEvents m.logWritable m.columns o
      (Predict.predict E p o.binSize o.opt m.threads m.draws m.fuel m.more m.fuel' m.zs)) : Io K Unit).effects, text, successText o .predict,
      successText { o with output := output } .schedule, .int r.makespan, ts, r.stats.toJson, j2, ?_, ?_, ?_⟩
  · rw [body_eq, h1, Io.bind_ok, saveJson_eq h2 h3, hw, hroom, hpre', ht, hk]
    simp only [if_true, List.append_assoc]
  · have hc : compute E { m with more := more, fuel' := fuel', zs := zs } .schedule { o with binSize := binSize, output := output }
        = ⟨(parseConfig m o).effects ++ ((if o.quiet then pure () else consumeEvents m.logWritable m.columns o
          (Predict.predict E p o.binSize o.opt m.threads m.draws m.fuel m.more m.fuel' m.zs)) : Io K Unit).effects,
          .ok (.obj [("makespan", .int r.makespan), ("tasks", ts)])⟩ := by
      unfold compute
      rw [show parseConfig { m with more := more, fuel' := fuel', zs := zs } { o with binSize := binSize, output := output } = parseConfig m o from rfl, io_ok hp]
      dsimp only
      have hc : ((if o.quiet then pure () else consumeEvents m.logWritable m.columns { o with binSize := binSize, output := output }
          (Predict.schedule E p o.opt m.threads m.draws m.fuel)) : Io K Unit) = (if o.quiet then pure () else consumeEvents m.logWritable m.columns o
          (Predict.predict E p o.binSize o.opt m.threads m.draws m.fuel m.more m.fuel' m.zs)) := by
        split
        · rfl
        · rw [← consume_same v1 hr v2 v3]
          rfl
      unfold jsonSchedule
      have x1 : expects (!p.tasks.isEmpty) "json_schedule: tasks not empty" = ok () :=
        expects_true (expects_eq_ok.1 (lift_flow e1))
      have x2 : expects (!p.agents.isEmpty) "json_schedule: agents not empty" = ok () :=
        expects_true (expects_eq_ok.1 (lift_flow e2))
      rw [x1, x2, Io.lift_ok_bind, Io.lift_ok_bind]
      dsimp only
      rw [hc, io_ok e3]
      unfold getFuture
      rw [v3]
      dsimp only
      rw [Io.bind_ok, f6]
      simp [Io.lift]
    rw [body_eq, hc, Io.bind_ok, saveJson_eq (o := { o with binSize := binSize, output := output }) (j := .obj [("makespan", .int r.makespan), ("tasks", ts)]) ho rfl]
    dsimp only
    rw [hw, hroom]
    simp only [if_true, List.append_assoc]
    rfl
  · intro e he
    refine hno e ?_
    rw [h1, hpre']
    exact List.mem_append_left _ he

/-! ### Example -/

/-- C120 applies to the example document `certain` in single precision: whatever the random numbers for the search are, and with or without any for the simulation. -/
example (draws : Nat → Nat → Nat → Draws ℚ) : ∃ N, ∀ fuel, N ≤ fuel → ∀ fuel', 16 ≤ fuel' → ∀ zs,
    status (body ratFloat { exampleMachine draws with source := .doc Sample.certain, fuel := fuel, zs := [] } .schedule
      { cliOptions with binSize := some 60, output := "schedule.json" }).flow = .exit 0 ∧
    (body ratFloat { exampleMachine draws with
      source := .doc Sample.certain, more := Stopping.more ratFloat (PSquare.quantiles ratFloat),
      fuel := fuel, fuel' := fuel', zs := zs } .predict cliOptions).flow = .ok () := by
  obtain ⟨N, hN⟩ := certain_float_succeeds draws
  refine ⟨N, fun fuel hf fuel' hf' zs => ?_⟩
  obtain ⟨_, _, _, _, _, _, _, _, h1, h2, -⟩ := prediction_contains_schedule rfl (hN fuel hf fuel' hf' zs) (exampleMachine draws).more
    (exampleMachine draws).fuel' [] (some 60) (output := "schedule.json") (by decide)
  refine ⟨?_, by rw [h1]⟩
  refine (congrArg (fun x : Io ℚ Unit => status x.flow) h2).trans ?_
  rfl

end Angonoka.Props
