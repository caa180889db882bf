import Verif.Props.Contains
import Verif.Props.PredictCommand

/-!
# C121: what is displayed and what is written
-/

set_option linter.unusedSectionVars false

namespace Angonoka.Props
open Outcome Stun Cli Doc

variable {K : Type} [_root_.Field K] [LinearOrder K] [IsStrictOrderedRing K] [FloorRing K]
variable {E : FloatEnv K} {m : Machine K} {c : Command} {o : Cli.Options K} {p : Project}

/-- What is computed, without what is displayed on the way -/
theorem compute_schedule {j : Json} (h : (compute E m .schedule o).flow = .ok j) : ∃ p s,
    (parseConfig m o).flow = .ok p ∧ p.tasks.isEmpty = false ∧ p.agents.isEmpty = false ∧
    (Predict.schedule E p o.opt m.threads m.draws m.fuel).result = ok (some s) ∧
    Timetable.toJson E p s.schedule s.makespan = ok j := by
  unfold compute at h
  obtain ⟨p, hp, h⟩ := io_bind_ok h
  dsimp only at h
  unfold jsonSchedule at h
  obtain ⟨_, e1, h⟩ := io_bind_ok h
  obtain ⟨_, e2, h⟩ := io_bind_ok h
  obtain ⟨⟨⟩, e3, h⟩ := io_bind_ok h
  obtain ⟨s, e4, h⟩ := io_bind_ok h
  have a := expects_eq_ok.1 (lift_flow e1)
  have b := expects_eq_ok.1 (lift_flow e2)
  exact ⟨p, s, hp, by simpa using a, by simpa using b, (getFuture_flow_ok e4).1, lift_flow h⟩

theorem compute_predict {j : Json} (h : (compute E m .predict o).flow = .ok j) : ∃ p r j0 j1 j2,
    (parseConfig m o).flow = .ok p ∧ p.tasks.isEmpty = false ∧ p.agents.isEmpty = false ∧
    (Predict.predict E p o.binSize o.opt m.threads m.draws m.fuel m.more m.fuel' m.zs).result = ok (some r) ∧
    Timetable.toJson E p r.schedule r.makespan = ok j0 ∧ setField j0 "stats" r.stats.toJson = ok j1 ∧ r.histogram.toJson = ok j2 ∧
    setField j1 "histogram" j2 = ok j := by
  unfold compute at h
  obtain ⟨p, hp, h⟩ := io_bind_ok h
  dsimp only at h
  unfold runPrediction at h
  obtain ⟨_, e1, h⟩ := io_bind_ok h
  obtain ⟨_, e2, h⟩ := io_bind_ok h
  obtain ⟨⟨⟩, e3, h⟩ := io_bind_ok h
  obtain ⟨r, e4, h⟩ := io_bind_ok h
  obtain ⟨_, e5, h⟩ := io_bind_ok h
  obtain ⟨j0, e6, h⟩ := io_bind_ok h
  obtain ⟨j1, e7, h⟩ := io_bind_ok h
  obtain ⟨j2, e8, h⟩ := io_bind_ok h
  have a := expects_eq_ok.1 (lift_flow e1)
  have b := expects_eq_ok.1 (lift_flow e2)
  exact ⟨p, r, j0, j1, j2, hp, by simpa using a, by simpa using b, (getFuture_flow_ok e4).1, lift_flow e6, lift_flow e7, lift_flow e8, lift_flow h⟩

theorem io_flow {α β : Type} {x : Io K α} {f : α → Io K β} {a : α} (h : x.flow = .ok a) : (x >>= f).flow = (f a).flow := by
  rw [io_ok h]

theorem lift_flow_of {α : Type} {x : Outcome α} {a : α} (h : x = ok a) : (Io.lift x : Io K α).flow = .ok a := by
  rw [h]; rfl

theorem getFuture_flow_of {α : Type} {r : Run K (Option α)} {a : α} (h : r.result = ok (some a)) : (getFuture r).flow = .ok a := by
  unfold getFuture; rw [h]

/-- The output file of a successful run -/
theorem body_files {j : Json} (hroom : m.room = true) (h : status (body E m c o).flow = .exit 0) (hj : (compute E m c o).flow = .ok j) :
    files (body E m c o).effects = [(o.output, j)] := by
  obtain ⟨j', pre, h1, hw, h2, h3⟩ := body_ok h
  obtain rfl : j' = j := by rw [h1] at hj; cases hj; rfl
  have hno := compute_no_file (E := E) (m := m) (c := c) (o := o)
  rw [h1] at hno
  have hpre : files pre = [] := by
    refine List.filterMap_eq_nil_iff.2 fun e he => ?_
    have := hno e he
    cases e <;> first | rfl | exact absurd trivial this
  rw [body_eq, h1, Io.bind_ok, saveJson_eq h2 h3, hw, hroom]
  simp only [if_true]
  rw [files_append, hpre, files_append]
  cases o.quiet <;> rfl

/-- C121. Two successful runs that differ only in what is displayed — `--quiet`, `--verbose`, colours, the optimization log — write the same output file. -/
theorem display_does_not_matter {verbose color quiet log : Bool} (hroom : m.room = true)
    (h : status (body E m c o).flow = .exit 0)
    (h' : status (body E m c { o with verbose := verbose, color := color, quiet := quiet, logOptimization := log }).flow = .exit 0) :
    ∃ content, files (body E m c o).effects = [(o.output, content)] ∧
      files (body E m c { o with verbose := verbose, color := color, quiet := quiet, logOptimization := log }).effects = [(o.output, content)] := by
  obtain ⟨j, pre, h1, -⟩ := body_ok h
  obtain ⟨j', pre', h1', -⟩ := body_ok h'
  have f1 : (compute E m c o).flow = .ok j := by rw [h1]
  have f1' : (compute E m c { o with verbose := verbose, color := color, quiet := quiet, logOptimization := log }).flow = .ok j' := by rw [h1']
  refine ⟨j, body_files hroom h f1, ?_⟩
  rw [body_files hroom h' f1']
  have hparse : ∀ {p p'}, (parseConfig m o).flow = .ok p →
      (parseConfig m { o with verbose := verbose, color := color, quiet := quiet, logOptimization := log }).flow = .ok p' → p' = p := by
    intro p p' a b
    obtain ⟨r, a1, a2⟩ := parsed a
    obtain ⟨r', b1, b2⟩ := parsed b
    rw [a1] at b1; cases b1
    rw [a2] at b2; cases b2; rfl
  suffices j' = j by rw [this]
  cases c with
  | schedule =>
    obtain ⟨p, s, g1, -, -, g4, g5⟩ := compute_schedule f1
    obtain ⟨p', s', k1, -, -, k4, k5⟩ := compute_schedule f1'
    obtain rfl := hparse g1 k1
    dsimp only at k4 k5
    rw [g4] at k4; cases k4
    rw [g5] at k5; cases k5; rfl
  | predict =>
    obtain ⟨p, r, j0, j1, j2, g1, -, -, g4, g5, g6, g7, g8⟩ := compute_predict f1
    obtain ⟨p', r', j0', j1', j2', k1, -, -, k4, k5, k6, k7, k8⟩ := compute_predict f1'
    obtain rfl := hparse g1 k1
    dsimp only at k4 k5
    rw [g4] at k4; cases k4
    rw [g5] at k5; cases k5
    rw [g6] at k6; cases k6
    rw [g7] at k7; cases k7
    rw [g8] at k8; cases k8; rfl

/-- C121, success. A successful run also is one with any other choice of what is displayed, if the log, when it is asked for, can be opened and a bar fits the terminal
(`CanReport`). The optimizer's options have to be valid, as those accepted on the command line are, see C71. -/
theorem display_never_fails {verbose color quiet log : Bool} {root : Yaml} (hs : m.source = .doc root) (ht : 0 < m.threads)
    (hv : ∀ p sp, load m.readFloat root = ok p → toScheduleParams E p = ok sp → ValidOptions E (o.opt.options sp))
    (hr : CanReport m { o with verbose := verbose, color := color, quiet := quiet, logOptimization := log })
    (h : status (body E m c o).flow = .exit 0) :
    status (body E m c { o with verbose := verbose, color := color, quiet := quiet, logOptimization := log }).flow = .exit 0 := by
  obtain ⟨j, pre, h1, hw, h2, h3⟩ := body_ok h
  have f1 : (compute E m c o).flow = .ok j := by rw [h1]
  generalize ho' : ({ o with verbose := verbose, color := color, quiet := quiet, logOptimization := log } : Cli.Options K) = o' at hr ⊢
  have e1 : o'.filename = o.filename := by rw [← ho']
  have e2 : o'.output = o.output := by rw [← ho']
  have e3 : o'.opt = o.opt := by rw [← ho']
  have e4 : o'.binSize = o.binSize := by rw [← ho']
  have hparse : ∀ {p}, (parseConfig m o).flow = .ok p → (parseConfig m o').flow = .ok p ∧ load m.readFloat root = ok p := by
    intro p a
    obtain ⟨r, a1, a2⟩ := parsed a
    rw [hs] at a1; cases a1
    have hf : o.filename ≠ "" := by
      unfold parseConfig at a
      obtain ⟨_, -, a⟩ := io_bind_ok a
      obtain ⟨_, a, -⟩ := io_bind_ok a
      simpa using expects_eq_ok.1 (lift_flow a)
    obtain ⟨pre, -, h⟩ := parseConfig_ok (m := m) (o := o') (by rw [e1]; exact hf) hs a2
    exact ⟨by rw [h], a2⟩
  have hflow : (compute E m c o').flow = .ok j := by
    cases c with
    | schedule =>
      obtain ⟨p, s, g1, g2, g3, g4, g5⟩ := compute_schedule f1
      obtain ⟨k1, k2⟩ := hparse g1
      obtain ⟨sp, hsp⟩ : ∃ sp, toScheduleParams E p = ok sp := by
        unfold Predict.schedule at g4
        obtain ⟨_, -, g4⟩ := run_bind_result g4
        obtain ⟨sp, g, -⟩ := run_bind_result g4
        exact ⟨sp, g⟩
      rw [← e3] at g4
      unfold compute
      rw [io_flow k1]
      dsimp only
      unfold jsonSchedule
      rw [g2, g3, io_flow (a := ()) rfl, io_flow (a := ()) rfl]
      dsimp only
      rw [io_flow (a := ()), io_flow (getFuture_flow_of g4)]
      · exact lift_flow_of g5
      · split
        · rfl
        · obtain ⟨es, -, he⟩ := consumeEvents_schedule (by simpa using ‹¬ o'.quiet = true›) hr hsp (by rw [e3]; exact hv _ _ k2 hsp) ht g4
          rw [he]
    | predict =>
      obtain ⟨p, r, j0, j1, j2, g1, g2, g3, g4, g5, g6, g7, g8⟩ := compute_predict f1
      obtain ⟨k1, k2⟩ := hparse g1
      obtain ⟨sp, hsp⟩ : ∃ sp, toScheduleParams E p = ok sp := by
        unfold Predict.predict at g4
        obtain ⟨_, -, g4⟩ := run_bind_result g4
        obtain ⟨sp, g, -⟩ := run_bind_result g4
        exact ⟨sp, g⟩
      rw [← e3, ← e4] at g4
      unfold compute
      rw [io_flow k1]
      dsimp only
      unfold runPrediction
      rw [g2, g3, io_flow (a := ()) rfl, io_flow (a := ()) rfl]
      dsimp only
      rw [io_flow (a := ()), io_flow (getFuture_flow_of g4), io_flow (a := ()) (by rfl), io_flow (lift_flow_of g5), io_flow (lift_flow_of g6),
        io_flow (lift_flow_of g7)]
      · exact lift_flow_of g8
      · split
        · rfl
        · obtain ⟨es, -, he⟩ := consumeEvents_predict (by simpa using ‹¬ o'.quiet = true›) hr hsp (by rw [e3]; exact hv _ _ k2 hsp) ht g4
          rw [he]
          rfl
  rw [body_eq, io_flow hflow, saveJson_eq (by rw [e2]; exact h2) h3, hw]
  rfl

/-- C121 applies to the example document `certain` in single precision, with `--quiet` instead of a bar, and with text and a verbose makespan. -/
example (draws : Nat → Nat → Nat → Draws ℚ) (quiet : Bool) : ∃ N, ∀ fuel, N ≤ fuel → ∀ fuel', 16 ≤ fuel' → ∀ zs, ∃ content,
    files (body ratFloat { exampleMachine draws with
      source := .doc Sample.certain, more := Stopping.more ratFloat (PSquare.quantiles ratFloat),
      fuel := fuel, fuel' := fuel', zs := zs } .predict cliOptions).effects = [("time_estimation.json", content)] ∧
    files (body ratFloat { exampleMachine draws with
      source := .doc Sample.certain, more := Stopping.more ratFloat (PSquare.quantiles ratFloat),
      fuel := fuel, fuel' := fuel', zs := zs } .predict
        { cliOptions with verbose := true, color := false, quiet := quiet }).effects = [("time_estimation.json", content)] := by
  obtain ⟨N, hN⟩ := certain_float_succeeds draws
  refine ⟨N, fun fuel hf fuel' hf' zs => ?_⟩
  have h := hN fuel hf fuel' hf' zs
  refine display_does_not_matter rfl h (display_never_fails (log := false) rfl (by exact (by decide : 0 < 4)) ?_ ?_ h)
  · intro p sp hl hsp
    obtain ⟨sp', hsp', hw⟩ := params_wellFormed (E := ratFloat) certain_sound certain_floats
    obtain rfl := ok.inj (Sample.certain_loads.symm.trans hl)
    rw [hsp'] at hsp
    cases hsp
    exact cliOptions_valid_float hw
  · intro _
    constructor
    · intro h; cases h
    · intro h; cases h

end Angonoka.Props
