import Verif.Spec.Log
import Verif.Props.Cli
import Verif.Props.Events
import Verif.Props.Optimizer

/-!
# C84: the log of the optimization
-/

set_option linter.unusedSectionVars false

namespace Angonoka.Props
open Angonoka Outcome Stun Cli

variable {K : Type} [Field K] [LinearOrder K] [IsStrictOrderedRing K] [FloorRing K]
variable {E : FloatEnv K} {m : Machine K} {o : Cli.Options K} {c : Command}

/-! ### The rows -/

theorem logRows_append (a b : List (Event K)) : logRows (a ++ b) = logRows a ++ logRows b := by
  induction a with
  | nil => rfl
  | cons e a ih => cases e <;> simp [logRows, ih]

theorem logRows_get {ps : List (Event K)} (h : ∀ i < ps.length, ∃ p mk e, ps[i]? = some (.optimization p mk e)) :
    (logRows ps).length = ps.length ∧
    ∀ (i : Nat) p mk e, ps[i]? = some (.optimization p mk e) → (logRows ps)[i]? = some (p, mk, e) := by
  induction ps with
  | nil => exact ⟨rfl, fun i p mk e h => by simp at h⟩
  | cons x ps ih =>
    obtain ⟨h1, h2⟩ := ih fun i hi => by simpa using h (i + 1) (by simpa using hi)
    obtain ⟨p, mk, e, h0⟩ := h 0 (by simp)
    simp only [List.getElem?_cons_zero, Option.some.injEq] at h0
    subst h0
    refine ⟨by simp [logRows, h1], ?_⟩
    intro i p' mk' e' h
    cases i with
    | zero =>
      simp only [List.getElem?_cons_zero, Option.some.injEq] at h
      cases h
      rfl
    | succ i =>
      simp only [List.getElem?_cons_succ] at h
      simpa [logRows] using h2 i _ _ _ h

/-- Rounds of an optimizer -/
theorem rounds_run {opts : Stun.Options K} (ho : ValidOptions E opts) {threads : Nat} {draws : Nat → Nat → Nat → Draws K} {o₀ : Optimizer K}
    (h₀ : Optimizer.new E opts threads = ok o₀) (n : Nat) {o : Optimizer K} (h : o₀.rounds E draws n = ok o) :
    ∃ ms, OptimizerRun E opts threads ms o ∧ (n = 0 → ms = []) ∧ (n ≠ 0 → ms ≠ []) := by
  induction n generalizing o with
  | zero =>
    cases h
    exact ⟨[], .new h₀, fun _ => rfl, fun h => absurd rfl h⟩
  | succ n ih =>
    rw [Optimizer.rounds] at h
    obtain ⟨o₁, h1, h2⟩ := bind_eq_ok.1 h
    obtain ⟨ms, hr, _⟩ := ih h1
    obtain ⟨v, hi⟩ := hr.inv ho
    obtain ⟨o', v', _, h3, h4, _⟩ := Optimizer.update_ok ho hi (draws n)
    rw [h2] at h3
    cases h3
    exact ⟨v' :: ms, hr.update h2 (h4.makespan_eq ho), fun h => by omega, fun _ => by simp⟩

theorem truncate_mono {x y : K} (h0 : 0 ≤ x) (h : x ≤ y) : Simulation.truncate x ≤ Simulation.truncate y := by
  rw [truncate_of_nonneg h0, truncate_of_nonneg (h0.trans h)]
  exact Int.floor_le_floor h

theorem makespan_mono {sp : ScheduleParams K} (hm : 0 ≤ sp.durationMultiplier) {v w : K} (hv : 0 ≤ v) (h : v ≤ w) {a b : Int}
    (ha : Predict.makespan E sp v = ok a) (hb : Predict.makespan E sp w = ok b) : a ≤ b := by
  unfold Predict.makespan at ha hb
  obtain ⟨_, _, ha⟩ := bind_eq_ok.1 ha
  obtain ⟨_, _, hb⟩ := bind_eq_ok.1 hb
  cases ha
  cases hb
  exact truncate_mono (E.rnd_nonneg (mul_nonneg hv hm)) (E.rnd_mono (mul_le_mul_of_nonneg_right h hm))

theorem log_of_rounds {sp : ScheduleParams K} {p : Project} (hsp : toScheduleParams E p = ok sp) {opt : OptParams K}
    (ho : ValidOptions E (opt.options sp)) {threads : Nat} {draws : Nat → Nat → Nat → Draws K}
    {o₀ on : Optimizer K} (h₀ : Optimizer.new E (opt.options sp) threads = ok o₀) {n : Nat} (hn : FirstConverged E draws o₀ n)
    {ps : List (Event K)} (hps : ReportsRounds E sp draws o₀ n ps) (hon : o₀.rounds E draws n = ok on)
    {v : K} (hv : on.normalizedMakespan = ok v) {mk : Int} (hmk : Predict.makespan E sp v = ok mk) :
    OptimizationLog (logRows ps) mk := by
  obtain ⟨hlen, hrows⟩ := hps
  subst hlen
  obtain ⟨g1, g2⟩ := logRows_get (ps := ps) fun i hi => by
    obtain ⟨_, _, _, _, _, _, h⟩ := hrows i hi
    exact ⟨_, _, _, h⟩
  have hmult := durationMultiplier_nonneg hsp
  -- the row of a round
  have hrow : ∀ (i : Nat) row, (logRows ps)[i]? = some row → ∃ o' v', o₀.rounds E draws (i + 1) = ok o' ∧ o'.normalizedMakespan = ok v' ∧
      Predict.makespan E sp v' = ok row.2.1 ∧ row.1 = o'.estimatedProgress ∧ row.2.2 = o'.epochs := by
    intro i row hi
    have hi' : i < ps.length := by
      rw [← g1]
      exact (List.getElem?_eq_some_iff.1 hi).1
    obtain ⟨o', v', mk', h1, h2, h3, h4⟩ := hrows i hi'
    have := g2 i _ _ _ h4
    rw [hi] at this
    cases this
    exact ⟨o', v', h1, h2, h3, rfl, rfl⟩
  have hpos : ps.length ≠ 0 := by
    intro h0
    rw [h0] at hn
    obtain ⟨⟨o', h1, h2⟩, _⟩ := hn
    cases h1
    obtain ⟨w, hi⟩ := (OptimizerRun.new (E := E) h₀).inv ho
    unfold Optimizer.hasConverged at h2
    rw [decide_eq_true_eq, hi.idle, hi.maxIdle] at h2
    have : unchanged (([] : List K) ++ [0]) = 0 := rfl
    rw [this, Nat.mul_zero] at h2
    exact absurd h2 (not_le.2 ho.idle_pos)
  refine ⟨?_, ?_, ?_, ?_⟩
  · have hne : logRows ps ≠ [] := by
      intro h
      rw [h] at g1
      exact hpos g1.symm
    have hl : (logRows ps)[ps.length - 1]? = some ((logRows ps).getLast hne) := by
      rw [← g1, ← List.getLast?_eq_getElem?, List.getLast?_eq_some_getLast hne]
    obtain ⟨o', v', h1, h2, h3, h4, h5⟩ := hrow _ _ hl
    rw [show ps.length - 1 + 1 = ps.length by omega, hon] at h1
    cases h1
    rw [hv] at h2
    cases h2
    rw [hmk] at h3
    cases h3
    obtain ⟨⟨o', h1, h2⟩, _⟩ := hn
    rw [hon] at h1
    cases h1
    obtain ⟨ms, hr, _⟩ := rounds_run ho h₀ _ hon
    have h6 := (optimizer_progress ho hr).2.2.1 h2
    refine ⟨(logRows ps).dropLast, ((logRows ps).getLast hne).2.2, ?_⟩
    rw [← h6, ← h4]
    exact (List.dropLast_append_getLast hne).symm
  · intro row hr
    obtain ⟨i, hi, rfl⟩ := List.getElem_of_mem hr
    obtain ⟨o', v', h1, _, _, h4, _⟩ := hrow i _ (List.getElem?_eq_getElem hi)
    obtain ⟨ms, hr, _⟩ := rounds_run ho h₀ _ h1
    rw [h4]
    exact ⟨(optimizer_progress ho hr).1, (optimizer_progress ho hr).2.1⟩
  · intro row hr
    rw [List.head?_eq_getElem?] at hr
    obtain ⟨o', v', h1, h2, _, _, h5⟩ := hrow 0 _ hr
    have h6 : o₀.update E (draws 0) = ok o' := by
      rw [Optimizer.rounds, Optimizer.rounds, ok_bind] at h1
      exact h1
    have hr0 := OptimizerRun.new (E := E) h₀
    have h7 := optimizer_epoch_step ho hr0 h6 h2
    obtain ⟨w, hi⟩ := hr0.inv ho
    have h8 : o₀.epochs = 0 := hi.epochs
    rw [h5]
    by_cases h9 : v' = o₀.lastMakespan
    · rw [(h7.1 h9).1, h8]
      omega
    · rw [(h7.2 h9).1, h8]
  · intro i row next hr hx
    obtain ⟨o₁, v₁, a1, a2, a3, a4, a5⟩ := hrow i _ hr
    obtain ⟨o₂, v₂, b1, b2, b3, b4, b5⟩ := hrow (i + 1) _ hx
    rw [Optimizer.rounds, a1, ok_bind] at b1
    obtain ⟨ms, hr₁, _, hne⟩ := rounds_run ho h₀ _ a1
    obtain ⟨w, hi⟩ := hr₁.inv ho
    have hlast : o₁.lastMakespan = v₁ := by
      rw [hi.last, hi.head (hne (by omega))]
      have := hi.makespan_eq ho
      rw [a2] at this
      exact ((Outcome.ok.injEq ..).mp this).symm
    have hstep := optimizer_epoch_step ho hr₁ b1 b2
    rw [hlast] at hstep
    have hr₂ := hr₁.update b1 b2
    by_cases he : v₂ = v₁
    · subst he
      rw [a3] at b3
      left
      refine ⟨by rw [b5, a5, (hstep.1 rfl).1], ((Outcome.ok.injEq ..).mp b3).symm⟩
    · right
      refine ⟨by rw [b5, a5, (hstep.2 he).1], ?_⟩
      obtain ⟨s, v', _, _, _, c2, c3, c4, _⟩ := optimizer_result ho hr₂
      have hv2 : 0 ≤ v₂ := by
        rw [b2] at c2
        cases c2
        have hw : WellFormed sp := ho.wellFormed
        rw [(isMakespan_iff hw c3).1 c4]
        exact makespanValue_nonneg hw c3
      refine makespan_mono hmult hv2 ?_ b3 a3
      have hs := optimizer_monotone ho hr₂
      cases ms with
      | nil => exact absurd rfl (hne (by omega))
      | cons w' ms =>
        have h1 : v₂ ≤ w' := (List.pairwise_cons.1 hs).1 _ (by simp)
        have h2 := hi.head (by simp)
        have h3 : w' = w := h2
        have h4 := hi.makespan_eq ho
        rw [a2] at h4
        cases h4
        exact h3 ▸ h1

/-! ### The program -/

theorem Io.bind_flow_ok {α β : Type} {x : Io K α} {f : α → Io K β} {b : β} (h : (x >>= f).flow = .ok b) :
    ∃ a, x.flow = .ok a ∧ (f a).flow = .ok b ∧ (x >>= f).effects = x.effects ++ (f a).effects := by
  obtain ⟨es, fl⟩ := x
  cases fl with
  | ok a =>
    rw [Io.bind_ok] at h ⊢
    exact ⟨a, rfl, h, rfl⟩
  | user => rw [Io.bind_user] at h; cases h
  | throws e => rw [Io.bind_throws] at h; cases h
  | ub e => rw [Io.bind_ub] at h; cases h
  | hang => rw [Io.bind_hang] at h; cases h
  | running => rw [Io.bind_running] at h; cases h

theorem lift_flow_ok {α : Type} {x : Outcome α} {a : α} (h : (Io.lift x : Io K α).flow = .ok a) : x = ok a := by
  cases x with
  | ok b => cases h; rfl
  | throws e => cases h
  | ub s => cases h

theorem getFuture_flow_ok {α : Type} {r : Run K (Option α)} {a : α} (h : (getFuture r).flow = .ok a) :
    r.result = ok (some a) ∧ (getFuture r).effects = [] := by
  unfold getFuture at h ⊢
  split at h
  · rename_i a' hr
    cases h
    rw [hr]
    exact ⟨rfl, rfl⟩
  all_goals cases h

theorem logs_append (a b : List (Effect K)) : logs (a ++ b) = logs a ++ logs b := List.filterMap_append
theorem files_append (a b : List (Effect K)) : files (a ++ b) = files a ++ files b := List.filterMap_append

theorem logs_stdout {es : List (Effect K)} (h : ∀ e ∈ es, e.OnStdout) : logs es = [] := by
  unfold logs
  rw [List.filterMap_eq_nil_iff]
  intro e he
  have := h e he
  cases e with
  | log => cases this
  | _ => rfl

theorem files_stdout {es : List (Effect K)} (h : ∀ e ∈ es, e.OnStdout) : files es = [] := by
  unfold files
  rw [List.filterMap_eq_nil_iff]
  intro e he
  have := h e he
  cases e with
  | file => cases this
  | _ => rfl

/-- If all events were received, the log could be opened and the progress displayed. -/
theorem consumeEvents_ok {α : Type} {r : Run K (Option α)} (h : (consumeEvents m.logWritable m.columns o r).flow = .ok ()) :
    consumeEvents m.logWritable m.columns o r = match ({ color := o.color, verbose := o.verbose, logOptimization := o.logOptimization } :
      Handler K).handleAll r.events with
    | throws e => ⟨[], .throws e⟩
    | ub s => ⟨[], .ub s⟩
    | ok h =>
      ⟨h.output.map .stdout ++ h.display.map .progress ++ (h.log.toList.map .log),
        match r.result with
        | ub s => .ub s
        | ok none => .running
        | _ => if .simple .finished ∈ r.events then .ok () else .hang⟩ := by
  unfold consumeEvents at h ⊢
  rcases choose_cases o.color m.columns with ⟨w, hch⟩ | hch
  swap
  · rw [hch] at h
    dsimp only at h
    split at h <;> cases h
  rw [hch] at h ⊢
  dsimp only at h ⊢
  by_cases hl : (o.logOptimization && !m.logWritable) = true
  · rw [if_pos hl] at h
    dsimp only at h
    split at h <;> cases h
  · rw [if_neg hl]
    rfl

/-- What the handler leaves behind -/
theorem consumeEvents_log {α : Type} {r : Run K (Option α)} (hfl : (consumeEvents m.logWritable m.columns o r).flow = .ok ())
    {h' : Handler K} (hh : ({ color := o.color, verbose := o.verbose, logOptimization := o.logOptimization } : Handler K).handleAll r.events = ok h')
    {rows : List (K × Int × Nat)} (hl : h'.log = some rows) :
    logs (consumeEvents m.logWritable m.columns o r).effects = [rows] ∧ files (consumeEvents m.logWritable m.columns o r).effects = [] := by
  rw [consumeEvents_ok hfl, hh]
  dsimp only
  rw [hl, logs_append, files_append, logs_stdout, files_stdout]
  · exact ⟨rfl, rfl⟩
  all_goals
    intro e he
    simp only [List.mem_append, List.mem_map] at he
    rcases he with ⟨_, _, rfl⟩ | ⟨_, _, rfl⟩ <;> trivial

theorem toJson_makespan {p : Project} {s : List Item} {mk : Int} {j : Json} (h : Timetable.toJson E p s mk = ok j) :
    ∃ x, j = .obj [("makespan", .int mk), ("tasks", x)] := by
  unfold Timetable.toJson at h
  obtain ⟨_, _, h⟩ := bind_eq_ok.1 h
  obtain ⟨_, _, h⟩ := bind_eq_ok.1 h
  obtain ⟨_, _, h⟩ := bind_eq_ok.1 h
  obtain ⟨_, _, h⟩ := bind_eq_ok.1 h
  obtain ⟨_, _, h⟩ := bind_eq_ok.1 h
  obtain ⟨_, _, h⟩ := bind_eq_ok.1 h
  cases h
  exact ⟨_, rfl⟩

theorem saveJson_flow_ok (hr : m.room = true) {f s : String} {j : Json} (h : (saveJson m o f s j).flow = .ok ()) :
    logs (saveJson m o f s j).effects = [] ∧ files (saveJson m o f s j).effects = [(o.output, j)] := by
  unfold saveJson at h ⊢
  obtain ⟨_, h1, h2, h3⟩ := Io.bind_flow_ok h
  rw [h3]
  obtain ⟨_, h4, h5, h6⟩ := Io.bind_flow_ok h2
  rw [h6]
  by_cases hw : m.writable = true
  · rw [if_pos hw] at h5 ⊢
    rw [Io.emit_bind, if_pos hr]
    unfold Cli.print Io.emit Io.lift
    cases o.quiet <;> exact ⟨rfl, rfl⟩
  · rw [if_neg hw] at h5
    obtain ⟨_, _, h7, _⟩ := Io.bind_flow_ok h5
    cases h7

/-- A successful run with logging on has written one log, with a row for each round of the optimizer. -/
theorem log_file_rounds (hf : o.filename ≠ "") {root : Yaml} {p : Project} (hs : m.source = .doc root) (hl : load m.readFloat root = ok p) (hp : p.Sound)
    (ht : 0 < m.threads) {sp : ScheduleParams K} (hsp : toScheduleParams E p = ok sp) (ho : ValidOptions E (o.opt.options sp))
    (hq : o.quiet = false) (hlog : o.logOptimization = true) (hroom : m.room = true) (h : status (body E m c o).flow = .exit 0) :
    ∃ rows mk fields, logs (body E m c o).effects = [rows] ∧ files (body E m c o).effects = [(o.output, .obj fields)] ∧
      fields.lookup "makespan" = some (.int mk) ∧ OptimizationLog rows mk ∧
      ∃ o₀ n ps, Optimizer.new E (o.opt.options sp) m.threads = ok o₀ ∧ FirstConverged E m.draws o₀ n ∧ ReportsRounds E sp m.draws o₀ n ps ∧
        rows = logRows ps := by
  have hflow : (body E m c o).flow = .ok () := by
    cases hfl : (body E m c o).flow with
    | ok a => rfl
    | _ => rw [hfl] at h; cases h
  clear h
  obtain ⟨pre, hpre, hpc⟩ := parseConfig_ok hf hs hl
  have hb : body E m c o = ⟨pre ++ (match c with
      | .schedule => (do
        let j ← jsonSchedule E m p o
        saveJson m o "Error saving the schedule:\n" ("Saving the optimized schedule to \"" ++ o.output ++ "\".\n") j : Io K Unit)
      | .predict => (do
        let j ← runPrediction E m p o
        saveJson m o "Error saving the prediction results:\n" ("Time estimation written to \"" ++ o.output ++ "\"\n") j)).effects,
      (match c with
      | .schedule => (do
        let j ← jsonSchedule E m p o
        saveJson m o "Error saving the schedule:\n" ("Saving the optimized schedule to \"" ++ o.output ++ "\".\n") j : Io K Unit)
      | .predict => (do
        let j ← runPrediction E m p o
        saveJson m o "Error saving the prediction results:\n" ("Time estimation written to \"" ++ o.output ++ "\"\n") j)).flow⟩ := by
    unfold body
    rw [hpc, Io.bind_ok]
    cases c <;> rfl
  rw [hb] at hflow ⊢
  dsimp only at hflow ⊢
  rw [logs_append, files_append, logs_stdout hpre, files_stdout hpre, List.nil_append, List.nil_append]
  clear hb hpc
  cases c with
  | schedule =>
    dsimp only at hflow ⊢
    obtain ⟨j, h1, h2, h3⟩ := Io.bind_flow_ok hflow
    rw [h3, logs_append, files_append, (saveJson_flow_ok hroom h2).1, (saveJson_flow_ok hroom h2).2]
    clear h3 hflow
    rw [jsonSchedule_eq hp, hq] at h1 ⊢
    simp only [Bool.false_eq_true, if_false] at h1 ⊢
    obtain ⟨_, a1, a2, a3⟩ := Io.bind_flow_ok h1
    obtain ⟨s, b1, b2, b3⟩ := Io.bind_flow_ok a2
    have b4 := lift_flow_ok b2
    obtain ⟨x, rfl⟩ := toJson_makespan b4
    obtain ⟨c1, c2⟩ := getFuture_flow_ok b1
    rw [a3, b3, c2]
    obtain ⟨es, hr⟩ : ∃ es, Predict.schedule E p o.opt m.threads m.draws m.fuel = ⟨es, ok (some s)⟩ := ⟨_, by rw [← c1]⟩
    obtain ⟨sp', o₀, n, ps, d1, d2, d3, d4, d5, on, d6, _, v, d8, d9⟩ := schedule_events hr
    rw [hsp] at d1
    cases d1
    obtain ⟨h', e1, e2, _⟩ := log_rows (more := m.more) (fuel' := m.fuel') (zs := m.zs) (binSize := o.binSize) hsp ho ht
      (es := (Predict.schedule E p o.opt m.threads m.draws m.fuel).events) (by rw [hr, d5]; simp) (Or.inr List.prefix_rfl)
      ({ color := o.color, verbose := o.verbose, logOptimization := o.logOptimization } : Handler K)
    obtain ⟨f1, f2⟩ := consumeEvents_log a1 e1 (e2 hlog)
    rw [logs_append, files_append, f1, f2]
    refine ⟨_, s.makespan, _, rfl, rfl, rfl, ?_⟩
    rw [hr, d5]
    dsimp only
    rw [logRows_append, logRows_append]
    simp only [logRows, List.nil_append, List.append_nil]
    exact ⟨log_of_rounds hsp ho d2 d3 d4 d6 d8 d9, o₀, n, ps, d2, d3, d4, rfl⟩
  | predict =>
    dsimp only at hflow ⊢
    obtain ⟨j, h1, h2, h3⟩ := Io.bind_flow_ok hflow
    rw [h3, logs_append, files_append, (saveJson_flow_ok hroom h2).1, (saveJson_flow_ok hroom h2).2]
    clear h3 hflow
    rw [runPrediction_eq hp, hq] at h1 ⊢
    simp only [Bool.false_eq_true, if_false] at h1 ⊢
    obtain ⟨_, a1, a2, a3⟩ := Io.bind_flow_ok h1
    obtain ⟨s, b1, b2, b3⟩ := Io.bind_flow_ok a2
    obtain ⟨_, g1, g2, g3⟩ := Io.bind_flow_ok b2
    obtain ⟨j1, i1, i2, i3⟩ := Io.bind_flow_ok g2
    obtain ⟨x, rfl⟩ := toJson_makespan (lift_flow_ok i1)
    obtain ⟨j2, k1, k2, k3⟩ := Io.bind_flow_ok i2
    obtain ⟨j3, l1, l2, l3⟩ := Io.bind_flow_ok k2
    have k4 := lift_flow_ok k1
    have l4 := lift_flow_ok l2
    have hj2 : j2 = .obj [("makespan", .int s.makespan), ("stats", s.stats.toJson), ("tasks", x)] := by
      have : setField (.obj [("makespan", .int s.makespan), ("tasks", x)]) "stats" s.stats.toJson
          = ok (.obj [("makespan", .int s.makespan), ("stats", s.stats.toJson), ("tasks", x)]) := rfl
      rw [this] at k4
      exact ((Outcome.ok.injEq ..).mp k4).symm
    subst hj2
    have hj : j = .obj [("histogram", j3), ("makespan", .int s.makespan), ("stats", s.stats.toJson), ("tasks", x)] := by
      have : setField (.obj [("makespan", .int s.makespan), ("stats", s.stats.toJson), ("tasks", x)]) "histogram" j3
          = ok (.obj [("histogram", j3), ("makespan", .int s.makespan), ("stats", s.stats.toJson), ("tasks", x)]) := rfl
      rw [this] at l4
      exact ((Outcome.ok.injEq ..).mp l4).symm
    subst hj
    obtain ⟨c1, c2⟩ := getFuture_flow_ok b1
    rw [a3, b3, c2, g3, i3, k3, l3]
    obtain ⟨es, hr⟩ : ∃ es, Predict.predict E p o.binSize o.opt m.threads m.draws m.fuel m.more m.fuel' m.zs = ⟨es, ok (some s)⟩ :=
      ⟨_, by rw [← c1]⟩
    obtain ⟨sp', o₀, n, ps, d1, d2, d3, d4, d5, on, d6, _, v, d8, d9⟩ := predict_events hr
    rw [hsp] at d1
    cases d1
    obtain ⟨h', e1, e2, _⟩ := log_rows (more := m.more) (fuel' := m.fuel') (zs := m.zs) (binSize := o.binSize) hsp ho ht
      (es := (Predict.predict E p o.binSize o.opt m.threads m.draws m.fuel m.more m.fuel' m.zs).events) (by rw [hr, d5]; simp)
      (Or.inl List.prefix_rfl)
      ({ color := o.color, verbose := o.verbose, logOptimization := o.logOptimization } : Handler K)
    obtain ⟨f1, f2⟩ := consumeEvents_log a1 e1 (e2 hlog)
    have hst : ∀ e ∈ (printHistogramStats o s.stats).effects, e.OnStdout := fun e he => quiet_stdout o _ e he
    rw [logs_append, files_append, f1, f2]
    simp only [logs_append, files_append, logs_stdout hst, files_stdout hst]
    refine ⟨_, s.makespan, _, rfl, rfl, rfl, ?_⟩
    rw [hr, d5]
    dsimp only
    rw [logRows_append, logRows_append]
    simp only [logRows, List.nil_append, List.append_nil]
    exact ⟨log_of_rounds hsp ho d2 d3 d4 d6 d8 d9, o₀, n, ps, d2, d3, d4, rfl⟩

/-- C84. If the program ends successfully with logging on, without `--quiet` and with room for the output file, it has written one log and one output file. The log's rows are those of
an optimization whose final makespan is the one in the output file. -/
theorem log_file_partial (hf : o.filename ≠ "") {root : Yaml} {p : Project} (hs : m.source = .doc root) (hl : load m.readFloat root = ok p) (hp : p.Sound)
    (ht : 0 < m.threads) {sp : ScheduleParams K} (hsp : toScheduleParams E p = ok sp) (ho : ValidOptions E (o.opt.options sp))
    (hq : o.quiet = false) (hlog : o.logOptimization = true) (hroom : m.room = true) (h : status (body E m c o).flow = .exit 0) :
    ∃ rows mk fields, logs (body E m c o).effects = [rows] ∧ files (body E m c o).effects = [(o.output, .obj fields)] ∧
      fields.lookup "makespan" = some (.int mk) ∧ OptimizationLog rows mk := by
  obtain ⟨rows, mk, fields, h1, h2, h3, h4, -⟩ := log_file_rounds hf hs hl hp ht hsp ho hq hlog hroom h
  exact ⟨rows, mk, fields, h1, h2, h3, h4⟩

theorem handle_unlogged {h h' : Handler K} {e : Event K} (h1 : h.logOptimization = false) (h2 : h.log = none) (he : h.handle e = ok h') :
    h'.logOptimization = false ∧ h'.log = none := by
  unfold Handler.handle at he
  split at he
  · cases he
    simp [h1, h2]
  · cases he
    exact ⟨h1, h2⟩
  · obtain ⟨_, -, he⟩ := bind_eq_ok.1 he
    simp only [h1, Bool.false_eq_true, if_false] at he
    cases he
    exact ⟨rfl, h2⟩
  · cases he
    exact ⟨h1, h2⟩

theorem handleAll_unlogged : ∀ {es : List (Event K)} {h h' : Handler K}, h.logOptimization = false → h.log = none →
    h.handleAll es = ok h' → h'.log = none
  | [], _, _, _, h2, he => by
    cases he
    exact h2
  | e :: es, _, _, h1, h2, he => by
    obtain ⟨g, hg, he⟩ := bind_eq_ok.1 he
    obtain ⟨h3, h4⟩ := handle_unlogged h1 h2 hg
    exact handleAll_unlogged h3 h4 he

/-- C84: there is no log, however the program ends, unless it was asked for, and also with `--quiet` even if it was asked for. -/
theorem log_only_if_asked (hq : o.quiet = true ∨ o.logOptimization = false) : logs (body E m c o).effects = [] := by
  unfold logs
  rw [List.filterMap_eq_nil_iff]
  intro e he
  suffices h : (body E m c o).All fun e => ∀ rows, e ≠ .log rows by
    have := h e he
    cases e with
    | log rows => exact absurd rfl (this rows)
    | _ => rfl
  have hprint : ∀ t, (Cli.print o t : Io K Unit).All fun e => ∀ rows, e ≠ .log rows := by
    intro t
    unfold Cli.print
    split <;> exact .emit (by simp)
  have hdie : ∀ t, (die o t : Io K Unit).All fun e => ∀ rows, e ≠ .log rows := by
    intro t
    unfold die
    split <;> exact .emit (by simp)
  have hconsume : ∀ {α : Type} (r : Run K (Option α)), ((if o.quiet then pure () else consumeEvents m.logWritable m.columns o r) : Io K Unit).All
      fun e => ∀ rows, e ≠ .log rows := by
    intro α r
    split
    · exact .pure _
    · next hn =>
      have hl : o.logOptimization = false := hq.resolve_left hn
      unfold consumeEvents
      rcases choose_cases o.color m.columns with ⟨w, hch⟩ | hch
      swap
      · rw [hch]
        exact fun e he => by cases he
      rw [hch]
      dsimp only
      rw [if_neg (by simp [hl])]
      split
      · exact fun e he => by cases he
      · exact fun e he => by cases he
      · next h hh =>
        have := handleAll_unlogged (es := r.events) (h := { color := o.color, verbose := o.verbose, logOptimization := o.logOptimization })
          hl rfl hh
        intro e he rows heq
        subst heq
        simp [this] at he
  have herr : ∀ t, (printError o t : Io K Unit).All fun e => ∀ rows, e ≠ .log rows := fun t => .emit (by simp)
  have hsave : ∀ f s j, (saveJson m o f s j).All fun e => ∀ rows, e ≠ .log rows := by
    intro f s j
    unfold saveJson
    refine (Io.All.lift _).bind fun _ => (Io.All.lift _).bind fun _ => ?_
    split
    · exact (Io.All.emit (by cases m.room <;> simp)).bind fun _ => hprint _
    · exact (herr _).bind fun _ => .fail
  have hparse : (parseConfig m o).All fun e => ∀ rows, e ≠ .log rows := by
    unfold parseConfig
    refine (hprint _).bind fun _ => (Io.All.lift _).bind fun _ => ?_
    split
    · exact (hdie _).bind fun _ => .fail
    · exact (hdie _).bind fun _ => (herr _).bind fun _ => .fail
    · split
      · exact (hprint _).bind fun _ => .pure _
      · split
        · exact (hdie _).bind fun _ => .fail
        · exact (hdie _).bind fun _ => .lift _
      · exact .lift _
  unfold body
  refine hparse.bind fun config => ?_
  cases c with
  | schedule =>
    refine Io.All.bind ?_ fun j => hsave _ _ _
    unfold jsonSchedule
    refine (Io.All.lift _).bind fun _ => (Io.All.lift _).bind fun _ => ?_
    dsimp only
    exact (hconsume _).bind fun _ => (getFuture_all _).bind fun _ => .lift _
  | predict =>
    refine Io.All.bind ?_ fun j => hsave _ _ _
    unfold runPrediction
    refine (Io.All.lift _).bind fun _ => (Io.All.lift _).bind fun _ => ?_
    dsimp only
    exact (hconsume _).bind fun _ => (getFuture_all _).bind fun _ => (hprint _).bind fun _ =>
      (Io.All.lift _).bind fun _ => (Io.All.lift _).bind fun _ => (Io.All.lift _).bind fun _ => .lift _

/-- C84, with `--quiet`: there is never a log, even if it was asked for. -/
theorem log_quiet (hq : o.quiet = true) : logs (body E m c o).effects = [] := log_only_if_asked (Or.inl hq)

/-! ### Examples -/

/-- The example of C62 with logging, quiet or not, whatever the random numbers are: it ends successfully. -/
theorem logged_example (quiet : Bool) (draws : Nat → Nat → Nat → Draws ℚ) : ∃ N, ∀ fuel, N ≤ fuel →
    status (body FloatEnv.rat { exampleMachine draws with fuel := fuel } .schedule
      { cliOptions with quiet := quiet, logOptimization := true }).flow = .exit 0 := by
  obtain ⟨sp, hsp, hw⟩ := params_wellFormed (E := FloatEnv.rat) plan_sound (fun _ _ _ _ => rfl)
  obtain ⟨N, _, _, _, _, _, _, _, _, _, _, _, _, h⟩ := schedule_command (m := exampleMachine draws)
    (o := { cliOptions with quiet := quiet, logOptimization := true })
    (fun _ => rfl) (by exact (by decide : cliOptions.filename ≠ "")) (by exact (by decide : cliOptions.output ≠ "")) rfl Sample.plan_loads
    plan_sound plan_moderate example_canWrite (by exact (by decide : 0 < 4)) hsp (cliOptions_valid hw)
  exact ⟨N, fun fuel hN => (h fuel hN).1⟩

/-- C84 applies to the example. -/
example (draws : Nat → Nat → Nat → Draws ℚ) : ∃ fuel rows mk,
    logs (body FloatEnv.rat { exampleMachine draws with fuel := fuel } .schedule
      { cliOptions with quiet := false, logOptimization := true }).effects = [rows] ∧ OptimizationLog rows mk := by
  obtain ⟨sp, hsp, hw⟩ := params_wellFormed (E := FloatEnv.rat) plan_sound (fun _ _ _ _ => rfl)
  obtain ⟨N, h⟩ := logged_example false draws
  obtain ⟨rows, mk, _, h1, _, _, h2⟩ := log_file_partial (m := { exampleMachine draws with fuel := N })
    (o := { cliOptions with quiet := false, logOptimization := true }) (by exact (by decide : cliOptions.filename ≠ "")) rfl
    Sample.plan_loads plan_sound (by exact (by decide : 0 < 4)) hsp (cliOptions_valid hw) rfl rfl rfl (h N le_rfl)
  exact ⟨N, rows, mk, h1, h2⟩

/-- C84 is false with `--quiet`: the program ends successfully, but the log that was asked for is not written. -/
theorem log_missing (draws : Nat → Nat → Nat → Draws ℚ) : ∃ (m : Machine ℚ) (o : Cli.Options ℚ), m.draws = draws ∧ o.logOptimization = true ∧
    status (body FloatEnv.rat m .schedule o).flow = .exit 0 ∧ logs (body FloatEnv.rat m .schedule o).effects = [] := by
  obtain ⟨N, h⟩ := logged_example true draws
  exact ⟨{ exampleMachine draws with fuel := N }, { cliOptions with quiet := true, logOptimization := true }, rfl, rfl, h N le_rfl, log_quiet rfl⟩

end Angonoka.Props
