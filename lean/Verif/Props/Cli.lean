import Mathlib.Algebra.BigOperators.Ring.Finset
import Mathlib.Algebra.BigOperators.Ring.List
import Verif.Proof.Cli
import Verif.Spec.Cli
import Verif.Props.Events
import Verif.Props.Loading
import Verif.Props.Makespan

/-!
# C46, C58, C60: the command line program
-/

set_option linter.unusedSectionVars false

namespace Angonoka.Props
open Angonoka Outcome Stun Cli

variable {K : Type} [Field K] [LinearOrder K] [IsStrictOrderedRing K] [FloorRing K]
variable {E : FloatEnv K} {m : Machine K} {c : Command} {o : Cli.Options K}

/-! ### C58 -/

theorem expects_filename (h : o.filename ≠ "") :
    expects (o.filename != "") "load_file: path not empty" = ok () :=
  expects_true (by simpa using h)

theorem quiet_stdout (o : Cli.Options K) (text : String) :
    ∀ e ∈ (if o.quiet then [] else [.stdout text] : List (Effect K)), e.OnStdout := by
  intro e he
  split at he
  · cases he
  · rw [List.mem_singleton.1 he]; exact trivial

/-- C58. If the configuration file cannot be read, is not YAML or fails the validation, the program exits with the failure
status, having done nothing but print: the explanation, on the standard error stream, at the end. In particular the
output file is not written. For both commands and all options. -/
theorem failed_load_reported (hf : o.filename ≠ "") {texts : List String} (h : Complaint m o texts) :
    status (body E m c o).flow = .exit 1 ∧
    ∃ pre : List (Effect K), (∀ e ∈ pre, e.OnStdout) ∧
      (body E m c o).effects = pre ++ texts.map fun text => .stderr (red o text) := by
  suffices hp : ∃ pre : List (Effect K), (∀ e ∈ pre, e.OnStdout) ∧
      parseConfig m o = ⟨pre ++ texts.map fun text => .stderr (red o text), .user⟩ by
    obtain ⟨pre, h2, h3⟩ := hp
    unfold body
    rw [h3, Io.bind_user]
    exact ⟨rfl, pre, h2, rfl⟩
  refine ⟨(if o.quiet then [] else [.stdout "Parsing configuration... "])
        ++ (if o.quiet then [] else [.stdout (red o "Error\n")]), ?_, ?_⟩
  · intro e he
    rcases List.mem_append.1 he with he | he
    · exact quiet_stdout o _ e he
    · exact quiet_stdout o _ e he
  unfold parseConfig Cli.print
  rw [Io.emit_bind, expects_filename hf, Io.lift_ok_bind]
  cases h with
  | badFile h =>
    rw [h]
    dsimp only
    unfold die
    rw [Io.emit_bind]
    simp [Io.fail]
  | syntaxError h =>
    rw [h]
    dsimp only
    unfold die printError
    rw [Io.emit_bind, Io.emit_bind]
    simp [Io.fail]
  | invalid h hl he =>
    rw [h]
    dsimp only
    rw [hl]
    dsimp only
    rw [if_pos he]
    unfold die
    rw [Io.emit_bind]
    simp [Io.fail]

/-- C58, the rest: the only other exception of the loader is that of too large a project; it also leads to a message and
leaves the output file alone, but the program is aborted instead of exiting with the failure status. -/
theorem oversized_project_aborts (hf : o.filename ≠ "") {root : Yaml} {e : Err}
    (hs : m.source = .doc root) (h : load m.readFloat root = throws e)
    (he : e.isValidationError = false) :
    e = .range ∧ status (body E m c o).flow = .aborted .range ∧
    ∃ pre : List (Effect K), (∀ e ∈ pre, e.OnStdout) ∧
      (body E m c o).effects = pre ++ [.stderr (red o ("Unexpected error: " ++ what .range ++ "\n"))] := by
  have her : e = .range := by
    rcases load_errors h with h' | h'
    · rw [he] at h'; cases h'
    · exact h'
  subst her
  refine ⟨rfl, ?_⟩
  have hp : parseConfig m o = ⟨(if o.quiet then [] else [.stdout "Parsing configuration... "])
      ++ (if o.quiet then [] else [.stdout (red o "Error\n")])
      ++ [.stderr (red o ("Unexpected error: " ++ what .range ++ "\n"))], .throws .range⟩ := by
    unfold parseConfig Cli.print die
    rw [Io.emit_bind, expects_filename hf, Io.lift_ok_bind, hs]
    dsimp only
    rw [h]
    dsimp only
    rw [if_neg (c := Err.range.isValidationError = true) (by simp [he]), Io.emit_bind]
    simp [Io.lift]
  unfold body
  rw [hp, Io.bind_throws]
  refine ⟨rfl, _, ?_, rfl⟩
  intro e he
  rcases List.mem_append.1 he with he | he
  · exact quiet_stdout o _ e he
  · exact quiet_stdout o _ e he

/-! ### C60 -/

theorem print_quiet (hq : o.quiet = true) (text : String) :
    (Cli.print o text).All fun e => ¬ e.OnStdout := by
  unfold Cli.print
  rw [if_pos hq]
  exact .emit (by simp)

theorem die_quiet (hq : o.quiet = true) (text : String) :
    (die o text).All fun e => ¬ e.OnStdout := by
  unfold die
  rw [if_pos hq]
  exact .emit (by simp [Effect.OnStdout])

theorem printError_quiet (text : String) : (printError o text).All fun e => ¬ e.OnStdout :=
  .emit (by simp [Effect.OnStdout])

theorem getFuture_all {α : Type} {P : Effect K → Prop} (r : Run K (Option α)) : (getFuture r).All P := by
  unfold getFuture
  split <;> exact fun e he => by cases he

/-- C60. With `--quiet` nothing appears on the standard output, whatever happens. -/
theorem quiet_prints_nothing (hq : o.quiet = true) :
    ∀ e ∈ (body E m c o).effects, ¬ e.OnStdout := by
  have hsave : ∀ f s j, (saveJson m o f s j).All fun e => ¬ e.OnStdout := by
    intro f s j
    unfold saveJson
    refine (Io.All.lift _).bind fun _ => (Io.All.lift _).bind fun _ => ?_
    split
    · exact (Io.All.emit (by cases m.room <;> simp [Effect.OnStdout])).bind fun _ => print_quiet hq _
    · exact (printError_quiet _).bind fun _ => .fail
  have hparse : (parseConfig m o).All fun e => ¬ e.OnStdout := by
    unfold parseConfig
    refine (print_quiet hq _).bind fun _ => (Io.All.lift _).bind fun _ => ?_
    split
    · exact (die_quiet hq _).bind fun _ => .fail
    · exact (die_quiet hq _).bind fun _ => (printError_quiet _).bind fun _ => .fail
    · split
      · exact (print_quiet hq _).bind fun _ => .pure _
      · split
        · exact (die_quiet hq _).bind fun _ => .fail
        · exact (die_quiet hq _).bind fun _ => .lift _
      · exact .lift _
  suffices h : (body E m c o).All fun e => ¬ e.OnStdout from h
  unfold body
  refine hparse.bind fun config => ?_
  cases c with
  | schedule =>
    refine Io.All.bind ?_ fun j => hsave _ _ _
    unfold jsonSchedule
    refine (Io.All.lift _).bind fun _ => (Io.All.lift _).bind fun _ => ?_
    dsimp only
    rw [if_pos hq]
    exact (Io.All.pure _).bind fun _ => (getFuture_all _).bind fun _ => .lift _
  | predict =>
    refine Io.All.bind ?_ fun j => hsave _ _ _
    unfold runPrediction
    refine (Io.All.lift _).bind fun _ => (Io.All.lift _).bind fun _ => ?_
    dsimp only
    rw [if_pos hq]
    exact (Io.All.pure _).bind fun _ => (getFuture_all _).bind fun _ => (print_quiet hq _).bind fun _ =>
      (Io.All.lift _).bind fun _ => (Io.All.lift _).bind fun _ => (Io.All.lift _).bind fun _ => .lift _

/-! ### C46 -/

theorem parseConfig_ok (hf : o.filename ≠ "") {root : Yaml} {p : Project} (hs : m.source = .doc root)
    (hl : load m.readFloat root = ok p) :
    ∃ pre : List (Effect K), (∀ e ∈ pre, e.OnStdout) ∧ parseConfig m o = ⟨pre, .ok p⟩ := by
  refine ⟨(if o.quiet then [] else [.stdout "Parsing configuration... "])
    ++ (if o.quiet then [] else [.stdout "OK\n"]), ?_, ?_⟩
  · intro e he
    rcases List.mem_append.1 he with he | he
    · exact quiet_stdout o _ e he
    · exact quiet_stdout o _ e he
  · unfold parseConfig Cli.print
    rw [Io.emit_bind, expects_filename hf, Io.lift_ok_bind, hs]
    dsimp only
    rw [hl]
    dsimp only
    rw [Io.emit_bind]
    simp [Io.pure_def]

theorem choose_ok {color : Bool} {columns : Nat} (h : color = true → columns < 5 ∨ 9 ≤ columns) :
    ∃ w, Progress.choose color columns = ok w := by
  unfold Progress.choose
  cases color with
  | false => exact ⟨_, rfl⟩
  | true =>
    have : ∃ w, Progress.barWidth columns = ok w := by
      unfold Progress.barWidth Progress.terminalWidth
      rcases h rfl with h | h
      · rw [if_pos h]
        exact ⟨_, rfl⟩
      · rw [if_neg (c := columns < 5) (by omega), if_pos (by omega)]
        exact ⟨_, rfl⟩
    obtain ⟨w, hw⟩ := this
    exact ⟨some w, by simp [hw]⟩

theorem choose_cases (color : Bool) (columns : Nat) :
    (∃ w, Progress.choose color columns = ok w) ∨ Progress.choose color columns = throws .system := by
  unfold Progress.choose Progress.barWidth
  cases color with
  | false => exact Or.inl ⟨_, rfl⟩
  | true =>
    by_cases h : 0 ≤ Progress.terminalWidth columns - 9
    · rw [if_pos h]
      exact Or.inl ⟨_, rfl⟩
    · rw [if_neg h]
      exact Or.inr rfl

/-- Consuming events if the log can be opened and the progress displayed -/
theorem consumeEvents_open {α : Type} {r : Run K (Option α)} (hq : o.quiet = false) (hl : CanReport m o) :
    consumeEvents m.logWritable m.columns o r = (match ({ color := o.color, verbose := o.verbose, logOptimization := o.logOptimization } :
      Handler K).handleAll r.events with
    | throws e => ⟨[], .throws e⟩
    | ub s => ⟨[], .ub s⟩
    | ok h =>
      ⟨h.output.map .stdout ++ h.display.map .progress ++ (h.log.toList.map .log),
        match r.result with
        | ub s => .ub s
        | ok none => .running
        | _ => if .simple .finished ∈ r.events then .ok () else .hang⟩) := by
  obtain ⟨w, hw⟩ := choose_ok (hl hq).2
  rw [consumeEvents, hw]
  dsimp only
  rw [if_neg]
  · rfl
  · intro h
    simp only [Bool.and_eq_true, Bool.not_eq_true'] at h
    rw [(hl hq).1 h.1] at h
    cases h.2

theorem jsonSchedule_eq {p : Project} (hp : p.Sound) :
    jsonSchedule E m p o = (do
      let _ ← (if o.quiet then pure () else
        consumeEvents m.logWritable m.columns o (Predict.schedule E p o.opt m.threads m.draws m.fuel))
      let s ← getFuture (Predict.schedule E p o.opt m.threads m.draws m.fuel)
      Io.lift (Timetable.toJson E p s.schedule s.makespan)) := by
  unfold jsonSchedule
  rw [expects_true (by simpa using hp.tasks_ne), Io.lift_ok_bind,
    expects_true (by simpa using hp.agents_ne), Io.lift_ok_bind]

theorem runPrediction_eq {p : Project} (hp : p.Sound) :
    runPrediction E m p o = (do
      let _ ← (if o.quiet then pure () else consumeEvents m.logWritable m.columns o
        (Predict.predict E p o.binSize o.opt m.threads m.draws m.fuel m.more m.fuel' m.zs))
      let r ← getFuture (Predict.predict E p o.binSize o.opt m.threads m.draws m.fuel m.more m.fuel' m.zs)
      printHistogramStats o r.stats
      let j ← Io.lift (Timetable.toJson E p r.schedule r.makespan)
      let j ← Io.lift (setField j "stats" r.stats.toJson)
      let h ← Io.lift r.histogram.toJson
      Io.lift (setField j "histogram" h)) := by
  unfold runPrediction
  rw [expects_true (by simpa using hp.tasks_ne), Io.lift_ok_bind,
    expects_true (by simpa using hp.agents_ne), Io.lift_ok_bind]

/-- C46 in part: with `--quiet` an exception of the prediction thread ends the program (as an exception that nobody catches).
What is missing is the normal mode, where it does not: see the next theorem. -/
theorem quiet_failure_reported_partial (hq : o.quiet = true) (hf : o.filename ≠ "") {root : Yaml}
    {p : Project} (hs : m.source = .doc root) (hl : load m.readFloat root = ok p) (hp : p.Sound)
    {e : Err} :
    ((Predict.schedule E p o.opt m.threads m.draws m.fuel).result = throws e →
      status (body E m .schedule o).flow = .aborted e) ∧
    ((Predict.predict E p o.binSize o.opt m.threads m.draws m.fuel m.more m.fuel' m.zs).result = throws e →
      status (body E m .predict o).flow = .aborted e) := by
  obtain ⟨pre, _, hpc⟩ := parseConfig_ok hf hs hl
  constructor
  · intro h
    unfold body
    rw [hpc, Io.bind_ok]
    dsimp only
    rw [jsonSchedule_eq hp, if_pos hq, Io.pure_bind', getFuture, h]
    rfl
  · intro h
    unfold body
    rw [hpc, Io.bind_ok]
    dsimp only
    rw [runPrediction_eq hp, if_pos hq, Io.pure_bind', getFuture, h]
    rfl

/-- C46 is false without `--quiet`: every exception of the prediction thread makes the program wait forever. -/
theorem failure_not_reported (hq : o.quiet = false) (hlog : CanReport m o) (hf : o.filename ≠ "") {root : Yaml}
    {p : Project} (hs : m.source = .doc root) (hl : load m.readFloat root = ok p) (hp : p.Sound)
    {sp : ScheduleParams K} (hsp : toScheduleParams E p = ok sp)
    (ho : ValidOptions E (o.opt.options sp)) (ht : 0 < m.threads) {e : Err} :
    ((Predict.schedule E p o.opt m.threads m.draws m.fuel).result = throws e →
      status (body E m .schedule o).flow = .hang) ∧
    ((Predict.predict E p o.binSize o.opt m.threads m.draws m.fuel m.more m.fuel' m.zs).result = throws e →
      status (body E m .predict o).flow = .hang) := by
  obtain ⟨pre, _, hpc⟩ := parseConfig_ok hf hs hl
  constructor
  · intro h
    obtain ⟨ps, hps, _, ⟨r, hr⟩ | ⟨hev, hr⟩⟩ := schedule_shape E p o.opt m.threads m.draws m.fuel
    · rw [hr] at h; cases h
    obtain ⟨h', hh, _⟩ := log_rows (more := m.more) (fuel' := m.fuel') (zs := m.zs)
      (binSize := o.binSize) hsp ho ht (by rw [hev]; simp) (Or.inr List.prefix_rfl)
      ({ color := o.color, verbose := o.verbose, logOptimization := o.logOptimization } : Handler K)
    have hno : (.simple .finished : Event K)
        ∉ (Predict.schedule E p o.opt m.threads m.draws m.fuel).events := by
      intro hm
      rw [hev, List.mem_cons] at hm
      rcases hm with hm | hm
      · cases hm
      · exact hps _ hm
    unfold body
    rw [hpc, Io.bind_ok]
    dsimp only
    rw [jsonSchedule_eq hp, if_neg (by simp [hq]), consumeEvents_open hq hlog, hh]
    dsimp only
    rw [h]
    dsimp only
    rw [if_neg hno]
    rfl
  · intro h
    obtain ⟨ps, hps, _, ⟨r, hr⟩ | ⟨hev, hr⟩⟩ := predict_shape E p o.binSize o.opt m.threads m.draws m.fuel
      m.more m.fuel' m.zs
    · rw [hr] at h; cases h
    have hne : (Predict.predict E p o.binSize o.opt m.threads m.draws m.fuel m.more m.fuel' m.zs).events
        ≠ [] := by
      rcases hev with hev | ⟨_, hev⟩ <;> rw [hev] <;> simp
    obtain ⟨h', hh, _⟩ := log_rows (more := m.more) (fuel' := m.fuel') (zs := m.zs)
      (binSize := o.binSize) hsp ho ht hne (Or.inl List.prefix_rfl)
      ({ color := o.color, verbose := o.verbose, logOptimization := o.logOptimization } : Handler K)
    have hno : (.simple .finished : Event K)
        ∉ (Predict.predict E p o.binSize o.opt m.threads m.draws m.fuel m.more m.fuel' m.zs).events := by
      intro hm
      rcases hev with hev | ⟨_, hev⟩
      · rw [hev, List.mem_cons] at hm
        rcases hm with hm | hm
        · cases hm
        · exact hps _ hm
      · rw [hev] at hm
        simp only [List.mem_cons, List.mem_append, List.not_mem_nil, or_false] at hm
        rcases hm with hm | hm | hm | hm
        · cases hm
        · exact hps _ hm
        · cases hm
        · cases hm
    unfold body
    rw [hpc, Io.bind_ok]
    dsimp only
    rw [runPrediction_eq hp, if_neg (by simp [hq]), consumeEvents_open hq hlog, hh]
    dsimp only
    rw [h]
    dsimp only
    rw [if_neg hno]
    rfl

/-! ### C62 -/

/-- Consuming the events of a run that returns. -/
theorem consumeEvents_schedule (hq : o.quiet = false) (hlog : CanReport m o) {p : Project} {sp : ScheduleParams K}
    (hsp : toScheduleParams E p = ok sp) (ho : ValidOptions E (o.opt.options sp)) (ht : 0 < m.threads)
    {r : OptimizedSchedule}
    (h : (Predict.schedule E p o.opt m.threads m.draws m.fuel).result = ok (some r)) :
    ∃ es : List (Effect K), (∀ e ∈ es, ¬ e.IsFile) ∧
      consumeEvents m.logWritable m.columns o (Predict.schedule E p o.opt m.threads m.draws m.fuel) = ⟨es, .ok ()⟩ := by
  obtain ⟨ps, hps, _, ⟨r', hr⟩ | ⟨hev, hr⟩⟩ := schedule_shape E p o.opt m.threads m.draws m.fuel
  · obtain ⟨h', hh, _⟩ := log_rows (more := m.more) (fuel' := m.fuel') (zs := m.zs)
      (binSize := o.binSize) hsp ho ht (by rw [hr]; simp) (Or.inr List.prefix_rfl)
      ({ color := o.color, verbose := o.verbose, logOptimization := o.logOptimization } : Handler K)
    refine ⟨h'.output.map .stdout ++ h'.display.map .progress ++ h'.log.toList.map .log, ?_, ?_⟩
    · intro e he
      simp only [List.mem_append, List.mem_map] at he
      rcases he with (⟨_, _, rfl⟩ | ⟨_, _, rfl⟩) | ⟨_, _, rfl⟩ <;> exact id
    · rw [consumeEvents_open hq hlog, hh]
      dsimp only
      rw [h]
      dsimp only
      rw [if_pos (by rw [hr]; simp)]
  · exact absurd h (hr r)

/-- Any execution of a schedule of a project that takes between `b₁` and `b₂` seconds takes at least `b₁` seconds, and there is one of less than
`b₂` seconds. -/
theorem bounded_executions (hE : E.IsExact) {p : Project} (hp : p.Sound) {b₁ b₂ : ℚ} (hb₁ : 0 < b₁) (hb₂ : 0 < b₂)
    (hmod : p.TakesBetween b₁ b₂)
    {sp : ScheduleParams K} (hsp : toScheduleParams E p = ok sp) {s : List Item}
    (hs : ValidSchedule sp s) :
    (∃ start finish, Execution E (p.secondsParams E sp) s start finish ∧
      ∀ it ∈ s, finish it.task < b₂) ∧
    ∀ start finish, Execution E (p.secondsParams E sp) s start finish →
      ∃ it ∈ s, b₁ ≤ finish it.task := by
  have hf : p.FloatsIn E := fun _ _ _ _ => hE _
  obtain ⟨hw, hc⟩ := secondsParams_wellFormed hp hf hsp
  have hs' := secondsParams_valid hc hs
  obtain ⟨hpt, hpa, _⟩ := params_faithful hp.agent_groups hp.task_groups hsp
  -- performances of agents
  have hperf : ∀ k < p.agents.length, ∃ a ∈ p.agents, ∃ lo hi : ℚ, a.PerformanceOk lo hi ∧
      (lo : K) ≤ sp.agentPerformance.getD k 0 ∧ sp.agentPerformance.getD k 0 ≤ hi := by
    intro k hk
    have hka := List.getElem?_eq_getElem hk
    obtain ⟨lo, hi, hok⟩ := hp.performance _ (List.getElem_mem hk)
    obtain ⟨x, hx, h1, h2⟩ := params_performance_between hsp hf hka hok
    refine ⟨_, List.getElem_mem hk, lo, hi, hok, ?_⟩
    rw [List.getD_eq_getElem?_getD, hx]
    exact ⟨h1, h2⟩
  have hdur : ∀ t (ht : t < p.tasks.length), (p.secondsParams E sp).taskDuration.getD t 0
      = ((p.tasks[t].meanDuration : Int) : K) := by
    intro t ht
    simp [Project.secondsParams, List.getD_eq_getElem?_getD, List.getElem?_eq_getElem ht, FloatEnv.ofInt,
      hE _]
  have hfit : ∀ it ∈ s, it.task < p.tasks.length ∧ it.agent < p.agents.length := by
    intro it hit
    have := hs'.fits hw hit
    have h1 := this.task_dur
    have h2 := this.agent_perf
    simp only [Project.secondsParams, List.length_map] at h1 h2
    exact ⟨h1, by rw [← hpa]; exact h2⟩
  have htime : ∀ it ∈ s, (p.secondsParams E sp).itemTime E it
      = (p.secondsParams E sp).taskDuration.getD it.task 0 / sp.agentPerformance.getD it.agent 0 := by
    intro it _
    unfold ScheduleParams.itemTime FloatEnv.div
    rw [hE]
    rfl
  constructor
  · obtain ⟨start, finish, hex, hend, _, _⟩ := makespanValue_spec (E := E) hw hs'
    refine ⟨start, finish, hex, fun it hit => lt_of_le_of_lt (hend.1 it hit) ?_⟩
    obtain ⟨n₀, n₁, hnew, hcall⟩ := (isMakespan_iff (E := E) hw hs').2 rfl
    refine lt_of_le_of_lt (makespan_bounds_exact E hE hw hs' (.new hnew) hcall).2.2 ?_
    -- every item takes at most its share of the time
    have hb₂K : (0 : K) < b₂ := by exact_mod_cast hb₂
    have hS : (0 : K) < (((p.tasks.map Task.meanDuration).sum : Int) : K) := by
      have : 0 < (p.tasks.map Task.meanDuration).sum := by
        apply List.sum_pos
        · intro x hx
          obtain ⟨t, ht, rfl⟩ := List.mem_map.1 hx
          exact meanDuration_pos (hp.durations t ht)
        · simpa using hp.tasks_ne
      exact_mod_cast this
    set S : K := (((p.tasks.map Task.meanDuration).sum : Int) : K) with hSdef
    have hle : ∀ it ∈ s, (p.secondsParams E sp).itemTime E it
        < (p.secondsParams E sp).taskDuration.getD it.task 0 * (b₂ / S) := by
      intro it hit
      obtain ⟨ht, ha⟩ := hfit it hit
      rw [htime it hit, hdur _ ht]
      obtain ⟨a, ha, lo, hi', hok, hlo, hhi⟩ := hperf it.agent ha
      have h0 : (0 : K) < ((p.tasks[it.task].meanDuration : Int) : K) := by
        exact_mod_cast meanDuration_pos (hp.durations _ (List.getElem_mem ht))
      have h1 : (0 : K) < sp.agentPerformance.getD it.agent 0 :=
        lt_of_lt_of_le (by exact_mod_cast hok.2.2.1) hlo
      have h2 : S < b₂ * (lo : K) := by
        have := hmod.shorter a ha lo hok.1
        rw [hSdef]
        exact_mod_cast this
      have h3 : S < b₂ * sp.agentPerformance.getD it.agent 0 :=
        h2.trans_le (mul_le_mul_of_nonneg_left hlo hb₂K.le)
      rw [div_eq_mul_inv]
      refine mul_lt_mul_of_pos_left ?_ h0
      rw [inv_eq_one_div, div_lt_div_iff₀ h1 hS]
      linarith
    have hsne : s ≠ [] := by
      intro h0
      have := hs.length
      have := List.length_pos_of_ne_nil hp.tasks_ne
      rw [h0] at *
      simp only [List.length_nil] at *
      omega
    refine lt_of_lt_of_eq (List.sum_lt_sum_of_ne_nil hsne _ _ hle) ?_
    have hperm := hs.complete.map fun t => (p.secondsParams E sp).taskDuration.getD t 0 * (b₂ / S)
    have h1 := hperm.sum_eq
    rw [List.map_map] at h1
    rw [show (fun it : Item => (p.secondsParams E sp).taskDuration.getD it.task 0 * (b₂ / S))
      = (fun t => (p.secondsParams E sp).taskDuration.getD t 0 * (b₂ / S)) ∘ Item.task from rfl, h1,
      List.sum_map_mul_right]
    have h2 : (List.range sp.taskCount).map (fun t => (p.secondsParams E sp).taskDuration.getD t 0)
        = (p.tasks.map Task.meanDuration).map (Int.cast : Int → K) := by
      apply List.ext_getElem
      · simp [hpt]
      · intro i h1 h2
        simp only [List.getElem_map, List.getElem_range]
        rw [hdur i (by simpa using h2)]
    rw [h2, ← Int.cast_list_sum, ← hSdef]
    field_simp
  · obtain ⟨t, ht, hl⟩ := hmod.longer
    obtain ⟨i, hi, rfl⟩ := List.getElem_of_mem ht
    intro start finish hex
    have hmem : i ∈ s.map Item.task := hs.complete.mem_iff.2 (List.mem_range.2 (by rw [hpt]; exact hi))
    obtain ⟨it, hit, rfl⟩ := List.mem_map.1 hmem
    refine ⟨it, hit, ?_⟩
    rw [hex.time it hit, FloatEnv.add, hE, htime it hit, hdur _ hi]
    have h0 := hex.nonneg it hit
    obtain ⟨a, ha, lo, hi', hok, hlo, hhi⟩ := hperf it.agent (hfit it hit).2
    have h1 : (0 : K) < sp.agentPerformance.getD it.agent 0 :=
      lt_of_lt_of_le (by exact_mod_cast hok.2.2.1) hlo
    have h2 : (b₁ : K) * hi' ≤ ((p.tasks[it.task].meanDuration : Int) : K) := by
      exact_mod_cast hl a ha hi' hok.2.1
    have hb₁K : (0 : K) < b₁ := by exact_mod_cast hb₁
    have h3 : (b₁ : K) * sp.agentPerformance.getD it.agent 0 ≤ (p.tasks[it.task].meanDuration : Int) :=
      (mul_le_mul_of_nonneg_left hhi hb₁K.le).trans h2
    have := (le_div_iff₀ h1).2 h3
    linarith

/-- Any execution of a schedule of a moderate project takes at least a second, and there is one of less than 2³¹ seconds. -/
theorem moderate_executions (hE : E.IsExact) {p : Project} (hp : p.Sound) (hmod : p.Moderate)
    {sp : ScheduleParams K} (hsp : toScheduleParams E p = ok sp) {s : List Item}
    (hs : ValidSchedule sp s) :
    (∃ start finish, Execution E (p.secondsParams E sp) s start finish ∧
      ∀ it ∈ s, finish it.task < 2 ^ 31) ∧
    ∀ start finish, Execution E (p.secondsParams E sp) s start finish →
      ∃ it ∈ s, 1 ≤ finish it.task := by
  have := bounded_executions hE hp (by norm_num) (by norm_num) hmod hsp hs
  push_cast at this
  exact this

/-- The schedule command, for every rounding. Let the document load into a sound project, let the options be valid, and let every valid schedule
with its makespan have a JSON. Then, whatever the random numbers are, after some number of rounds the program exits successfully; it has
written the output file once, with the JSON of a valid schedule, the one `schedule` has returned. -/
theorem schedule_command_result (hf : o.filename ≠ "") (hout : o.output ≠ "")
    {root : Yaml} {p : Project} (hs : m.source = .doc root) (hl : load m.readFloat root = ok p)
    (hp : p.Sound) (hw : CanWrite m o) (ht : 0 < m.threads)
    {sp : ScheduleParams K} (hsp : toScheduleParams E p = ok sp)
    (ho : ValidOptions E (o.opt.options sp)) {P : List Item → Int → List TaskEntry → Prop}
    (hjson : ∀ s v, ValidSchedule sp s → IsMakespan E sp s v → ∃ mk es, Predict.makespan E sp v = ok mk ∧
      Timetable.toJson E p s mk
        = ok (.obj [("makespan", .int mk), ("tasks", .arr (es.map TaskEntry.object))]) ∧ P s mk es) :
    ∃ (N : Nat) (s : List Item) (mk : Int) (es : List TaskEntry), ValidSchedule sp s ∧ P s mk es ∧
      (∃ fuel r, (Predict.schedule E p o.opt m.threads m.draws fuel).result = ok (some r) ∧ r.schedule = s) ∧
      ∀ fuel, N ≤ fuel → status (body E { m with fuel := fuel } .schedule o).flow = .exit 0 ∧
        ∃ pre post : List (Effect K), (∀ e ∈ pre ++ post, ¬ e.IsFile) ∧
          (body E { m with fuel := fuel } .schedule o).effects = pre ++ [.file o.output
            (.obj [("makespan", .int mk), ("tasks", .arr (es.map TaskEntry.object))])] ++ post := by
  have hfit : ∀ s v, ValidSchedule sp s → IsMakespan E sp s v →
      E.mul v sp.durationMultiplier < 2 ^ 63 := by
    intro s v hs hv
    obtain ⟨m', _, hm', _⟩ := hjson s v hs hv
    unfold Predict.makespan at hm'
    obtain ⟨_, hx, _⟩ := bind_eq_ok.1 hm'
    have hx' := of_decide_eq_true (expects_eq_ok.1 hx)
    by_contra hge
    have hge' := not_lt.1 hge
    rw [truncate_of_nonneg (le_trans (by positivity) hge')] at hx'
    have := Int.floor_lt.1 hx'.2
    norm_num at this hge'
    exact absurd this (not_lt.2 hge')
  obtain ⟨N, r, v, hres, hvs, hmk, hwhole, hpm⟩ := schedule_completes hsp ho ht m.draws hfit
  obtain ⟨mk, es, hm, hj, hP⟩ := hjson _ _ hvs hmk
  have hmr : r.makespan = mk := by
    rw [hpm] at hm
    exact (Outcome.ok.injEq ..).mp hm
  refine ⟨N, r.schedule, mk, es, hvs, hP, ⟨N, r, hres N le_rfl, rfl⟩, ?_⟩
  intro fuel hN
  obtain ⟨pre, hpre, hpc⟩ := parseConfig_ok (m := { m with fuel := fuel }) hf hs hl
  have hres' := hres fuel hN
  -- the events are consumed
  obtain ⟨cs, hcs, hc⟩ : ∃ cs : List (Effect K), (∀ e ∈ cs, ¬ e.IsFile) ∧
      (if o.quiet then pure () else consumeEvents m.logWritable m.columns o (Predict.schedule E p o.opt m.threads m.draws fuel))
        = (⟨cs, .ok ()⟩ : Io K Unit) := by
    by_cases hq : o.quiet = true
    · exact ⟨[], by simp, by rw [if_pos hq]; rfl⟩
    · rw [if_neg hq]
      exact consumeEvents_schedule (m := { m with fuel := fuel }) (by simpa using hq) hw.2 hsp ho ht hres'
  have hjs : jsonSchedule E { m with fuel := fuel } p o = ⟨cs, .ok (.obj [("makespan", .int mk),
      ("tasks", .arr (es.map TaskEntry.object))])⟩ := by
    rw [jsonSchedule_eq hp]
    dsimp only
    rw [hc, Io.bind_ok, getFuture, hres']
    dsimp only
    rw [Io.bind_ok, hmr, hj]
    simp [Io.lift]
  have hsave : ∀ a b j, j ≠ [] → saveJson { m with fuel := fuel } o a b (.obj j)
      = ⟨[.file o.output (.obj j)] ++ (if o.quiet then [] else [.stdout b]), .ok ()⟩ := by
    intro a b j hjne
    unfold saveJson
    rw [expects_true (by simpa using hout), Io.lift_ok_bind,
      expects_true (by simpa [isEmptyJson] using hjne), Io.lift_ok_bind, if_pos hw.1.1, if_pos hw.1.2, Io.emit_bind]
    rfl
  have hbody : body E { m with fuel := fuel } .schedule o = ⟨(pre ++ cs) ++ [.file o.output
        (.obj [("makespan", .int mk), ("tasks", .arr (es.map TaskEntry.object))])] ++
        (if o.quiet then [] else [.stdout ("Saving the optimized schedule to \"" ++ o.output ++ "\".\n")]),
      .ok ()⟩ := by
    unfold body
    rw [hpc, Io.bind_ok]
    dsimp only
    rw [hjs, Io.bind_ok, hsave _ _ _ (by simp)]
    simp
  rw [hbody]
  refine ⟨rfl, _, _, ?_, rfl⟩
  intro e he
  rcases List.mem_append.1 he with he | he
  · rcases List.mem_append.1 he with he | he
    · have := hpre e he
      match e, this with
      | .stdout _, _ => exact id
      | .progress _, _ => exact id
    · exact hcs e he
  · have := quiet_stdout o _ e he
    match e, this with
    | .stdout _, _ => exact id
    | .progress _, _ => exact id

/-- The schedule command, for every rounding. Let the document load into a sound project, let the options be valid, and let every valid schedule
with its makespan have a JSON. Then, whatever the random numbers are, after some number of rounds the program exits successfully; it has
written the output file once, with the JSON of a valid schedule. -/
theorem schedule_command_core (hf : o.filename ≠ "") (hout : o.output ≠ "")
    {root : Yaml} {p : Project} (hs : m.source = .doc root) (hl : load m.readFloat root = ok p)
    (hp : p.Sound) (hw : CanWrite m o) (ht : 0 < m.threads)
    {sp : ScheduleParams K} (hsp : toScheduleParams E p = ok sp)
    (ho : ValidOptions E (o.opt.options sp)) {P : List Item → Int → List TaskEntry → Prop}
    (hjson : ∀ s v, ValidSchedule sp s → IsMakespan E sp s v → ∃ mk es, Predict.makespan E sp v = ok mk ∧
      Timetable.toJson E p s mk
        = ok (.obj [("makespan", .int mk), ("tasks", .arr (es.map TaskEntry.object))]) ∧ P s mk es) :
    ∃ (N : Nat) (s : List Item) (mk : Int) (es : List TaskEntry), ValidSchedule sp s ∧ P s mk es ∧
      ∀ fuel, N ≤ fuel → status (body E { m with fuel := fuel } .schedule o).flow = .exit 0 ∧
        ∃ pre post : List (Effect K), (∀ e ∈ pre ++ post, ¬ e.IsFile) ∧
          (body E { m with fuel := fuel } .schedule o).effects = pre ++ [.file o.output
            (.obj [("makespan", .int mk), ("tasks", .arr (es.map TaskEntry.object))])] ++ post := by
  obtain ⟨N, s, mk, es, h1, h2, _, h3⟩ := schedule_command_result hf hout hs hl hp hw ht hsp ho hjson
  exact ⟨N, s, mk, es, h1, h2, h3⟩

/-- C62, more generally. The schedule command, from the document to the output file, for exact arithmetic. Let the document load into a sound project
(see `loaded_sound`), let the options be valid and every valid schedule take between a second and 2³¹ seconds.
Then, whatever the random numbers are, after some number of rounds the program exits successfully; it has written the output file
once, with the timetable of the fastest execution of a valid schedule of the project and the whole part of its end as the makespan. -/
theorem schedule_command_general (hE : E.IsExact) (hf : o.filename ≠ "") (hout : o.output ≠ "")
    {root : Yaml} {p : Project} (hs : m.source = .doc root) (hl : load m.readFloat root = ok p)
    (hp : p.Sound) (hw : CanWrite m o) (ht : 0 < m.threads)
    {sp : ScheduleParams K} (hsp : toScheduleParams E p = ok sp)
    (ho : ValidOptions E (o.opt.options sp))
    (hb : ∀ s, ValidSchedule sp s → ∃ start finish,
      Execution E (p.secondsParams E sp) s start finish ∧ ∀ it ∈ s, finish it.task < 2 ^ 31)
    (h1 : ∀ s, ValidSchedule sp s → ∀ start finish,
      Execution E (p.secondsParams E sp) s start finish → ∃ it ∈ s, 1 ≤ finish it.task) :
    ∃ (N : Nat) (s : List Item) (mk : Int) (es : List TaskEntry) (start finish : Nat → K) (V : K),
      ValidSchedule sp s ∧ es.length = s.length ∧
      (∀ (i : Nat) (it : Item) (e : TaskEntry), s[i]? = some it → es[i]? = some e →
        e.Correct E p (p.secondsParams E sp) s start i it ∧ e.start + e.duration ≤ mk) ∧
      Earliest E (p.secondsParams E sp) s start finish ∧ IsEnd s finish V ∧ IsWholePart mk V ∧
      ∀ fuel, N ≤ fuel → status (body E { m with fuel := fuel } .schedule o).flow = .exit 0 ∧
        ∃ pre post : List (Effect K), (∀ e ∈ pre ++ post, ¬ e.IsFile) ∧
          (body E { m with fuel := fuel } .schedule o).effects = pre ++ [.file o.output
            (.obj [("makespan", .int mk), ("tasks", .arr (es.map TaskEntry.object))])] ++ post := by
  obtain ⟨N, s, mk, es, hvs, ⟨start, finish, V, hlen, hcor, hex, hend, hV⟩, h⟩ := schedule_command_core hf hout hs hl hp hw ht
    hsp ho (P := fun s mk es => ∃ (start finish : Nat → K) (V : K), es.length = s.length ∧
      (∀ (i : Nat) (it : Item) (e : TaskEntry), s[i]? = some it → es[i]? = some e →
        e.Correct E p (p.secondsParams E sp) s start i it ∧ e.start + e.duration ≤ mk) ∧
      Earliest E (p.secondsParams E sp) s start finish ∧ IsEnd s finish V ∧ IsWholePart mk V)
    (fun s v hs hv => by
      obtain ⟨mk, es, start, finish, hm, hj, hlen, hcor, hex, V, hend, hV⟩ := schedule_json_exact hE hp hsp hs hv (hb s hs) (h1 s hs)
      exact ⟨mk, es, hm, hj, start, finish, V, hlen, hcor, hex, hend, hV⟩)
  exact ⟨N, s, mk, es, start, finish, V, hvs, hlen, hcor, hex, hend, hV, h⟩

/-- C62. The schedule command, from the document to the output file, for exact arithmetic. Let the document load into a sound
project (see `loaded_sound`) that takes at least a second and at most 2³¹ seconds, and let the options be valid.
Then, whatever the random numbers are, after some number of rounds the program exits successfully; it has written the output file
once, with the timetable of the fastest execution of a valid schedule of the project and the whole part of its end as the makespan. -/
theorem schedule_command (hE : E.IsExact) (hf : o.filename ≠ "") (hout : o.output ≠ "")
    {root : Yaml} {p : Project} (hs : m.source = .doc root) (hl : load m.readFloat root = ok p)
    (hp : p.Sound) (hmod : p.Moderate) (hw : CanWrite m o) (ht : 0 < m.threads)
    {sp : ScheduleParams K} (hsp : toScheduleParams E p = ok sp)
    (ho : ValidOptions E (o.opt.options sp)) :
    ∃ (N : Nat) (s : List Item) (mk : Int) (es : List TaskEntry) (start finish : Nat → K) (V : K),
      ValidSchedule sp s ∧ es.length = s.length ∧
      (∀ (i : Nat) (it : Item) (e : TaskEntry), s[i]? = some it → es[i]? = some e →
        e.Correct E p (p.secondsParams E sp) s start i it ∧ e.start + e.duration ≤ mk) ∧
      Earliest E (p.secondsParams E sp) s start finish ∧ IsEnd s finish V ∧ IsWholePart mk V ∧
      ∀ fuel, N ≤ fuel → status (body E { m with fuel := fuel } .schedule o).flow = .exit 0 ∧
        ∃ pre post : List (Effect K), (∀ e ∈ pre ++ post, ¬ e.IsFile) ∧
          (body E { m with fuel := fuel } .schedule o).effects = pre ++ [.file o.output
            (.obj [("makespan", .int mk), ("tasks", .arr (es.map TaskEntry.object))])] ++ post :=
  schedule_command_general hE hf hout hs hl hp hw ht hsp ho
    (fun _ h => (moderate_executions hE hp hmod hsp h).1)
    (fun _ h => (moderate_executions hE hp hmod hsp h).2)

/-! ### Examples -/

/-- The default options (`cli/options.h:54-63`) for a file `plan.yml` -/
def cliOptions : Cli.Options ℚ where
  filename := "plan.yml"
  verbose := false
  color := true
  quiet := false
  output := "time_estimation.json"
  opt := exampleOpt
  logOptimization := false
  binSize := none

/-- A machine with four threads on which `plan.yml` is `plan` -/
def exampleMachine (draws : Nat → Nat → Nat → Draws ℚ) : Machine ℚ where
  source := .doc Sample.plan
  readFloat := Sample.number
  writable := true
  room := true
  logWritable := true
  columns := 80
  threads := 4
  draws := draws
  fuel := 0
  more := fun _ => ok false
  fuel' := 0
  zs := []

/-- It can write everything, whatever the options are. -/
theorem example_canWrite {draws : Nat → Nat → Nat → Draws ℚ} {o : Cli.Options ℚ} : CanWrite (exampleMachine draws) o :=
  ⟨⟨rfl, rfl⟩, fun _ => ⟨fun _ => rfl, fun _ => Or.inr (by exact (by decide : 9 ≤ 80))⟩⟩

theorem plan_moderate : Sample.project.Moderate where
  longer := by
    refine ⟨_, List.mem_cons_self, ?_⟩
    intro a ha q hq
    simp only [Sample.project, List.mem_cons, List.not_mem_nil, or_false] at ha
    rcases ha with rfl | rfl <;> (cases hq; decide +kernel)
  shorter := by
    intro a ha q hq
    simp only [Sample.project, List.mem_cons, List.not_mem_nil, or_false] at ha
    rcases ha with rfl | rfl <;> (cases hq; decide +kernel)

theorem cliOptions_valid {sp : ScheduleParams ℚ} (h : WellFormed sp) :
    ValidOptions FloatEnv.rat (cliOptions.opt.options sp) := by
  refine ⟨h, ?_, ?_, ?_, ⟨8, rfl⟩, ?_, ?_, ?_⟩
  · exact (by decide : 0 < exampleOpt.batchSize)
  · exact (by decide : 0 < exampleOpt.maxIdleIters)
  · exact (by decide : 0 < exampleOpt.stunWindow)
  · exact (by decide +kernel : 0 < exampleOpt.betaScale)
  · exact (by decide +kernel : FloatEnv.rat.rnd (FloatEnv.rat.slack + FloatEnv.rat.rnd (3 / 100)) * exampleOpt.betaScale ≤ 1)
  · exact (by decide +kernel : 0 ≤ exampleOpt.gamma)

/-- C62 applies to the example document `plan`: with the default options the program ends. -/
example (draws : Nat → Nat → Nat → Draws ℚ) : ∃ N, ∀ fuel, N ≤ fuel →
    status (body FloatEnv.rat { exampleMachine draws with fuel := fuel } .schedule cliOptions).flow
      = .exit 0 := by
  obtain ⟨sp, hsp, hw⟩ := params_wellFormed (E := FloatEnv.rat) plan_sound (fun _ _ _ _ => rfl)
  obtain ⟨N, _, _, _, _, _, _, _, _, _, _, _, _, h⟩ := schedule_command (m := exampleMachine draws)
    (fun _ => rfl) (by decide) (by decide) rfl Sample.plan_loads plan_sound plan_moderate example_canWrite (by exact (by decide : 0 < 4)) hsp
    (cliOptions_valid hw)
  exact ⟨N, fun fuel hN => (h fuel hN).1⟩

/-- C58 applies to a missing file and to a document with a cycle. -/
example (draws : Nat → Nat → Nat → Draws ℚ) :
    Complaint { exampleMachine draws with source := .badFile } cliOptions
      ["Error reading tasks and agents from file \"plan.yml\".\n"] ∧
    Complaint { exampleMachine draws with source := .doc Sample.cyclic } cliOptions
      ["Validation error: Dependency cycle detected.\n"] :=
  ⟨.badFile rfl, by
    have h := Complaint.invalid (m := { exampleMachine draws with source := .doc Sample.cyclic })
      (o := cliOptions) rfl cyclic_rejected rfl
    have h' : "Validation error: " ++ what .dependencyCycle ++ "\n"
        = "Validation error: Dependency cycle detected.\n" := by decide
    rwa [h'] at h⟩

/-- 128 tasks, one more than allowed -/
def Sample.oversized : Yaml := Sample.obj [
  ("agents", Sample.obj [("Jack", .null)]),
  ("tasks", .seq (List.replicate 128 (Sample.obj [("name", Sample.str "t"), ("duration", Sample.str "1h")])))]

/-- `oversized_project_aborts` applies to it. -/
example : load Sample.number Sample.oversized = throws .range := by
  rw [Load.load_eval 20 _ _ (by decide +kernel)]
  decide +kernel

end Angonoka.Props
