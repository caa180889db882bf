import Verif.Proof.CommandLine
import Verif.Props.FloatCommand
import Verif.Props.Temperature
import Mathlib.Tactic.Positivity
import Mathlib.Tactic.IntervalCases

/-!
# C71, C72: the command line options
-/

set_option linter.unusedSectionVars false

namespace Angonoka.Props
open Angonoka Outcome Stun Cli CommandLine

variable {K : Type} [Field K] [LinearOrder K] [IsStrictOrderedRing K]
variable {E : FloatEnv K} {read : ReadReal} {isFile : String → Bool} {terminal : Bool} {c : Command} {a : Arguments}
  {o : Cli.Options K}

/-- What `parse` has done if it accepts the arguments. -/
theorem parse_accepted (h : parse E read isFile terminal c a = .accepted o) :
    isFile a.input = true ∧ ∃ batch idle window period bin beta gamma,
      intOption read 10000 a.batchSize = some batch ∧ intOption read 100000 a.maxIdleIters = some idle ∧
      intOption read 100 a.stunWindow = some window ∧ restartPeriod read 256 a.restartPeriod = some period ∧
      binSizeOption read c a.binSize = some bin ∧
      floatOption E read (E.rnd (1 / 1000)) a.betaScale = .value beta ∧ floatOption E read 2 a.gamma = .value gamma ∧
      o = { filename := a.input, verbose := a.verbose, color := a.color.getD terminal, quiet := a.quiet,
            output := a.output.getD (defaultOutput c),
            opt := { batchSize := batch.toNat, maxIdleIters := idle.toNat, betaScale := beta, stunWindow := window.toNat,
                     gamma := gamma, restartPeriod := period.toNat },
            logOptimization := a.logOptimization, binSize := bin } := by
  unfold parse at h
  split at h
  · rename_i hf
    split at h
    · rename_i h1 h2 h3 h4 h5 h6 h7
      cases h
      exact ⟨hf, _, _, _, _, _, _, _, h1, h2, h3, h4, h5, h6, h7, rfl⟩
    all_goals cases h
  · cases h

/-- An accepted text of an option of type `int` is positive. -/
theorem accepted_positive (hs : SignsAgree read) {text : String} {v : Int} (hp : positiveNumber read text = true)
    (h : toInt text = some v) : 0 < v := by
  by_contra hv
  obtain ⟨q, hq, hq0⟩ := hs text v h (not_lt.1 hv)
  rw [positiveNumber, hq] at hp
  simp only [Bool.not_eq_true', Bool.or_eq_false_iff, decide_eq_false_iff_not, not_lt] at hp
  have : (0 : ℚ) < 2 ^ (-1022 : Int) := by positivity
  exact absurd (lt_of_lt_of_le this hp.1) (not_lt.2 hq0)

theorem intOption_positive (hs : SignsAgree read) {default v : Int} {text : Option String} (hd : 0 < default)
    (h : intOption read default text = some v) : 0 < v := by
  cases text with
  | none => cases h; exact hd
  | some t =>
    rw [intOption] at h
    split at h
    · rename_i hp
      exact accepted_positive hs hp h
    · cases h

theorem floatOption_cases {default v : K} {text : Option String} (h : floatOption E read default text = .value v) :
    (text = none ∧ v = default) ∨ ∃ t q, text = some t ∧ read t = some (.fin q) ∧ 0 < q ∧ v = E.rnd (q : K) := by
  cases text with
  | none =>
    cases h
    exact Or.inl ⟨rfl, rfl⟩
  | some t =>
    refine Or.inr ⟨t, ?_⟩
    rw [floatOption] at h
    split at h
    · rename_i hp
      split at h
      · rename_i q hq
        split at h
        · cases h
          refine ⟨q, rfl, hq, ?_, rfl⟩
          rw [positiveNumber, hq] at hp
          simp only [Bool.not_eq_true', Bool.or_eq_false_iff, decide_eq_false_iff_not, not_lt] at hp
          exact lt_of_lt_of_le (by positivity) hp.1
        · cases h
      · cases h
    · cases h

/-- Rounding of a moderate positive number -/
theorem rnd_moderate [FloorRing K] (hE : E.IsExact ∨ E.IsFloat) {x : K} (hx : 2 ^ (-126 : Int) ≤ x) :
    0 < E.rnd x ∧ E.rnd x ≤ x * (1 + 2 ^ (-24 : Int)) := by
  have hx0 : (0 : K) < x := lt_of_lt_of_le (by positivity) hx
  have h24 : (0 : K) < 2 ^ (-24 : Int) := by positivity
  rcases hE with hE | hE
  · rw [hE]
    exact ⟨hx0, by nlinarith⟩
  · rw [hE]
    have h := Binary32.round_error (x := x) (by rwa [abs_of_pos hx0])
    rw [abs_of_pos hx0] at h
    have h' := abs_le.1 h
    refine ⟨?_, by linarith⟩
    have h2 : (2 : K) ^ (-24 : Int) ≤ 1 / 2 := by norm_num
    have h3 := mul_le_mul_of_nonneg_right h2 hx0.le
    have h4 := h'.1
    generalize (2 : K) ^ (-24 : Int) * x = y at h3 h4
    linarith

theorem half_le_rnd [FloorRing K] (hE : E.IsExact ∨ E.IsFloat) {x : K} (hx : 2 ^ (-126 : Int) ≤ x) : x / 2 ≤ E.rnd x := by
  have hx0 : (0 : K) < x := lt_of_lt_of_le (by positivity) hx
  rcases hE with hE | hE
  · rw [hE]
    linarith
  · rw [hE]
    have h := Binary32.round_error (x := x) (by rwa [abs_of_pos hx0])
    rw [abs_of_pos hx0] at h
    have h2 : (2 : K) ^ (-24 : Int) ≤ 1 / 2 := by norm_num
    have h3 := mul_le_mul_of_nonneg_right h2 hx0.le
    have h4 := (abs_le.1 h).1
    generalize (2 : K) ^ (-24 : Int) * x = y at h3 h4
    linarith

/-- The options are valid if the beta scale is moderate. -/
theorem beta_moderate [FloorRing K] (hE : E.IsExact ∨ E.IsFloat) {q : ℚ} (h : ModerateBeta E q) :
    0 < E.rnd (q : K) ∧ SmallBeta E (E.rnd (q : K)) := by
  obtain ⟨h1, h2⟩ := h
  have h1' : (2 : K) ^ (-126 : Int) ≤ (q : K) := by
    have : (((2 : ℚ) ^ (-126 : Int) : ℚ) : K) ≤ (q : K) := by exact_mod_cast h1
    simpa using this
  have hq0 : (0 : K) < q := lt_of_lt_of_le (by positivity) h1'
  have ha := rnd_moderate hE h1'
  have hb := rnd_moderate (E := E) hE (x := 3 / 100) (by norm_num)
  refine ⟨ha.1, ?_⟩
  have hs := E.slack_nonneg
  have hc := rnd_moderate (E := E) hE (x := E.slack + E.rnd (3 / 100)) (by
    have h3 := half_le_rnd (E := E) hE (x := 3 / 100) (by norm_num)
    have h4 : (2 : K) ^ (-126 : Int) ≤ 1 / 100 := by norm_num
    linarith)
  unfold SmallBeta
  calc E.rnd (E.slack + E.rnd (3 / 100)) * E.rnd (q : K)
      ≤ ((E.slack + E.rnd (3 / 100)) * (1 + 2 ^ (-24 : Int))) * ((q : K) * (1 + 2 ^ (-24 : Int))) :=
        mul_le_mul hc.2 ha.2 ha.1.le (hc.1.le.trans hc.2)
    _ ≤ ((E.slack + 3 / 100) * (1 + 2 ^ (-24 : Int)) * (1 + 2 ^ (-24 : Int))) * ((q : K) * (1 + 2 ^ (-24 : Int))) := by
        apply mul_le_mul_of_nonneg_right _ (by positivity)
        apply mul_le_mul_of_nonneg_right _ (by positivity)
        have : E.slack ≤ E.slack * (1 + 2 ^ (-24 : Int)) := le_mul_of_one_le_right hs (by norm_num)
        linarith [hb.2]
    _ = ((q : K) * (E.slack + 3 / 100)) * ((1 + 2 ^ (-24 : Int)) * (1 + 2 ^ (-24 : Int)) * (1 + 2 ^ (-24 : Int))) := by ring
    _ ≤ 99 / 100 * ((1 + 2 ^ (-24 : Int)) * (1 + 2 ^ (-24 : Int)) * (1 + 2 ^ (-24 : Int))) :=
        mul_le_mul_of_nonneg_right h2 (by positivity)
    _ ≤ 1 := by norm_num

/-- C71 in part: if the command line is accepted, the options satisfy everything that the optimizer requires. What is missing: a restart
period that starts with the digit 0 (see `octal_period`), a beta scale that is too small or too large (see `tiny_beta` and
`temperature_negative`), numbers that are infinite or not a number (see `nan_accepted`) and an empty output file name
(see `empty_output`). -/
theorem accepted_options_partial [FloorRing K] (hE : E.IsExact ∨ E.IsFloat) (hs : SignsAgree read) (hf : isFile "" = false)
    (h : parse E read isFile terminal c a = .accepted o)
    (hz : ∀ t, a.restartPeriod = some t → ¬ LeadingZero t)
    (hb : ∀ t q, a.betaScale = some t → read t = some (.fin q) → ModerateBeta E q)
    (hout : a.output ≠ some "") {sp : ScheduleParams K} (hw : WellFormed sp) :
    ValidOptions E (o.opt.options sp) ∧ o.filename ≠ "" ∧ o.output ≠ "" := by
  obtain ⟨hfile, batch, idle, window, period, bin, beta, gamma, h1, h2, h3, h4, h5, h6, h7, rfl⟩ := parse_accepted h
  have hperiod : ∃ k, period.toNat = 2 ^ k := by
    cases hp : a.restartPeriod with
    | none =>
      rw [hp] at h4
      cases h4
      exact ⟨8, rfl⟩
    | some t =>
      rw [hp, restartPeriod] at h4
      split at h4
      · rename_i hc
        have hv := accepted_positive hs hc.1 h4
        have hst := stoi_of_toInt h4 (hz t hp)
        have hi := isInt_of_toInt h4
        obtain ⟨n, rfl⟩ : ∃ n : Nat, period = n := ⟨period.toNat, by omega⟩
        have hn : n < 2 ^ 31 := by
          rw [isInt, decide_eq_true_eq] at hi
          norm_num at hi ⊢
          omega
        have hc2 := hc.2
        rw [powerOf2Validator, hst] at hc2
        dsimp only at hc2
        rw [Int.toNat_natCast]
        apply (hasSingleBit_int hn).1
        by_contra hne
        rw [if_neg hne] at hc2
        cases hc2
      · cases h4
  have hbeta : 0 < beta ∧ SmallBeta E beta := by
    rcases floatOption_cases h6 with ⟨_, rfl⟩ | ⟨t, q, ht, hq, _, rfl⟩
    · have := beta_moderate (K := K) hE (q := 1 / 1000) ⟨by norm_num, by
        push_cast
        linarith [E.slack_le]⟩
      have he : ((1 / 1000 : ℚ) : K) = 1 / 1000 := by norm_num
      rwa [he] at this
    · exact beta_moderate hE (hb t q ht hq)
  have hgamma : 0 ≤ gamma := by
    rcases floatOption_cases h7 with ⟨_, rfl⟩ | ⟨t, q, ht, hq, hq0, rfl⟩
    · norm_num
    · exact E.rnd_nonneg (by exact_mod_cast hq0.le)
  have hb1 := intOption_positive hs (by norm_num) h1
  have hb2 := intOption_positive hs (by norm_num) h2
  have hb3 := intOption_positive hs (by norm_num) h3
  refine ⟨⟨hw, ?_, ?_, ?_, hperiod, hbeta.1, hbeta.2, hgamma⟩, ?_, ?_⟩
  · exact Int.lt_toNat.2 hb1
  · exact Int.lt_toNat.2 hb2
  · exact Int.lt_toNat.2 hb3
  · intro he
    dsimp only at he
    rw [he, hf] at hfile
    cases hfile
  · dsimp only
    cases ho : a.output with
    | none => cases c <;> decide
    | some t =>
      rw [ho] at hout
      intro he
      apply hout
      rw [← he]
      rfl

/-! ### The options that are accepted by mistake -/

/-- Parameters of the temperature that its constructor refuses make the constructor of the optimizer violate a contract. -/
theorem optimizer_violates {opts : Stun.Options K} {threads : Nat} (hw : WellFormed opts.params) (ht : 0 < threads)
    (hbad : ¬ (0 < opts.betaScale ∧ 0 < opts.stunWindow ∧ ∃ k, opts.restartPeriod = 2 ^ k)) :
    ∃ site, Optimizer.new E opts threads = ub site := by
  have htemp : ∃ site, Temperature.new opts.betaScale opts.stunWindow opts.restartPeriod = ub site := by
    cases hr : Temperature.new opts.betaScale opts.stunWindow opts.restartPeriod with
    | ok t => exact absurd ((temperature_new_iff _ _ _).1 ⟨t, hr⟩) hbad
    | throws e => simp [Temperature.new, bind_eq_throws] at hr
    | ub s => exact ⟨s, rfl⟩
  obtain ⟨site, htemp⟩ := htemp
  obtain ⟨mk, hm⟩ := makespan_new_ok hw
  have hjob : Job.new E opts = ub site := by
    unfold Job.new
    rw [expects_true (by simpa [hw.deps_size] using hw.tasks_pos), ok_bind,
      expects_true (by simpa [hw.avail_size] using hw.tasks_pos), ok_bind, hm, ok_bind, htemp]
    rfl
  unfold Optimizer.new
  by_cases h1 : 0 < opts.batchSize
  · rw [expects_true (by simpa using h1), ok_bind]
    by_cases h2 : 0 < opts.maxIdleIters
    · rw [expects_true (by simpa using h2), ok_bind]
      obtain ⟨n, rfl⟩ : ∃ n, threads = n + 1 := ⟨threads - 1, by omega⟩
      rw [List.replicate_succ, List.mapM_cons, hjob]
      exact ⟨site, rfl⟩
    · exact ⟨_, by rw [expects, if_neg (by simpa using h2)]; rfl⟩
  · exact ⟨_, by rw [expects, if_neg (by simpa using h1)]; rfl⟩

/-- The optimization is then over before it has started. -/
theorem optimize_violates {sp : ScheduleParams K} [FloorRing K] {opt : OptParams K} {threads : Nat} (hw : WellFormed sp)
    (ht : 0 < threads) (hbad : ¬ (0 < opt.betaScale ∧ 0 < opt.stunWindow ∧ ∃ k, opt.restartPeriod = 2 ^ k))
    (draws : Nat → Nat → Nat → Draws K) (fuel : Nat) :
    ∃ site, Predict.optimize E sp opt threads draws fuel = ⟨[], ub site⟩ := by
  obtain ⟨site, h⟩ := optimizer_violates (E := E) (opts := opt.options sp) hw ht hbad
  refine ⟨site, ?_⟩
  have hne : sp.taskDuration ≠ [] := by
    have := hw.tasks_pos
    intro h
    simp [ScheduleParams.taskCount, h] at this
  have hne' : sp.agentPerformance ≠ [] := by
    intro h
    obtain ⟨a, ha⟩ := List.exists_mem_of_ne_nil _ (hw.avail_ne 0 hw.tasks_pos)
    have := hw.avail_lt 0 hw.tasks_pos a ha
    simp [ScheduleParams.agentCount, h] at this
  unfold Predict.optimize
  rw [expects_true (by simpa using hne'), Run.lift_ok_bind, expects_true (by simpa using hne), Run.lift_ok_bind,
    expects_true (by simpa [hw.avail_size] using hw.tasks_pos), Run.lift_ok_bind,
    expects_true (by rw [hw.avail_size]; exact decide_eq_true rfl), Run.lift_ok_bind, h]
  rfl

/-- With such options both commands of the program violate a contract on every project, before any output file is written. -/
theorem program_violates [FloorRing K] {m : Machine K} (hf : o.filename ≠ "") {root : Yaml} {p : Project}
    (hs : m.source = .doc root) (hl : load m.readFloat root = ok p) (hp : p.Sound) {sp : ScheduleParams K}
    (hsp : toScheduleParams E p = ok sp) (hw : WellFormed sp) (ht : 0 < m.threads)
    (hbad : ¬ (0 < o.opt.betaScale ∧ 0 < o.opt.stunWindow ∧ ∃ k, o.opt.restartPeriod = 2 ^ k)) (c : Command) :
    (∃ site, status (body E m c o).flow = .ub site) ∧ ∀ e ∈ (body E m c o).effects, ¬ e.IsFile := by
  obtain ⟨site, hopt⟩ := optimize_violates (E := E) hw ht hbad m.draws m.fuel
  obtain ⟨pre, hpre, hpc⟩ := parseConfig_ok hf hs hl
  have hnf : ∀ e ∈ pre, ¬ e.IsFile := by
    intro e he hfile
    have := hpre e he
    cases e <;> first | exact hfile | exact this
  have hrun : Predict.schedule E p o.opt m.threads m.draws m.fuel
      = ⟨[.simple .scheduleOptimizationStart], ub site⟩ := by
    unfold Predict.schedule
    rw [Run.enqueue_bind, hsp, Run.lift_ok_bind, hopt]
    rfl
  have hrun' : Predict.predict E p o.binSize o.opt m.threads m.draws m.fuel m.more m.fuel' m.zs
      = ⟨[.simple .scheduleOptimizationStart], ub site⟩ := by
    unfold Predict.predict
    rw [Run.enqueue_bind, hsp, Run.lift_ok_bind, hopt]
    rfl
  have hconsume : ∀ {α : Type} {r : Run K (Option α)}, r = ⟨[.simple .scheduleOptimizationStart], ub site⟩ →
      ∃ es : List (Effect K), (∀ e ∈ es, ¬ e.IsFile) ∧ ((if o.quiet then pure () else consumeEvents m.logWritable m.columns o r) = (⟨es, .ub site⟩ : Io K Unit)
        ∨ (if o.quiet then pure () else consumeEvents m.logWritable m.columns o r) = (⟨es, .ok ()⟩ : Io K Unit)) := by
    intro α r hr
    by_cases hq : o.quiet = true
    · exact ⟨[], by simp, Or.inr (by rw [if_pos hq]; rfl)⟩
    · rw [if_neg hq, hr, consumeEvents]
      rcases choose_cases o.color m.columns with ⟨w, hch⟩ | hch
      swap
      · rw [hch]
        exact ⟨[], by simp, Or.inl rfl⟩
      rw [hch]
      dsimp only
      by_cases hlog : (o.logOptimization && !m.logWritable) = true
      · rw [if_pos hlog]
        refine ⟨_, ?_, Or.inl rfl⟩
        intro e he
        simp only [List.mem_cons, List.not_mem_nil, or_false] at he
        rcases he with rfl | rfl <;> exact id
      · rw [if_neg hlog]
        refine ⟨_, ?_, Or.inl rfl⟩
        intro e he
        simp only [List.mem_append, List.mem_map] at he
        rcases he with (⟨_, _, rfl⟩ | ⟨_, _, rfl⟩) | ⟨_, _, rfl⟩ <;> exact id
  cases c with
  | schedule =>
    obtain ⟨es, hes, he⟩ := hconsume hrun
    have hbody : body E m .schedule o = ⟨pre ++ es, .ub site⟩ := by
      unfold body
      rw [hpc, Io.bind_ok]
      dsimp only
      rw [jsonSchedule_eq hp]
      rcases he with he | he
      · rw [he, Io.bind_ub, Io.bind_ub]
      · rw [he, Io.bind_ok, hrun, getFuture]
        simp
    rw [hbody]
    exact ⟨⟨site, rfl⟩, fun e he' => (List.mem_append.1 he').elim (hnf e) (hes e)⟩
  | predict =>
    obtain ⟨es, hes, he⟩ := hconsume hrun'
    have hbody : body E m .predict o = ⟨pre ++ es, .ub site⟩ := by
      unfold body
      rw [hpc, Io.bind_ok]
      dsimp only
      rw [runPrediction_eq hp]
      rcases he with he | he
      · rw [he, Io.bind_ub, Io.bind_ub]
      · rw [he, Io.bind_ok, hrun', getFuture]
        simp
    rw [hbody]
    exact ⟨⟨site, rfl⟩, fun e he' => (List.mem_append.1 he').elim (hnf e) (hes e)⟩

/-- The default options -/
def defaultOptions (E : FloatEnv K) (terminal : Bool) (input output : String) : Cli.Options K where
  filename := input
  verbose := false
  color := terminal
  quiet := false
  output := output
  opt := { batchSize := 10000, maxIdleIters := 100000, betaScale := E.rnd (1 / 1000), stunWindow := 100,
           gamma := 2, restartPeriod := 256 }
  logOptimization := false
  binSize := none

/-- C71 fails for `--restart-period 016`: it is accepted, because 16 is a power of two, but the number that is used is 14, which is
not; every run of the program violates a contract. -/
theorem octal_period [FloorRing K] (hr : read "016" = some (.fin 16)) {input : String} (hi : isFile input = true) (hne : input ≠ "") :
    ∃ o, parse E read isFile terminal c { input := input, restartPeriod := some "016" } = .accepted o ∧
      o.opt.restartPeriod = 14 ∧
      ∀ {m : Machine K} {root : Yaml} {p : Project}, m.source = .doc root → load m.readFloat root = ok p → p.Sound →
        ∀ {sp : ScheduleParams K}, toScheduleParams E p = ok sp → WellFormed sp → 0 < m.threads →
          (∃ site, status (body E m c o).flow = .ub site) ∧ ∀ e ∈ (body E m c o).effects, ¬ e.IsFile := by
  have hp : restartPeriod read 256 (some "016") = some 14 := by
    have h1 : positiveNumber read "016" = true := by
      rw [positiveNumber, hr]
      decide +kernel
    rw [restartPeriod, if_pos ⟨h1, by decide⟩]
    decide
  refine ⟨{ defaultOptions E terminal input (defaultOutput c) with
    opt := { (defaultOptions E terminal input "").opt with restartPeriod := 14 } }, ?_, rfl, ?_⟩
  · unfold parse
    rw [if_pos hi]
    dsimp only
    rw [hp]
    rfl
  · intro m root p hs hl hp' sp hsp hw ht
    refine program_violates hne hs hl hp' hsp hw ht ?_ c
    rintro ⟨_, _, k, hk⟩
    have hk' : 14 = 2 ^ k := hk
    have h4 : k < 4 := by
      by_contra h
      have := Nat.pow_le_pow_right (n := 2) (by decide) (not_lt.1 h)
      omega
    interval_cases k <;> omega

/-- C71 fails for `--beta-scale 1e-50`: it is accepted because it is positive as a `double`, but it is 0 as a `float`, and every
run of the program violates a contract. -/
theorem tiny_beta [FloorRing K] (hE : E.IsFloat) (hr : read "1e-50" = some (.fin (1 / 10 ^ 50))) {input : String}
    (hi : isFile input = true) (hne : input ≠ "") :
    ∃ o, parse E read isFile terminal c { input := input, betaScale := some "1e-50" } = .accepted o ∧
      o.opt.betaScale = 0 ∧
      ∀ {m : Machine K} {root : Yaml} {p : Project}, m.source = .doc root → load m.readFloat root = ok p → p.Sound →
        ∀ {sp : ScheduleParams K}, toScheduleParams E p = ok sp → WellFormed sp → 0 < m.threads →
          (∃ site, status (body E m c o).flow = .ub site) ∧ ∀ e ∈ (body E m c o).effects, ¬ e.IsFile := by
  have hz : E.rnd ((1 / 10 ^ 50 : ℚ) : K) = 0 := by
    rw [hE]
    push_cast
    exact Binary32.round_tiny (by positivity) (by norm_num)
  have hp : floatOption E read (E.rnd (1 / 1000)) (some "1e-50") = .value 0 := by
    have h1 : positiveNumber read "1e-50" = true := by
      rw [positiveNumber, hr]
      decide +kernel
    rw [floatOption, if_pos h1, hr]
    dsimp only
    rw [if_pos (by norm_num), hz]
  refine ⟨{ defaultOptions E terminal input (defaultOutput c) with
    opt := { (defaultOptions E terminal input "").opt with betaScale := 0 } }, ?_, rfl, ?_⟩
  · unfold parse
    rw [if_pos hi]
    dsimp only
    rw [hp]
    rfl
  · intro m root p hs hl hp' sp hsp hw ht
    refine program_violates hne hs hl hp' hsp hw ht ?_ c
    rintro ⟨h0, _⟩
    exact lt_irrefl _ h0

/-- C71 fails for `--beta-scale nan` and `--gamma nan`: they are accepted as positive numbers. -/
theorem nan_accepted (hr : read "nan" = some .nan) {input : String} (hi : isFile input = true) :
    parse E read isFile terminal c { input := input, betaScale := some "nan" } = .special ∧
    parse E read isFile terminal c { input := input, gamma := some "nan" } = .special := by
  have hp : ∀ d : K, floatOption E read d (some "nan") = .special := by
    intro d
    rw [floatOption, if_pos (by rw [positiveNumber, hr]), hr]
  constructor <;>
  · unfold parse
    rw [if_pos hi]
    dsimp only
    rw [hp]
    rfl

/-- C71 fails for `--output ""`: it is accepted, and the program never succeeds. -/
theorem empty_output [FloorRing K] {input : String} (hi : isFile input = true) :
    ∃ o, parse E read isFile terminal c { input := input, output := some "" } = .accepted o ∧
      ∀ m : Machine K, status (body E m c o).flow ≠ .exit 0 := by
  refine ⟨defaultOptions E terminal input "", ?_, ?_⟩
  · unfold parse
    rw [if_pos hi]
    rfl
  · intro m
    have hsave : ∀ {o : Cli.Options K} {f s : String} {j : Json}, o.output = "" →
        (saveJson m o f s j).flow = .ub "save_json: output not empty" := by
      intro o f s j ho
      unfold saveJson
      rw [ho]
      rfl
    have hbind : ∀ {α β : Type} {x : Io K α} {f : α → Io K β}, (∀ v u, (f v).flow ≠ .ok u) →
        ∀ u, (x >>= f).flow ≠ .ok u := by
      rintro α β ⟨es, fl⟩ f h u hu
      cases fl <;> first | exact h _ u hu | cases hu
    have hbody : ∀ u, (body E m c (defaultOptions E terminal input "")).flow ≠ .ok u := by
      unfold body
      apply hbind
      intro config
      cases c <;> dsimp only <;> apply hbind <;> intro j <;> intro u <;> rw [hsave rfl] <;> intro hu <;> cases hu
    intro hst
    generalize (body E m c (defaultOptions E terminal input "")).flow = fl at hst hbody
    cases fl with
    | ok u => exact hbody u rfl
    | user => cases hst
    | throws e => cases hst
    | ub s => cases hst
    | hang => cases hst
    | running => cases hst

/-! ### C72 -/

theorem toInt_big {n : Nat} (h : 2 ^ 31 ≤ n) : toInt (toString n) = none := by
  cases hv : toInt (toString n) with
  | none => rfl
  | some v =>
    exfalso
    have h0 : 0 < n := by omega
    obtain ⟨hne, hd, hnum⟩ := digits_facts n
    have hl : (toString n).toList = Nat.toDigits 10 n := by rw [Nat.toString_eq_repr, Nat.toList_repr]
    have h1 := head_toDigits h0
    cases hc : Nat.toDigits 10 n with
    | nil => exact absurd hc hne
    | cons c cs =>
      rw [hc] at hd hnum hl h1
      have hz : c ≠ '0' := by rintro rfl; exact h1 cs rfl
      have hi := isInt_of_toInt hv
      simp only [toInt, hl, sign_plain (hd c (by simp)), baseOf_plain hz, hnum, signed, Bool.false_eq_true, if_false] at hv
      split at hv
      · cases hv
        rw [isInt, decide_eq_true_eq] at hi
        norm_num at hi h
        omega
      · cases hv

theorem positiveNumber_nat (hr : ReadsNaturals read) {n : Nat} (h : n < 2 ^ 31) :
    positiveNumber read (toString n) = true ↔ 0 < n := by
  rw [positiveNumber, hr n h]
  simp only [Bool.not_eq_true', Bool.or_eq_false_iff, decide_eq_false_iff_not, not_lt]
  constructor
  · rintro ⟨h1, _⟩
    have : (0 : ℚ) < n := lt_of_lt_of_le (by positivity) h1
    exact_mod_cast this
  · intro h0
    have h1 : (1 : ℚ) ≤ n := by exact_mod_cast h0
    have h2 : (n : ℚ) ≤ 2 ^ 31 := by exact_mod_cast h.le
    constructor
    · refine le_trans ?_ h1
      exact zpow_le_one_of_nonpos₀ (by norm_num) (by norm_num)
    · exact h2.trans (by decide +kernel)

theorem positiveNumber_real {t : String} {q : ℚ} (hr : read t = some (.fin q)) (h1 : 2 ^ (-126 : Int) ≤ q) (h2 : q ≤ 2 ^ 127) :
    positiveNumber read t = true := by
  rw [positiveNumber, hr]
  simp only [Bool.not_eq_true', Bool.or_eq_false_iff, decide_eq_false_iff_not, not_lt]
  exact ⟨le_trans (zpow_le_zpow_right₀ (by norm_num) (by norm_num)) h1, h2.trans (by decide +kernel)⟩

theorem intOption_given (hr : ReadsNaturals read) {default v : Nat} {text : Option String}
    (h : Given IsPositiveInt default v text) : intOption read default text = some (v : Int) := by
  rcases h with ⟨rfl, rfl⟩ | ⟨rfl, h0, h1⟩
  · rfl
  · rw [intOption, if_pos ((positiveNumber_nat hr h1).2 h0), toInt_nat h0 h1]

theorem floatOption_given {default v : ℚ} {text : Option String} (h : GivenReal read default v text) {d : K}
    (hd : d = E.rnd (default : K)) : floatOption E read d text = .value (E.rnd (v : K)) := by
  rcases h with ⟨rfl, rfl⟩ | ⟨t, rfl, ht, h1, h2⟩
  · rw [hd]; rfl
  · rw [floatOption, if_pos (positiveNumber_real ht h1 h2), ht]
    dsimp only
    rw [if_pos (lt_of_le_of_lt h2 (by norm_num))]

/-- C72. If the numbers on the command line are in decimal notation and in range, the command line is accepted, and every
option has the value that was given, or the documented default. -/
theorem options_as_given (hr : ReadsNaturals read) (hi : isFile a.input = true) {batch idle window period : Nat}
    {beta gamma : ℚ} {bin : Option Int}
    (hbatch : Given IsPositiveInt 10000 batch a.batchSize) (hidle : Given IsPositiveInt 100000 idle a.maxIdleIters)
    (hwindow : Given IsPositiveInt 100 window a.stunWindow)
    (hperiod : Given (fun n => IsPositiveInt n ∧ ∃ k, n = 2 ^ k) 256 period a.restartPeriod)
    (hbeta : GivenReal read (1 / 1000) beta a.betaScale) (hgamma : GivenReal read 2 gamma a.gamma)
    (hbin : (a.binSize = none ∧ bin = none) ∨
      (c = .predict ∧ ∃ n : Nat, IsPositiveInt n ∧ a.binSize = some (toString n) ∧ bin = some (n : Int))) :
    parse E read isFile terminal c a = .accepted {
      filename := a.input, verbose := a.verbose, quiet := a.quiet, logOptimization := a.logOptimization,
      color := a.color.getD terminal, output := a.output.getD (match c with
        | .schedule => "schedule.json"
        | .predict => "time_estimation.json"),
      opt := { batchSize := batch, maxIdleIters := idle, betaScale := E.rnd (beta : K), stunWindow := window,
               gamma := E.rnd (gamma : K), restartPeriod := period },
      binSize := bin } := by
  have h1 : intOption read 10000 a.batchSize = some (batch : Int) := intOption_given hr hbatch
  have h2 : intOption read 100000 a.maxIdleIters = some (idle : Int) := intOption_given hr hidle
  have h3 : intOption read 100 a.stunWindow = some (window : Int) := intOption_given hr hwindow
  have h4 : restartPeriod read 256 a.restartPeriod = some (period : Int) := by
    rcases hperiod with ⟨ht, rfl⟩ | ⟨ht, ⟨h0, h1⟩, hk⟩
    · rw [ht]; rfl
    · rw [ht, restartPeriod, if_pos ⟨(positiveNumber_nat hr h1).2 h0, (powerOf2Validator_nat h1).2 hk⟩, toInt_nat h0 h1]
  have h5 : binSizeOption read c a.binSize = some bin := by
    rcases hbin with ⟨ht, rfl⟩ | ⟨rfl, n, ⟨h0, h1⟩, ht, rfl⟩
    · rw [ht]; rfl
    · rw [ht, binSizeOption, if_neg (by decide), if_pos ((positiveNumber_nat hr h1).2 h0), toInt_nat h0 h1]
      rfl
  have h6 : floatOption E read (E.rnd (1 / 1000)) a.betaScale = .value (E.rnd (beta : K)) :=
    floatOption_given hbeta (by norm_num)
  have h7 : floatOption E read 2 a.gamma = .value (E.rnd (gamma : K)) := by
    refine floatOption_given hgamma ?_
    have := E.rnd_double 1
    rw [E.rnd_one, mul_one] at this
    exact_mod_cast this.symm
  unfold parse
  rw [if_pos hi, h1, h2, h3, h4, h5, h6, h7]
  cases c <;> rfl

/-- One rejected option is enough. -/
theorem parse_rejected (h : isFile a.input = false ∨ intOption read 10000 a.batchSize = none ∨
      intOption read 100000 a.maxIdleIters = none ∨ intOption read 100 a.stunWindow = none ∨
      restartPeriod read 256 a.restartPeriod = none ∨ binSizeOption read c a.binSize = none ∨
      floatOption E read (E.rnd (1 / 1000)) a.betaScale = .rejected ∨ floatOption E read 2 a.gamma = .rejected) :
    parse E read isFile terminal c a = .rejected := by
  unfold parse
  split
  · rename_i hf
    rcases h with h | h | h | h | h | h | h | h
    · rw [hf] at h; cases h
    all_goals rw [h]
    all_goals split <;> first
      | rfl
      | (rename_i h1 h2 h3 h4 h5 h6 h7; first | cases h1 | cases h2 | cases h3 | cases h4 | cases h5 | cases h6 | cases h7)
  · rfl

/-- Either validator or the conversion rejects. -/
theorem toInt_minus {rest : String} {v : Int} (h : toInt ("-" ++ rest) = some v) : v ≤ 0 := by
  have hl : ("-" ++ rest).toList = '-' :: rest.toList := by rw [String.toList_append]; rfl
  have hs : sign ('-' :: rest.toList) = (true, rest.toList) := by
    rw [sign, List.dropWhile_cons_of_neg (by decide)]
    rfl
  rw [toInt, hl, hs] at h
  dsimp only at h
  split at h
  · cases h
    simp [signed]
  · cases h

theorem not_positive_int (hr : ReadsNaturals read) (hsa : SignsAgree read) {t : String} (h : NotPositiveInt t) :
    positiveNumber read t = false ∨ toInt t = none := by
  rcases h with ⟨n, hn, rfl⟩ | ⟨rest, rfl⟩ | ⟨d, hd, hc⟩
  · by_cases hi : n < 2 ^ 31
    · left
      rw [← Bool.not_eq_true, positiveNumber_nat hr hi]
      exact fun h0 => hn ⟨h0, hi⟩
    · exact Or.inr (toInt_big (not_lt.1 hi))
  · cases ht : toInt ("-" ++ rest) with
    | none => exact Or.inr rfl
    | some v =>
      obtain ⟨q, hq, hq0⟩ := hsa _ v ht (toInt_minus ht)
      left
      rw [positiveNumber, hq]
      simp only [Bool.not_eq_false', Bool.or_eq_true, decide_eq_true_eq]
      exact Or.inl (lt_of_le_of_lt hq0 (by positivity))
  · right
    cases ht : toInt t with
    | none => rfl
    | some v => exact absurd (numberChar_of_toInt ht hd) hc

theorem intOption_rejected (hr : ReadsNaturals read) (hsa : SignsAgree read) {d : Int} {t : String} (h : NotPositiveInt t) :
    intOption read d (some t) = none := by
  rw [intOption]
  rcases not_positive_int hr hsa h with h | h
  · rw [if_neg (by simp [h])]
  · rw [h]
    split <;> rfl

theorem floatOption_rejected {t : String} (h : read t = none ∨ ∃ q, read t = some (.fin q) ∧ q ≤ 0) (d : K) :
    floatOption E read d (some t) = .rejected := by
  rw [floatOption, if_neg]
  rcases h with h | ⟨q, h, hq⟩
  · rw [positiveNumber, h]
    decide
  · rw [positiveNumber, h]
    simp only [Bool.not_eq_true', Bool.or_eq_false_iff, decide_eq_false_iff_not, not_lt]
    rintro ⟨h1, _⟩
    exact absurd (lt_of_lt_of_le (by positivity) h1) (not_lt.2 hq)

/-- C72. The command line is rejected if the input file does not exist, if a whole number is 0, negative, does not fit an `int` or has
characters that do not belong to numbers, if the restart period is not a power of two, if the beta scale or gamma is not a number or not positive,
and if a bin size is given to the command `schedule`. -/
theorem options_rejected (hr : ReadsNaturals read) (hsa : SignsAgree read)
    (h : isFile a.input = false ∨
      (∃ t, NotPositiveInt t ∧ (a.batchSize = some t ∨ a.maxIdleIters = some t ∨ a.stunWindow = some t ∨
        a.restartPeriod = some t ∨ a.binSize = some t)) ∨
      (∃ n : Nat, (∀ k, n ≠ 2 ^ k) ∧ a.restartPeriod = some (toString n)) ∨
      (∃ t, (read t = none ∨ ∃ q, read t = some (.fin q) ∧ q ≤ 0) ∧ (a.betaScale = some t ∨ a.gamma = some t)) ∨
      (c = .schedule ∧ a.binSize ≠ none)) :
    parse E read isFile terminal c a = .rejected := by
  apply parse_rejected
  rcases h with h | ⟨t, hn, h | h | h | h | h⟩ | ⟨n, hn, h⟩ | ⟨t, ht, h | h⟩ | ⟨rfl, h⟩
  · exact Or.inl h
  · exact Or.inr (Or.inl (by rw [h, intOption_rejected hr hsa hn]))
  · exact Or.inr (Or.inr (Or.inl (by rw [h, intOption_rejected hr hsa hn])))
  · exact Or.inr (Or.inr (Or.inr (Or.inl (by rw [h, intOption_rejected hr hsa hn]))))
  · refine Or.inr (Or.inr (Or.inr (Or.inr (Or.inl ?_))))
    rw [h, restartPeriod]
    rcases not_positive_int hr hsa hn with h | h
    · rw [if_neg (by simp [h])]
    · rw [h]
      split <;> rfl
  · refine Or.inr (Or.inr (Or.inr (Or.inr (Or.inr (Or.inl ?_)))))
    rw [h, binSizeOption]
    rcases not_positive_int hr hsa hn with h | h
    · rw [if_neg (c := positiveNumber read t = true) (by simp [h])]
      split <;> rfl
    · rw [h]
      split
      · rfl
      · split <;> rfl
  · refine Or.inr (Or.inr (Or.inr (Or.inr (Or.inl ?_))))
    rw [h, restartPeriod]
    by_cases hi : n < 2 ^ 31
    · rw [if_neg]
      rintro ⟨_, h2⟩
      obtain ⟨k, hk⟩ := (powerOf2Validator_nat hi).1 h2
      exact hn k hk
    · rw [toInt_big (not_lt.1 hi)]
      split <;> rfl
  · exact Or.inr (Or.inr (Or.inr (Or.inr (Or.inr (Or.inr (Or.inl (by rw [h, floatOption_rejected ht])))))))
  · exact Or.inr (Or.inr (Or.inr (Or.inr (Or.inr (Or.inr (Or.inr (by rw [h, floatOption_rejected ht])))))))
  · refine Or.inr (Or.inr (Or.inr (Or.inr (Or.inr (Or.inl ?_)))))
    cases hb : a.binSize with
    | none => exact absurd hb h
    | some t => rfl

/-- C71 with C62: from the command line and the document to the output file. For a command line that is accepted and has none of the defects
listed at `accepted_options_partial`, the command `schedule` exits successfully and has written a schedule to the
output file, whatever the random numbers are. -/
theorem command_line_schedules [FloorRing K] {m : Machine K} (hE : E.IsExact) (hs : SignsAgree read) (hf : isFile "" = false)
    (h : parse E read isFile terminal .schedule a = .accepted o)
    (hz : ∀ t, a.restartPeriod = some t → ¬ LeadingZero t)
    (hb : ∀ t q, a.betaScale = some t → read t = some (.fin q) → ModerateBeta E q)
    (hout : a.output ≠ some "") {root : Yaml} {p : Project} (hd : m.source = .doc root)
    (hl : load m.readFloat root = ok p) (hp : p.Sound) (hfl : p.FloatsIn E) (hmod : p.Moderate) (hw : CanWrite m o)
    (ht : 0 < m.threads) :
    ∃ (N : Nat) (sp : ScheduleParams K) (s : List Item) (mk : Int) (es : List TaskEntry), toScheduleParams E p = ok sp ∧
      ValidSchedule sp s ∧ es.length = s.length ∧
      ∀ fuel, N ≤ fuel → status (body E { m with fuel := fuel } .schedule o).flow = .exit 0 ∧
        ∃ pre post : List (Effect K), (∀ e ∈ pre ++ post, ¬ e.IsFile) ∧
          (body E { m with fuel := fuel } .schedule o).effects = pre ++ [.file (a.output.getD "schedule.json")
            (.obj [("makespan", .int mk), ("tasks", .arr (es.map TaskEntry.object))])] ++ post := by
  obtain ⟨sp, hsp, hwf⟩ := params_wellFormed (E := E) hp hfl
  obtain ⟨ho, hf', hout'⟩ := accepted_options_partial (Or.inl hE) hs hf h hz hb hout hwf
  obtain ⟨N, s, mk, es, _, _, _, h1, h2, _, _, _, _, h3⟩ := schedule_command hE hf' hout' hd hl hp hmod hw ht hsp ho
  refine ⟨N, sp, s, mk, es, hsp, h1, h2, ?_⟩
  have : o.output = a.output.getD "schedule.json" := by
    obtain ⟨_, _, _, _, _, _, _, _, _, _, _, _, _, _, _, rfl⟩ := parse_accepted h
    rfl
  rwa [this] at h3

/-! ### Examples -/

/-- A reader for the texts in the examples: decimal numbers and the two special texts -/
def exampleRead : ReadReal := fun text =>
  match (sign text.toList), toInt text with
  | s, some v => if v ≤ 0 then some (.fin v) else some (.fin (number 10 s.2 : ℚ))
  | _, none => if text = "1e-50" then some (.fin (1 / 10 ^ 50)) else if text = "nan" then some .nan else none

example : exampleRead "016" = some (.fin 16) ∧ exampleRead "1e-50" = some (.fin (1 / 10 ^ 50)) ∧
    exampleRead "nan" = some .nan := by decide +kernel

theorem exampleRead_signs : SignsAgree exampleRead := by
  intro text v h hv
  refine ⟨v, ?_, by exact_mod_cast hv⟩
  rw [exampleRead, h]
  exact if_pos hv

theorem exampleRead_naturals : ReadsNaturals exampleRead := by
  intro n hn
  rcases Nat.eq_zero_or_pos n with rfl | h0
  · decide +kernel
  · obtain ⟨hne, hd, hnum⟩ := digits_facts n
    have hl : (toString n).toList = Nat.toDigits 10 n := by rw [Nat.toString_eq_repr, Nat.toList_repr]
    rw [exampleRead, toInt_nat h0 hn]
    dsimp only
    rw [if_neg (by omega), hl]
    cases hc : Nat.toDigits 10 n with
    | nil => exact absurd hc hne
    | cons c cs =>
      rw [hc] at hd hnum
      rw [sign_plain (hd c (by simp)), hnum]

/-- C72 applies to the command line `angonoka --batch-size 500 --restart-period 1024 --histogram-bin-size 60 plan.yml`. -/
example : ∃ o : Cli.Options ℚ, parse FloatEnv.rat exampleRead (fun f => f == "plan.yml") true .predict
      { input := "plan.yml", batchSize := some "500", restartPeriod := some "1024", binSize := some "60" } = .accepted o ∧
    o.opt.batchSize = 500 ∧ o.opt.restartPeriod = 1024 ∧ o.binSize = some 60 ∧ o.opt.stunWindow = 100 :=
  ⟨_, options_as_given exampleRead_naturals (by decide) (batch := 500) (idle := 100000) (window := 100) (period := 1024)
    (Or.inr ⟨rfl, by decide, by decide⟩) (Or.inl ⟨rfl, rfl⟩) (Or.inl ⟨rfl, rfl⟩)
    (Or.inr ⟨rfl, ⟨by decide, by decide⟩, 10, rfl⟩) (Or.inl ⟨rfl, rfl⟩) (Or.inl ⟨rfl, rfl⟩)
    (Or.inr ⟨rfl, 60, ⟨by decide, by decide⟩, rfl, rfl⟩), rfl, rfl, rfl, rfl⟩

/-- 1000 is not a power of two. -/
example : parse FloatEnv.rat exampleRead (fun f => f == "plan.yml") true .predict
    { input := "plan.yml", restartPeriod := some "1000" } = .rejected := by
  refine options_rejected exampleRead_naturals exampleRead_signs (Or.inr (Or.inr (Or.inl ⟨1000, ?_, rfl⟩)))
  intro k hk
  have h : 9 < k ∧ k < 10 :=
    ⟨(Nat.pow_lt_pow_iff_right (a := 2) (by decide)).1 (by omega), (Nat.pow_lt_pow_iff_right (a := 2) (by decide)).1 (by omega)⟩
  omega

/-- `--batch-size 10k` is rejected. -/
example : parse FloatEnv.rat exampleRead (fun f => f == "plan.yml") true .predict
    { input := "plan.yml", batchSize := some "10k" } = .rejected := by
  refine options_rejected exampleRead_naturals exampleRead_signs (Or.inr (Or.inl ⟨"10k", Or.inr (Or.inr ⟨'k', by decide, ?_⟩), Or.inl rfl⟩))
  unfold NumberChar
  decide

/-- `--histogram-bin-size -60` is rejected. -/
example : parse FloatEnv.rat exampleRead (fun f => f == "plan.yml") true .predict
    { input := "plan.yml", binSize := some "-60" } = .rejected :=
  options_rejected exampleRead_naturals exampleRead_signs
    (Or.inr (Or.inl ⟨"-60", Or.inr (Or.inl ⟨"60", rfl⟩), Or.inr (Or.inr (Or.inr (Or.inr rfl)))⟩))

/-- `command_line_schedules` applies to `angonoka schedule --batch-size 500 -o out.json plan.yml` with the example document. -/
example (draws : Nat → Nat → Nat → Draws ℚ) : ∃ o N,
    parse FloatEnv.rat exampleRead (fun f => f == "plan.yml") true .schedule
      { input := "plan.yml", batchSize := some "500", output := some "out.json" } = .accepted o ∧
    ∀ fuel, N ≤ fuel → status (body FloatEnv.rat { exampleMachine draws with fuel := fuel } .schedule o).flow = .exit 0 := by
  have hpar := options_as_given (E := FloatEnv.rat) (isFile := fun f => f == "plan.yml") (terminal := true) (c := .schedule)
    (a := { input := "plan.yml", batchSize := some "500", output := some "out.json" })
    exampleRead_naturals (by decide) (batch := 500) (idle := 100000) (window := 100) (period := 256)
    (Or.inr ⟨rfl, by decide, by decide⟩) (Or.inl ⟨rfl, rfl⟩) (Or.inl ⟨rfl, rfl⟩) (Or.inl ⟨rfl, rfl⟩)
    (Or.inl ⟨rfl, rfl⟩) (Or.inl ⟨rfl, rfl⟩) (Or.inl ⟨rfl, rfl⟩)
  obtain ⟨N, _, _, _, _, _, _, _, h⟩ := command_line_schedules (m := exampleMachine draws) (fun _ => rfl) exampleRead_signs
    (by decide) hpar (by simp) (by simp) (by simp) rfl Sample.plan_loads plan_sound (fun _ _ _ _ => rfl) plan_moderate example_canWrite
    (by exact (by decide : 0 < 4))
  exact ⟨_, N, hpar, fun fuel hN => (h fuel hN).1⟩

end Angonoka.Props
