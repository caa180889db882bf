import Verif.Props.Cli
import Verif.Spec.Prediction

/-!
# C64: the prediction, from the document to the output file
-/

set_option linter.unusedSectionVars false

namespace Angonoka.Props
open Angonoka Outcome Stun Cli

variable {K : Type} [Field K] [LinearOrder K] [IsStrictOrderedRing K] [FloorRing K]
variable {E : FloatEnv K} {m : Machine K} {o : Cli.Options K}

/-- After the optimization the result of `predict` is that of the simulation. -/
theorem predict_result {config : Project} {binSize : Option Int} {opt : OptParams K} {threads : Nat}
    {draws : Nat → Nat → Nat → Draws K} {fuel : Nat} {more : List Int → Outcome Bool} {fuel' : Nat}
    {zs : List K} {r : OptimizedSchedule}
    (hr : (Predict.schedule E config opt threads draws fuel).result = ok (some r)) :
    (Predict.predict E config binSize opt threads draws fuel more fuel' zs).result = (do
      let h ← histogram E config binSize r.schedule r.makespan more fuel' zs
      match h with
      | none => ok none
      | some h => do
        let st ← stats E h
        ok (some { histogram := h, stats := st, schedule := r.schedule, makespan := r.makespan })) := by
  obtain ⟨es, hr⟩ : ∃ es, Predict.schedule E config opt threads draws fuel = ⟨es, ok (some r)⟩ :=
    ⟨_, by rw [← hr]⟩
  unfold Predict.schedule at hr
  obtain ⟨es', _, h₁⟩ := Run.enqueue_bind_returns hr
  obtain ⟨sp, hsp, h₂⟩ := Run.lift_bind_returns h₁
  obtain ⟨ps, r', es₂, hopt, h₃, _⟩ := Run.bind_returns h₂
  clear hr h₁ h₂
  match r', hopt, h₃ with
  | none, _, h => cases h
  | some r', hopt, h₃ =>
    cases h₃
    unfold Predict.predict
    rw [Run.enqueue_bind, hsp, Run.lift_ok_bind, hopt, Run.bind_ok]
    dsimp only
    rw [Run.enqueue_bind, Run.enqueue_bind]
    dsimp only
    cases histogram E config binSize r.schedule r.makespan more fuel' zs with
    | throws e => rfl
    | ub s => rfl
    | ok h =>
      rw [Run.lift_ok_bind, ok_bind]
      cases h with
      | none => rfl
      | some h =>
        dsimp only
        cases stats E h with
        | throws e => rfl
        | ub s => rfl
        | ok st => rfl

/-- Consuming the events of a prediction that returns or goes on. -/
theorem consumeEvents_predict (hq : o.quiet = false) (hopen : CanReport m o) {p : Project} {sp : ScheduleParams K}
    (hsp : toScheduleParams E p = ok sp) (ho : ValidOptions E (o.opt.options sp)) (ht : 0 < m.threads)
    {r : Option Prediction}
    (h : (Predict.predict E p o.binSize o.opt m.threads m.draws m.fuel m.more m.fuel' m.zs).result = ok r) :
    ∃ es : List (Effect K), (∀ e ∈ es, ¬ e.IsFile) ∧
      consumeEvents m.logWritable m.columns o (Predict.predict E p o.binSize o.opt m.threads m.draws m.fuel m.more m.fuel' m.zs)
        = ⟨es, if r.isSome then .ok () else .running⟩ := by
  obtain ⟨ps, _, _, hshape⟩ := predict_shape E p o.binSize o.opt m.threads m.draws m.fuel m.more m.fuel' m.zs
  have hlog := log_rows (more := m.more) (fuel' := m.fuel') (zs := m.zs) (draws := m.draws) (fuel := m.fuel)
    (binSize := o.binSize) hsp ho ht
    (es := (Predict.predict E p o.binSize o.opt m.threads m.draws m.fuel m.more m.fuel' m.zs).events)
  generalize Predict.predict E p o.binSize o.opt m.threads m.draws m.fuel m.more m.fuel' m.zs = R at *
  obtain ⟨events, result⟩ := R
  dsimp only at h
  subst h
  have hne : events ≠ [] := by
    rcases hshape with ⟨_, hr⟩ | ⟨hev | ⟨_, hev⟩, _⟩
    · cases hr; simp
    · dsimp only at hev; rw [hev]; simp
    · dsimp only at hev; rw [hev]; simp
  obtain ⟨h', hh, _⟩ := hlog hne (Or.inl List.prefix_rfl)
    ({ color := o.color, verbose := o.verbose, logOptimization := o.logOptimization } : Handler K)
  refine ⟨h'.output.map .stdout ++ h'.display.map .progress ++ h'.log.toList.map .log, ?_, ?_⟩
  · intro e he
    simp only [List.mem_append, List.mem_map] at he
    rcases he with (⟨_, _, rfl⟩ | ⟨_, _, rfl⟩) | ⟨_, _, rfl⟩ <;> exact id
  · dsimp only at hh
    rw [consumeEvents_open hq hopen, hh]
    dsimp only
    cases r with
    | none => rfl
    | some r =>
      dsimp only
      rcases hshape with ⟨_, hr⟩ | ⟨_, hr⟩
      · cases hr
        rw [if_pos (by simp)]
        rfl
      · exact absurd rfl (hr r)

/-- The text with the percentiles that the program prints -/
def estimation (s : HistogramStats) : String :=
  "Estimation:\n"
    ++ "  25% chance to complete the project in under " ++ Format.verbose s.p25 ++ ".\n"
    ++ "  50% chance to complete the project in under " ++ Format.verbose s.p50 ++ ".\n"
    ++ "  75% chance to complete the project in under " ++ Format.verbose s.p75 ++ ".\n"
    ++ "  95% chance to complete the project in under " ++ Format.verbose s.p95 ++ ".\n"
    ++ "  99% chance to complete the project in under " ++ Format.verbose s.p99 ++ ".\n"

theorem onStdout_not_file {e : Effect K} (h : e.OnStdout) : ¬ e.IsFile := by
  match e, h with
  | .stdout _, _ => exact id
  | .progress _, _ => exact id

theorem setField_prediction (mk ts st h : Json) :
    (setField (.obj [("makespan", mk), ("tasks", ts)]) "stats" st >>= fun j => setField j "histogram" h)
      = ok (.obj [("histogram", h), ("makespan", mk), ("stats", st), ("tasks", ts)]) := by
  have e1 : setField (.obj [("makespan", mk), ("tasks", ts)]) "stats" st
      = ok (.obj [("makespan", mk), ("stats", st), ("tasks", ts)]) := by
    unfold setField
    dsimp only
    rw [setKey, if_neg (by decide), if_neg (by decide), setKey, if_neg (by decide), if_pos (by decide)]
  rw [e1, ok_bind]
  unfold setField
  dsimp only
  rw [setKey, if_neg (by decide), if_pos (by decide)]

theorem runPrediction_of {p : Project} (hp : p.Sound) {cs : List (Effect K)} {r : Prediction}
    {mk ts h : Json}
    (hc : (if o.quiet then pure () else consumeEvents m.logWritable m.columns o
        (Predict.predict E p o.binSize o.opt m.threads m.draws m.fuel m.more m.fuel' m.zs)) = (⟨cs, .ok ()⟩ : Io K Unit))
    (hr : (Predict.predict E p o.binSize o.opt m.threads m.draws m.fuel m.more m.fuel' m.zs).result = ok (some r))
    (hj : Timetable.toJson E p r.schedule r.makespan = ok (.obj [("makespan", mk), ("tasks", ts)]))
    (hh : r.histogram.toJson = ok h) :
    runPrediction E m p o = ⟨cs ++ (if o.quiet then [] else [.stdout (estimation r.stats)]),
      .ok (.obj [("histogram", h), ("makespan", mk), ("stats", r.stats.toJson), ("tasks", ts)])⟩ := by
  rw [runPrediction_eq hp, hc, Io.bind_ok, getFuture, hr]
  dsimp only
  rw [Io.bind_ok]
  dsimp only
  unfold printHistogramStats Cli.print
  rw [Io.emit_bind, hj, Io.lift_ok_bind]
  have hset := setField_prediction mk ts r.stats.toJson h
  obtain ⟨j, h1, h2⟩ := bind_eq_ok.1 hset
  rw [h1, Io.lift_ok_bind, hh, Io.lift_ok_bind, h2]
  simp only [Io.lift, List.append_nil, List.nil_append]
  rfl

theorem body_predict_of {p : Project} {pre cs : List (Effect K)} {j : List (String × Json)}
    (hpc : parseConfig m o = ⟨pre, .ok p⟩) (hr : runPrediction E m p o = ⟨cs, .ok (.obj j)⟩)
    (hj : j ≠ []) (hout : o.output ≠ "") (hw : CanWrite m o) :
    body E m .predict o = ⟨(pre ++ cs) ++ [.file o.output (.obj j)] ++
      (if o.quiet then [] else [.stdout ("Time estimation written to \"" ++ o.output ++ "\"\n")]), .ok ()⟩ := by
  unfold body
  rw [hpc, Io.bind_ok]
  dsimp only
  rw [hr, Io.bind_ok]
  unfold saveJson
  rw [expects_true (by simpa using hout), Io.lift_ok_bind,
    expects_true (by simpa [isEmptyJson] using hj), Io.lift_ok_bind, if_pos hw.1.1, if_pos hw.1.2, Io.emit_bind]
  simp only [Cli.print, Io.emit, List.append_assoc]

theorem runPrediction_throws {p : Project} (hp : p.Sound) {cs : List (Effect K)} {r : Prediction}
    {mk ts : Json} {e : Err}
    (hc : (if o.quiet then pure () else consumeEvents m.logWritable m.columns o
        (Predict.predict E p o.binSize o.opt m.threads m.draws m.fuel m.more m.fuel' m.zs)) = (⟨cs, .ok ()⟩ : Io K Unit))
    (hr : (Predict.predict E p o.binSize o.opt m.threads m.draws m.fuel m.more m.fuel' m.zs).result = ok (some r))
    (hj : Timetable.toJson E p r.schedule r.makespan = ok (.obj [("makespan", mk), ("tasks", ts)]))
    (hh : r.histogram.toJson = throws e) :
    runPrediction E m p o = ⟨cs ++ (if o.quiet then [] else [.stdout (estimation r.stats)]), .throws e⟩ := by
  rw [runPrediction_eq hp, hc, Io.bind_ok, getFuture, hr]
  dsimp only
  rw [Io.bind_ok]
  dsimp only
  unfold printHistogramStats Cli.print
  rw [Io.emit_bind, hj, Io.lift_ok_bind]
  have hset := setField_prediction mk ts r.stats.toJson (.int 0)
  obtain ⟨j, h1, h2⟩ := bind_eq_ok.1 hset
  have ht : (Io.lift (throws e : Outcome Json) : Io K Json) = ⟨[], .throws e⟩ := rfl
  rw [h1, Io.lift_ok_bind, hh, ht, Io.bind_throws]
  simp only [List.append_nil, List.nil_append]
  rfl

theorem body_predict_throws {p : Project} {pre cs : List (Effect K)} {e : Err}
    (hpc : parseConfig m o = ⟨pre, .ok p⟩) (hr : runPrediction E m p o = ⟨cs, .throws e⟩) :
    body E m .predict o = ⟨pre ++ cs, .throws e⟩ := by
  unfold body
  rw [hpc, Io.bind_ok]
  dsimp only
  rw [hr, Io.bind_throws]

/-- As `predict_command_core`; and if a run takes more than 2³¹ seconds and a bin, the program is aborted after the simulation and there is no output file. -/
theorem predict_command_full (hf : o.filename ≠ "") (hout : o.output ≠ "")
    {root : Yaml} {p : Project} (hs : m.source = .doc root) (hl : load m.readFloat root = ok p)
    (hp : p.Sound) (hfl : p.FloatsIn E) (hw : CanWrite m o) (ht : 0 < m.threads)
    {sp : ScheduleParams K} (hsp : toScheduleParams E p = ok sp)
    (ho : ValidOptions E (o.opt.options sp)) (hbin : ∀ b ∈ o.binSize, 1 ≤ b ∧ b < 2 ^ 31)
    {P : List Item → Int → List TaskEntry → Prop}
    (hjson : ∀ s v, ValidSchedule sp s → IsMakespan E sp s v → ∃ mk es, Predict.makespan E sp v = ok mk ∧
      Timetable.toJson E p s mk
        = ok (.obj [("makespan", .int mk), ("tasks", .arr (es.map TaskEntry.object))]) ∧ 1 ≤ mk ∧ P s mk es)
    {Few : Nat → Prop}
    (hstats : ∀ w vs h k, HistogramOf w vs h → 1 ≤ k → vs.length = 10000 * k → Few vs.length →
      ∃ st bins, stats E h = ok st ∧ h.toList = ok bins ∧ st.Conservative K vs bins) :
    ∃ (N : Nat) (s : List Item) (mk : Int) (es : List TaskEntry), ValidSchedule sp s ∧ P s mk es ∧
      ∀ fuel, N ≤ fuel → ∀ fuel' zs, RuleAnswers E p s m.more zs → ∀ result, result = body E { m with fuel := fuel, fuel' := fuel', zs := zs } .predict o →
        (status result.flow = .running ∧ (∀ e ∈ result.effects, ¬ e.IsFile) ∧
          histogram E p o.binSize s mk m.more fuel' zs = ok none) ∨
        ∃ (vs : List Int) (rest : List K) (k : Nat) (bins : List Bin),
          1 ≤ k ∧ vs.length = 10000 * k ∧ Runs E p s vs zs rest ∧
          (∀ j ≥ 1, j ≤ k → m.more (vs.take (10000 * j)) = ok (decide (j < k))) ∧
          Describes (resolutionOf o.binSize mk) vs bins ∧
          (Few vs.length → ∃ st : HistogramStats, st.Conservative K vs bins ∧
          ((∀ v ∈ vs, v < 2 ^ 31) → vs.length < 2 ^ 31 → status result.flow = .exit 0 ∧
            ∃ pre post : List (Effect K), (∀ e ∈ pre ++ post, ¬ e.IsFile) ∧
              (o.quiet = false → .stdout (estimation st) ∈ pre) ∧
              result.effects = pre ++ [.file o.output (.obj [
                ("histogram", .obj [("bin_size", .int (resolutionOf o.binSize mk)),
                  ("bins", .arr (bins.map fun b => .arr [.int b.low, .int b.count]))]),
                ("makespan", .int mk),
                ("stats", st.object),
                ("tasks", .arr (es.map TaskEntry.object))])] ++ post) ∧
          ((∃ v ∈ vs, 2 ^ 31 + resolutionOf o.binSize mk ≤ v) → vs.length < 2 ^ 31 →
            status result.flow = .aborted .range ∧ ∀ e ∈ result.effects, ¬ e.IsFile)) := by
  have hfit : ∀ s v, ValidSchedule sp s → IsMakespan E sp s v →
      E.mul v sp.durationMultiplier < 2 ^ 63 := by
    intro s v hs hv
    obtain ⟨m', _, hm', _⟩ := hjson s v hs hv
    unfold Predict.makespan at hm'
    obtain ⟨_, hx, _⟩ := bind_eq_ok.1 hm'
    have hx' := of_decide_eq_true (expects_eq_ok.1 hx)
    by_contra hge
    have hge' := not_lt.1 hge
    rw [truncate_of_nonneg (le_trans (by positivity) hge')] at hx'
    have := Int.floor_lt.1 hx'.2
    norm_num at this hge'
    exact absurd this (not_lt.2 hge')
  obtain ⟨N, r, v, hres, hvs, hmk, hwhole, hpm⟩ := schedule_completes hsp ho ht m.draws hfit
  obtain ⟨mk, es, hm, hj, hmk1, hP⟩ := hjson _ _ hvs hmk
  have hmr : r.makespan = mk := by
    rw [hpm] at hm
    exact (Outcome.ok.injEq ..).mp hm
  refine ⟨N, r.schedule, mk, es, hvs, hP, ?_⟩
  intro fuel hN fuel' zs hans result hresult
  obtain ⟨pre, hpre, hpc⟩ := parseConfig_ok (m := { m with fuel := fuel, fuel' := fuel', zs := zs }) hf hs hl
  have hpres := predict_result (binSize := o.binSize) (more := m.more) (fuel' := fuel') (zs := zs) (hres fuel hN)
  rw [hmr] at hpres
  obtain ⟨h, hh⟩ := histogram_safe hp hfl hsp hvs (fun b hb => (hbin b hb).1) hmk1 fuel' hans
  have hrun := runPrediction_eq (E := E) (m := { m with fuel := fuel, fuel' := fuel', zs := zs }) (o := o) hp
  -- the events are consumed
  have hcons : ∀ x, (Predict.predict E p o.binSize o.opt m.threads m.draws fuel m.more fuel' zs).result = ok x →
      ∃ cs : List (Effect K), (∀ e ∈ cs, ¬ e.IsFile) ∧
        ((if o.quiet then pure () else consumeEvents m.logWritable m.columns o
          (Predict.predict E p o.binSize o.opt m.threads m.draws fuel m.more fuel' zs))
        = (⟨cs, .ok ()⟩ : Io K Unit) ∨ x = none ∧ (if o.quiet then pure () else consumeEvents m.logWritable m.columns o
          (Predict.predict E p o.binSize o.opt m.threads m.draws fuel m.more fuel' zs))
        = (⟨cs, .running⟩ : Io K Unit)) := by
    intro x hx
    by_cases hq : o.quiet = true
    · exact ⟨[], by simp, .inl (by rw [if_pos hq]; rfl)⟩
    · rw [if_neg hq]
      obtain ⟨cs, h1, h2⟩ := consumeEvents_predict (m := { m with fuel := fuel, fuel' := fuel', zs := zs })
        (by simpa using hq) hw.2 hsp ho ht hx
      refine ⟨cs, h1, ?_⟩
      cases x with
      | none => exact .inr ⟨rfl, h2⟩
      | some x => exact .inl h2
  cases h with
  | none =>
    left
    rw [hh, ok_bind] at hpres
    dsimp only at hpres
    obtain ⟨cs, hcs, hc⟩ := hcons _ hpres
    have hrp : runPrediction E { m with fuel := fuel, fuel' := fuel', zs := zs } p o = ⟨cs, .running⟩ := by
      rw [hrun]
      dsimp only
      rcases hc with hc | ⟨_, hc⟩
      · rw [hc, Io.bind_ok, getFuture, hpres]
        dsimp only
        rw [Io.bind_running, List.append_nil]
      · rw [hc, Io.bind_running]
    have hbody : result = ⟨pre ++ cs, .running⟩ := by
      rw [hresult]
      unfold body
      rw [hpc, Io.bind_ok]
      dsimp only
      rw [hrp, Io.bind_running]
    rw [hbody]
    refine ⟨rfl, ?_, hh⟩
    intro e he
    rcases List.mem_append.1 he with he | he
    · exact onStdout_not_file (hpre e he)
    · exact hcs e he
  | some h =>
    right
    obtain ⟨w, vs, bins, rest, k, hk, hlenv, hruns, hdec, hgran, hof, hbins, _⟩ := histogram_batches hh
    have hvne : vs ≠ [] := by
      intro h0
      rw [h0] at hlenv
      simp at hlenv
      omega
    have hdesc : Describes w vs bins := by
      obtain ⟨hw1, hi⟩ := hof.inv
      have := hi.toList hw1
      rw [hbins] at this
      cases this
      exact hi.describes hw1
    have hwres : w = resolutionOf o.binSize mk := by
      obtain ⟨r1, r2⟩ := resolution hmk1
      unfold resolutionOf
      cases hob : o.binSize with
      | none =>
        rw [hob, r1] at hgran
        exact ((Outcome.ok.injEq ..).mp hgran).symm
      | some b =>
        rw [hob, r2] at hgran
        exact ((Outcome.ok.injEq ..).mp hgran).symm
    have hwlt : w < 2 ^ 31 := by
      rw [hwres]
      unfold resolutionOf
      cases hob : o.binSize with
      | none =>
        dsimp only
        split_ifs <;> norm_num
      | some b => exact (hbin b hob).2
    rw [hwres] at hof hdesc hwlt
    refine ⟨vs, rest, k, bins, hk, hlenv, hruns, hdec, hdesc, ?_⟩
    intro hfew
    obtain ⟨st, bins', hst, hbins', hfrac⟩ := hstats _ _ _ k hof hk hlenv hfew
    rw [hbins] at hbins'
    cases hbins'
    rw [hh, ok_bind] at hpres
    dsimp only at hpres
    rw [hst, ok_bind] at hpres
    obtain ⟨cs, hcs, hc⟩ := hcons _ hpres
    have hc : (if o.quiet then pure () else consumeEvents m.logWritable m.columns o
          (Predict.predict E p o.binSize o.opt m.threads m.draws fuel m.more fuel' zs))
        = (⟨cs, .ok ()⟩ : Io K Unit) := by
      rcases hc with hc | ⟨hc, _⟩
      · exact hc
      · cases hc
    refine ⟨st, hfrac, fun hv31 hl31 => ?_, fun hlong hl31 => ?_⟩
    swap
    · have hthrow := histogram_json_throws hof hlong hl31
      have hrp := runPrediction_throws (m := { m with fuel := fuel, fuel' := fuel', zs := zs }) hp hc hpres hj hthrow
      have hbody := body_predict_throws hpc hrp
      rw [← hresult] at hbody
      rw [hbody]
      refine ⟨rfl, fun e he => ?_⟩
      simp only [List.mem_append] at he
      rcases he with he | he | he
      · exact onStdout_not_file (hpre e he)
      · exact hcs e he
      · exact onStdout_not_file (quiet_stdout o _ e he)
    obtain ⟨bins', hd', hjson⟩ := histogram_json hof hvne hv31 hwlt hl31
    have hbb : bins' = bins := hd'.unique hof.1 hdesc (List.Perm.refl _)
    subst hbb
    have hrp := runPrediction_of (m := { m with fuel := fuel, fuel' := fuel', zs := zs }) hp hc hpres hj hjson
    have hbody := body_predict_of hpc hrp (by simp) hout hw
    rw [← hresult] at hbody
    rw [hbody]
    refine ⟨rfl, _, _, ?_, ?_, rfl⟩
    · intro e he
      simp only [List.mem_append] at he
      rcases he with (he | he | he) | he
      · exact onStdout_not_file (hpre e he)
      · exact hcs e he
      · exact onStdout_not_file (quiet_stdout o _ e he)
      · exact onStdout_not_file (quiet_stdout o _ e he)
    · intro hq
      rw [if_neg (by simp [hq])]
      simp

/-- The program without a command, for every rounding. Let the document load into a sound project, let the options be valid, let every valid schedule
with its makespan have a JSON, and let the percentiles of `10000 * k` results be right if their number satisfies `Few`. Then the optimizer finds a schedule, whatever
the random numbers are; and the simulation either has not ended yet, with no output file, or it has run `10000 * k` times until the stopping rule was satisfied,
and the program has printed the percentiles and written the output file once. -/
theorem predict_command_core (hf : o.filename ≠ "") (hout : o.output ≠ "")
    {root : Yaml} {p : Project} (hs : m.source = .doc root) (hl : load m.readFloat root = ok p)
    (hp : p.Sound) (hfl : p.FloatsIn E) (hw : CanWrite m o) (ht : 0 < m.threads)
    {sp : ScheduleParams K} (hsp : toScheduleParams E p = ok sp)
    (ho : ValidOptions E (o.opt.options sp)) (hbin : ∀ b ∈ o.binSize, 1 ≤ b ∧ b < 2 ^ 31)
    {P : List Item → Int → List TaskEntry → Prop}
    (hjson : ∀ s v, ValidSchedule sp s → IsMakespan E sp s v → ∃ mk es, Predict.makespan E sp v = ok mk ∧
      Timetable.toJson E p s mk
        = ok (.obj [("makespan", .int mk), ("tasks", .arr (es.map TaskEntry.object))]) ∧ 1 ≤ mk ∧ P s mk es)
    {Few : Nat → Prop}
    (hstats : ∀ w vs h k, HistogramOf w vs h → 1 ≤ k → vs.length = 10000 * k → Few vs.length →
      ∃ st bins, stats E h = ok st ∧ h.toList = ok bins ∧ st.Conservative K vs bins) :
    ∃ (N : Nat) (s : List Item) (mk : Int) (es : List TaskEntry), ValidSchedule sp s ∧ P s mk es ∧
      ∀ fuel, N ≤ fuel → ∀ fuel' zs, RuleAnswers E p s m.more zs → ∀ result, result = body E { m with fuel := fuel, fuel' := fuel', zs := zs } .predict o →
        (status result.flow = .running ∧ (∀ e ∈ result.effects, ¬ e.IsFile) ∧
          histogram E p o.binSize s mk m.more fuel' zs = ok none) ∨
        ∃ (vs : List Int) (rest : List K) (k : Nat) (bins : List Bin),
          1 ≤ k ∧ vs.length = 10000 * k ∧ Runs E p s vs zs rest ∧
          (∀ j ≥ 1, j ≤ k → m.more (vs.take (10000 * j)) = ok (decide (j < k))) ∧
          Describes (resolutionOf o.binSize mk) vs bins ∧
          (Few vs.length → ∃ st : HistogramStats, st.Conservative K vs bins ∧
          ((∀ v ∈ vs, v < 2 ^ 31) → vs.length < 2 ^ 31 → status result.flow = .exit 0 ∧
            ∃ pre post : List (Effect K), (∀ e ∈ pre ++ post, ¬ e.IsFile) ∧
              (o.quiet = false → .stdout (estimation st) ∈ pre) ∧
              result.effects = pre ++ [.file o.output (.obj [
                ("histogram", .obj [("bin_size", .int (resolutionOf o.binSize mk)),
                  ("bins", .arr (bins.map fun b => .arr [.int b.low, .int b.count]))]),
                ("makespan", .int mk),
                ("stats", st.object),
                ("tasks", .arr (es.map TaskEntry.object))])] ++ post)) := by
  obtain ⟨N, s, mk, es, h1, h2, h3⟩ := predict_command_full hf hout hs hl hp hfl hw ht hsp ho hbin hjson hstats
  refine ⟨N, s, mk, es, h1, h2, fun fuel hN fuel' zs hans result hres => ?_⟩
  rcases h3 fuel hN fuel' zs hans result hres with h | ⟨vs, rest, k, bins, g1, g2, g3, g4, g5, g6⟩
  · exact .inl h
  · refine .inr ⟨vs, rest, k, bins, g1, g2, g3, g4, g5, fun hfew => ?_⟩
    obtain ⟨st, g7, g8, -⟩ := g6 hfew
    exact ⟨st, g7, g8⟩

/-- C64. The program without a command, from the document to the output file, for exact arithmetic. Let the document load into
a sound project (see `loaded_sound`) that takes at least a second and at most 2³¹ seconds, let the options be valid and let the stopping rule not
fail. Then the optimizer finds a schedule, whatever the random numbers are; and the simulation either has not ended yet,
with no output file, or it has run `10000 * k` times until the stopping rule was satisfied. In this case, if all results and their number fit an `int`,
the program has printed the percentiles and written the output file once, with the timetable of the
schedule, its makespan, the histogram of exactly these results, and the percentiles of this histogram. -/
theorem predict_command (hE : E.IsExact) (hf : o.filename ≠ "") (hout : o.output ≠ "")
    {root : Yaml} {p : Project} (hs : m.source = .doc root) (hl : load m.readFloat root = ok p)
    (hp : p.Sound) (hmod : p.Moderate) (hw : CanWrite m o) (ht : 0 < m.threads)
    {sp : ScheduleParams K} (hsp : toScheduleParams E p = ok sp)
    (ho : ValidOptions E (o.opt.options sp)) (hbin : ∀ b ∈ o.binSize, 1 ≤ b ∧ b < 2 ^ 31) :
    ∃ (N : Nat) (s : List Item) (mk : Int) (es : List TaskEntry) (start finish : Nat → K) (V : K),
      ValidSchedule sp s ∧ es.length = s.length ∧
      (∀ (i : Nat) (it : Item) (e : TaskEntry), s[i]? = some it → es[i]? = some e →
        e.Correct E p (p.secondsParams E sp) s start i it ∧ e.start + e.duration ≤ mk) ∧
      Earliest E (p.secondsParams E sp) s start finish ∧ IsEnd s finish V ∧ IsWholePart mk V ∧
      ∀ fuel, N ≤ fuel → ∀ fuel' zs, RuleAnswers E p s m.more zs → ∀ result, result = body E { m with fuel := fuel, fuel' := fuel', zs := zs } .predict o →
        (status result.flow = .running ∧ (∀ e ∈ result.effects, ¬ e.IsFile) ∧
          histogram E p o.binSize s mk m.more fuel' zs = ok none) ∨
        ∃ (vs : List Int) (rest : List K) (k : Nat) (bins : List Bin) (st : HistogramStats),
          1 ≤ k ∧ vs.length = 10000 * k ∧ Runs E p s vs zs rest ∧
          (∀ j ≥ 1, j ≤ k → m.more (vs.take (10000 * j)) = ok (decide (j < k))) ∧
          Describes (resolutionOf o.binSize mk) vs bins ∧ st.Conservative K vs bins ∧
          ((∀ v ∈ vs, v < 2 ^ 31) → vs.length < 2 ^ 31 → status result.flow = .exit 0 ∧
            ∃ pre post : List (Effect K), (∀ e ∈ pre ++ post, ¬ e.IsFile) ∧
              (o.quiet = false → .stdout (estimation st) ∈ pre) ∧
              result.effects = pre ++ [.file o.output (.obj [
                ("histogram", .obj [("bin_size", .int (resolutionOf o.binSize mk)),
                  ("bins", .arr (bins.map fun b => .arr [.int b.low, .int b.count]))]),
                ("makespan", .int mk),
                ("stats", st.object),
                ("tasks", .arr (es.map TaskEntry.object))])] ++ post) := by
  have hfl : p.FloatsIn E := fun _ _ _ _ => hE _
  have hb := fun s h => (moderate_executions hE hp hmod hsp (s := s) h).1
  have h1 := fun s h => (moderate_executions hE hp hmod hsp (s := s) h).2
  obtain ⟨N, s, mk, es, hvs, ⟨start, finish, V, hlen, hcor, hex, hend, hV⟩, h⟩ := predict_command_core hf hout hs hl hp hfl hw ht
    hsp ho hbin (P := fun s mk es => ∃ (start finish : Nat → K) (V : K), es.length = s.length ∧
      (∀ (i : Nat) (it : Item) (e : TaskEntry), s[i]? = some it → es[i]? = some e →
        e.Correct E p (p.secondsParams E sp) s start i it ∧ e.start + e.duration ≤ mk) ∧
      Earliest E (p.secondsParams E sp) s start finish ∧ IsEnd s finish V ∧ IsWholePart mk V) (Few := fun _ => True)
    (fun s v hs hv => by
      obtain ⟨mk, es, start, finish, hm, hj, hlen, hcor, hex, V, hend, hV⟩ := schedule_json_exact hE hp hsp hs
        hv (hb _ hs) (h1 _ hs)
      refine ⟨mk, es, hm, hj, ?_, start, finish, V, hlen, hcor, hex, hend, hV⟩
      obtain ⟨it, hit, h⟩ := h1 _ hs start finish hex.1
      have h2 := lt_of_le_of_lt (h.trans (hend.1 it hit)) hV.2
      have : (0 : K) < mk := by linarith
      have : 0 < mk := by exact_mod_cast this
      omega)
    (fun w vs h k hh hk hlen _ => percentiles_fraction hE hh (by
      rintro rfl
      simp at hlen
      omega))
  refine ⟨N, s, mk, es, start, finish, V, hvs, hlen, hcor, hex, hend, hV, ?_⟩
  intro fuel hN fuel' zs hans result hresult
  rcases h fuel hN fuel' zs hans result hresult with h | ⟨vs, rest, k, bins, h1, h2, h3, h4, h5, h6⟩
  · exact Or.inl h
  · obtain ⟨st, h7, h8⟩ := h6 trivial
    exact Or.inr ⟨vs, rest, k, bins, st, h1, h2, h3, h4, h5, h7, h8⟩

end Angonoka.Props
