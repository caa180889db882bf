import Verif.Props.FloatCertain

/-!
# C94: a prediction that does not end

In exact arithmetic the prediction for a project without spread ends after 16 batches (C66). In single precision the mean of the
errors keeps a residue of the first error, which is the makespan in seconds less one. For some projects the residue is greater than
the limit of 0.01, and the simulation goes on for ever.
-/

set_option linter.unusedSectionVars false

namespace Angonoka.Props
open Angonoka Outcome Stun Cli

variable {E : FloatEnv ℚ}

/-- 30 days in seconds -/
def monthSeconds : Int := 2592000

/-- The first error is the makespan less one. -/
theorem month_first_error (hE : E.IsFloat) :
    Stopping.meanAbsolutePctError E (List.replicate 5 (monthSeconds : ℚ)) (List.replicate 5 1) = ok (2591999, List.replicate 5 (monthSeconds : ℚ)) := by
  unfold Stopping.meanAbsolutePctError
  simp only [List.replicate, Stopping.errorLoop, FloatEnv.add, FloatEnv.sub, FloatEnv.div, FloatEnv.ofInt]
  rw [show E.rnd = Binary32.round from funext hE]
  decide +kernel

/-- All others are zero. -/
theorem month_other_errors (hE : E.IsFloat) :
    Stopping.meanAbsolutePctError E (List.replicate 5 (monthSeconds : ℚ)) (List.replicate 5 (monthSeconds : ℚ))
      = ok (0, List.replicate 5 (monthSeconds : ℚ)) := by
  unfold Stopping.meanAbsolutePctError
  simp only [List.replicate, Stopping.errorLoop, FloatEnv.add, FloatEnv.sub, FloatEnv.div, FloatEnv.ofInt]
  rw [show E.rnd = Binary32.round from funext hE]
  decide +kernel

theorem month_after (hE : E.IsFloat) {N k : Nat} (hk : 10000 * (k + 1) ≤ N) :
    Stopping.after E (PSquare.quantiles E) (List.replicate N monthSeconds) (k + 1)
      = ok { quantiles := List.replicate 5 (monthSeconds : ℚ), errors := List.replicate k 0 ++ [2591999] } := by
  induction k with
  | zero =>
    rw [Stopping.after, Stopping.after, ok_bind, Stopping.step, show HistogramOp.batchSize = 10000 from rfl, take_replicate hk,
      quantiles_constant_float hE (by norm_num) (by decide)]
    simp only [Stopping.init]
    rw [month_first_error hE]
    rfl
  | succ k ih =>
    rw [Stopping.after, ih (by omega), ok_bind, Stopping.step, show HistogramOp.batchSize = 10000 from rfl, take_replicate hk,
      quantiles_constant_float hE (by omega) (by decide)]
    dsimp only
    rw [month_other_errors hE]
    rfl

/-- The mean of the errors stays above the limit. -/
theorem month_residue (hE : E.IsFloat) (k : Nat) :
    E.rnd (1 / 100) < E.rolling 15 (List.replicate k 0 ++ [2591999]) := by
  unfold FloatEnv.rolling
  rw [show E.rnd = Binary32.round from funext hE]
  rcases Nat.lt_or_ge k 15 with h | h
  · have : ∀ k < 15, Binary32.round (1 / 100 : ℚ) < rollingMean Binary32.round 15 (List.replicate k 0 ++ [2591999]) := by decide +kernel
    exact this k h
  · obtain ⟨j, rfl⟩ : ∃ j, k = 15 + j := ⟨k - 15, by omega⟩
    rw [rollingMean_stays (by norm_num)]
    decide +kernel

/-- If all runs take 30 days, the stopping rule never stops. -/
theorem month_goes_on (hE : E.IsFloat) (k : Nat) (hk : 1 ≤ k) :
    Stopping.more E (PSquare.quantiles E) (List.replicate (10000 * k) monthSeconds) = ok true := by
  obtain ⟨k, rfl⟩ : ∃ j, k = j + 1 := ⟨k - 1, by omega⟩
  unfold Stopping.more
  rw [List.length_replicate, show 10000 * (k + 1) / HistogramOp.batchSize = k + 1 from Nat.mul_div_cancel_left _ (by decide),
    month_after hE le_rfl, ok_bind]
  dsimp only
  rw [show Stopping.windowSize = 15 from rfl, decide_eq_true (month_residue hE k)]
  rfl

/-- One agent, one task of 30 days -/
def Sample.month : Yaml := Sample.obj [
  ("agents", Sample.obj [("Bob", .null)]),
  ("tasks", .seq [Sample.obj [("name", Sample.str "build"), ("duration", Sample.str "30 days")]])]

def Sample.monthProject : Project where
  agents := [{ id := 0, name := "Bob" }]
  tasks := [{ name := "build", durMin := 2592000, durMax := 2592000 }]

theorem Sample.month_loads (read : String → Option XFloat) : load read Sample.month = ok Sample.monthProject := by
  rw [Load.load_eval 20 _ _ (by decide)]
  rfl

theorem month_sound : Sample.monthProject.Sound := by
  refine loaded_sound (Sample.month_loads Sample.number) (by decide) ?_ ?_
  · intro a ha
    simp only [Sample.monthProject, List.mem_cons, List.not_mem_nil, or_false] at ha
    subst ha
    exact ⟨_, _, rfl, rfl⟩
  · intro t ht
    simp only [Sample.monthProject, List.mem_cons, List.not_mem_nil, or_false] at ht
    subst ht
    simp [Sample.monthProject, Eligible]

theorem month_inRange : Sample.monthProject.InRange where
  tasks := by decide
  agents := by decide
  durations := by decide
  performance := by
    intro a ha q hq
    simp only [Sample.monthProject, List.mem_cons, List.not_mem_nil, or_false] at ha
    subst ha
    rcases hq with hq | hq <;> cases hq <;> norm_num

theorem month_takes : Sample.monthProject.TakesBetween 2 (2 ^ 30) where
  longer := by
    refine ⟨_, List.mem_cons_self, ?_⟩
    intro a ha q hq
    simp only [Sample.monthProject, List.mem_cons, List.not_mem_nil, or_false] at ha
    subst ha
    cases hq
    decide +kernel
  shorter := by
    intro a ha q hq
    simp only [Sample.monthProject, List.mem_cons, List.not_mem_nil, or_false] at ha
    subst ha
    cases hq
    decide +kernel

theorem month_floats (E : FloatEnv ℚ) : Sample.monthProject.FloatsIn E := by
  intro a ha q hq
  simp only [Sample.monthProject, List.mem_cons, List.not_mem_nil, or_false] at ha
  subst ha
  rcases hq with hq | hq <;> cases hq <;> simpa using E.rnd_one

/-- Every run takes 30 days. -/
theorem month_runs (hE : E.IsFloat) {sp : ScheduleParams ℚ} (hsp : toScheduleParams E Sample.monthProject = ok sp) {s : List Item}
    (hs : ValidSchedule sp s) : ConstantRuns E Sample.monthProject s monthSeconds := by
  have hfl := month_floats E
  obtain ⟨hw, hc⟩ := secondsParams_wellFormed month_sound hfl hsp
  have hs' := secondsParams_valid hc hs
  obtain ⟨st, fi, hex, hend, _, hl⟩ := makespanValue_spec (E := E) hw hs'
  obtain ⟨f1, f2, _, _, f5, f6⟩ := params_faithful month_sound.agent_groups month_sound.task_groups hsp
  have hm0 : E.rnd 2592000 = 2592000 := by
    rw [hE]
    exact Binary32.round_int (K := ℚ) (n := 2592000) (by norm_num)
  -- the schedule has one item
  have hitem : ∀ it ∈ s, it = ⟨0, 0⟩ := by
    intro it hit
    have h1 : it.task ∈ List.range sp.taskCount := hs.complete.mem_iff.1 (List.mem_map_of_mem hit)
    rw [f1, List.mem_range] at h1
    have h1 : it.task = 0 := by
      have : Sample.monthProject.tasks.length = 1 := rfl
      omega
    have h2 := hs.eligible it hit
    rw [h1] at h2
    obtain ⟨a, ha, _⟩ := ((f5 0 _ rfl).1 it.agent).1 h2
    have h3 := (List.getElem?_eq_some_iff.1 ha).1
    have h3 : it.agent = 0 := by
      have : Sample.monthProject.agents.length = 1 := rfl
      omega
    cases it
    simp only at h1 h3
    rw [h1, h3]
  have hperf : sp.agentPerformance[0]? = some 1 := by
    obtain ⟨lo, hi, hok, hx⟩ := f6 0 _ rfl
    have h1 := hok.1
    have h2 := hok.2.1
    cases h1
    cases h2
    rw [hx]
    have h3 : E.rnd (E.rnd (1 + 1) / 2) = 1 := by
      have h4 := E.rnd_double 1
      rw [E.rnd_one] at h4
      rw [show (1 : ℚ) + 1 = 2 * 1 by norm_num, h4, show (2 : ℚ) * 1 / 2 = 1 by norm_num, E.rnd_one]
    simpa using h3
  have htime : (Sample.monthProject.secondsParams E sp).itemTime E ⟨0, 0⟩ = 2592000 := by
    unfold ScheduleParams.itemTime
    have h1 : (Sample.monthProject.secondsParams E sp).taskDuration.getD 0 0 = 2592000 := by
      show E.ofInt (Task.meanDuration { name := "build", durMin := 2592000, durMax := 2592000 }) = 2592000
      rw [show Task.meanDuration { name := "build", durMin := 2592000, durMax := 2592000 } = 2592000 by decide]
      unfold FloatEnv.ofInt
      exact_mod_cast hm0
    have h2 : (Sample.monthProject.secondsParams E sp).agentPerformance.getD 0 0 = 1 := by
      show sp.agentPerformance.getD 0 0 = 1
      rw [List.getD_eq_getElem?_getD, hperf]
      rfl
    dsimp only
    rw [h1, h2]
    unfold FloatEnv.div
    rw [div_one, hm0]
  -- starting at 0 is possible
  have hpair : s.Pairwise fun a b => a.agent = b.agent → (2592000 : ℚ) ≤ 0 := by
    have hnd : (s.map Item.task).Nodup := hs.complete.nodup_iff.2 List.nodup_range
    have hnd' := List.nodup_iff_pairwise_ne.1 hnd
    rw [List.pairwise_map] at hnd'
    refine hnd'.imp_of_mem ?_
    intro a b ha hb hab
    rw [hitem a ha, hitem b hb] at hab
    exact absurd rfl hab
  have hex0 : Execution E (Sample.monthProject.secondsParams E sp) s (fun _ => 0) (fun _ => 2592000) := by
    refine ⟨fun _ _ => le_rfl, ?_, ?_, hpair⟩
    · intro it hit
      rw [hitem it hit, htime]
      unfold FloatEnv.add
      rw [zero_add, hm0]
    · intro it hit d hd
      rw [hitem it hit] at hd
      have : (Sample.monthProject.secondsParams E sp).deps 0 = [] := (f5 0 _ rfl).2.2
      rw [this] at hd
      cases hd
  have hV : IsEnd s fi 2592000 := by
    have hfi : ∀ it ∈ s, fi it.task = 2592000 := by
      intro it hit
      apply le_antisymm (hl _ _ hex0 it hit).2
      rw [hex.time it hit, hitem it hit, htime]
      have h0 := hex.nonneg it hit
      rw [hitem it hit] at h0
      calc (2592000 : ℚ) = E.rnd 2592000 := hm0.symm
        _ ≤ _ := E.rnd_mono (by linarith)
    obtain ⟨it, hit, _⟩ := hend.2
    exact ⟨fun it hit => (hfi it hit).le, it, hit, hfi it hit⟩
  intro sim zs hsim
  exact deterministic_value month_sound hfl hsp hs (by
      intro a ha
      simp only [Sample.monthProject, List.mem_cons, List.not_mem_nil, or_false] at ha
      subst ha
      rfl)
    (by
      intro t ht
      simp only [Sample.monthProject, List.mem_cons, List.not_mem_nil, or_false] at ht
      subst ht
      rfl) ⟨hex, hl⟩ hV (by unfold IsWholePart monthSeconds; norm_num) hsim zs

/-- C94, the consequence for predictions: in single precision, the program without a command, given a document with one agent and one task
of 30 days, does not end. However long it runs, it is still running and has written no file. In exact arithmetic it ends after 16 batches
(`certain_prediction_partial`). -/
theorem endless_prediction (hE : E.IsFloat) {m : Machine ℚ} {o : Cli.Options ℚ} (hf : o.filename ≠ "") (hout : o.output ≠ "")
    (hs : m.source = .doc Sample.month) (hw : CanWrite m o) (ht : 0 < m.threads) {sp : ScheduleParams ℚ}
    (hsp : toScheduleParams E Sample.monthProject = ok sp) (ho : ValidOptions E (o.opt.options sp))
    (hbin : ∀ b ∈ o.binSize, 1 ≤ b ∧ b < 2 ^ 31) (hm : m.more = Stopping.more E (PSquare.quantiles E)) :
    ∃ N, ∀ fuel, N ≤ fuel → ∀ fuel' zs, ∀ result, result = body E { m with fuel := fuel, fuel' := fuel', zs := zs } .predict o →
      status result.flow = .running ∧ ∀ e ∈ result.effects, ¬ e.IsFile := by
  obtain ⟨sp₀, hsp₀, _⟩ := params_wellFormed (E := E.unrounded) month_sound (fun _ _ _ _ => rfl)
  obtain ⟨N, s, mk, _, _, _, _, _, hvs, _, _, _, _, _, h⟩ := float_predict_command hE hf hout hs (Sample.month_loads _) month_sound month_inRange
    (month_floats E) month_takes hw ht hsp hsp₀ ho hbin
  have hcr := month_runs hE hsp hvs
  refine ⟨N, fun fuel hN fuel' zs result hresult => ?_⟩
  have hans : RuleAnswers E Sample.monthProject s m.more zs := by
    intro vs rest k hk hlen hvs
    rw [hcr.eq_replicate hvs.result, hlen, hm]
    exact ⟨_, month_goes_on hE k hk⟩
  rcases h fuel hN fuel' zs hans result hresult with ⟨h1, h2, _⟩ | ⟨vs, rest, k, _, hk, hlen, hruns, hdec, _⟩
  · exact ⟨h1, h2⟩
  · exfalso
    have h3 := hdec k hk le_rfl
    rw [List.take_of_length_le hlen.le, hcr.eq_replicate hruns.result, hlen, hm, month_goes_on hE k hk] at h3
    simp at h3

/-- With the default options -/
example (draws : Nat → Nat → Nat → Draws ℚ) : ∃ N, ∀ fuel, N ≤ fuel → ∀ fuel' zs,
    status (body ratFloat { exampleMachine draws with
      source := .doc Sample.month, more := Stopping.more ratFloat (PSquare.quantiles ratFloat), fuel := fuel, fuel' := fuel', zs := zs }
      .predict cliOptions).flow = .running := by
  obtain ⟨sp, hsp, hw⟩ := params_wellFormed (E := ratFloat) month_sound (month_floats ratFloat)
  obtain ⟨N, h⟩ := endless_prediction ratFloat_isFloat (m := { exampleMachine draws with
      source := .doc Sample.month, more := Stopping.more ratFloat (PSquare.quantiles ratFloat) }) (by decide) (by decide) rfl
    (example_canWrite (draws := draws)) (by exact (by decide : 0 < 4)) hsp (cliOptions_valid_float hw) (by intro b hb; cases hb) rfl
  exact ⟨N, fun fuel hN fuel' zs => (h fuel hN fuel' zs _ rfl).1⟩

end Angonoka.Props
