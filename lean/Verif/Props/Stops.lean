import Verif.Spec.Stops
import Verif.Proof.Fed
import Verif.Props.Log
import Verif.Props.Patience

/-!
# C123: when the search stops
-/

set_option linter.unusedSectionVars false

namespace Angonoka.Props
open Angonoka Outcome Stun Cli

variable {K : Type} [Field K] [LinearOrder K] [IsStrictOrderedRing K] {E : FloatEnv K}

/-- What a round does to the counters -/
theorem update_counts {o o' : Optimizer K} {draws : Nat → Nat → Draws K} (h : o.update E draws = ok o') :
    o'.batchSize = o.batchSize ∧ o'.maxIdleIters = o.maxIdleIters ∧
      (o'.epochs = o.epochs ∧ o'.idleIters = o.idleIters + o.batchSize ∨ o'.epochs = o.epochs + 1 ∧ o'.idleIters = 0) := by
  unfold Optimizer.update at h
  obtain ⟨_, _, h⟩ := bind_eq_ok.1 h
  obtain ⟨_, _, h⟩ := bind_eq_ok.1 h
  obtain ⟨_, _, h⟩ := bind_eq_ok.1 h
  obtain ⟨_, _, h⟩ := bind_eq_ok.1 h
  obtain ⟨_, _, h⟩ := bind_eq_ok.1 h
  split at h
  · unfold Optimizer.interpolateProgress at h
    obtain ⟨_, _, h⟩ := bind_eq_ok.1 h
    cases h
    exact ⟨rfl, rfl, .inl ⟨rfl, rfl⟩⟩
  · unfold Optimizer.estimateProgress at h
    obtain ⟨_, _, h⟩ := bind_eq_ok.1 h
    obtain ⟨_, _, h⟩ := bind_eq_ok.1 h
    obtain ⟨_, _, h⟩ := bind_eq_ok.1 h
    obtain ⟨_, _, h⟩ := bind_eq_ok.1 h
    cases h
    exact ⟨rfl, rfl, .inr ⟨rfl, rfl⟩⟩

/-- A counter `e` that goes up or stays, and a counter `idle` of the steps since it has gone up, `b` for each of them -/
theorem idle_steps {N b : Nat} {e idle : Nat → Nat} (h0 : idle 0 = 0)
    (h : ∀ r < N, e (r + 1) = e r ∧ idle (r + 1) = idle r + b ∨ e (r + 1) = e r + 1 ∧ idle (r + 1) = 0) (r : Nat) (hr : r ≤ N) :
    ∃ k ≤ r, idle r = k * b ∧ (∀ i, r - k ≤ i → i ≤ r → e i = e r) ∧ ∀ i < r - k, e i < e r := by
  induction r with
  | zero => exact ⟨0, le_rfl, by simpa using h0, fun i _ hi => by rw [Nat.le_zero.1 hi], fun i hi => absurd hi (by omega)⟩
  | succ r ih =>
    obtain ⟨k, hk, h1, h2, h3⟩ := ih (by omega)
    rcases h r (by omega) with ⟨g1, g2⟩ | ⟨g1, g2⟩
    · refine ⟨k + 1, by omega, by rw [g2, h1]; ring, fun i hi hi' => ?_, fun i hi => ?_⟩
      · rcases Nat.lt_or_ge r i with hri | hri
        · rw [show i = r + 1 by omega]
        · rw [g1]
          exact h2 i (by omega) hri
      · rw [g1]
        exact h3 i (by omega)
    · refine ⟨0, by omega, by simp [g2], fun i hi hi' => by rw [show i = r + 1 by omega], fun i hi => ?_⟩
      rw [g1]
      rcases Nat.lt_or_ge i (r - k) with hlt | hge
      · exact (h3 i hlt).trans (Nat.lt_succ_self _)
      · rw [h2 i hge (by omega)]
        exact Nat.lt_succ_self _

variable [FloorRing K]

/-- The rows of an optimization that has ended -/
theorem stops_of_rounds {sp : ScheduleParams K} {opt : OptParams K} {threads : Nat} {draws : Nat → Nat → Nat → Draws K} {o₀ : Optimizer K}
    (h₀ : Optimizer.new E (opt.options sp) threads = ok o₀) {N : Nat} (hN : FirstConverged E draws o₀ N) {ps : List (Event K)}
    (hps : ReportsRounds E sp draws o₀ N ps) :
    StopsAfter ((opt.maxIdleIters + opt.batchSize - 1) / opt.batchSize) ((logRows ps).map fun row => row.2.2) := by
  obtain ⟨hb, hm, hi0, he0, hmax⟩ : 0 < opt.batchSize ∧ 0 < opt.maxIdleIters ∧ o₀.idleIters = 0 ∧ o₀.epochs = 0 ∧
      (o₀.maxIdleIters = opt.maxIdleIters ∧ o₀.batchSize = opt.batchSize) := by
    unfold Optimizer.new at h₀
    obtain ⟨_, g1, h₀⟩ := bind_eq_ok.1 h₀
    obtain ⟨_, g2, h₀⟩ := bind_eq_ok.1 h₀
    obtain ⟨_, _, h₀⟩ := bind_eq_ok.1 h₀
    obtain ⟨_, _, h₀⟩ := bind_eq_ok.1 h₀
    cases h₀
    exact ⟨of_decide_eq_true (expects_eq_ok.1 g1), of_decide_eq_true (expects_eq_ok.1 g2), rfl, rfl, rfl, rfl⟩
  set b := opt.batchSize
  set M := opt.maxIdleIters
  set n := (M + b - 1) / b with hn
  have hceil : ∀ k, M ≤ k * b ↔ n ≤ k := fun k => by
    rw [hn, Nat.div_le_iff_le_mul_add_pred hb, Nat.mul_comm b k]
    omega
  clear_value n
  clear hn
  -- the states
  have hstate : ∀ r ≤ N, ∃ o, o₀.rounds E draws r = ok o := fun r hr => by
    rcases Nat.lt_or_ge r N with h | h
    · obtain ⟨o, h1, _⟩ := hN.2 r h
      exact ⟨o, h1⟩
    · obtain ⟨o, h1, _⟩ := hN.1
      rw [show r = N by omega]
      exact ⟨o, h1⟩
  let st : Nat → Optimizer K := fun r => match o₀.rounds E draws r with
    | ok o => o
    | _ => o₀
  have hst : ∀ r ≤ N, o₀.rounds E draws r = ok (st r) := fun r hr => by
    obtain ⟨o, h⟩ := hstate r hr
    simp only [st, h]
  have hconst : ∀ r ≤ N, (st r).batchSize = b ∧ (st r).maxIdleIters = M := fun r => by
    induction r with
    | zero => exact fun _ => ⟨hmax.2, hmax.1⟩
    | succ r ih =>
      intro hr
      obtain ⟨o₁, g1, g2⟩ := Optimizer.rounds_succ (hst _ hr)
      rw [hst r (by omega)] at g1
      cases g1
      obtain ⟨c1, c2, _⟩ := update_counts g2
      rw [c1, c2]
      exact ih (by omega)
  have hstep : ∀ r < N, (st (r + 1)).epochs = (st r).epochs ∧ (st (r + 1)).idleIters = (st r).idleIters + b ∨
      (st (r + 1)).epochs = (st r).epochs + 1 ∧ (st (r + 1)).idleIters = 0 := fun r hr => by
    obtain ⟨o₁, g1, g2⟩ := Optimizer.rounds_succ (hst _ hr)
    rw [hst r hr.le] at g1
    cases g1
    have := (update_counts g2).2.2
    rwa [(hconst r hr.le).1] at this
  have hidle := idle_steps (N := N) (b := b) (e := fun r => (st r).epochs) (idle := fun r => (st r).idleIters) hi0 hstep
  have hconv : ∀ r ≤ N, ((st r).hasConverged = true ↔ r = N) := fun r hr => by
    constructor
    · intro h
      by_contra hne
      obtain ⟨o, h1, h2⟩ := hN.2 r (by omega)
      rw [hst r hr] at h1
      cases h1
      rw [h2] at h
      cases h
    · rintro rfl
      obtain ⟨o, h1, h2⟩ := hN.1
      rw [hst r le_rfl] at h1
      cases h1
      exact h2
  have hsame : ∀ r ≤ N, n ≤ r → ((st r).epochs = (st (r - n)).epochs ↔ r = N) := fun r hr hnr => by
    obtain ⟨k, hk, k1, k2, k3⟩ := hidle r hr
    rw [← hconv r hr]
    unfold Optimizer.hasConverged
    rw [decide_eq_true_eq, (hconst r hr).2, k1, hceil]
    constructor
    · intro he
      by_contra hlt
      exact absurd he (k3 (r - n) (by omega)).ne'
    · exact fun h => (k2 (r - n) (by omega) (by omega)).symm
  -- the rows
  obtain ⟨hlen, hrows⟩ := hps
  obtain ⟨g1, g2⟩ := logRows_get (ps := ps) fun i hi => by
    obtain ⟨_, _, _, _, _, _, h⟩ := hrows i (hlen ▸ hi)
    exact ⟨_, _, _, h⟩
  have hlen' : ((logRows ps).map fun row => row.2.2).length = N := by rw [List.length_map, g1, hlen]
  have hget : ∀ r ≤ N, (0 :: (logRows ps).map fun row => row.2.2)[r]? = some (st r).epochs := fun r hr => by
    cases r with
    | zero => exact congrArg some he0.symm
    | succ r =>
      obtain ⟨o', v, m, h1, _, _, h4⟩ := hrows r hr
      rw [hst _ hr] at h1
      cases h1
      rw [List.getElem?_cons_succ, List.getElem?_map, g2 r _ _ _ h4]
      rfl
  refine ⟨?_, fun r h1 h2 => ?_⟩
  · rw [hlen']
    obtain ⟨k, hk, k1, _⟩ := hidle N le_rfl
    have := (hconv N le_rfl).2 rfl
    unfold Optimizer.hasConverged at this
    rw [decide_eq_true_eq, (hconst N le_rfl).2, k1, hceil] at this
    omega
  · rw [hlen'] at h2 ⊢
    rw [hget r h2, hget (r - n) (by omega), Option.some.injEq]
    exact hsame r h2 h1

/-- C123, `schedule`. The search ends with the first round after which there has not been a new epoch for as many rounds as the limit of idle iterations is batches,
rounded up. For any arithmetic, any random numbers, and any number of threads. -/
theorem search_stops {p : Project} {opt : OptParams K} {threads : Nat} {draws : Nat → Nat → Nat → Draws K} {fuel : Nat} {es : List (Event K)}
    {r : OptimizedSchedule} (h : Predict.schedule E p opt threads draws fuel = ⟨es, ok (some r)⟩) :
    StopsAfter ((opt.maxIdleIters + opt.batchSize - 1) / opt.batchSize) ((logRows es).map fun row => row.2.2) := by
  obtain ⟨ps, sp, o₀, o, n, h1, h2⟩ := schedule_optimized h
  rw [h2]
  exact stops_of_rounds h1.new h1.first h1.reports

/-- C123, `predict` -/
theorem predict_search_stops {p : Project} {opt : OptParams K} {threads : Nat} {draws : Nat → Nat → Nat → Draws K} {fuel fuel' : Nat}
    {binSize : Option Int} {more : List Int → Outcome Bool} {zs : List K} {es : List (Event K)} {r : Prediction}
    (h : Predict.predict E p binSize opt threads draws fuel more fuel' zs = ⟨es, ok (some r)⟩) :
    StopsAfter ((opt.maxIdleIters + opt.batchSize - 1) / opt.batchSize) ((logRows es).map fun row => row.2.2) := by
  obtain ⟨ps, sp, o₀, o, n, h1, h2⟩ := predict_optimized h
  rw [h2]
  exact stops_of_rounds h1.new h1.first h1.reports

/-- C123, the log. The column with the epochs shows that the limits given by `--batch-size` and `--max-idle-iters` have been kept. -/
theorem log_stops {m : Machine K} {c : Command} {o : Cli.Options K} (hf : o.filename ≠ "") {root : Yaml} {p : Project} (hs : m.source = .doc root)
    (hl : load m.readFloat root = ok p) (hp : p.Sound)
    (ht : 0 < m.threads) {sp : ScheduleParams K} (hsp : toScheduleParams E p = ok sp) (ho : ValidOptions E (o.opt.options sp))
    (hq : o.quiet = false) (hlog : o.logOptimization = true) (hroom : m.room = true) (h : status (body E m c o).flow = .exit 0) :
    ∃ rows, logs (body E m c o).effects = [rows] ∧
      StopsAfter ((o.opt.maxIdleIters + o.opt.batchSize - 1) / o.opt.batchSize) (rows.map fun row => row.2.2) := by
  obtain ⟨rows, mk, fields, h1, -, -, -, o₀, n, ps, d1, d2, d3, rfl⟩ := log_file_rounds hf hs hl hp ht hsp ho hq hlog hroom h
  exact ⟨_, h1, stops_of_rounds d1 d2 d3⟩

/-- A new optimizer has the numbers it is given. -/
theorem new_gets {opts : Stun.Options K} {threads : Nat} {o₀ : Optimizer K} (h : Optimizer.new E opts threads = ok o₀) :
    o₀.batchSize = opts.batchSize ∧ o₀.maxIdleIters = opts.maxIdleIters ∧ o₀.jobs.length = threads ∧
      ∀ j ∈ o₀.jobs, j.batchSize = opts.batchSize ∧ j.temperature.betaScale = opts.betaScale ∧ j.temperature.stunWindow = opts.stunWindow ∧
        j.temperature.restartPeriodMask = opts.restartPeriod - 1 ∧ j.stun.gamma = opts.gamma := by
  unfold Optimizer.new at h
  obtain ⟨_, _, h⟩ := bind_eq_ok.1 h
  obtain ⟨_, _, h⟩ := bind_eq_ok.1 h
  obtain ⟨jobs, hj, h⟩ := bind_eq_ok.1 h
  obtain ⟨_, _, h⟩ := bind_eq_ok.1 h
  cases h
  refine ⟨rfl, rfl, by simpa using (mapM_eq_ok hj).length_eq.symm, mapM_all (fun _ j h => ?_) hj⟩
  unfold Job.new at h
  obtain ⟨_, _, h⟩ := bind_eq_ok.1 h
  obtain ⟨_, _, h⟩ := bind_eq_ok.1 h
  obtain ⟨_, _, h⟩ := bind_eq_ok.1 h
  obtain ⟨temp, ht, h⟩ := bind_eq_ok.1 h
  obtain ⟨_, _, h⟩ := bind_eq_ok.1 h
  obtain ⟨⟨_, t⟩, hs, h⟩ := bind_eq_ok.1 h
  obtain ⟨_, _, h⟩ := bind_eq_ok.1 h
  cases h
  unfold Temperature.new at ht
  obtain ⟨_, _, ht⟩ := bind_eq_ok.1 ht
  obtain ⟨_, _, ht⟩ := bind_eq_ok.1 ht
  obtain ⟨_, _, ht⟩ := bind_eq_ok.1 ht
  obtain ⟨_, _, ht⟩ := bind_eq_ok.1 ht
  cases ht
  refine ⟨rfl, rfl, rfl, rfl, ?_⟩
  unfold Tunneling.new at hs
  obtain ⟨_, _, hs⟩ := bind_eq_ok.1 hs
  unfold tunnelingReset at hs
  obtain ⟨_, _, hs⟩ := bind_eq_ok.1 hs
  obtain ⟨t₁, h₁, hs⟩ := bind_eq_ok.1 hs
  obtain ⟨t₂, h₂, hs⟩ := bind_eq_ok.1 hs
  have e₁ : t₁.gamma = opts.gamma := by
    unfold prepareSchedules at h₁
    obtain ⟨_, _, h₁⟩ := bind_eq_ok.1 h₁
    cases h₁
    rfl
  have e₂ : t₂.gamma = t₁.gamma := by
    unfold initSchedules at h₂
    obtain ⟨_, _, h₂⟩ := bind_eq_ok.1 h₂
    obtain ⟨_, _, h₂⟩ := bind_eq_ok.1 h₂
    obtain ⟨_, _, h₂⟩ := bind_eq_ok.1 h₂
    cases h₂
    rfl
  unfold initEnergies at hs
  obtain ⟨_, _, hs⟩ := bind_eq_ok.1 hs
  obtain ⟨_, _, hs⟩ := bind_eq_ok.1 hs
  obtain ⟨_, _, hs⟩ := bind_eq_ok.1 hs
  obtain ⟨_, _, hs⟩ := bind_eq_ok.1 hs
  obtain ⟨_, _, hs⟩ := bind_eq_ok.1 hs
  obtain ⟨_, _, hs⟩ := bind_eq_ok.1 hs
  cases hs
  exact e₂.trans e₁

/-- C72, the optimizer. What reports its progress and ends with the schedule is an optimizer which has, for each thread, a job with exactly the numbers given. -/
theorem optimizer_gets {p : Project} {opt : OptParams K} {threads : Nat} {draws : Nat → Nat → Nat → Draws K} {fuel : Nat} {es : List (Event K)}
    {r : OptimizedSchedule} (h : Predict.schedule E p opt threads draws fuel = ⟨es, ok (some r)⟩) :
    ∃ (sp : ScheduleParams K) (o₀ : Optimizer K) (n : Nat) (ps : List (Event K)),
      FirstConverged E draws o₀ n ∧ ReportsRounds E sp draws o₀ n ps ∧ logRows es = logRows ps ∧
      o₀.batchSize = opt.batchSize ∧ o₀.maxIdleIters = opt.maxIdleIters ∧ o₀.jobs.length = threads ∧
      ∀ j ∈ o₀.jobs, j.batchSize = opt.batchSize ∧ j.temperature.betaScale = opt.betaScale ∧ j.temperature.stunWindow = opt.stunWindow ∧
        j.temperature.restartPeriodMask = opt.restartPeriod - 1 ∧ j.stun.gamma = opt.gamma := by
  obtain ⟨ps, sp, o₀, o, n, h1, h2⟩ := schedule_optimized h
  exact ⟨sp, o₀, n, ps, h1.first, h1.reports, h2, new_gets h1.new⟩

/-- C72, the optimizer of a prediction -/
theorem predict_optimizer_gets {p : Project} {opt : OptParams K} {threads : Nat} {draws : Nat → Nat → Nat → Draws K} {fuel fuel' : Nat}
    {binSize : Option Int} {more : List Int → Outcome Bool} {zs : List K} {es : List (Event K)} {r : Prediction}
    (h : Predict.predict E p binSize opt threads draws fuel more fuel' zs = ⟨es, ok (some r)⟩) :
    ∃ (sp : ScheduleParams K) (o₀ : Optimizer K) (n : Nat) (ps : List (Event K)),
      FirstConverged E draws o₀ n ∧ ReportsRounds E sp draws o₀ n ps ∧ logRows es = logRows ps ∧
      o₀.batchSize = opt.batchSize ∧ o₀.maxIdleIters = opt.maxIdleIters ∧ o₀.jobs.length = threads ∧
      ∀ j ∈ o₀.jobs, j.batchSize = opt.batchSize ∧ j.temperature.betaScale = opt.betaScale ∧ j.temperature.stunWindow = opt.stunWindow ∧
        j.temperature.restartPeriodMask = opt.restartPeriod - 1 ∧ j.stun.gamma = opt.gamma := by
  obtain ⟨ps, sp, o₀, o, n, h1, h2⟩ := predict_optimized h
  exact ⟨sp, o₀, n, ps, h1.first, h1.reports, h2, new_gets h1.new⟩

/-- C123 applies to the example. -/
example (draws : Nat → Nat → Nat → Draws ℚ) : ∃ fuel rows,
    logs (body FloatEnv.rat { exampleMachine draws with fuel := fuel } .schedule
      { cliOptions with quiet := false, logOptimization := true }).effects = [rows] ∧
      StopsAfter ((cliOptions.opt.maxIdleIters + cliOptions.opt.batchSize - 1) / cliOptions.opt.batchSize) (rows.map fun row => row.2.2) := by
  obtain ⟨sp, hsp, hw⟩ := params_wellFormed (E := FloatEnv.rat) plan_sound (fun _ _ _ _ => rfl)
  obtain ⟨N, h⟩ := logged_example false draws
  obtain ⟨rows, h1, h2⟩ := log_stops (m := { exampleMachine draws with fuel := N })
    (o := { cliOptions with quiet := false, logOptimization := true }) (by exact (by decide : cliOptions.filename ≠ "")) rfl
    Sample.plan_loads plan_sound (by exact (by decide : 0 < 4)) hsp (cliOptions_valid hw) rfl rfl rfl (h N le_rfl)
  exact ⟨N, rows, h1, h2⟩

/-- Three rounds without a new epoch end the search; two do not. -/
example : StopsAfter 3 [1, 1, 1, 2, 2, 2, 2] := ⟨by decide, fun r h1 h2 => by
  have h2 : r ≤ 7 := h2
  have : ∀ r ≤ 7, 3 ≤ r → ((0 :: [1, 1, 1, 2, 2, 2, 2])[r]? = (0 :: [1, 1, 1, 2, 2, 2, 2])[r - 3]? ↔ r = [1, 1, 1, 2, 2, 2, 2].length) := by decide
  exact this r h2 h1⟩

example : ¬ StopsAfter 3 [1, 1, 1, 1, 2, 2, 2, 2] := fun h => absurd ((h.stops 4 (by decide) (by decide)).1 rfl) (by decide)

end Angonoka.Props
