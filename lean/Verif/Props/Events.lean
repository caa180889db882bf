import Verif.Proof.Events
import Verif.Proof.Predict
import Verif.Props.Params
import Verif.Props.Simulation
import Verif.Props.Json
import Verif.Props.Optimizer

/-!
# C44-C47: events
-/

set_option linter.unusedSectionVars false

namespace Angonoka.Props
open Angonoka Outcome Stun

variable {K : Type} [Field K] [LinearOrder K] [IsStrictOrderedRing K] [FloorRing K]
variable {E : FloatEnv K} {config : Project} {binSize : Option Int} {opt : OptParams K} {threads : Nat}
variable {draws : Nat → Nat → Nat → Draws K} {fuel : Nat}
variable {more : List Int → Outcome Bool} {fuel' : Nat} {zs : List K}

/-! ### C44 -/

/-- C44, `schedule`. A run that returns has enqueued the start, one progress event for each round of the optimizer until it has
converged, the completion with the makespan of the result, the end, and nothing else. -/
theorem schedule_events {es : List (Event K)} {r : OptimizedSchedule}
    (h : Predict.schedule E config opt threads draws fuel = ⟨es, ok (some r)⟩) :
    ∃ sp o₀ n ps, toScheduleParams E config = ok sp ∧
      Optimizer.new E (opt.options sp) threads = ok o₀ ∧ FirstConverged E draws o₀ n ∧
      ReportsRounds E sp draws o₀ n ps ∧
      es = [.simple .scheduleOptimizationStart] ++ ps ++ [.complete r.makespan, .simple .finished] ∧
      ∃ o, o₀.rounds E draws n = ok o ∧ o.schedule = ok r.schedule ∧
        ∃ v, o.normalizedMakespan = ok v ∧ Predict.makespan E sp v = ok r.makespan := by
  unfold Predict.schedule at h
  obtain ⟨es', hes, h₁⟩ := Run.enqueue_bind_returns h
  subst hes
  obtain ⟨sp, hsp, h₂⟩ := Run.lift_bind_returns h₁
  obtain ⟨ps, r', es₂, hopt, h₃, hes⟩ := Run.bind_returns h₂
  subst hes
  clear h h₁ h₂
  match r', hopt, h₃ with
  | none, _, h => cases h
  | some r', hopt, h =>
    cases h
    obtain ⟨o₀, o, n, v, h1, h2, h3, h4, h5, h6, h7⟩ := optimize_some hopt
    exact ⟨sp, o₀, n, ps, hsp, h1, h2, h3, rfl, o, h4, h5, v, h6, h7⟩

/-- C44, `predict`. As for `schedule`, with the start of the simulation between the completion of the optimization and the end. -/
theorem predict_events {es : List (Event K)} {r : Prediction}
    (h : Predict.predict E config binSize opt threads draws fuel more fuel' zs = ⟨es, ok (some r)⟩) :
    ∃ sp o₀ n ps, toScheduleParams E config = ok sp ∧
      Optimizer.new E (opt.options sp) threads = ok o₀ ∧ FirstConverged E draws o₀ n ∧
      ReportsRounds E sp draws o₀ n ps ∧
      es = [.simple .scheduleOptimizationStart] ++ ps
        ++ [.complete r.makespan, .simple .simulationStart, .simple .finished] ∧
      ∃ o, o₀.rounds E draws n = ok o ∧ o.schedule = ok r.schedule ∧
        ∃ v, o.normalizedMakespan = ok v ∧ Predict.makespan E sp v = ok r.makespan := by
  unfold Predict.predict at h
  obtain ⟨es', hes, h₁⟩ := Run.enqueue_bind_returns h
  subst hes
  obtain ⟨sp, hsp, h₂⟩ := Run.lift_bind_returns h₁
  obtain ⟨ps, r', es₂, hopt, h₃, hes⟩ := Run.bind_returns h₂
  subst hes
  clear h h₁ h₂
  match r', hopt, h₃ with
  | none, _, h => cases h
  | some r', hopt, h =>
    dsimp only at h
    obtain ⟨es₃, hes, h₄⟩ := Run.enqueue_bind_returns h
    subst hes
    obtain ⟨es₄, hes, h₅⟩ := Run.enqueue_bind_returns h₄
    subst hes
    obtain ⟨hist, _, h₆⟩ := Run.lift_bind_returns h₅
    clear h h₄ h₅
    match hist, h₆ with
    | none, h => cases h
    | some hist, h =>
      dsimp only at h
      obtain ⟨st, _, h⟩ := Run.lift_bind_returns h
      cases h
      obtain ⟨o₀, o, n, v, h1, h2, h3, h4, h5, h6, h7⟩ := optimize_some hopt
      exact ⟨sp, o₀, n, ps, hsp, h1, h2, h3, rfl, o, h4, h5, v, h6, h7⟩

theorem durationMultiplier_nonneg {sp : ScheduleParams K} (hsp : toScheduleParams E config = ok sp) :
    0 ≤ sp.durationMultiplier := by
  have hsum : ∀ (l : List K) (x : K), 0 ≤ x → (∀ d ∈ l, 0 ≤ d) → 0 ≤ l.foldl E.add x := by
    intro l
    induction l with
    | nil => intro x hx _; exact hx
    | cons d l ih =>
      intro x hx hl
      exact ih _ (E.rnd_nonneg (add_nonneg hx (hl d (by simp)))) (fun d hd => hl d (by simp [hd]))
  obtain ⟨_, _, hdur, _, _, _, hm, _⟩ := toScheduleParams_ok hsp
  rw [hm]
  apply E.rnd_nonneg
  apply div_nonneg (hsum _ _ le_rfl _)
  · apply E.rnd_nonneg
    simp
  · intro d hd
    obtain ⟨t, ht, rfl⟩ := List.mem_map.1 hd
    apply E.rnd_nonneg
    exact_mod_cast (meanDuration_pos (hdur t ht)).le

theorem schedule_completes {sp : ScheduleParams K}
    (hsp : toScheduleParams E config = ok sp) (ho : ValidOptions E (opt.options sp))
    (ht : 0 < threads) (draws : Nat → Nat → Nat → Draws K)
    (hfit : ∀ s v, ValidSchedule sp s → IsMakespan E sp s v →
      E.mul v sp.durationMultiplier < 2 ^ 63) :
    ∃ N r v, (∀ fuel, N ≤ fuel →
        (Predict.schedule E config opt threads draws fuel).result = ok (some r)) ∧
      ValidSchedule sp r.schedule ∧ IsMakespan E sp r.schedule v ∧
      IsWholePart r.makespan (E.mul v sp.durationMultiplier) ∧
      Predict.makespan E sp v = ok r.makespan := by
  have hmult := durationMultiplier_nonneg hsp
  have hmk : ∀ s v, ValidSchedule sp s → IsMakespan E sp s v →
      ∃ m, Predict.makespan E sp v = ok m ∧ IsWholePart m (E.mul v sp.durationMultiplier) := by
    intro s v hs hv
    have hw : WellFormed sp := ho.wellFormed
    have hv0 : 0 ≤ v := by
      rw [(isMakespan_iff hw hs).1 hv]
      exact makespanValue_nonneg hw hs
    have h0 : 0 ≤ E.mul v sp.durationMultiplier := E.rnd_nonneg (mul_nonneg hv0 hmult)
    refine ⟨⌊E.mul v sp.durationMultiplier⌋, ?_, isWholePart_floor _⟩
    unfold Predict.makespan
    dsimp only
    rw [truncate_of_nonneg h0, expects_true, ok_bind]
    · rfl
    · simp only [decide_eq_true_eq]
      have h1 : 0 ≤ ⌊E.mul v sp.durationMultiplier⌋ := Int.floor_nonneg.2 h0
      have h2 : ⌊E.mul v sp.durationMultiplier⌋ < (2 : Int) ^ 63 := by
        rw [Int.floor_lt]
        exact_mod_cast hfit s v hs hv
      omega
  obtain ⟨N, r, v, h1, h2, h3, h4⟩ := optimize_completes ho ht draws
    (fun s v hs hv => (hmk s v hs hv).imp fun _ h => h.1)
  obtain ⟨m, hm, hw⟩ := hmk _ _ h2 h3
  have hmr : m = r.makespan := by
    rw [h4] at hm
    exact ((Outcome.ok.injEq ..).mp hm).symm
  rw [hmr] at hw
  refine ⟨N, r, v, ?_, h2, h3, hw, h4⟩
  intro fuel hN
  unfold Predict.schedule
  rw [Run.enqueue_bind, hsp, Run.lift_ok_bind]
  have := h1 fuel hN
  cases ho : Predict.optimize E sp opt threads draws fuel with
  | mk es res =>
    rw [ho] at this
    dsimp only at this
    subst this
    rfl

/-- C44: runs of `schedule` do return. For valid options and makespans that fit 64 bits, whatever the random
numbers are, `schedule` returns (after some number of rounds) a valid schedule and its makespan in seconds. -/
theorem schedule_returns {sp : ScheduleParams K}
    (hsp : toScheduleParams E config = ok sp) (ho : ValidOptions E (opt.options sp))
    (ht : 0 < threads) (draws : Nat → Nat → Nat → Draws K)
    (hfit : ∀ s v, ValidSchedule sp s → IsMakespan E sp s v →
      E.mul v sp.durationMultiplier < 2 ^ 63) :
    ∃ N r v, (∀ fuel, N ≤ fuel →
        (Predict.schedule E config opt threads draws fuel).result = ok (some r)) ∧
      ValidSchedule sp r.schedule ∧ IsMakespan E sp r.schedule v ∧
      IsWholePart r.makespan (E.mul v sp.durationMultiplier) := by
  obtain ⟨N, r, v, h1, h2, h3, h4, _⟩ := schedule_completes hsp ho ht draws hfit
  exact ⟨N, r, v, h1, h2, h3, h4⟩

/-- C44: if `schedule` returns, `predict` goes on with that result; it returns if the simulation does. -/
theorem predict_returns {r : OptimizedSchedule} {es : List (Event K)}
    (hr : Predict.schedule E config opt threads draws fuel = ⟨es, ok (some r)⟩)
    {h : Histogram} {st : HistogramStats}
    (hh : histogram E config binSize r.schedule r.makespan more fuel' zs = ok (some h))
    (hst : stats E h = ok st) :
    (Predict.predict E config binSize opt threads draws fuel more fuel' zs).result
      = ok (some { histogram := h, stats := st, schedule := r.schedule, makespan := r.makespan }) := by
  unfold Predict.schedule at hr
  obtain ⟨es', _, h₁⟩ := Run.enqueue_bind_returns hr
  obtain ⟨sp, hsp, h₂⟩ := Run.lift_bind_returns h₁
  obtain ⟨ps, r', es₂, hopt, h₃, _⟩ := Run.bind_returns h₂
  clear hr h₁ h₂
  match r', hopt, h₃ with
  | none, _, h => cases h
  | some r', hopt, h₃ =>
    cases h₃
    unfold Predict.predict
    rw [Run.enqueue_bind, hsp, Run.lift_ok_bind, hopt, Run.bind_ok]
    dsimp only
    rw [Run.enqueue_bind, Run.enqueue_bind, hh, Run.lift_ok_bind]
    dsimp only
    rw [hst, Run.lift_ok_bind]
    rfl

/-! ### C45 -/

/-- C45, safety: however the two threads take turns, what has been handled is a beginning of the events, in order, each
once; and once `consume_events` has returned, it has handled everything up to and including an end event. -/
theorem consumer_in_order (events : List (Event K)) (turn : Nat → Channel.Thread) (n : Nat) :
    (Channel.run events turn n).handled <+: events ∧
    ((Channel.run events turn n).returned = true →
      ∃ pre, (Channel.run events turn n).handled = pre ++ [.simple .finished]) := by
  have h := Channel.inv_run events turn n
  refine ⟨⟨_, by rw [← List.append_assoc]; exact h.split⟩, ?_⟩
  intro hr
  obtain ⟨pre, e, h1, h2⟩ := h.final (h.returned hr)
  refine ⟨pre, ?_⟩
  rw [h1]
  match e, h2 with
  | .simple .finished, _ => rfl

/-- C45. If the events end with the end event and contain no other one, then with any fair choice of threads
`consume_events` returns, from some point on, having handled exactly the events; and it never returns with less. -/
theorem consumer_returns {pre : List (Event K)} (hpre : .simple .finished ∉ pre)
    (turn : Nat → Channel.Thread) :
    (∀ n, (Channel.run (pre ++ [.simple .finished]) turn n).returned = true →
      (Channel.run (pre ++ [.simple .finished]) turn n).handled = pre ++ [.simple .finished]) ∧
    (Fair turn → ∃ N, ∀ n, N ≤ n →
      (Channel.run (pre ++ [.simple .finished]) turn n).returned = true) := by
  have hfin : ∀ e : Event K, e.isFinal = true → e = .simple .finished := by
    intro e he
    match e, he with
    | .simple .finished, _ => rfl
  constructor
  · intro n hr
    have h := Channel.inv_run (pre ++ [.simple .finished]) turn n
    obtain ⟨p, e, h1, h2⟩ := h.final (h.returned hr)
    rw [hfin e h2] at h1
    have hs := h.split
    rw [h1] at hs
    rcases List.eq_nil_or_concat ((Channel.run (pre ++ [.simple .finished]) turn n).queue
      ++ (Channel.run (pre ++ [.simple .finished]) turn n).pending) with h0 | ⟨l, x, h0⟩
    · rw [List.append_assoc, h0, List.append_nil] at hs
      rw [h1, hs]
    · exfalso
      rw [List.append_assoc, h0, List.concat_eq_append, ← List.append_assoc] at hs
      have := (List.append_inj' hs rfl).1
      apply hpre
      rw [← this]
      simp
  · intro hfair
    obtain ⟨N, hp, hq⟩ := Channel.quiesces (events := pre ++ [.simple .finished]) hfair
    have h := Channel.inv_run (pre ++ [.simple .finished]) turn N
    rcases hq with hr | ⟨he, hq⟩
    · exact ⟨N, fun n hn => (Channel.returned_stays hn hr).1⟩
    · exfalso
      have hs := h.split
      rw [hp, hq, List.append_nil, List.append_nil] at hs
      have := h.last he (.simple .finished) (by rw [hs]; simp)
      simp [Event.isFinal] at this

/-- C45 for the events of a prediction that returns. -/
theorem predict_consumed {r : Prediction}
    (h : (Predict.predict E config binSize opt threads draws fuel more fuel' zs).result = ok (some r))
    {turn : Nat → Channel.Thread} (hfair : Fair turn) :
    ∃ N, ∀ n, N ≤ n →
      (Channel.run (Predict.predict E config binSize opt threads draws fuel more fuel' zs).events
        turn n).returned = true ∧
      (Channel.run (Predict.predict E config binSize opt threads draws fuel more fuel' zs).events
        turn n).handled
        = (Predict.predict E config binSize opt threads draws fuel more fuel' zs).events := by
  obtain ⟨ps, hps, _, ⟨r', hr⟩ | ⟨_, hr⟩⟩ := predict_shape E config binSize opt threads draws fuel
    more fuel' zs
  · rw [hr]
    have e : (.simple .scheduleOptimizationStart :: (ps ++ [.complete r'.makespan,
        .simple .simulationStart, .simple .finished]) : List (Event K))
        = (.simple .scheduleOptimizationStart :: (ps ++ [.complete r'.makespan,
            .simple .simulationStart])) ++ [.simple .finished] := by simp
    simp only [e]
    have hno : (.simple .finished : Event K) ∉ (.simple .scheduleOptimizationStart ::
        (ps ++ [.complete r'.makespan, .simple .simulationStart]) : List (Event K)) := by
      intro hm
      simp only [List.mem_cons, List.mem_append, List.not_mem_nil, or_false] at hm
      rcases hm with hm | hm | hm | hm
      · cases hm
      · exact hps _ hm
      · cases hm
      · cases hm
    obtain ⟨h1, h2⟩ := consumer_returns hno turn
    obtain ⟨N, hN⟩ := h2 hfair
    exact ⟨N, fun n hn => ⟨hN n hn, h1 n (hN n hn)⟩⟩
  · exact absurd h (hr r)

/-- C45 for the events of a schedule optimization that returns. -/
theorem schedule_consumed {r : OptimizedSchedule}
    (h : (Predict.schedule E config opt threads draws fuel).result = ok (some r))
    {turn : Nat → Channel.Thread} (hfair : Fair turn) :
    ∃ N, ∀ n, N ≤ n →
      (Channel.run (Predict.schedule E config opt threads draws fuel).events turn n).returned = true ∧
      (Channel.run (Predict.schedule E config opt threads draws fuel).events turn n).handled
        = (Predict.schedule E config opt threads draws fuel).events := by
  obtain ⟨ps, hps, _, ⟨r', hr⟩ | ⟨_, hr⟩⟩ := schedule_shape E config opt threads draws fuel
  · rw [hr]
    have e : (.simple .scheduleOptimizationStart :: (ps ++ [.complete r'.makespan,
        .simple .finished]) : List (Event K))
        = (.simple .scheduleOptimizationStart :: (ps ++ [.complete r'.makespan]))
          ++ [.simple .finished] := by simp
    simp only [e]
    have hno : (.simple .finished : Event K) ∉ (.simple .scheduleOptimizationStart ::
        (ps ++ [.complete r'.makespan]) : List (Event K)) := by
      intro hm
      simp only [List.mem_cons, List.mem_append, List.not_mem_nil, or_false] at hm
      rcases hm with hm | hm | hm
      · cases hm
      · exact hps _ hm
      · cases hm
    obtain ⟨h1, h2⟩ := consumer_returns hno turn
    obtain ⟨N, hN⟩ := h2 hfair
    exact ⟨N, fun n hn => ⟨hN n hn, h1 n (hN n hn)⟩⟩
  · exact absurd h (hr r)

/-- A fair choice: the threads alternate. -/
example : Fair fun n => if n % 2 = 0 then .producer else .consumer := by
  intro t n
  cases t with
  | producer => exact ⟨2 * n, by omega, by simp⟩
  | consumer => exact ⟨2 * n + 1, by omega, if_neg (by omega)⟩

/-! ### C46 -/

/-- C46, the negation. Without the end event `consume_events` never returns, however the threads take turns. -/
theorem consumer_hangs {events : List (Event K)} (h : .simple .finished ∉ events)
    (turn : Nat → Channel.Thread) (n : Nat) : (Channel.run events turn n).returned = false := by
  by_contra hr
  obtain ⟨hpre, hret⟩ := consumer_in_order events turn n
  obtain ⟨pre, hp⟩ := hret (by simpa using hr)
  apply h
  apply hpre.subset
  rw [hp]
  simp

theorem no_end_before {pre es rest : List (Event K)} {e f : Event K} (hpre : f ∉ pre)
    (h : pre ++ [f] = es ++ e :: rest) : f ∉ es := by
  intro hm
  apply hpre
  have hlen : es.length ≤ pre.length := by
    have := congrArg List.length h
    simp at this
    omega
  have h2 : es = pre.take es.length := by
    have := congrArg (List.take es.length) h
    rw [List.take_left, List.take_append_of_le_length hlen] at this
    exact this.symm
  rw [h2] at hm
  exact List.mem_of_mem_take hm

/-- C46, the negation. Whenever the prediction thread fails (by an exception of its own, or by one at any other place that
ends it after a part `es` of its events), the consumer never stops and the exception does not reach the
caller. -/
theorem failed_prediction_hangs :
    ((∀ r, (Predict.predict E config binSize opt threads draws fuel more fuel' zs).result
        ≠ ok (some r)) → ∀ turn n, (Channel.run
          (Predict.predict E config binSize opt threads draws fuel more fuel' zs).events turn n).returned
        = false) ∧
    (∀ es e rest, (Predict.predict E config binSize opt threads draws fuel more fuel' zs).events
        = es ++ e :: rest → ∀ turn n, (Channel.run es turn n).returned = false) := by
  obtain ⟨ps, hps, _, ⟨r, hr⟩ | ⟨hev, hr⟩⟩ := predict_shape E config binSize opt threads draws fuel
    more fuel' zs
  · rw [hr]
    refine ⟨fun h => absurd rfl (h r), ?_⟩
    intro es e rest he
    apply consumer_hangs
    refine no_end_before (pre := .simple .scheduleOptimizationStart :: (ps ++ [.complete r.makespan,
            .simple .simulationStart])) ?_ (by rw [← he]; simp)
    intro hm'
    simp only [List.mem_cons, List.mem_append, List.not_mem_nil, or_false] at hm'
    rcases hm' with hm' | hm' | hm' | hm'
    · cases hm'
    · exact hps _ hm'
    · cases hm'
    · cases hm'
  · have hno : (.simple .finished : Event K)
        ∉ (Predict.predict E config binSize opt threads draws fuel more fuel' zs).events := by
      intro hm
      rcases hev with hev | ⟨m, hev⟩
      · rw [hev, List.mem_cons] at hm
        rcases hm with hm | hm
        · cases hm
        · exact hps _ hm
      · rw [hev] at hm
        simp only [List.mem_cons, List.mem_append, List.not_mem_nil, or_false] at hm
        rcases hm with hm | hm | hm | hm
        · cases hm
        · exact hps _ hm
        · cases hm
        · cases hm
    refine ⟨fun _ => consumer_hangs hno, ?_⟩
    intro es e rest he
    apply consumer_hangs
    intro hm
    apply hno
    rw [he]
    exact List.mem_append_left _ hm

/-- C46, the negation, for `schedule`. -/
theorem failed_schedule_hangs :
    ((∀ r, (Predict.schedule E config opt threads draws fuel).result ≠ ok (some r)) →
      ∀ turn n, (Channel.run (Predict.schedule E config opt threads draws fuel).events turn n).returned
        = false) ∧
    (∀ es e rest, (Predict.schedule E config opt threads draws fuel).events = es ++ e :: rest →
      ∀ turn n, (Channel.run es turn n).returned = false) := by
  obtain ⟨ps, hps, _, ⟨r, hr⟩ | ⟨hev, hr⟩⟩ := schedule_shape E config opt threads draws fuel
  · rw [hr]
    refine ⟨fun h => absurd rfl (h r), ?_⟩
    intro es e rest he
    apply consumer_hangs
    refine no_end_before (pre := .simple .scheduleOptimizationStart :: (ps ++ [.complete r.makespan]))
      ?_ (by rw [← he]; simp)
    intro hm'
    simp only [List.mem_cons, List.mem_append, List.not_mem_nil, or_false] at hm'
    rcases hm' with hm' | hm' | hm'
    · cases hm'
    · exact hps _ hm'
    · cases hm'
  · have hno : (.simple .finished : Event K)
        ∉ (Predict.schedule E config opt threads draws fuel).events := by
      intro hm
      rw [hev, List.mem_cons] at hm
      rcases hm with hm | hm
      · cases hm
      · exact hps _ hm
    refine ⟨fun _ => consumer_hangs hno, ?_⟩
    intro es e rest he
    apply consumer_hangs
    intro hm
    apply hno
    rw [he]
    exact List.mem_append_left _ hm

/-- The parameters of the project that takes half a second. -/
def shortSp : ScheduleParams ℚ where
  agentPerformance := [2]
  taskDuration := [1]
  availableAgents := Vector2D.ofSizes [0] [1]
  dependencies := Vector2D.ofSizes [] [0]
  durationMultiplier := 1

/-- C46: such failures occur. For the project that takes half a second (which the loader accepts), with any valid options and any
random numbers, the prediction violates a contract after the optimization. In a debug build that is an exception
(`meson.build:29-32`), and by `failed_prediction_hangs` the consumer never stops. -/
theorem short_prediction_fails {opt : OptParams ℚ} (ho : ValidOptions FloatEnv.rat (opt.options shortSp))
    {threads : Nat} (ht : 0 < threads) (draws : Nat → Nat → Nat → Draws ℚ)
    (binSize : Option Int) (more : List Int → Outcome Bool) (fuel' : Nat) (zs : List ℚ) :
    ∃ N, ∀ fuel, N ≤ fuel → ∃ site,
      (Predict.predict FloatEnv.rat shortProject binSize opt threads draws fuel more fuel' zs).result
        = ub site := by
  have hsp : toScheduleParams FloatEnv.rat shortProject = ok shortSp := by decide +kernel
  have hone : ∀ s, ValidSchedule shortSp s → s = [⟨0, 0⟩] := by
    intro s hs
    have h1 : s.map Item.task = [0] := List.perm_singleton.1 hs.complete
    match s, h1 with
    | [⟨t, a⟩], h1 =>
      simp only [List.map_cons, List.map_nil, List.cons.injEq, and_true] at h1
      subst h1
      have := hs.eligible ⟨0, a⟩ (by simp)
      have h2 : shortSp.avail 0 = [0] := by decide
      rw [h2] at this
      simp at this
      rw [this]
  have hval : ∀ s v, ValidSchedule shortSp s → IsMakespan FloatEnv.rat shortSp s v → v = 1 / 2 := by
    intro s v hs hv
    rw [hone s hs] at hv
    obtain ⟨m, m', h1, h2⟩ := hv
    have h3 : Makespan.new shortSp = ok ⟨shortSp, [0], [0]⟩ := by decide +kernel
    rw [h3] at h1
    cases h1
    have h4 : (⟨shortSp, [0], [0]⟩ : Makespan ℚ).call FloatEnv.rat [⟨0, 0⟩]
        = ok (1 / 2, ⟨shortSp, [1 / 2], [1 / 2]⟩) := by decide +kernel
    rw [h4] at h2
    cases h2
    rfl
  obtain ⟨N, r, v, h1, h2, h3, h4⟩ := optimize_completes ho ht draws (by
    intro s v hs hv
    rw [hval s v hs hv]
    exact ⟨0, by decide +kernel⟩)
  have hm : r.makespan = 0 := by
    rw [hval _ _ h2 h3] at h4
    have h5 : Predict.makespan FloatEnv.rat shortSp (1 / 2) = ok 0 := by decide +kernel
    rw [h5] at h4
    exact ((Outcome.ok.injEq ..).mp h4).symm
  refine ⟨N, fun fuel hN => ?_⟩
  unfold Predict.predict
  rw [Run.enqueue_bind, hsp, Run.lift_ok_bind]
  have := h1 fuel hN
  cases hopt : Predict.optimize FloatEnv.rat shortSp opt threads draws fuel with
  | mk es res =>
    rw [hopt] at this
    dsimp only at this
    subst this
    rw [Run.bind_ok]
    dsimp only
    rw [Run.enqueue_bind, Run.enqueue_bind, hm, hone _ h2]
    exact ⟨_, rfl⟩

/-! ### C47 -/

theorem predict_starts :
    ∃ es, (Predict.predict E config binSize opt threads draws fuel more fuel' zs).events
      = .simple .scheduleOptimizationStart :: es := by
  unfold Predict.predict
  rw [Run.enqueue_bind]
  exact ⟨_, rfl⟩

theorem schedule_starts :
    ∃ es, (Predict.schedule E config opt threads draws fuel).events
      = .simple .scheduleOptimizationStart :: es := by
  unfold Predict.schedule
  rw [Run.enqueue_bind]
  exact ⟨_, rfl⟩

/-- C47. No event of a run, whatever its outcome, is handled with logging on and the log not open (not even if the
handling stops anywhere before the end). -/
theorem log_open_before_use {h : Handler K} {es : List (Event K)}
    (hes : es <+: (Predict.predict E config binSize opt threads draws fuel more fuel' zs).events ∨
      es <+: (Predict.schedule E config opt threads draws fuel).events) :
    h.handleAll es ≠ ub "EventHandler: opt_log" := by
  have hstart : es = [] ∨ ∃ es', es = .simple .scheduleOptimizationStart :: es' := by
    cases es with
    | nil => exact Or.inl rfl
    | cons e es =>
      right
      rcases hes with hes | hes
      · obtain ⟨l, hl⟩ := predict_starts (E := E) (config := config) (binSize := binSize) (opt := opt)
          (threads := threads) (draws := draws) (fuel := fuel) (more := more) (fuel' := fuel') (zs := zs)
        rw [hl] at hes
        exact ⟨es, by rw [(List.cons_prefix_cons.1 hes).1]⟩
      · obtain ⟨l, hl⟩ := schedule_starts (E := E) (config := config) (opt := opt)
          (threads := threads) (draws := draws) (fuel := fuel)
        rw [hl] at hes
        exact ⟨es, by rw [(List.cons_prefix_cons.1 hes).1]⟩
  rcases hstart with rfl | ⟨es', rfl⟩
  · simp [Handler.handleAll]
  · rw [Handler.handleAll, Handler.handle, ok_bind]
    apply Handler.handleAll_log
    intro hl
    dsimp only at hl ⊢
    rw [if_pos hl]
    simp

/-- C47, with the contents of the log. For valid options, handling any part of the events of a run violates no
contract, and with logging on the log then consists of the progress events so far, in order, and nothing else. -/
theorem log_rows {sp : ScheduleParams K}
    (hsp : toScheduleParams E config = ok sp) (ho : ValidOptions E (opt.options sp)) (ht : 0 < threads)
    {es : List (Event K)} (hne : es ≠ [])
    (hes : es <+: (Predict.predict E config binSize opt threads draws fuel more fuel' zs).events ∨
      es <+: (Predict.schedule E config opt threads draws fuel).events) (h : Handler K) :
    ∃ h', h.handleAll es = ok h' ∧
      (h.logOptimization = true → h'.log = some (logRows es)) ∧
      (h.logOptimization = false → h'.log = h.log) := by
  have hfine : ∃ es', es = .simple .scheduleOptimizationStart :: es' ∧ ∀ e ∈ es', Handler.Fine e := by
    have hfr := optimize_fraction ho ht draws fuel
    have hprog : ∀ e : Event K, e.IsFraction → Handler.Fine e := by
      intro e he
      match e, he with
      | .optimization _ _ _, he => exact he
    cases es with
    | nil => exact absurd rfl hne
    | cons e es =>
      rcases hes with hes | hes
      · obtain ⟨ps, _, h2, ⟨r, hr⟩ | ⟨hr | ⟨m, hr⟩, _⟩⟩ := predict_shape E config binSize opt threads
          draws fuel more fuel' zs
        · rw [hr] at hes
          obtain ⟨rfl, hes'⟩ := List.cons_prefix_cons.1 hes
          refine ⟨es, rfl, fun e he => ?_⟩
          have := hes'.subset he
          rw [h2 sp hsp] at this
          simp only [List.mem_cons, List.mem_append, List.not_mem_nil, or_false] at this
          rcases this with h | rfl | rfl | rfl
          · exact hprog e (hfr e h)
          all_goals trivial
        · rw [hr] at hes
          obtain ⟨rfl, hes'⟩ := List.cons_prefix_cons.1 hes
          refine ⟨es, rfl, fun e he => ?_⟩
          have := hes'.subset he
          rw [h2 sp hsp] at this
          exact hprog e (hfr e this)
        · rw [hr] at hes
          obtain ⟨rfl, hes'⟩ := List.cons_prefix_cons.1 hes
          refine ⟨es, rfl, fun e he => ?_⟩
          have := hes'.subset he
          rw [h2 sp hsp] at this
          simp only [List.mem_cons, List.mem_append, List.not_mem_nil, or_false] at this
          rcases this with h | rfl | rfl
          · exact hprog e (hfr e h)
          all_goals trivial
      · obtain ⟨ps, _, h2, ⟨r, hr⟩ | ⟨hr, _⟩⟩ := schedule_shape E config opt threads draws fuel
        · rw [hr] at hes
          obtain ⟨rfl, hes'⟩ := List.cons_prefix_cons.1 hes
          refine ⟨es, rfl, fun e he => ?_⟩
          have := hes'.subset he
          rw [h2 sp hsp] at this
          simp only [List.mem_cons, List.mem_append, List.not_mem_nil, or_false] at this
          rcases this with h | rfl | rfl
          · exact hprog e (hfr e h)
          all_goals trivial
        · rw [hr] at hes
          obtain ⟨rfl, hes'⟩ := List.cons_prefix_cons.1 hes
          refine ⟨es, rfl, fun e he => ?_⟩
          have := hes'.subset he
          rw [h2 sp hsp] at this
          exact hprog e (hfr e this)
  obtain ⟨es', rfl, hf⟩ := hfine
  rw [Handler.handleAll, Handler.handle, ok_bind]
  obtain ⟨h', h1, _, h3, h4⟩ := Handler.handleAll_ok hf (h := { h with
    output := h.output ++ ["Optimizing the schedule...\n"],
    display := h.display ++ [.start],
    log := if h.logOptimization then some [] else h.log })
    (by intro hl; dsimp only at hl ⊢; rw [if_pos hl]; simp)
  refine ⟨h', h1, fun hl => ?_, fun hl => ?_⟩
  · rw [h3 hl]
    simp [hl, logRows]
  · rw [h4 hl]
    simp [hl]

/-- The default options (`project.h:133-151`) -/
def exampleOpt : OptParams ℚ where
  batchSize := 10000
  maxIdleIters := 100000
  betaScale := 1 / 1000
  stunWindow := 100
  gamma := 2
  restartPeriod := 256

/-- The hypotheses hold for an example. -/
example : ∃ p : Project, p.Sound ∧ p.FloatsIn FloatEnv.rat ∧
    ∃ sp, toScheduleParams FloatEnv.rat p = ok sp ∧
      ValidOptions FloatEnv.rat (exampleOpt.options sp) := by
  have hf : exampleProject.FloatsIn FloatEnv.rat := fun _ _ _ _ => rfl
  obtain ⟨sp, h, hw⟩ := params_wellFormed (E := FloatEnv.rat) exampleProject_sound hf
  refine ⟨exampleProject, exampleProject_sound, hf, sp, h, ⟨hw, ?_, ?_, ?_, ⟨8, rfl⟩, ?_, ?_, ?_⟩⟩
  · exact (by decide : 0 < exampleOpt.batchSize)
  · exact (by decide : 0 < exampleOpt.maxIdleIters)
  · exact (by decide : 0 < exampleOpt.stunWindow)
  · exact (by decide +kernel : 0 < exampleOpt.betaScale)
  · exact (by decide +kernel : FloatEnv.rat.rnd (FloatEnv.rat.slack + FloatEnv.rat.rnd (3 / 100)) * exampleOpt.betaScale ≤ 1)
  · exact (by decide +kernel : 0 ≤ exampleOpt.gamma)

end Angonoka.Props
