import Verif.Proof.Patience
import Verif.Props.Files

/-!
# C103: patience never hurts
-/

set_option linter.unusedSectionVars false

namespace Angonoka.Props
open Angonoka Outcome Stun Cli

section

variable {K : Type} [Field K] [LinearOrder K] [IsStrictOrderedRing K] [FloorRing K] {E : FloatEnv K}

/-! ### The optimization -/

/-- A finished optimization of a project: the parameters, the rounds and what has been reported about them -/
structure Optimized (E : FloatEnv K) (p : Project) (opt : OptParams K) (threads : Nat) (draws : Nat → Nat → Nat → Draws K)
    (ps : List (Event K)) (mk : Int) (sp : ScheduleParams K) (o₀ o : Optimizer K) (n : Nat) : Prop where
  params : toScheduleParams E p = ok sp
  new : Optimizer.new E (opt.options sp) threads = ok o₀
  first : FirstConverged E draws o₀ n
  reports : ReportsRounds E sp draws o₀ n ps
  rounds : o₀.rounds E draws n = ok o
  makespan : ∃ v, o.normalizedMakespan = ok v ∧ Predict.makespan E sp v = ok mk

variable {p : Project} {opt : OptParams K} {limit threads : Nat} {draws : Nat → Nat → Nat → Draws K}
variable {ps ps' : List (Event K)} {mk mk' : Int} {sp sp' : ScheduleParams K} {o₀ o o₀' o' : Optimizer K} {n n' : Nat}

theorem Optimized.compare (h : Optimized E p opt threads draws ps mk sp o₀ o n)
    (h' : Optimized E p { opt with maxIdleIters := limit } threads draws ps' mk' sp' o₀' o' n') (hle : opt.maxIdleIters ≤ limit) :
    mk' ≤ mk ∧ (logRows ps).map Prod.snd <+: (logRows ps').map Prod.snd := by
  have hsp := h'.params
  rw [h.params] at hsp
  cases hsp
  obtain ⟨ht, hm, hm'⟩ := Optimizer.new_twin (opts := opt.options sp) (limit := limit) h.new h'.new
  have hn : n ≤ n' := ht.firstConverged (by rw [hm, hm']; exact hle) h.first h'.first
  constructor
  · obtain ⟨v, hv, hx⟩ := h.makespan
    obtain ⟨w, hw, hy⟩ := h'.makespan
    -- the patient optimizer after the rounds of the impatient one
    obtain ⟨q, hq⟩ : ∃ q, o₀'.rounds E draws n = ok q := by
      rcases hn.lt_or_eq with hlt | rfl
      · obtain ⟨q, hq, _⟩ := h'.first.2 n hlt
        exact ⟨q, hq⟩
      · exact ⟨o', h'.rounds⟩
    have hqv : q.normalizedMakespan = ok v := (ht.rounds h.rounds hq).makespan.trans hv
    obtain ⟨d, rfl⟩ := Nat.exists_eq_add_of_le hn
    exact seconds_mono (multiplier_nonneg h.params) (Optimizer.rounds_le hq h'.rounds hqv hw) hy hx
  · have hrow : ∀ {o₀ : Optimizer K} {n : Nat} {ps : List (Event K)}, ReportsRounds E sp draws o₀ n ps →
        ((logRows ps).map Prod.snd).length = n ∧ ∀ i < n, ∃ q v m, o₀.rounds E draws (i + 1) = ok q ∧
          q.normalizedMakespan = ok v ∧ Predict.makespan E sp v = ok m ∧ ((logRows ps).map Prod.snd)[i]? = some (m, q.epochs) := by
      intro o₀ n ps hr
      have hall : ∀ (l : List (Event K)), (∀ e ∈ l, e.IsProgress) → (logRows l).length = l.length ∧
          ∀ (i : Nat) (a : K) (b : Int) (c : Nat), l[i]? = some (.optimization a b c) → (logRows l)[i]? = some (a, b, c) := by
        intro l hl
        induction l with
        | nil => exact ⟨rfl, by simp⟩
        | cons e l ih =>
          obtain ⟨ih1, ih2⟩ := ih fun x hx => hl x (List.mem_cons_of_mem _ hx)
          have he := hl e List.mem_cons_self
          match e, he with
          | .optimization a b c, _ =>
            refine ⟨by simp [logRows, ih1], ?_⟩
            intro i a' b' c' hi
            cases i with
            | zero => simp at hi; simp [logRows, hi]
            | succ i => simp at hi; simpa [logRows] using ih2 i a' b' c' hi
      have hprog : ∀ e ∈ ps, e.IsProgress := by
        intro e he
        obtain ⟨i, hi, rfl⟩ := List.getElem_of_mem he
        obtain ⟨_, _, _, _, _, _, h1⟩ := hr.2 i (hr.1 ▸ hi)
        rw [List.getElem?_eq_getElem hi, Option.some_inj] at h1
        rw [h1]
        trivial
      obtain ⟨h1, h2⟩ := hall ps hprog
      refine ⟨by rw [List.length_map, h1, hr.1], fun i hi => ?_⟩
      obtain ⟨q, v, m, a1, a2, a3, a4⟩ := hr.2 i hi
      refine ⟨q, v, m, a1, a2, a3, ?_⟩
      rw [List.getElem?_map, h2 i _ _ _ a4]
      rfl
    obtain ⟨l1, r1⟩ := hrow h.reports
    obtain ⟨l2, r2⟩ := hrow h'.reports
    rw [List.prefix_iff_getElem?]
    intro i hi
    rw [l1] at hi
    obtain ⟨q, v, m, a1, a2, a3, a4⟩ := r1 i hi
    obtain ⟨q', v', m', b1, b2, b3, b4⟩ := r2 i (hi.trans_le hn)
    have htw := ht.rounds a1 b1
    rw [htw.makespan, a2] at b2
    cases b2
    rw [a3] at b3
    cases b3
    rw [List.getElem?_eq_getElem (by rw [l1]; exact hi), Option.some_inj] at a4
    rw [b4, a4, htw.epochs]

theorem schedule_optimized {fuel : Nat} {es : List (Event K)} {r : OptimizedSchedule}
    (h : Predict.schedule E p opt threads draws fuel = ⟨es, ok (some r)⟩) :
    ∃ ps sp o₀ o n, Optimized E p opt threads draws ps r.makespan sp o₀ o n ∧ logRows es = logRows ps := by
  obtain ⟨sp, o₀, n, ps, d1, d2, d3, d4, d5, o, d6, _, v, d8, d9⟩ := schedule_events h
  refine ⟨ps, sp, o₀, o, n, ⟨d1, d2, d3, d4, d6, v, d8, d9⟩, ?_⟩
  rw [d5, logRows_append, logRows_append]
  simp [logRows]

theorem predict_optimized {binSize : Option Int} {fuel fuel' : Nat} {more : List Int → Outcome Bool} {zs : List K} {es : List (Event K)}
    {r : Prediction} (h : Predict.predict E p binSize opt threads draws fuel more fuel' zs = ⟨es, ok (some r)⟩) :
    ∃ ps sp o₀ o n, Optimized E p opt threads draws ps r.makespan sp o₀ o n ∧ logRows es = logRows ps := by
  obtain ⟨sp, o₀, n, ps, d1, d2, d3, d4, d5, o, d6, _, v, d8, d9⟩ := predict_events h
  refine ⟨ps, sp, o₀, o, n, ⟨d1, d2, d3, d4, d6, v, d8, d9⟩, ?_⟩
  rw [d5, logRows_append, logRows_append]
  simp [logRows]

/-- C103. With the same random numbers a greater limit of idle iterations never makes the result of `schedule` worse, whatever the other options and the
arithmetic are: the makespan is no greater, and the makespans and epochs reported on the way begin with those reported for the smaller limit. -/
theorem patience_never_hurts {fuel fuel' : Nat} {es es' : List (Event K)} {r r' : OptimizedSchedule} (hle : opt.maxIdleIters ≤ limit)
    (h : Predict.schedule E p opt threads draws fuel = ⟨es, ok (some r)⟩)
    (h' : Predict.schedule E p { opt with maxIdleIters := limit } threads draws fuel' = ⟨es', ok (some r')⟩) :
    r'.makespan ≤ r.makespan ∧ (logRows es).map Prod.snd <+: (logRows es').map Prod.snd := by
  obtain ⟨ps, sp, o₀, o, n, h1, h2⟩ := schedule_optimized h
  obtain ⟨ps', sp', o₀', o', n', h1', h2'⟩ := schedule_optimized h'
  rw [h2, h2']
  exact h1.compare h1' hle

/-! ### The program -/

/-- A written makespan is that of an optimization of the loaded project. -/
theorem written_optimized {m : Machine K} {c : Command} {o : Cli.Options K} {f : String} {l : List (String × Json)}
    (h : Effect.file f (.obj l) ∈ (body E m c o).effects) (hmk : ("makespan", Json.int mk) ∈ l) :
    ∃ root p ps sp o₀ q n, m.source = .doc root ∧ load m.readFloat root = ok p ∧
      Optimized E p o.opt m.threads m.draws ps mk sp o₀ q n := by
  have hst : status (body E m c o).flow = .exit 0 := by
    by_contra hne
    exact failure_has_no_result hne _ h (by simp [Effect.IsFile])
  obtain ⟨j, pre, h1, hw, h2, h3⟩ := body_ok hst
  have hj : j = .obj l := by
    have hno := compute_no_file (E := E) (m := m) (c := c) (o := o)
    rw [h1] at hno
    rw [body_eq, h1, Io.bind_ok, saveJson_eq h2 h3, hw] at h
    simp only [if_true, List.mem_append, List.mem_singleton] at h
    rcases h with h | h | h
    · exact absurd (by simp [Effect.IsFile]) (hno _ h)
    · split at h
      · cases h; rfl
      · cases h
    · split at h
      · cases h
      · simp at h
  subst hj
  have hflow : (compute E m c o).flow = .ok (.obj l) := by rw [h1]
  unfold compute at hflow
  obtain ⟨config, p1, p2, -⟩ := Io.bind_flow_ok hflow
  obtain ⟨root, hroot, hload⟩ : ∃ root, m.source = .doc root ∧ load m.readFloat root = ok config := by
    unfold parseConfig at p1
    obtain ⟨_, _, q2, _⟩ := Io.bind_flow_ok p1
    obtain ⟨_, _, r2, _⟩ := Io.bind_flow_ok q2
    revert r2
    split
    · intro r2
      obtain ⟨_, _, r5, _⟩ := Io.bind_flow_ok r2
      cases r5
    · intro r2
      obtain ⟨_, _, r5, _⟩ := Io.bind_flow_ok r2
      obtain ⟨_, _, r6, _⟩ := Io.bind_flow_ok r5
      cases r6
    · rename_i root hroot
      split
      · rename_i p hp
        intro r2
        obtain ⟨_, _, s2, _⟩ := Io.bind_flow_ok r2
        cases s2
        exact ⟨root, hroot, hp⟩
      · split
        · intro r2
          obtain ⟨_, _, r5, _⟩ := Io.bind_flow_ok r2
          cases r5
        · intro r2
          obtain ⟨_, _, r5, _⟩ := Io.bind_flow_ok r2
          cases r5
      · intro r2
        cases r2
  cases c with
  | schedule =>
    dsimp only at p2
    unfold jsonSchedule at p2
    obtain ⟨_, _, a2, -⟩ := Io.bind_flow_ok p2
    obtain ⟨_, _, b2, -⟩ := Io.bind_flow_ok a2
    dsimp only at b2
    obtain ⟨_, _, c2, -⟩ := Io.bind_flow_ok b2
    obtain ⟨s, d1, d2, -⟩ := Io.bind_flow_ok c2
    obtain ⟨x, hx⟩ := toJson_makespan (lift_flow_ok d2)
    cases hx
    have hmk' : mk = s.makespan := by simpa using hmk
    subst hmk'
    obtain ⟨es, hr⟩ : ∃ es, Predict.schedule E config o.opt m.threads m.draws m.fuel = ⟨es, ok (some s)⟩ :=
      ⟨_, by rw [← (getFuture_flow_ok d1).1]⟩
    obtain ⟨ps, sp, o₀, q, n, h, _⟩ := schedule_optimized hr
    exact ⟨root, config, ps, sp, o₀, q, n, hroot, hload, h⟩
  | predict =>
    dsimp only at p2
    unfold runPrediction at p2
    obtain ⟨_, _, a2, -⟩ := Io.bind_flow_ok p2
    obtain ⟨_, _, b2, -⟩ := Io.bind_flow_ok a2
    dsimp only at b2
    obtain ⟨_, _, c2, -⟩ := Io.bind_flow_ok b2
    obtain ⟨s, d1, d2, -⟩ := Io.bind_flow_ok c2
    obtain ⟨_, _, g2, -⟩ := Io.bind_flow_ok d2
    obtain ⟨j1, i1, i2, -⟩ := Io.bind_flow_ok g2
    obtain ⟨x, rfl⟩ := toJson_makespan (lift_flow_ok i1)
    obtain ⟨j2, k1, k2, -⟩ := Io.bind_flow_ok i2
    obtain ⟨j3, _, l2, -⟩ := Io.bind_flow_ok k2
    have k4 := lift_flow_ok k1
    have l4 := lift_flow_ok l2
    have hj2 : j2 = .obj [("makespan", .int s.makespan), ("stats", s.stats.toJson), ("tasks", x)] := by
      have : setField (.obj [("makespan", .int s.makespan), ("tasks", x)]) "stats" s.stats.toJson
          = ok (.obj [("makespan", .int s.makespan), ("stats", s.stats.toJson), ("tasks", x)]) := rfl
      rw [this] at k4
      exact ((Outcome.ok.injEq ..).mp k4).symm
    subst hj2
    have : setField (.obj [("makespan", .int s.makespan), ("stats", s.stats.toJson), ("tasks", x)]) "histogram" j3
        = ok (.obj [("histogram", j3), ("makespan", .int s.makespan), ("stats", s.stats.toJson), ("tasks", x)]) := rfl
    rw [this] at l4
    cases l4
    have hmk' : mk = s.makespan := by simpa using hmk
    subst hmk'
    obtain ⟨es, hr⟩ : ∃ es, Predict.predict E config o.binSize o.opt m.threads m.draws m.fuel m.more m.fuel' m.zs = ⟨es, ok (some s)⟩ :=
      ⟨_, by rw [← (getFuture_flow_ok d1).1]⟩
    obtain ⟨ps, sp, o₀, q, n, h, _⟩ := predict_optimized hr
    exact ⟨root, config, ps, sp, o₀, q, n, hroot, hload, h⟩

/-- C103, for the program. Two runs read the same document with the same number of threads, the optimizer gets the same random numbers and the same options except for the limit
of idle iterations, and both write a result. Then the makespan in the file of the run with the greater limit is no greater. It does not matter whether the
commands are `schedule` or `predict`, and what the other options are. -/
theorem patience_never_hurts_written {m m' : Machine K} {c c' : Command} {o o' : Cli.Options K} {f f' : String} {l l' : List (String × Json)}
    (hsource : m'.source = m.source) (hread : m'.readFloat = m.readFloat) (hthreads : m'.threads = m.threads) (hdraws : m'.draws = m.draws)
    (hopt : o'.opt = { o.opt with maxIdleIters := o'.opt.maxIdleIters }) (hle : o.opt.maxIdleIters ≤ o'.opt.maxIdleIters)
    (h : Effect.file f (.obj l) ∈ (body E m c o).effects) (hmk : ("makespan", Json.int mk) ∈ l)
    (h' : Effect.file f' (.obj l') ∈ (body E m' c' o').effects) (hmk' : ("makespan", Json.int mk') ∈ l') : mk' ≤ mk := by
  obtain ⟨root, p, ps, sp, o₀, q, n, h1, h2, h3⟩ := written_optimized h hmk
  obtain ⟨root', p', ps', sp', o₀', q', n', h1', h2', h3'⟩ := written_optimized h' hmk'
  rw [hsource, h1] at h1'
  cases h1'
  rw [hread, h2] at h2'
  cases h2'
  rw [hthreads, hdraws, hopt] at h3'
  exact (h3.compare h3' hle).1

end

/-! ### More threads can hurt -/

namespace Trio

/-- Two agents, three tasks of 50, 30 and 20 minutes. -/
def project : Project where
  groups := []
  agents := [{ id := 0, name := "Ann", perfMin := .fin 1, perfMax := .fin 1 }, { id := 1, name := "Bob", perfMin := .fin 1, perfMax := .fin 1 }]
  tasks := [{ name := "floor", durMin := 3000, durMax := 3000 }, { name := "walls", durMin := 1800, durMax := 1800 },
    { name := "roof", durMin := 1200, durMax := 1200 }]

def opt : OptParams ℚ := { exampleOpt with batchSize := 1, maxIdleIters := 1 }

/-- The first thread would give the roof and then the walls to Bob. The second thread gives the walls to Bob at once, which is better than the roof alone,
so that the first thread has to go on from there and never gives the roof to Bob. -/
def draws (r k _ : Nat) : Draws ℚ :=
  if r = 1 then (if k = 0 then ⟨0, 2, 1, 0⟩ else ⟨0, 1, 1, 0⟩)
  else if r = 2 then (if k = 0 then ⟨0, 0, 1, 0⟩ else ⟨0, 1, 0, 0⟩)
  else ⟨0, 0, 0, 0⟩

/-- The makespan of the result. -/
def outcome (threads fuel : Nat) : Option Int :=
  match Predict.schedule FloatEnv.rat project opt threads draws fuel with
  | ⟨_, ok (some r)⟩ => some r.makespan
  | _ => none

/-- The parameters of the project. -/
def params : ScheduleParams ℚ where
  agentPerformance := [1, 1]
  taskDuration := [1, 3 / 5, 2 / 5]
  availableAgents := Vector2D.ofSizes [0, 1, 0, 1, 0, 1] [2, 2, 2]
  dependencies := Vector2D.ofSizes [] [0, 0, 0]
  durationMultiplier := 3000

theorem params_eq : toScheduleParams FloatEnv.rat project = ok params := by decide +kernel

theorem initial : initialSchedule params = ok [⟨0, 0⟩, ⟨1, 0⟩, ⟨2, 0⟩] := by
  have h1 : params.taskDuration = [1, 3 / 5, 2 / 5] := rfl
  have h2 : params.dependencies.row 0 = [] := by decide +kernel
  have h3 : params.dependencies.row 1 = [] := by decide +kernel
  have h4 : params.dependencies.row 2 = [] := by decide +kernel
  have h5 : params.availableAgents.row 0 = [0, 1] := by decide +kernel
  have h6 : params.availableAgents.row 1 = [0, 1] := by decide +kernel
  have h7 : params.availableAgents.row 2 = [0, 1] := by decide +kernel
  simp [initialSchedule, initialLoop, pushTask, pushTasks, h1, h2, h3, h4, h5, h6, h7, expects, show List.range 3 = [0, 1, 2] from rfl]

/-- The job that starts with this schedule. -/
theorem job : Job.new FloatEnv.rat (opt.options params) = (do
    let m ← Makespan.new params
    let temp ← Temperature.new (1 / 1000 : ℚ) 100 256
    let (m, t) ← Tunneling.new FloatEnv.rat m 2 [⟨0, 0⟩, ⟨1, 0⟩, ⟨2, 0⟩]
    return { batchSize := 1, params := params, makespan := m, temperature := temp, stun := t }) := by
  unfold Job.new
  change (do
    expects (decide (0 < params.dependencies.size)) "Mutator: dependencies not empty"
    expects (decide (0 < params.availableAgents.size)) "Mutator: available_agents not empty"
    let m ← Makespan.new params
    let temp ← Temperature.new (1 / 1000 : ℚ) 100 256
    let s ← initialSchedule params
    let (m, t) ← Tunneling.new FloatEnv.rat m 2 s
    expects (decide (0 < 1)) "OptimizerJob: batch_size > 0"
    return ({ batchSize := 1, params := params, makespan := m, temperature := temp, stun := t } : Job ℚ)) = _
  rw [expects_true (show decide (0 < params.dependencies.size) = true by decide), ok_bind,
    expects_true (show decide (0 < params.availableAgents.size) = true by decide), ok_bind]
  simp only [initial, ok_bind]
  rfl

theorem alone : outcome 1 5 = some 3000 := by
  unfold outcome Predict.schedule Predict.optimize Optimizer.new
  simp only [params_eq, Run.lift_ok_bind, job]
  decide +kernel

theorem together : outcome 2 5 = some 4200 := by
  unfold outcome Predict.schedule Predict.optimize Optimizer.new
  simp only [params_eq, Run.lift_ok_bind, job]
  decide +kernel

end Trio

/-- What C103 does not say of the number of threads: a second thread can make the result worse, although the first thread gets the same random numbers as before. -/
theorem more_threads_can_hurt : ∃ (p : Project) (opt : OptParams ℚ) (draws : Nat → Nat → Nat → Draws ℚ) (fuel : Nat) (r r' : OptimizedSchedule),
    (Predict.schedule FloatEnv.rat p opt 1 draws fuel).result = ok (some r) ∧
    (Predict.schedule FloatEnv.rat p opt 2 draws fuel).result = ok (some r') ∧ r.makespan < r'.makespan := by
  have h1 := Trio.alone
  have h2 := Trio.together
  unfold Trio.outcome at h1 h2
  split at h1
  · rename_i e1
    split at h2
    · rename_i e2
      refine ⟨_, _, _, 5, _, _, by rw [e1], by rw [e2], ?_⟩
      rw [Option.some_inj] at h1 h2
      rw [h1, h2]
      decide
    · cases h2
  · cases h1

/-! ### Examples -/

namespace Pair

/-- Two agents, two tasks of two minutes each. -/
def project : Project where
  groups := []
  agents := [{ id := 0, name := "Ann", perfMin := .fin 1, perfMax := .fin 1 }, { id := 1, name := "Bob", perfMin := .fin 1, perfMax := .fin 1 }]
  tasks := [{ name := "floor", durMin := 60, durMax := 180 }, { name := "walls", durMin := 120, durMax := 120 }]

def opt (limit : Nat) : OptParams ℚ := { exampleOpt with batchSize := 1, maxIdleIters := limit }

/-- The third round gives a task to the other agent. -/
def draws (r _ _ : Nat) : Draws ℚ := ⟨0, 0, if r = 2 then 1 else 0, 0⟩

/-- The makespan of the result and how often it has been reported. -/
def outcome (limit fuel : Nat) : Option (Int × Nat) :=
  match Predict.schedule FloatEnv.rat project (opt limit) 1 draws fuel with
  | ⟨es, ok (some r)⟩ => some (r.makespan, (logRows es).length)
  | _ => none

/-- The parameters of the project. -/
def params : ScheduleParams ℚ where
  agentPerformance := [1, 1]
  taskDuration := [1, 1]
  availableAgents := Vector2D.ofSizes [0, 1, 0, 1] [2, 2]
  dependencies := Vector2D.ofSizes [] [0, 0]
  durationMultiplier := 120

theorem params_eq : toScheduleParams FloatEnv.rat project = ok params := by decide +kernel

theorem initial : initialSchedule params = ok [⟨0, 0⟩, ⟨1, 0⟩] := by
  have h1 : params.taskDuration = [1, 1] := rfl
  have h2 : params.dependencies.row 0 = [] := by decide +kernel
  have h3 : params.dependencies.row 1 = [] := by decide +kernel
  have h4 : params.availableAgents.row 0 = [0, 1] := by decide +kernel
  have h5 : params.availableAgents.row 1 = [0, 1] := by decide +kernel
  simp [initialSchedule, initialLoop, pushTask, pushTasks, h1, h2, h3, h4, h5, expects, show List.range 2 = [0, 1] from rfl]

/-- The job that starts with this schedule. -/
theorem job (limit : Nat) : Job.new FloatEnv.rat ((opt limit).options params) = (do
    let m ← Makespan.new params
    let temp ← Temperature.new (1 / 1000 : ℚ) 100 256
    let (m, t) ← Tunneling.new FloatEnv.rat m 2 [⟨0, 0⟩, ⟨1, 0⟩]
    return { batchSize := 1, params := params, makespan := m, temperature := temp, stun := t }) := by
  unfold Job.new
  change (do
    expects (decide (0 < params.dependencies.size)) "Mutator: dependencies not empty"
    expects (decide (0 < params.availableAgents.size)) "Mutator: available_agents not empty"
    let m ← Makespan.new params
    let temp ← Temperature.new (1 / 1000 : ℚ) 100 256
    let s ← initialSchedule params
    let (m, t) ← Tunneling.new FloatEnv.rat m 2 s
    expects (decide (0 < 1)) "OptimizerJob: batch_size > 0"
    return ({ batchSize := 1, params := params, makespan := m, temperature := temp, stun := t } : Job ℚ)) = _
  rw [expects_true (show decide (0 < params.dependencies.size) = true by decide), ok_bind,
    expects_true (show decide (0 < params.availableAgents.size) = true by decide), ok_bind]
  simp only [initial, ok_bind]
  rfl

theorem impatient : outcome 1 6 = some (240, 2) := by
  unfold outcome Predict.schedule Predict.optimize Optimizer.new
  simp only [params_eq, Run.lift_ok_bind, job]
  decide +kernel

theorem patient : outcome 2 6 = some (120, 5) := by
  unfold outcome Predict.schedule Predict.optimize Optimizer.new
  simp only [params_eq, Run.lift_ok_bind, job]
  decide +kernel

/-- The impatient program reports 240 seconds twice and stops; the patient one goes on, finds a better schedule and reports five times. -/
example : ∃ (es es' : List (Event ℚ)) (r r' : OptimizedSchedule), Predict.schedule FloatEnv.rat project (opt 1) 1 draws 6 = ⟨es, ok (some r)⟩ ∧
    Predict.schedule FloatEnv.rat project { opt 1 with maxIdleIters := 2 } 1 draws 6 = ⟨es', ok (some r')⟩ ∧
    r.makespan = 240 ∧ r'.makespan = 120 ∧ (logRows es).length = 2 ∧ (logRows es').length = 5 := by
  have h1 := impatient
  have h2 := patient
  unfold outcome at h1 h2
  split at h1
  · rename_i e1
    split at h2
    · rename_i e2
      rw [Option.some_inj, Prod.mk.injEq] at h1 h2
      exact ⟨_, _, _, _, e1, e2, h1.1, h2.1, h1.2, h2.2⟩
    · cases h2
  · cases h1

end Pair

end Angonoka.Props
