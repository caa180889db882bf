import Verif.Proof.Reach
import Verif.Proof.Plan
import Verif.Props.Documented

/-!
# A best schedule can be found
-/

set_option linter.unusedSectionVars false

namespace Angonoka.Props
open Outcome Stun

variable {K : Type} [_root_.Field K] [LinearOrder K] [IsStrictOrderedRing K]
variable {E : FloatEnv K} {opts : Options K} {threads : Nat} {o : Optimizer K}

/-- C91, the distance. From every valid schedule of `n` tasks every other one is at most `n (n + 3) / 2` mutations away. -/
theorem mutations_needed {p : ScheduleParams K} (hp : WellFormed p) {s t : List Item} (hs : ValidSchedule p s)
    (ht : ValidSchedule p t) :
    ∃ ds : List (Draws K), ds.length ≤ p.taskCount * (p.taskCount + 3) / 2 ∧
      ds.foldlM (fun s d => mutate p d s) s = ok t := by
  obtain ⟨ds, h1, h2, h3⟩ := away_aux hp t [] s hs ht
  refine ⟨ds, by rw [ht.length] at h1; exact h1, ?_⟩
  have h3' : Leads p s ds t := h3
  clear h1 h2 h3 hs ht
  induction h3' with
  | nil => rfl
  | cons h _ ih => rw [List.foldlM_cons, h, ok_bind]; exact ih

/-- Some random numbers lead the loop of the optimizer to a best schedule: it ends with a valid schedule such that no valid schedule has a smaller makespan. -/
def FindsBest (E : FloatEnv K) (p : ScheduleParams K) (o : Optimizer K) (draws : Nat → Nat → Nat → Draws K) : Prop :=
  ∃ n o' s v, o.rounds E draws n = ok o' ∧ o'.hasConverged = true ∧
    (∀ m < n, ∃ o₁, o.rounds E draws m = ok o₁ ∧ o₁.hasConverged = false) ∧
    o'.schedule = ok s ∧ o'.normalizedMakespan = ok v ∧ ValidSchedule p s ∧ IsMakespan E p s v ∧
    ∀ t w, ValidSchedule p t → IsMakespan E p t w → v ≤ w

theorem finds_best (ho : ValidOptions E opts) (hn : Optimizer.new E opts threads = ok o) {draws : Nat → Nat → Nat → Draws K}
    (h2 : ∀ n o', o.rounds E draws n = ok o' → o'.hasConverged = true →
        ∃ s v, o'.schedule = ok s ∧ o'.normalizedMakespan = ok v ∧ ValidSchedule opts.params s ∧
          v = valueOf E opts.params s ∧ ∀ t, ValidSchedule opts.params t → v ≤ valueOf E opts.params t) :
    FindsBest E opts.params o draws := by
  have hw := ho.wellFormed
  obtain ⟨n, o', g1, g2, g3, _⟩ := optimizer_terminates ho (.new hn) draws
  obtain ⟨s, v, e1, e2, e3, e4, e5⟩ := h2 n o' g1 g2
  exact ⟨n, o', s, v, g1, g2, g3, e1, e2, e3, (isMakespan_iff hw e3).2 e4, fun t w ht hw' => by
    rw [(isMakespan_iff hw ht).1 hw']
    exact e5 t ht⟩

/-- C91. Let the limit of idle iterations be at least `n (n + 3) / 2` for `n` tasks. Then the optimizer can find a best
schedule, with any number of threads: there are random numbers with which its loop ends with a schedule such that no valid
schedule has a smaller makespan. The random number that decides about the acceptance is always 0, the least one `uniform_01` yields. -/
theorem best_reachable (ho : ValidOptions E opts) (hn : Optimizer.new E opts threads = ok o)
    (hidle : opts.params.taskCount * (opts.params.taskCount + 3) / 2 ≤ opts.maxIdleIters) :
    ∃ draws : Nat → Nat → Nat → Draws K, (∀ r k i, (draws r k i).u = 0) ∧ FindsBest E opts.params o draws := by
  obtain ⟨draws, h1, h2⟩ := best_draws ho hn hidle
  exact ⟨draws, h1, finds_best ho hn h2⟩

/-! ### Plans -/

section
variable {p : ScheduleParams K} {agent : Nat → Nat} {start finish : Nat → K}

/-- C92. Schedules leave no plan out: every plan in which each task takes some time is an execution of a valid schedule with the same agents.
So the fastest execution of this schedule ends each task no later than the plan. -/
theorem plan_has_schedule (hp : WellFormed p) (h : Plan E p agent start finish) (hpos : ∀ t < p.taskCount, start t < finish t) :
    ∃ s, ValidSchedule p s ∧ (∀ it ∈ s, it.agent = agent it.task) ∧ Execution E p s start finish :=
  h.schedule hp hpos

/-- C92, the converse: every execution of a valid schedule is a plan. -/
theorem execution_is_plan {s : List Item} (hs : ValidSchedule p s) (h : Execution E p s start finish)
    (hag : ∀ it ∈ s, it.agent = agent it.task) : Plan E p agent start finish := by
  have item : ∀ t < p.taskCount, ⟨t, agent t⟩ ∈ s := by
    intro t ht
    obtain ⟨it, hit, rfl⟩ := List.mem_map.1 (hs.complete.mem_iff.2 (List.mem_range.2 ht))
    rw [← hag it hit]
    exact hit
  refine ⟨fun t ht => hs.eligible _ (item t ht), fun t ht => h.nonneg _ (item t ht), fun t ht => h.time _ (item t ht),
    fun t ht => h.deps _ (item t ht), ?_⟩
  intro t ht u hu htu hau
  obtain ⟨i, hi, h1⟩ := List.getElem_of_mem (item t ht)
  obtain ⟨j, hj, h2⟩ := List.getElem_of_mem (item u hu)
  have hpw := List.pairwise_iff_getElem.1 h.agents
  rcases Nat.lt_trichotomy i j with hij | hij | hij
  · have := hpw i j hi hj hij
    rw [h1, h2] at this
    exact Or.inl (this hau)
  · subst hij
    rw [h1] at h2
    exact absurd (congrArg Item.task h2) htu
  · have := hpw j i hj hi hij
    rw [h1, h2] at this
    exact Or.inr (this hau.symm)

/-- C92. The makespan of a best schedule is a bound for all plans: no plan ends before it. -/
theorem best_bounds_plans (hp : WellFormed p) {v : K} (hbest : ∀ t w, ValidSchedule p t → IsMakespan E p t w → v ≤ w)
    (h : Plan E p agent start finish) (hpos : ∀ t < p.taskCount, start t < finish t) {W : K}
    (hW : ∀ t < p.taskCount, finish t ≤ W) : v ≤ W := by
  obtain ⟨s, h1, _, h3⟩ := h.schedule hp hpos
  obtain ⟨st, fi, _, hend, _, hl⟩ := makespanValue_spec (E := E) hp h1
  refine (hbest s _ h1 ((isMakespan_iff hp h1).2 rfl)).trans ?_
  obtain ⟨it, hit, he⟩ := hend.2
  change makespanValue E p p.agentCount s ≤ W
  rw [← he]
  refine (hl start finish h3 it hit).2.trans (hW _ ?_)
  exact List.mem_range.1 (h1.complete.mem_iff.1 (List.mem_map_of_mem hit))

end

/-! ### The command -/

section
open Cli
variable [FloorRing K] {m : Machine K} {o : Cli.Options K}

/-- In a plan of a sound project each task takes some time. -/
theorem plan_positive (hE : E.IsExact) {p : Project} (hp : p.Sound) {sp : ScheduleParams K} (hsp : toScheduleParams E p = ok sp)
    {agent : Nat → Nat} {start finish : Nat → K} (hplan : Plan E (p.secondsParams E sp) agent start finish) {t : Nat}
    (ht' : t < (p.secondsParams E sp).taskCount) : start t < finish t := by
  obtain ⟨hws, _⟩ := secondsParams_wellFormed (E := E) hp (fun _ _ _ _ => hE _) hsp
  have hel := hplan.eligible t ht'
  have hpos : 0 < (p.secondsParams E sp).itemTime E ⟨t, agent t⟩ := by
    unfold ScheduleParams.itemTime FloatEnv.div
    rw [hE]
    apply div_pos
    · refine getD_pos ?_ ht'
      intro x hx
      obtain ⟨t, ht, rfl⟩ := List.mem_map.1 hx
      unfold FloatEnv.ofInt
      rw [hE]
      exact_mod_cast meanDuration_pos (hp.durations t ht)
    · exact getD_pos hws.perf_pos (hws.avail_lt t ht' _ hel)
  rw [hplan.time t ht']
  unfold FloatEnv.add
  rw [hE]
  linarith

/-- The command with random numbers that lead the optimizer to a best schedule, for every rounding: the schedule that is written is a best one. -/
theorem best_command (hf : o.filename ≠ "") (hout : o.output ≠ "")
    {root : Yaml} {p : Project} (hs : m.source = .doc root) (hl : load m.readFloat root = ok p)
    (hp : p.Sound) (hw : CanWrite m o) (ht : 0 < m.threads)
    {sp : ScheduleParams K} (hsp : toScheduleParams E p = ok sp)
    (ho : ValidOptions E (o.opt.options sp)) {P : List Item → Int → List TaskEntry → Prop}
    (hjson : ∀ s v, ValidSchedule sp s → IsMakespan E sp s v → ∃ mk es, Predict.makespan E sp v = ok mk ∧
      Timetable.toJson E p s mk
        = ok (.obj [("makespan", .int mk), ("tasks", .arr (es.map TaskEntry.object))]) ∧ P s mk es) {o₀ : Optimizer K}
    (hnew : Optimizer.new E (o.opt.options sp) m.threads = ok o₀) {draws : Nat → Nat → Nat → Draws K}
    (hbest : ∀ n o', o₀.rounds E draws n = ok o' → o'.hasConverged = true →
        ∃ s v, o'.schedule = ok s ∧ o'.normalizedMakespan = ok v ∧ ValidSchedule sp s ∧
          v = valueOf E sp s ∧ ∀ t, ValidSchedule sp t → v ≤ valueOf E sp t) :
    ∃ (N : Nat) (s : List Item) (mk : Int) (es : List TaskEntry), ValidSchedule sp s ∧ P s mk es ∧
      (∀ t, ValidSchedule sp t → valueOf E sp s ≤ valueOf E sp t) ∧
      ∀ fuel, N ≤ fuel → status (body E { m with draws := draws, fuel := fuel } .schedule o).flow = .exit 0 ∧
        ∃ pre post : List (Effect K), (∀ e ∈ pre ++ post, ¬ e.IsFile) ∧
          (body E { m with draws := draws, fuel := fuel } .schedule o).effects = pre ++ [.file o.output
            (.obj [("makespan", .int mk), ("tasks", .arr (es.map TaskEntry.object))])] ++ post := by
  obtain ⟨N, s, mk, es, hvs, hP, ⟨fuel, r, hres, hrs⟩, h⟩ :=
    schedule_command_result (m := { m with draws := draws }) hf hout hs hl hp hw ht hsp ho hjson
  refine ⟨N, s, mk, es, hvs, hP, ?_, h⟩
  obtain ⟨es', hrun⟩ : ∃ es', Predict.schedule E p o.opt m.threads draws fuel = ⟨es', ok (some r)⟩ := by
    change (Predict.schedule E p o.opt m.threads draws fuel).result = _ at hres
    cases hx : Predict.schedule E p o.opt m.threads draws fuel with
    | mk a b => rw [hx] at hres; exact ⟨a, by dsimp only at hres; rw [hres]⟩
  unfold Predict.schedule at hrun
  obtain ⟨_, _, hrun⟩ := Run.enqueue_bind_returns hrun
  obtain ⟨sp', hsp', hrun⟩ := Run.lift_bind_returns hrun
  rw [hsp] at hsp'
  cases hsp'
  obtain ⟨es₁, r', es₂, hopt, hrun, _⟩ := Run.bind_returns hrun
  match r', hopt, hrun with
  | none, _, h => cases h
  | some r', hopt, h =>
    dsimp only at h
    obtain ⟨_, _, h⟩ := Run.enqueue_bind_returns h
    obtain ⟨_, _, h⟩ := Run.enqueue_bind_returns h
    cases h
    obtain ⟨o₁, on, n, v, h1, ⟨⟨on', g1, g2⟩, _⟩, _, h4, h5, h6, _⟩ := optimize_some hopt
    rw [hnew] at h1
    cases h1
    rw [h4] at g1
    cases g1
    obtain ⟨s', v', k1, k2, _, k4, k5⟩ := hbest n on h4 g2
    rw [h5] at k1
    cases k1
    rw [hrs] at k4
    intro t ht
    have := k5 t ht
    rw [k4] at this
    exact this

/-- The command with random numbers that lead the optimizer to a best schedule. -/
theorem best_schedule_written_of (hE : E.IsExact) (hf : o.filename ≠ "") (hout : o.output ≠ "")
    {root : Yaml} {p : Project} (hs : m.source = .doc root) (hl : load m.readFloat root = ok p)
    (hp : p.Sound) (hmod : p.Moderate) (hw : CanWrite m o) (ht : 0 < m.threads)
    {sp : ScheduleParams K} (hsp : toScheduleParams E p = ok sp)
    (ho : ValidOptions E (o.opt.options sp)) {o₀ : Optimizer K}
    (hnew : Optimizer.new E (o.opt.options sp) m.threads = ok o₀) {draws : Nat → Nat → Nat → Draws K}
    (hbest : ∀ n o', o₀.rounds E draws n = ok o' → o'.hasConverged = true →
        ∃ s v, o'.schedule = ok s ∧ o'.normalizedMakespan = ok v ∧ ValidSchedule sp s ∧
          v = valueOf E sp s ∧ ∀ t, ValidSchedule sp t → v ≤ valueOf E sp t) :
      ∃ (N : Nat) (s : List Item) (mk : Int) (es : List TaskEntry) (start finish : Nat → K) (V : K),
        ValidSchedule sp s ∧ es.length = s.length ∧
        (∀ (i : Nat) (it : Item) (e : TaskEntry), s[i]? = some it → es[i]? = some e →
          e.Correct E p (p.secondsParams E sp) s start i it ∧ e.start + e.duration ≤ mk) ∧
        Earliest E (p.secondsParams E sp) s start finish ∧ IsEnd s finish V ∧ IsWholePart mk V ∧
        (∀ agent start' finish' W, Plan E (p.secondsParams E sp) agent start' finish' →
          (∀ t < p.tasks.length, finish' t ≤ W) → V ≤ W) ∧
        ∀ fuel, N ≤ fuel → status (body E { m with draws := draws, fuel := fuel } .schedule o).flow = .exit 0 ∧
          ∃ pre post : List (Effect K), (∀ e ∈ pre ++ post, ¬ e.IsFile) ∧
            (body E { m with draws := draws, fuel := fuel } .schedule o).effects = pre ++ [.file o.output
              (.obj [("makespan", .int mk), ("tasks", .arr (es.map TaskEntry.object))])] ++ post := by
  have hfl : p.FloatsIn E := fun _ _ _ _ => hE _
  obtain ⟨hws, hc⟩ := secondsParams_wellFormed hp hfl hsp
  have hcount := (params_faithful hp.agent_groups hp.task_groups hsp).1
  obtain ⟨N, s, mk, es, hvs, ⟨start, finish, V, hlen, hcor, hex, hend, hV⟩, hmin, h⟩ :=
    best_command hf hout hs hl hp hw ht
    hsp ho (P := fun s mk es => ∃ (start finish : Nat → K) (V : K), es.length = s.length ∧
      (∀ (i : Nat) (it : Item) (e : TaskEntry), s[i]? = some it → es[i]? = some e →
        e.Correct E p (p.secondsParams E sp) s start i it ∧ e.start + e.duration ≤ mk) ∧
      Earliest E (p.secondsParams E sp) s start finish ∧ IsEnd s finish V ∧ IsWholePart mk V)
    (fun s v hs hv => by
      obtain ⟨hb, h1⟩ := moderate_executions hE hp hmod hsp hs
      obtain ⟨mk, es, start, finish, hm, hj, hlen, hcor, hex, V, hend, hV⟩ := schedule_json_exact hE hp hsp hs hv hb h1
      exact ⟨mk, es, hm, hj, start, finish, V, hlen, hcor, hex, hend, hV⟩) hnew hbest
  refine ⟨N, s, mk, es, start, finish, V, hvs, hlen, hcor, hex, hend, hV, ?_, h⟩
  intro agent start' finish' W hplan hW
  have hVs : V = valueOf E (p.secondsParams E sp) s :=
    earliest_value hws (secondsParams_valid hc hvs) hex.1 (fun a b hab it hit => (hex.2 a b hab it hit).2) hend
  have hmult := durationMultiplier_nonneg hsp
  refine best_bounds_plans hws (E := E) ?_ hplan ?_ (W := W) (fun t ht => hW t (by rw [hc, hcount] at ht; exact ht))
  · intro t w htv htw
    have htv' : ValidSchedule sp t := ⟨hc ▸ htv.complete, htv.ordered, htv.eligible⟩
    rw [(isMakespan_iff hws htv).1 htw, hVs,
      ← seconds_value hE hp hsp hvs ((isMakespan_iff ho.wellFormed hvs).2 rfl),
      ← seconds_value hE hp hsp htv' ((isMakespan_iff ho.wellFormed htv').2 rfl)]
    exact E.rnd_mono (mul_le_mul_of_nonneg_right (hmin t htv') hmult)
  · exact fun t ht' => plan_positive hE hp hsp hplan ht'

/-- C91, the command. The command `schedule`, from the document to the output file, for exact arithmetic, under the conditions of C62. If the limit of idle
iterations is at least `n (n + 3) / 2` for `n` tasks, there are random numbers with which the file has the timetable of a best plan:
no plan of the project ends earlier. -/
theorem best_schedule_written (hE : E.IsExact) (hf : o.filename ≠ "") (hout : o.output ≠ "")
  {root : Yaml} {p : Project} (hs : m.source = .doc root) (hl : load m.readFloat root = ok p)
  (hp : p.Sound) (hmod : p.Moderate) (hw : CanWrite m o) (ht : 0 < m.threads)
  {sp : ScheduleParams K} (hsp : toScheduleParams E p = ok sp)
  (ho : ValidOptions E (o.opt.options sp)) (hidle : sp.taskCount * (sp.taskCount + 3) / 2 ≤ o.opt.maxIdleIters) :
  ∃ draws : Nat → Nat → Nat → Draws K, (∀ r k i, (draws r k i).u = 0) ∧
    ∃ (N : Nat) (s : List Item) (mk : Int) (es : List TaskEntry) (start finish : Nat → K) (V : K),
      ValidSchedule sp s ∧ es.length = s.length ∧
      (∀ (i : Nat) (it : Item) (e : TaskEntry), s[i]? = some it → es[i]? = some e →
        e.Correct E p (p.secondsParams E sp) s start i it ∧ e.start + e.duration ≤ mk) ∧
      Earliest E (p.secondsParams E sp) s start finish ∧ IsEnd s finish V ∧ IsWholePart mk V ∧
      (∀ agent start' finish' W, Plan E (p.secondsParams E sp) agent start' finish' →
        (∀ t < p.tasks.length, finish' t ≤ W) → V ≤ W) ∧
      ∀ fuel, N ≤ fuel → status (body E { m with draws := draws, fuel := fuel } .schedule o).flow = .exit 0 ∧
        ∃ pre post : List (Effect K), (∀ e ∈ pre ++ post, ¬ e.IsFile) ∧
          (body E { m with draws := draws, fuel := fuel } .schedule o).effects = pre ++ [.file o.output
            (.obj [("makespan", .int mk), ("tasks", .arr (es.map TaskEntry.object))])] ++ post := by
  obtain ⟨o₀, _, hnew, _⟩ := Optimizer.new_ok ho ht
  obtain ⟨draws, hu, hbest⟩ := best_draws ho hnew hidle
  exact ⟨draws, hu, best_schedule_written_of hE hf hout hs hl hp hmod hw ht hsp ho hnew hbest⟩

end

/-! ### The document -/

section
open Cli CommandLine Doc
variable {rf : String → Option XFloat} {root : Yaml} {p : Project} {sp : ScheduleParams K}

/-- The plans of the document are those of the parameters, for exact arithmetic. -/
theorem plan_document (hE : E.IsExact) (hload : load rf root = ok p) (hp : p.Sound) (hsp : toScheduleParams E p = ok sp)
    {agent : Nat → Nat} {start finish : Nat → K} :
    Doc.Plan rf root agent start finish ↔ Angonoka.Plan E (p.secondsParams E sp) agent start finish := by
  have hl := (load_faithful hload).2
  have hpf := params_faithful hp.agent_groups hp.task_groups hsp
  obtain ⟨hdv, hpv⟩ := document_values hload
  have hc : (p.secondsParams E sp).taskCount = (tasks root).length := by
    rw [← hl.tasks_length]
    simp [ScheduleParams.taskCount, Project.secondsParams]
  have task : ∀ {k : Nat}, k < (tasks root).length → ∃ q t, (tasks root)[k]? = some q ∧ p.tasks[k]? = some t := fun hk =>
    ⟨_, _, List.getElem?_eq_getElem hk, List.getElem?_eq_getElem (hl.tasks_length ▸ hk)⟩
  have takes : ∀ {k i : Nat} {q t w a x}, (tasks root)[k]? = some q → p.tasks[k]? = some t → (agents root)[i]? = some w →
      p.agents[i]? = some a → Takes rf w q.2 x → (p.secondsParams E sp).itemTime E ⟨k, i⟩ = (x : K) := by
    rintro k i q t w a x hq ht hw ha ⟨lo, hi, slow, fast, hd, hperf, rfl⟩
    obtain ⟨e1, e2⟩ := hdv k q t lo hi hq ht hd
    obtain ⟨e3, e4⟩ := hpv i w a _ _ hw ha hperf
    obtain ⟨slow', fast', hpo⟩ := hp.performance a (List.mem_of_getElem? ha)
    have e5 := e3.symm.trans hpo.1
    have e6 := e4.symm.trans hpo.2.1
    injection e5 with e5
    injection e6 with e6
    subst e5 e6
    rw [itemTime_document (it := ⟨k, i⟩) hE hp hsp ht ha hpo]
    have : t.meanDuration = ((lo + hi) / 2 : Nat) := by
      unfold Task.meanDuration
      omega
    rw [this]
    norm_cast
  constructor
  · intro h
    refine ⟨?_, ?_, ?_, ?_, ?_⟩
    · intro k hk
      obtain ⟨q, t, hq, ht⟩ := task (hc ▸ hk)
      obtain ⟨_, w, x, hw, hmay, _, _⟩ := h.time k q hq
      have ha := List.getElem?_eq_getElem (hl.agents_length ▸ (List.getElem?_eq_some_iff.1 hw).1)
      refine ((hpf.2.2.2.2.1 k t ht).1 _).2 ⟨_, ha, ?_⟩
      rw [← eligibility (hl.agents_loaded _ w _ hw ha).groups.sorted (hl.tasks_loaded k q t hq ht).groups.sorted,
        eligible_document hload hw ha hq ht]
      exact hmay
    · intro k hk
      obtain ⟨q, _, hq, _⟩ := task (hc ▸ hk)
      exact (h.time k q hq).1
    · intro k hk
      obtain ⟨q, t, hq, ht⟩ := task (hc ▸ hk)
      obtain ⟨_, w, x, hw, _, hx, hfin⟩ := h.time k q hq
      rw [hfin, takes hq ht hw (List.getElem?_eq_getElem (hl.agents_length ▸ (List.getElem?_eq_some_iff.1 hw).1)) hx]
      exact (hE _).symm
    · intro k hk d hd
      obtain ⟨q, t, hq, ht⟩ := task (hc ▸ hk)
      refine h.deps k d ((hl.deps k t ht d).1 ?_)
      rw [← (hpf.2.2.2.2.1 k t ht).2.2]
      exact hd
    · rw [hc]
      exact h.alone
  · intro h
    refine ⟨?_, ?_, ?_⟩
    · intro k q hq
      have hk := (List.getElem?_eq_some_iff.1 hq).1
      have hk' : k < (p.secondsParams E sp).taskCount := by rw [hc]; exact hk
      obtain ⟨_, t, _, ht⟩ := task hk
      obtain ⟨a, ha, hel⟩ := ((hpf.2.2.2.2.1 k t ht).1 _).1 (h.eligible k hk')
      obtain ⟨w, hw⟩ := agent_of hl ha
      have hal := hl.agents_loaded _ w _ hw ha
      have htl := hl.tasks_loaded k q t hq ht
      obtain ⟨slow, fast, hpo⟩ := hp.performance a (List.mem_of_getElem? ha)
      obtain ⟨lo, hi, hdur, _, hlo, hhi⟩ := htl.duration
      have hx : Takes rf w q.2 (((lo + hi) / 2 : Nat) / ((slow + fast) / 2)) := by
        refine ⟨lo, hi, slow, fast, hdur, ?_, rfl⟩
        have := hal.performance
        rwa [hpo.1, hpo.2.1] at this
      refine ⟨h.nonneg k hk', w, _, hw, ?_, hx, ?_⟩
      · rw [← eligible_document hload hw ha hq ht, eligibility hal.groups.sorted htl.groups.sorted]
        exact hel
      · rw [h.time k hk', takes hq ht hw ha hx]
        exact hE _
    · intro k d hd
      obtain ⟨_, _, hq, _, _⟩ := id hd
      have hk := (List.getElem?_eq_some_iff.1 hq).1
      obtain ⟨_, t, _, ht⟩ := task hk
      refine h.deps k (by rw [hc]; exact hk) d ?_
      change d ∈ sp.deps k
      rw [(hpf.2.2.2.2.1 k t ht).2.2]
      exact (hl.deps k t ht d).2 hd
    · have := h.alone
      rwa [hc] at this

/-- The execution of a schedule is a plan of the document. -/
theorem written_plan (hE : E.IsExact) (hl : load rf root = ok p) (hp : p.Sound) (hsp : toScheduleParams E p = ok sp) {s : List Item}
    {start finish : Nat → K} {V : K} (hs : ValidSchedule sp s) (h : Earliest E (p.secondsParams E sp) s start finish) (hend : IsEnd s finish V) :
    ∃ agent : Nat → Nat, (∀ it ∈ s, it.agent = agent it.task) ∧ Doc.Plan rf root agent start finish ∧
      ∀ k < (tasks root).length, finish k ≤ V := by
  have hcount := (params_faithful hp.agent_groups hp.task_groups hsp).1
  have hlen := (load_faithful hl).2.tasks_length
  obtain ⟨_, hc⟩ := secondsParams_wellFormed (E := E) hp (fun _ _ _ _ => hE _) hsp
  have hvs := secondsParams_valid hc hs
  obtain ⟨agent, hag⟩ : ∃ agent : Nat → Nat, ∀ it ∈ s, it.agent = agent it.task := by
    refine ⟨fun t => ((s.find? fun it => it.task = t).map Item.agent).getD 0, fun it hit => ?_⟩
    have hnd : (s.map Item.task).Nodup := hs.complete.nodup_iff.2 List.nodup_range
    cases hx : s.find? fun x => x.task = it.task with
    | none =>
      have := List.find?_eq_none.1 hx it hit
      simp at this
    | some y =>
      have hy := List.mem_of_find?_eq_some hx
      have ht : y.task = it.task := by simpa using List.find?_some hx
      have : y = it := List.inj_on_of_nodup_map hnd hy hit ht
      dsimp only
      rw [hx, this]
      rfl
  refine ⟨agent, hag, (plan_document hE hl hp hsp).2 (execution_is_plan hvs h.1 hag), fun k hk => ?_⟩
  obtain ⟨it, hit, rfl⟩ := List.mem_map.1 (hs.complete.mem_iff.2 (List.mem_range.2 (by rw [hcount, hlen]; exact hk)))
  exact hend.1 it hit

variable [FloorRing K] {read : ReadReal} {isFile : String → Bool} {terminal : Bool} {a : Arguments} {o : Cli.Options K} {m : Machine K}

/-- With some random numbers the command `schedule` writes a best timetable of the document: one whose makespan is the whole part of the end of a plan of the document,
and no plan of the document ends earlier. -/
def WritesBest (E : FloatEnv K) (m : Machine K) (o : Cli.Options K) (root : Yaml) (output : String) (draws : Nat → Nat → Nat → Draws K) : Prop :=
  ∃ (N : Nat) (mk : Int) (of : List Nat) (es : List TaskEntry) (V : K),
    Doc.Timetable m.readFloat root IsWholePart of es ∧
    (∀ (i j : Nat) (e f : TaskEntry), es[i]? = some e → es[j]? = some f → MustWait root of es i j →
      f.start + f.duration ≤ e.start) ∧
    (∀ e ∈ es, e.start + e.duration ≤ mk) ∧ IsWholePart mk V ∧
    (∃ agent start finish, Doc.Plan m.readFloat root agent start finish ∧
      ∀ k < (tasks root).length, finish k ≤ V) ∧
    (∀ agent start finish W, Doc.Plan m.readFloat root agent start finish →
      (∀ k < (tasks root).length, finish k ≤ W) → V ≤ W) ∧
    ∀ fuel, N ≤ fuel → status (body E { m with draws := draws, fuel := fuel } .schedule o).flow = .exit 0 ∧
      ∃ pre post : List (Effect K), (∀ e ∈ pre ++ post, ¬ e.IsFile) ∧
        (body E { m with draws := draws, fuel := fuel } .schedule o).effects = pre ++ [.file output
          (.obj [("makespan", .int mk), ("tasks", .arr (es.map TaskEntry.object))])] ++ post

/-- The program with random numbers that lead the optimizer to a best schedule. -/
theorem document_best_of (hE : E.IsExact) (hsig : SignsAgree read) (hnof : isFile "" = false)
    (h : parse E read isFile terminal .schedule a = .accepted o)
    (hz : ∀ t, a.restartPeriod = some t → ¬ LeadingZero t)
    (hb : ∀ t q, a.betaScale = some t → read t = some (.fin q) → ModerateBeta E q)
    (hout : a.output ≠ some "") (hd : m.source = .doc root) (hl : load m.readFloat root = ok p)
    (hs : Schedulable m.readFloat root 1 (2 ^ 31)) (hw : CanWrite m o) (ht : 0 < m.threads) {draws : Nat → Nat → Nat → Draws K}
    (hbest : ∀ {sp o₀}, toScheduleParams E p = ok sp → Optimizer.new E (o.opt.options sp) m.threads = ok o₀ →
      ∀ n o', o₀.rounds E draws n = ok o' → o'.hasConverged = true →
        ∃ s v, o'.schedule = ok s ∧ o'.normalizedMakespan = ok v ∧ ValidSchedule sp s ∧
          v = valueOf E sp s ∧ ∀ t, ValidSchedule sp t → v ≤ valueOf E sp t) :
    WritesBest E m o root (a.output.getD "schedule.json") draws := by
  obtain ⟨hp, hmod⟩ := schedulable_sound hl hs
  have hfl : p.FloatsIn E := fun _ _ _ _ => hE _
  obtain ⟨sp, hsp, hwf⟩ := params_wellFormed (E := E) hp hfl
  obtain ⟨ho, hf', hout'⟩ := accepted_options_partial (Or.inl hE) hsig hnof h hz hb hout hwf
  obtain ⟨o₀, _, hnew, _⟩ := Optimizer.new_ok ho ht
  have hcount := (params_faithful hp.agent_groups hp.task_groups hsp).1
  have hlen := (load_faithful hl).2.tasks_length
  obtain ⟨hws, hc⟩ := secondsParams_wellFormed hp hfl hsp
  obtain ⟨N, s, mk, es, start, finish, V, h1, h2, h3, h4, h5, h6, hbest, h7⟩ :=
    best_schedule_written_of hE hf' hout' hd hl hp hmod hw ht hsp ho hnew (hbest hsp hnew)
  obtain ⟨g1, _, g3, g4, _⟩ := written_timetable hE hl hp hmod hsp h1 h2 h3 h4 h5 h6
  refine ⟨N, mk, s.map Item.task, es, V, g1, g3, g4, h6, ?_, ?_, ?_⟩
  · obtain ⟨agent, _, h⟩ := written_plan hE hl hp hsp h1 h4 h5
    exact ⟨agent, start, finish, h⟩
  · intro agent start' finish' W hplan hW
    exact hbest agent start' finish' W ((plan_document hE hl hp hsp).1 hplan) (fun t ht => hW t (hlen ▸ ht))
  · have : o.output = a.output.getD "schedule.json" := by
      obtain ⟨_, _, _, _, _, _, _, _, _, _, _, _, _, _, _, rfl⟩ := parse_accepted h
      rfl
    rwa [this] at h7

/-- C91, from the document to the file. The command `schedule` for exact arithmetic, under the conditions of C74 and with a limit of idle iterations of at
least 8255 (the default is 100000). There are random numbers with which the program writes a best timetable: besides what C74 says,
the makespan in the file is the whole part of the end of a plan of the document, and no plan of the document ends earlier. -/
theorem document_best_schedule (hE : E.IsExact) (hsig : SignsAgree read) (hnof : isFile "" = false)
    (h : parse E read isFile terminal .schedule a = .accepted o)
    (hz : ∀ t, a.restartPeriod = some t → ¬ LeadingZero t)
    (hb : ∀ t q, a.betaScale = some t → read t = some (.fin q) → ModerateBeta E q)
    (hout : a.output ≠ some "") (hd : m.source = .doc root) (hl : load m.readFloat root = ok p)
    (hs : Schedulable m.readFloat root 1 (2 ^ 31)) (hw : CanWrite m o) (ht : 0 < m.threads) (hidle : 8255 ≤ o.opt.maxIdleIters) :
    ∃ draws : Nat → Nat → Nat → Draws K, (∀ r k i, (draws r k i).u = 0) ∧ WritesBest E m o root (a.output.getD "schedule.json") draws := by
  obtain ⟨hp, hmod⟩ := schedulable_sound hl hs
  have hfl : p.FloatsIn E := fun _ _ _ _ => hE _
  obtain ⟨sp, hsp, hwf⟩ := params_wellFormed (E := E) hp hfl
  obtain ⟨ho, hf', hout'⟩ := accepted_options_partial (Or.inl hE) hsig hnof h hz hb hout hwf
  have hcount := (params_faithful hp.agent_groups hp.task_groups hsp).1
  have hle : sp.taskCount * (sp.taskCount + 3) / 2 ≤ o.opt.maxIdleIters := by
    have h127 : sp.taskCount ≤ 127 := hcount ▸ (index_limits.1 p hl).1
    have : sp.taskCount * (sp.taskCount + 3) ≤ 127 * (127 + 3) := Nat.mul_le_mul h127 (by omega)
    omega
  obtain ⟨o₀, _, hnew, _⟩ := Optimizer.new_ok ho ht
  obtain ⟨draws, hu, hbest⟩ := best_draws ho hnew hle
  exact ⟨draws, hu, document_best_of hE hsig hnof h hz hb hout hd hl hs hw ht fun {sp' o₁} hsp' hnew' => by
    rw [hsp] at hsp'
    cases hsp'
    rw [hnew] at hnew'
    cases hnew'
    exact hbest⟩

end

/-! ### Examples -/

/-- A plan of the example that wastes time: agent 1 begins half a second late and rests a second before the last task. -/
theorem example_plan : Angonoka.Plan FloatEnv.rat Example.params (fun t => [0, 1, 1].getD t 0) (fun t => [0, 1 / 2, 3].getD t 0)
    (fun t => [2, 2, 5].getD t 0) := by
  have hc : Example.params.taskCount = 3 := rfl
  refine ⟨?_, ?_, ?_, ?_, ?_⟩ <;> rw [hc]
  · decide
  · decide +kernel
  · decide +kernel
  · decide +kernel
  · decide +kernel

/-- It is an execution of a valid schedule, and it does not end before the best schedule the optimizer can find, which ends by 4. -/
example : (∃ s, ValidSchedule Example.params s ∧ Execution FloatEnv.rat Example.params s (fun t => [0, 1 / 2, 3].getD t 0)
      (fun t => [2, 2, 5].getD t 0)) ∧
    ∃ (draws : Nat → Nat → Nat → Draws ℚ) (o o' : Optimizer ℚ) (n : Nat) (v : ℚ), Optimizer.new FloatEnv.rat exampleOptions 4 = ok o ∧
      o.rounds FloatEnv.rat draws n = ok o' ∧ o'.normalizedMakespan = ok v ∧ v ≤ 4 ∧ v ≤ 5 := by
  have hpos : ∀ t < Example.params.taskCount, ([0, 1 / 2, 3].getD t 0 : ℚ) < [2, 2, 5].getD t 0 := by decide +kernel
  constructor
  · obtain ⟨s, h1, _, h2⟩ := plan_has_schedule Example.params_wellFormed example_plan hpos
    exact ⟨s, h1, h2⟩
  · obtain ⟨o, _, h, _⟩ := Optimizer.new_ok (threads := 4) exampleOptions_valid (by decide)
    obtain ⟨draws, _, n, o', s, v, h1, _, _, _, h2, _, _, h3⟩ := best_reachable exampleOptions_valid h (by decide)
    refine ⟨draws, o, o', n, v, h, h1, h2, ?_, ?_⟩
    · refine h3 [⟨0, 0⟩, ⟨1, 1⟩, ⟨2, 1⟩] 4 (by apply validSchedule_of_check <;> decide)
        ⟨⟨Example.params, [0, 0, 0], [0, 0]⟩, ⟨Example.params, [2, 3 / 2, 4], [2, 4]⟩, by decide +kernel, by decide +kernel⟩
    · exact best_bounds_plans Example.params_wellFormed h3 example_plan hpos (by decide +kernel)

open Cli CommandLine Doc in
/-- With the default options the program can write a best timetable of the sample document. -/
example (draws₀ : Nat → Nat → Nat → Draws ℚ) : ∃ o draws N mk es, ∃ V : ℚ,
    parse FloatEnv.rat exampleRead (fun f => f == "plan.yml") true .schedule { input := "plan.yml" } = .accepted o ∧
    IsWholePart mk V ∧ (∃ agent start finish, Doc.Plan Sample.number Sample.plan agent start finish ∧
      ∀ k < (tasks Sample.plan).length, finish k ≤ V) ∧
    ∀ fuel, N ≤ fuel → ∃ pre post : List (Effect ℚ),
      (body FloatEnv.rat { exampleMachine draws₀ with draws := draws, fuel := fuel } .schedule o).effects =
        pre ++ [.file "schedule.json" (.obj [("makespan", .int mk), ("tasks", .arr (List.map TaskEntry.object es))])] ++ post := by
  have hpar := options_as_given (E := FloatEnv.rat) (isFile := fun f => f == "plan.yml") (terminal := true) (c := .schedule)
    (a := { input := "plan.yml" }) exampleRead_naturals (by decide) (batch := 10000) (idle := 100000) (window := 100) (period := 256)
    (Or.inl ⟨rfl, rfl⟩) (Or.inl ⟨rfl, rfl⟩) (Or.inl ⟨rfl, rfl⟩) (Or.inl ⟨rfl, rfl⟩)
    (Or.inl ⟨rfl, rfl⟩) (Or.inl ⟨rfl, rfl⟩) (Or.inl ⟨rfl, rfl⟩)
  obtain ⟨draws, _, N, mk, _, es, V, _, _, _, h1, h2, _, h3⟩ := document_best_schedule (m := exampleMachine draws₀) (fun _ => rfl)
    exampleRead_signs (by decide) hpar (by simp) (by simp) (by simp) rfl Sample.plan_loads
    (sound_schedulable Sample.plan_loads plan_sound plan_moderate) example_canWrite (by exact (by decide : 0 < 4))
    (by change 8255 ≤ 100000; decide)
  refine ⟨_, draws, N, mk, es, V, hpar, h1, h2, fun fuel hN => ?_⟩
  obtain ⟨_, pre, post, _, h⟩ := h3 fuel hN
  exact ⟨pre, post, h⟩

end Angonoka.Props
