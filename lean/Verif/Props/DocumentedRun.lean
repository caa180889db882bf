import Verif.Props.Documented
import Verif.Props.Completes
import Verif.Spec.DocumentedRun

/-!
# C78: the prediction, from the configuration file to the output file
-/

set_option linter.unusedSectionVars false

namespace Angonoka.Props
open Angonoka Outcome Stun Doc Validation

variable {rf : String → Option XFloat} {root : Yaml} {p : Project}
variable {K : Type} [_root_.Field K] [LinearOrder K] [IsStrictOrderedRing K]
variable {E : FloatEnv K} {sp : ScheduleParams K} {s : List Item} {es : List TaskEntry} {start : Nat → K}

/-- Samples, with the numbers each of them takes. -/
theorem samples_numbers (hE : E.IsExact) {bs : List (K × K)} {xs zs rest : List K} (h : Samples E bs xs zs rest)
    (hb : ∀ b ∈ bs, 0 < b.1) :
    ∃ ss : List (K × List K), ss.map Prod.fst = xs ∧ zs = ss.flatMap Prod.snd ++ rest ∧
      List.Forall₂ (fun b x => Sampled b.1 b.2 x) bs ss := by
  have hd : ∀ lo hi z, drawn E lo hi z = normal lo hi z := by
    intro lo hi z
    simp only [drawn, normal, FloatEnv.add, FloatEnv.mul, FloatEnv.div, FloatEnv.sub, hE _]
    ring
  induction h with
  | nil => exact ⟨[], rfl, rfl, .nil⟩
  | @fixed b bounds xs zs rest h ih =>
    obtain ⟨ss, h1, h2, h3⟩ := ih (fun b hb' => hb b (by simp [hb']))
    exact ⟨(b, []) :: ss, by simp [h1], by simpa using h2, .cons ⟨hb (b, b) (by simp), .inl ⟨rfl, rfl⟩⟩ h3⟩
  | @drawn lo hi bounds z xs zs rest rejected hne hr hz h ih =>
    obtain ⟨ss, h1, h2, h3⟩ := ih (fun b hb' => hb b (by simp [hb']))
    refine ⟨(normal lo hi z, rejected ++ [z]) :: ss, by simp [h1, hd], by simp [h2], .cons ⟨?_, .inr ⟨hne, _, _, rfl, ?_⟩⟩ h3⟩
    · rw [← hd]
      exact hz
    · intro r hr'
      rw [← hd]
      exact hr r hr'

/-- Which entries have to wait, in terms of the schedule. -/
theorem mustWait_iff (h : load rf root = ok p) (hp : p.Sound) (hsp : toScheduleParams E p = ok sp)
    (hs : ValidSchedule sp s)
    (hnames : ∀ (i : Nat) (it : Item) (e : TaskEntry), s[i]? = some it → es[i]? = some e →
      (p.agents[it.agent]?).map Agent.name = some e.agent)
    {i j : Nat} {x y : Item} {e f : TaskEntry} (hx : s[i]? = some x) (hy : s[j]? = some y) (he : es[i]? = some e)
    (hf : es[j]? = some f) :
    MustWait root (s.map Item.task) es i j ↔ y.task ∈ sp.deps x.task ∨ j < i ∧ y.agent = x.agent := by
  have hl := (load_faithful h).2
  have hdep : DependsOn root x.task y.task ↔ y.task ∈ sp.deps x.task := by
    obtain ⟨q, t, hq, ht⟩ := item_task h hp hsp hs (List.mem_of_getElem? hx)
    rw [((params_faithful hp.agent_groups hp.task_groups hsp).2.2.2.2.1 _ t ht).2.2]
    exact (hl.deps _ t ht _).symm
  have hag : e.agent = f.agent ↔ y.agent = x.agent := by
    have h1 := hnames i x e hx he
    have h2 := hnames j y f hy hf
    constructor
    · intro h3
      rw [h3] at h1
      exact same_agent hl h2 h1
    · intro h3
      rw [h3, h1] at h2
      exact Option.some.inj h2
  unfold MustWait
  rw [List.getElem?_map, List.getElem?_map, hx, hy]
  simp only [Option.map_some, Option.some.injEq, he, hf]
  constructor
  · rintro (⟨_, _, rfl, rfl, hd⟩ | ⟨hji, _, _, rfl, rfl, ha⟩)
    · exact Or.inl (hdep.1 hd)
    · exact Or.inr ⟨hji, hag.1 ha⟩
  · rintro (hd | ⟨hji, ha⟩)
    · exact Or.inl ⟨_, _, rfl, rfl, hdep.2 hd⟩
    · exact Or.inr ⟨hji, _, _, rfl, rfl, hag.2 ha⟩

/-- Executions of a schedule, by task, are those of the timetable, by entry. -/
theorem execution_iff (hE : E.IsExact) (h : load rf root = ok p) (hp : p.Sound) (hsp : toScheduleParams E p = ok sp)
    (hs : ValidSchedule sp s) (hlen : es.length = s.length)
    (hnames : ∀ (i : Nat) (it : Item) (e : TaskEntry), s[i]? = some it → es[i]? = some e →
      (p.agents[it.agent]?).map Agent.name = some e.agent)
    {sp' : ScheduleParams K} (hdeps : sp'.dependencies = sp.dependencies) {time : Nat → K}
    (htime : ∀ (i : Nat) it, s[i]? = some it → time i = sp'.itemTime E it)
    {start finish start' finish' : Nat → K} (hst : ∀ (i : Nat) it, s[i]? = some it → start' i = start it.task)
    (hfi : ∀ (i : Nat) it, s[i]? = some it → finish' i = finish it.task) :
    Angonoka.Execution E sp' s start finish ↔ Doc.Execution root (s.map Item.task) es time start' finish' := by
  have hd : ∀ t, sp'.deps t = sp.deps t := fun t => by unfold ScheduleParams.deps; rw [hdeps]
  have get : ∀ {i : Nat}, i < es.length → ∃ it e, s[i]? = some it ∧ es[i]? = some e :=
    fun {i} hi => ⟨_, _, List.getElem?_eq_getElem (hlen ▸ hi), List.getElem?_eq_getElem hi⟩
  have idx : ∀ {it : Item}, it ∈ s → ∃ i : Nat, s[i]? = some it ∧ i < es.length := by
    intro it hit
    obtain ⟨i, hi, rfl⟩ := List.mem_iff_getElem.1 hit
    exact ⟨i, List.getElem?_eq_getElem hi, by omega⟩
  constructor
  · intro hex
    refine ⟨?_, ?_, ?_⟩
    · intro i hi
      obtain ⟨it, e, h1, _⟩ := get hi
      rw [hst i it h1]
      exact hex.nonneg it (List.mem_of_getElem? h1)
    · intro i hi
      obtain ⟨it, e, h1, _⟩ := get hi
      rw [hst i it h1, hfi i it h1, htime i it h1, hex.time it (List.mem_of_getElem? h1), FloatEnv.add, hE]
    · intro i hi j hj hw
      obtain ⟨x, e, h1, h2⟩ := get hi
      obtain ⟨y, f, h3, h4⟩ := get hj
      rw [hfi j y h3, hst i x h1]
      rcases (mustWait_iff h hp hsp hs hnames h1 h3 h2 h4).1 hw with hw | ⟨hji, ha⟩
      · exact hex.deps x (List.mem_of_getElem? h1) _ (by rw [hd]; exact hw)
      · obtain ⟨hi', hxi⟩ := List.getElem?_eq_some_iff.1 h1
        obtain ⟨hj', hyj⟩ := List.getElem?_eq_some_iff.1 h3
        have := List.pairwise_iff_getElem.1 hex.agents j i hj' hi' hji
        rw [hxi, hyj] at this
        exact this ha
  · intro hex
    refine ⟨?_, ?_, ?_, ?_⟩
    · intro it hit
      obtain ⟨i, h1, hi⟩ := idx hit
      rw [← hst i it h1]
      exact hex.nonneg i hi
    · intro it hit
      obtain ⟨i, h1, hi⟩ := idx hit
      rw [← hst i it h1, ← hfi i it h1, hex.time i hi, htime i it h1, FloatEnv.add, hE]
    · intro it hit d hdm
      rw [hd] at hdm
      obtain ⟨i, h1, hi⟩ := idx hit
      obtain ⟨hi', hit'⟩ := List.getElem?_eq_some_iff.1 h1
      have hsplit : s = s.take i ++ it :: s.drop (i + 1) := by
        rw [← hit', ← List.drop_eq_getElem_cons hi', List.take_append_drop]
      obtain ⟨y, hy, rfl⟩ := List.mem_map.1 (hs.ordered _ _ _ hsplit d hdm)
      obtain ⟨j, h3, hj⟩ := idx (List.mem_of_mem_take hy)
      obtain ⟨_, e, _, h2⟩ := get hi
      obtain ⟨_, f, _, h4⟩ := get hj
      rw [← hst i it h1, ← hfi j y h3]
      exact hex.waits i hi j hj ((mustWait_iff h hp hsp hs hnames h1 h3 h2 h4).2 (Or.inl hdm))
    · rw [List.pairwise_iff_getElem]
      intro j i hj hi hji ha
      have h1 := List.getElem?_eq_getElem hi
      have h3 := List.getElem?_eq_getElem hj
      have hi' : i < es.length := hlen ▸ hi
      have hj' : j < es.length := hlen ▸ hj
      rw [← hst i _ h1, ← hfi j _ h3]
      exact hex.waits i hi' j hj' ((mustWait_iff h hp hsp hs hnames h1 h3 (List.getElem?_eq_getElem hi')
        (List.getElem?_eq_getElem hj')).2 (Or.inr ⟨hji, ha⟩))

variable [FloorRing K]

/-- A run of the simulation in terms of the document. -/
theorem simulated_of_call (hE : E.IsExact) (h : load rf root = ok p) (hp : p.Sound) (hsp : toScheduleParams E p = ok sp)
    (hs : ValidSchedule sp s) (hlen : es.length = s.length)
    (hnames : ∀ (i : Nat) (it : Item) (e : TaskEntry), s[i]? = some it → es[i]? = some e →
      (p.agents[it.agent]?).map Agent.name = some e.agent)
    {sim sim' : Simulation K} (hsim : SimulationFor E p sim) {zs rest : List K} {v : Int}
    (hc : sim.call E s zs = ok (some (v, rest, sim'))) :
    ∃ used, zs = used ++ rest ∧ Simulated rf root (s.map Item.task) es used v := by
  have hl := (load_faithful h).2
  obtain ⟨bounds, hb, hall⟩ := simulation_feasible hp (fun _ _ _ _ => hE _) hsp hs hsim
  rcases hall zs with ⟨h0, _⟩ | ⟨v', perf, dur, zs', rest', sim'', V, hc', s1, s2, _, _, hv, start, finish, hex, hend, hmin⟩
  · rw [hc] at h0
    cases h0
  rw [hc] at hc'
  cases hc'
  have hbpos : ∀ b ∈ bounds, 0 < b.1 := by
    intro b hb'
    obtain ⟨i, hi, rfl⟩ := List.getElem_of_mem hb'
    obtain ⟨lo, hi', hok, he⟩ := List.Forall₂.get hb (by rw [hb.length_eq]; exact hi) hi
    rw [List.get_eq_getElem] at he
    rw [he]
    dsimp only
    exact_mod_cast hok.2.2.1
  have hdpos : ∀ b ∈ p.durationBounds E, 0 < b.1 := by
    intro b hb'
    obtain ⟨t, ht, rfl⟩ := List.mem_map.1 hb'
    exact ofInt_pos (hp.durations t ht).1
  obtain ⟨ps, hps, hz1, hF1⟩ := samples_numbers hE s1 hbpos
  obtain ⟨ds, hds, hz2, hF2⟩ := samples_numbers hE s2 hdpos
  refine ⟨(ps ++ ds).flatMap Prod.snd, by rw [hz1, hz2]; simp, ps, ds,
    fun i => ({ sp with agentPerformance := perf, taskDuration := dur } : ScheduleParams K).itemTime E (s.getD i ⟨0, 0⟩),
    fun i => start (s.getD i ⟨0, 0⟩).task, fun i => finish (s.getD i ⟨0, 0⟩).task, V, ?_, ?_, rfl, ?_, ?_, ?_, ?_, ?_, hv.2⟩
  · rw [List.forall₂_iff_get]
    refine ⟨by rw [← hF1.length_eq, ← hb.length_eq, hl.agents_length], ?_⟩
    intro i h1 h2
    have h3 : i < bounds.length := by rw [hF1.length_eq]; exact h2
    have h4 : i < p.agents.length := by rw [hl.agents_length]; exact h1
    obtain ⟨lo, hi, hok, he⟩ := List.Forall₂.get hb h4 h3
    have hsm := List.Forall₂.get hF1 h3 h2
    rw [he] at hsm
    have := (hl.agents_loaded i _ _ (List.getElem?_eq_getElem h1) (List.getElem?_eq_getElem h4)).performance
    rw [List.get_eq_getElem] at hok
    rw [hok.1, hok.2.1] at this
    exact ⟨lo, hi, this, hsm⟩
  · have hdl : (p.durationBounds E).length = p.tasks.length := by simp [Project.durationBounds]
    rw [List.forall₂_iff_get]
    refine ⟨by rw [← hF2.length_eq, hdl, hl.tasks_length], ?_⟩
    intro i h1 h2
    have h4 : i < p.tasks.length := by rw [hl.tasks_length]; exact h1
    have h3 : i < (p.durationBounds E).length := by rw [hdl]; exact h4
    obtain ⟨lo, hi, hd, _, e1, e2⟩ :=
      (hl.tasks_loaded i _ _ (List.getElem?_eq_getElem h1) (List.getElem?_eq_getElem h4)).duration
    have hsm := List.Forall₂.get hF2 h3 h2
    refine ⟨lo, hi, hd, ?_⟩
    simpa [Project.durationBounds, e1, e2, FloatEnv.ofInt, hE _] using hsm
  · intro i k j e w x y he hk hx hw hwn hy
    rw [List.getElem?_map, Option.map_eq_some_iff] at hk
    obtain ⟨it, hit, rfl⟩ := hk
    have hj : j < p.agents.length := by
      rw [hl.agents_length]
      exact (List.getElem?_eq_some_iff.1 hw).1
    have hja := List.getElem?_eq_getElem hj
    have hn : p.agents[j].name = e.agent := by
      have := (hl.agents_loaded j w _ hw hja).name.symm.trans hwn
      injection this
    have hij : j = it.agent := same_agent hl (n := e.agent) (by rw [hja, Option.map_some, hn]) (hnames i it e hit he)
    subst hij
    simp only [ScheduleParams.itemTime, List.getD_eq_getElem?_getD, hit, Option.getD_some, ← hps, ← hds, List.getElem?_map, hx,
      hy, Option.map_some, FloatEnv.div, hE _]
  · exact (execution_iff (sp' := { sp with agentPerformance := perf, taskDuration := dur }) hE h hp hsp hs hlen hnames rfl (fun i it hi => by simp [hi]) (fun i it hi => by simp [hi])
      (fun i it hi => by simp [hi])).1 hex
  · intro start' finish' hex' i hi
    have hnd : (s.map Item.task).Nodup := hs.complete.nodup_iff.2 List.nodup_range
    have hidx : ∀ (i : Nat) it, s[i]? = some it → (s.map Item.task).idxOf it.task = i := by
      intro i it hit
      have hi' : i < (s.map Item.task).length := by
        rw [List.length_map]
        exact (List.getElem?_eq_some_iff.1 hit).1
      have := hnd.idxOf_getElem i hi'
      rw [List.getElem_map, (List.getElem?_eq_some_iff.1 hit).2] at this
      exact this
    have := (execution_iff (sp' := { sp with agentPerformance := perf, taskDuration := dur }) (start := fun t => start' ((s.map Item.task).idxOf t))
      (finish := fun t => finish' ((s.map Item.task).idxOf t)) hE h hp hsp hs hlen hnames rfl (fun i it hi => by simp [hi])
      (fun i it hi => by simp only [hidx i it hi]) (fun i it hi => by simp only [hidx i it hi])).2 hex'
    have hsi : s[i]? = some s[i] := List.getElem?_eq_getElem (hlen ▸ hi)
    have h2 := (hmin _ _ this _ (List.mem_of_getElem? hsi)).2
    simp only [hidx i _ hsi] at h2
    simpa [hsi] using h2
  · intro i hi
    have hsi : s[i]? = some s[i] := List.getElem?_eq_getElem (hlen ▸ hi)
    simpa [hsi] using hend.1 _ (List.mem_of_getElem? hsi)
  · obtain ⟨it, hit, hV⟩ := hend.2
    obtain ⟨i, hi, rfl⟩ := List.mem_iff_getElem.1 hit
    refine ⟨i, hlen ▸ hi, ?_⟩
    simpa [List.getElem?_eq_getElem hi] using hV

/-- Runs of the simulation in terms of the document. -/
theorem simulations_of_runs (hE : E.IsExact) (h : load rf root = ok p) (hp : p.Sound) (hsp : toScheduleParams E p = ok sp)
    (hs : ValidSchedule sp s) (hlen : es.length = s.length)
    (hnames : ∀ (i : Nat) (it : Item) (e : TaskEntry), s[i]? = some it → es[i]? = some e →
      (p.agents[it.agent]?).map Agent.name = some e.agent)
    {vs : List Int} {zs rest : List K} (hr : Runs E p s vs zs rest) :
    Simulations rf root (s.map Item.task) es zs vs := by
  have key : ∃ runs : List (Int × List K), (∀ r ∈ runs, Simulated rf root (s.map Item.task) es r.2 r.1) ∧
      vs = runs.map Prod.fst ∧ runs.flatMap Prod.snd ++ rest = zs := by
    induction hr with
    | nil => exact ⟨[], by simp, rfl, rfl⟩
    | @snoc vs v zs zs' rest sim sim' _ hsim hc ih =>
      obtain ⟨runs, h1, h2, h3⟩ := ih
      obtain ⟨used, h4, h5⟩ := simulated_of_call hE h hp hsp hs hlen hnames hsim hc
      refine ⟨runs ++ [(v, used)], ?_, by simp [h2], ?_⟩
      · intro r hr
        rcases List.mem_append.1 hr with hr | hr
        · exact h1 r hr
        · rw [List.mem_singleton.1 hr]
          exact h5
      · rw [← h3, h4]
        simp
  obtain ⟨runs, h1, h2, h3⟩ := key
  exact ⟨runs, h1, h2, rest, h3⟩

section
open Cli CommandLine
variable {read : ReadReal} {isFile : String → Bool} {terminal : Bool} {a : Arguments} {o : Cli.Options K}

/-- An accepted bin size is a positive `int`. -/
theorem accepted_binSize {c : Command} (hsig : SignsAgree read) (h : parse E read isFile terminal c a = .accepted o) :
    ∀ b ∈ o.binSize, 1 ≤ b ∧ b < 2 ^ 31 := by
  obtain ⟨_, _, _, _, _, bin, _, _, _, _, _, _, h5, _, _, rfl⟩ := parse_accepted h
  intro b hb
  dsimp only at hb
  unfold binSizeOption at h5
  split at h5
  · cases h5
    cases hb
  · split_ifs at h5 with h1 h2
    obtain ⟨v, hv, h6⟩ := Option.map_eq_some_iff.1 h5
    rw [← h6] at hb
    cases hb
    have := accepted_positive hsig h2 hv
    have hi := isInt_of_toInt hv
    rw [isInt, decide_eq_true_eq] at hi
    omega

/-- C78. The prediction, from the command line and the configuration file to the output file, for exact arithmetic. Let the command line be
accepted and have none of the defects listed at `accepted_options_partial`, and let the document load and describe a project that can be scheduled and takes
at least a second and less than 2³¹ seconds. Then there is a timetable of the document as in `document_to_schedule`, for which the
following holds. Let the generator yield enough numbers that are not negative, and let the stopping rule answer for random runs of the
timetable and be satisfied with `10000 * k` of them. Then the program ends; there are results of at most `10000 * k` random runs of the timetable with
the numbers of the generator, and if these fit an `int`, the program exits successfully. It has written the output file
once, with the timetable, the histogram of exactly these results, and percentiles that are right for them. -/
theorem document_to_prediction {m : Machine K} (hE : E.IsExact) (hsig : SignsAgree read) (hnof : isFile "" = false)
    (h : parse E read isFile terminal .predict a = .accepted o)
    (hz : ∀ t, a.restartPeriod = some t → ¬ LeadingZero t)
    (hb : ∀ t q, a.betaScale = some t → read t = some (.fin q) → ModerateBeta E q)
    (hout : a.output ≠ some "") (hd : m.source = .doc root) (hl : load m.readFloat root = ok p)
    (hs : Schedulable m.readFloat root 1 (2 ^ 31)) (hw : CanWrite m o) (ht : 0 < m.threads)
    {k : Nat} (hk : 1 ≤ k) (hk' : 10000 * k < 2 ^ 31) :
    ∃ (N : Nat) (mk : Int) (of : List Nat) (es : List TaskEntry), Doc.Timetable m.readFloat root IsWholePart of es ∧ (1 ≤ mk ∧ mk < 2 ^ 31) ∧
      (∀ (i j : Nat) (e f : TaskEntry), es[i]? = some e → es[j]? = some f → MustWait root of es i j →
        f.start + f.duration ≤ e.start) ∧
      (∀ e ∈ es, e.start + e.duration ≤ mk) ∧ (∃ e ∈ es, mk ≤ e.start + e.duration + 1) ∧
      ∀ fuel, N ≤ fuel → ∀ fuel', k ≤ fuel' → ∀ zs : List K,
        10000 * k * ((agents root).length + (tasks root).length) ≤ (zs.countP fun z => 0 ≤ z) →
        (∀ vs, Simulations m.readFloat root of es zs vs → ∃ c, m.more vs = ok c) →
        (∀ vs, Simulations m.readFloat root of es zs vs → vs.length = 10000 * k → m.more vs = ok false) →
        ∀ result, result = body E { m with fuel := fuel, fuel' := fuel', zs := zs } .predict o →
          ∃ (vs : List Int) (bins : List Bin) (st : HistogramStats), Simulations m.readFloat root of es zs vs ∧
            vs ≠ [] ∧ vs.length ≤ 10000 * k ∧ Describes (resolutionOf o.binSize mk) vs bins ∧ st.Conservative K vs bins ∧
            ((∀ v ∈ vs, v < 2 ^ 31) → status result.flow = .exit 0 ∧
              ∃ pre post : List (Effect K), (∀ e ∈ pre ++ post, ¬ e.IsFile) ∧
                (a.quiet = false → .stdout (estimation st) ∈ pre) ∧
                result.effects = pre ++ [.file (a.output.getD "time_estimation.json") (.obj [
                  ("histogram", .obj [("bin_size", .int (resolutionOf o.binSize mk)),
                    ("bins", .arr (bins.map fun b => .arr [.int b.low, .int b.count]))]),
                  ("makespan", .int mk),
                  ("stats", st.object),
                  ("tasks", .arr (es.map TaskEntry.object))])] ++ post) := by
  obtain ⟨hp, hmod⟩ := schedulable_sound hl hs
  have hll := (load_faithful hl).2
  have hfl : p.FloatsIn E := fun _ _ _ _ => hE _
  obtain ⟨sp, hsp, hwf⟩ := params_wellFormed (E := E) hp hfl
  obtain ⟨ho, hf', hout'⟩ := accepted_options_partial (Or.inl hE) hsig hnof h hz hb hout hwf
  obtain ⟨N, s, mk, es, start, finish, V, h1, h2, h3, h4, h5, h6, h7⟩ :=
    predict_command hE hf' hout' hd hl hp hmod hw ht hsp ho (accepted_binSize hsig h)
  have hcor := fun i it e hi he => (h3 i it e hi he).1
  have hnames := fun i it e hi he => (hcor i it e hi he).agent
  have hpos := itemTime_pos hE hp hsp h1
  have item : ∀ {i : Nat} {e : TaskEntry}, es[i]? = some e → ∃ it, s[i]? = some it := by
    intro i e he
    exact ⟨_, List.getElem?_eq_getElem (h2 ▸ (List.getElem?_eq_some_iff.1 he).1)⟩
  refine ⟨N, mk, s.map Item.task, es, ?_, ?_, ?_, ?_, ?_, ?_⟩
  · refine document_timetable hl hp hsp h1 h2 hcor h4.1.nonneg (fun it hit => (hpos it hit).le) ?_
    intro i it e t x lo hi hi' he ht' hx hpo
    have := (hcor i it e hi' he).duration
    rw [itemTime_document hE hp hsp ht' hx hpo] at this
    exact ⟨by exact_mod_cast this.1, by exact_mod_cast this.2⟩
  · obtain ⟨⟨start', finish', hex, hlt⟩, hge⟩ := moderate_executions hE hp hmod hsp h1
    constructor
    · obtain ⟨it, hit, h⟩ := hge start finish h4.1
      have h8 := lt_of_le_of_lt (h.trans (h5.1 it hit)) h6.2
      have : (0 : K) < mk := by linarith
      exact_mod_cast this
    · obtain ⟨it, hit, h⟩ := h5.2
      have h8 := (h4.2 start' finish' hex it hit).2.trans_lt (hlt it hit)
      have : (mk : K) < 2 ^ 31 := h6.1.trans_lt (h ▸ h8)
      exact_mod_cast this
  · intro i j e f he hf hwait
    exact document_waits hl hp hsp h1 hcor h4.1 h2 he hf hwait (hE _)
  · intro e he
    obtain ⟨i, hi, rfl⟩ := List.mem_iff_getElem.1 he
    obtain ⟨it, hit⟩ := item (List.getElem?_eq_getElem hi)
    exact (h3 i it _ hit (List.getElem?_eq_getElem hi)).2
  · obtain ⟨it, hit, hfin⟩ := h5.2
    obtain ⟨i, hi, rfl⟩ := List.mem_iff_getElem.1 hit
    have hie : i < es.length := by omega
    have hc := hcor i _ _ (List.getElem?_eq_getElem hi) (List.getElem?_eq_getElem hie)
    refine ⟨_, List.getElem_mem hie, ?_⟩
    have ht1 := h4.1.time _ hit
    unfold FloatEnv.add at ht1
    rw [hE] at ht1
    have : ((mk : Int) : K) < ((es[i].start + es[i].duration + 2 : Int) : K) := by
      push_cast
      have := hc.start.2
      have := hc.duration.2
      have := h6.1
      rw [← hfin] at this
      linarith
    have : mk < es[i].start + es[i].duration + 2 := by exact_mod_cast this
    omega
  · intro fuel hN fuel' hf'' zs hzs hmore hstop result hres
    have hsims := fun {vs rest} (hr : Runs E p s vs zs rest) => simulations_of_runs hE hl hp hsp h1 h2 hnames hr
    have hans : RuleAnswers E p s m.more zs := fun vs rest _ _ _ hr => hmore vs (hsims hr)
    have hstop' : ∀ vs rest, Runs E p s vs zs rest → vs.length = 10000 * k → m.more vs = ok false :=
      fun vs rest hr hlen => hstop vs (hsims hr) hlen
    rcases h7 fuel hN fuel' zs hans result hres with ⟨_, _, h8⟩ | ⟨vs, rest, k', bins, st, g1, g2, g3, g4, g5, g6, g7⟩
    · exact absurd h8 (histogram_ends hp hfl hsp h1 hans hk hstop' hf'' (by rw [hll.agents_length, hll.tasks_length]; exact hzs))
    · have hkk := batches_le hk g2 g3 g4 hstop'
      refine ⟨vs, bins, st, hsims g3, ?_, by omega, g5, g6, fun hv => ?_⟩
      · rintro rfl
        simp at g2
        omega
      · have := g7 hv (by omega)
        have e1 : o.output = a.output.getD "time_estimation.json" := by
          obtain ⟨_, _, _, _, _, _, _, _, _, _, _, _, _, _, _, rfl⟩ := parse_accepted h
          rfl
        have e2 : o.quiet = a.quiet := by
          obtain ⟨_, _, _, _, _, _, _, _, _, _, _, _, _, _, _, rfl⟩ := parse_accepted h
          rfl
        rwa [e1, e2] at this

end

/-! ### Example -/

open Cli CommandLine

/-- C78 applies to `angonoka --bin-size 60 plan.yml` with the example document, a generator that always yields 1 and a rule that is satisfied with one batch. -/
example (draws : Nat → Nat → Nat → Draws ℚ) : ∃ o N of es,
    parse FloatEnv.rat exampleRead (fun f => f == "plan.yml") true .predict { input := "plan.yml", binSize := some "60" } = .accepted o ∧
    Doc.Timetable Sample.number Sample.plan IsWholePart of es ∧
    ∀ fuel, N ≤ fuel → ∀ fuel', 1 ≤ fuel' → ∃ vs,
      Simulations Sample.number Sample.plan of es (List.replicate 1000000 (1 : ℚ)) vs ∧ vs ≠ [] ∧ vs.length ≤ 10000 ∧
      ((∀ v ∈ vs, v < 2 ^ 31) → status (body FloatEnv.rat { exampleMachine draws with
        fuel := fuel, fuel' := fuel', zs := List.replicate 1000000 1 } .predict o).flow = .exit 0) := by
  have hpar := options_as_given (E := FloatEnv.rat) (isFile := fun f => f == "plan.yml") (terminal := true) (c := .predict)
    (a := { input := "plan.yml", binSize := some "60" }) exampleRead_naturals (by decide) (batch := 10000) (idle := 100000)
    (window := 100) (period := 256) (bin := some 60)
    (Or.inl ⟨rfl, rfl⟩) (Or.inl ⟨rfl, rfl⟩) (Or.inl ⟨rfl, rfl⟩) (Or.inl ⟨rfl, rfl⟩)
    (Or.inl ⟨rfl, rfl⟩) (Or.inl ⟨rfl, rfl⟩) (Or.inr ⟨rfl, 60, ⟨by norm_num, by norm_num⟩, by decide, rfl⟩)
  obtain ⟨N, _, of, es, htab, _, _, _, _, h⟩ := document_to_prediction (m := exampleMachine draws) (k := 1) (fun _ => rfl) exampleRead_signs
    (by decide) hpar (by simp) (by simp) (by simp) rfl Sample.plan_loads
    (sound_schedulable Sample.plan_loads plan_sound plan_moderate) example_canWrite (by exact (by decide : 0 < 4)) le_rfl (by norm_num)
  refine ⟨_, N, of, es, hpar, htab, fun fuel hN fuel' hf => ?_⟩
  have hl := (load_faithful Sample.plan_loads).2
  obtain ⟨vs, _, _, h1, h2, h3, _, _, h4⟩ := h fuel hN fuel' hf (List.replicate 1000000 1) (by
    rw [List.countP_replicate, if_pos (by decide), ← hl.agents_length, ← hl.tasks_length]
    exact (by decide : 10000 * 1 * (Sample.project.agents.length + Sample.project.tasks.length) ≤ 1000000))
    (fun _ _ => ⟨_, rfl⟩) (fun _ _ _ => rfl) _ rfl
  exact ⟨vs, h1, h2, h3, fun hv => (h4 hv).1⟩

end Angonoka.Props
