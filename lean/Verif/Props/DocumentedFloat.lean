import Verif.Props.BestFloat
import Verif.Props.Bytes
import Verif.Props.Completes
import Verif.Props.FloatPredict
import Verif.Spec.SimulatedFloat

/-!
# C76, C108: from the configuration file to the prediction file in single precision
-/

set_option linter.unusedSectionVars false

namespace Angonoka.Props
open Angonoka Outcome Doc Cli CommandLine Stun

variable {K : Type} [_root_.Field K] [LinearOrder K] [IsStrictOrderedRing K] [FloorRing K]
variable {E : FloatEnv K} {m : Machine K} {o : Cli.Options K} {read : ReadReal} {isFile : String → Bool} {terminal : Bool}
  {a : Arguments} {root : Yaml} {p : Project}

section
variable {rf : String → Option XFloat} {sp sp₀ : ScheduleParams K} {s : List Item} {es : List TaskEntry}

/-- Samples in single precision, with the numbers each of them takes. -/
theorem samples_numbers_float (hE : E.IsFloat) {bs : List (K × K)} {xs zs rest : List K} (h : Samples E bs xs zs rest)
    (hb : ∀ b ∈ bs, 0 < b.1) :
    ∃ ss : List (K × List K), ss.map Prod.fst = xs ∧ zs = ss.flatMap Prod.snd ++ rest ∧
      List.Forall₂ (fun b x => SampledFloat b.1 b.2 x) bs ss := by
  have hd : ∀ lo hi z, drawn E lo hi z = roundedNormal lo hi z := by
    intro lo hi z
    simp only [drawn, roundedNormal, FloatEnv.add, FloatEnv.mul, FloatEnv.div, FloatEnv.sub, hE _]
  induction h with
  | nil => exact ⟨[], rfl, rfl, .nil⟩
  | @fixed b bounds xs zs rest h ih =>
    obtain ⟨ss, h1, h2, h3⟩ := ih (fun b hb' => hb b (by simp [hb']))
    exact ⟨(b, []) :: ss, by simp [h1], by simpa using h2, .cons ⟨hb (b, b) (by simp), .inl ⟨rfl, rfl⟩⟩ h3⟩
  | @drawn lo hi bounds z xs zs rest rejected hne hr hz h ih =>
    obtain ⟨ss, h1, h2, h3⟩ := ih (fun b hb' => hb b (by simp [hb']))
    refine ⟨(roundedNormal lo hi z, rejected ++ [z]) :: ss, by simp [h1, hd], by simp [h2], .cons ⟨?_, .inr ⟨hne, _, _, rfl, ?_⟩⟩ h3⟩
    · rw [← hd]
      exact hz
    · intro r hr'
      rw [← hd]
      exact hr r hr'

/-- C76. A run of the simulation in single precision, in terms of the document. -/
theorem simulated_float_of_call (hE : E.IsFloat) (h : load rf root = ok p) (hp : p.Sound) (hfl : p.FloatsIn E)
    (hsp : toScheduleParams E p = ok sp) (hsp₀ : toScheduleParams E.unrounded p = ok sp₀)
    (hs : ValidSchedule sp s) (hlen : es.length = s.length)
    (hnames : ∀ (i : Nat) (it : Item) (e : TaskEntry), s[i]? = some it → es[i]? = some e →
      (p.agents[it.agent]?).map Agent.name = some e.agent)
    {sim sim' : Simulation K} (hsim : SimulationFor E p sim) {zs rest : List K} {v : Int}
    (hc : sim.call E s zs = ok (some (v, rest, sim'))) :
    ∃ used, zs = used ++ rest ∧ SimulatedFloat rf root (s.map Item.task) es used v := by
  have hE₀ := unrounded_exact E
  have hl := (load_faithful h).2
  have hs₀ := unrounded_valid hsp hsp₀ hs
  obtain ⟨bounds, perf, dur, zs', hb, s1, s2, hclose⟩ := simulation_rounding hE hp hfl hl.tasks_limit hsp hs hsim hc
  have hv0 : 0 ≤ v := by
    obtain ⟨_, _, hall⟩ := simulation_feasible hp hfl hsp hs hsim
    rcases hall zs with ⟨h, _⟩ | ⟨v', _, _, _, _, _, _, h, _, _, _, _, ⟨h0, _⟩, _⟩
    · rw [hc] at h
      cases h
    · rw [hc] at h
      cases h
      exact h0
  have hbpos : ∀ b ∈ bounds, 0 < b.1 := by
    intro b hb'
    obtain ⟨i, hi, rfl⟩ := List.getElem_of_mem hb'
    obtain ⟨lo, hi', hok, he⟩ := List.Forall₂.get hb (by rw [hb.length_eq]; exact hi) hi
    rw [List.get_eq_getElem] at he
    rw [he]
    dsimp only
    exact_mod_cast hok.2.2.1
  have hdpos : ∀ b ∈ p.durationBounds E, 0 < b.1 := by
    intro b hb'
    obtain ⟨t, ht, rfl⟩ := List.mem_map.1 hb'
    exact ofInt_pos (hp.durations t ht).1
  obtain ⟨ps, hps, hz1, hF1⟩ := samples_numbers_float hE s1 hbpos
  obtain ⟨ds, hds, hz2, hF2⟩ := samples_numbers_float hE s2 hdpos
  obtain ⟨sp', hsp', hw⟩ := params_wellFormed (E := E) hp hfl
  rw [hsp] at hsp'
  cases hsp'
  obtain ⟨t1, t2, _⟩ := params_faithful hp.agent_groups hp.task_groups hsp
  have pp : ∀ x ∈ perf, 0 < x := by
    intro x hx
    rw [← hps] at hx
    obtain ⟨y, hy, rfl⟩ := List.mem_map.1 hx
    obtain ⟨i, hi, rfl⟩ := List.getElem_of_mem hy
    exact (List.Forall₂.get hF1 (by rw [hF1.length_eq]; exact hi) hi).1
  have dp : ∀ x ∈ dur, 0 < x := by
    intro x hx
    rw [← hds] at hx
    obtain ⟨y, hy, rfl⟩ := List.mem_map.1 hx
    obtain ⟨i, hi, rfl⟩ := List.getElem_of_mem hy
    exact (List.Forall₂.get hF2 (by rw [hF2.length_eq]; exact hi) hi).1
  have lp : perf.length = p.agents.length := s1.length.trans hb.length_eq.symm
  have ld : dur.length = p.tasks.length := s2.length.trans (by simp [Project.durationBounds])
  have hw' := sampled_wellFormed hw (lp.trans t2.symm) (ld.trans t1.symm) pp dp
  have hs' : ValidSchedule (sp.sampled perf dur) s := by
    refine ⟨?_, hs.ordered, hs.eligible⟩
    have : (sp.sampled perf dur).taskCount = sp.taskCount := ld.trans t1.symm
    rw [this]
    exact hs.complete
  obtain ⟨start, finish, hex, hend, _, hmin⟩ := makespanValue_spec (E := E.unrounded) hw' hs'
  have hdeps : (sp.sampled perf dur).dependencies = sp₀.dependencies :=
    (toScheduleParams_ok hsp).2.2.2.2.2.1.trans (toScheduleParams_ok hsp₀).2.2.2.2.2.1.symm
  refine ⟨(ps ++ ds).flatMap Prod.snd, by rw [hz1, hz2]; simp, ps, ds,
    fun i => (sp.sampled perf dur).itemTime E.unrounded (s.getD i ⟨0, 0⟩),
    fun i => start (s.getD i ⟨0, 0⟩).task, fun i => finish (s.getD i ⟨0, 0⟩).task,
    makespanValue E.unrounded (sp.sampled perf dur) (sp.sampled perf dur).agentCount s, ?_, ?_, rfl, ?_, ?_, ?_, ?_, ?_, hv0, ?_⟩
  rotate_right
  · intro h1 h2
    refine hclose ?_ ?_ start finish _ ⟨hex, hmin⟩ hend
    · intro x hx
      rw [← hps] at hx
      obtain ⟨y, hy, rfl⟩ := List.mem_map.1 hx
      exact h1 y hy
    · intro x hx
      rw [← hds] at hx
      obtain ⟨y, hy, rfl⟩ := List.mem_map.1 hx
      exact h2 y hy
  · rw [List.forall₂_iff_get]
    refine ⟨by rw [← hF1.length_eq, ← hb.length_eq, hl.agents_length], ?_⟩
    intro i h1 h2
    have h3 : i < bounds.length := by rw [hF1.length_eq]; exact h2
    have h4 : i < p.agents.length := by rw [hl.agents_length]; exact h1
    obtain ⟨lo, hi, hok, he⟩ := List.Forall₂.get hb h4 h3
    have hsm := List.Forall₂.get hF1 h3 h2
    rw [he] at hsm
    have := (hl.agents_loaded i _ _ (List.getElem?_eq_getElem h1) (List.getElem?_eq_getElem h4)).performance
    rw [List.get_eq_getElem] at hok
    rw [hok.1, hok.2.1] at this
    exact ⟨lo, hi, this, hsm⟩
  · have hdl : (p.durationBounds E).length = p.tasks.length := by simp [Project.durationBounds]
    rw [List.forall₂_iff_get]
    refine ⟨by rw [← hF2.length_eq, hdl, hl.tasks_length], ?_⟩
    intro i h1 h2
    have h4 : i < p.tasks.length := by rw [hl.tasks_length]; exact h1
    have h3 : i < (p.durationBounds E).length := by rw [hdl]; exact h4
    obtain ⟨lo, hi, hd, _, e1, e2⟩ :=
      (hl.tasks_loaded i _ _ (List.getElem?_eq_getElem h1) (List.getElem?_eq_getElem h4)).duration
    have hsm := List.Forall₂.get hF2 h3 h2
    refine ⟨lo, hi, hd, ?_⟩
    simpa [Project.durationBounds, e1, e2, FloatEnv.ofInt, hE _] using hsm
  · intro i k j e w x y he hk hx hw hwn hy
    rw [List.getElem?_map, Option.map_eq_some_iff] at hk
    obtain ⟨it, hit, rfl⟩ := hk
    have hj : j < p.agents.length := by
      rw [hl.agents_length]
      exact (List.getElem?_eq_some_iff.1 hw).1
    have hja := List.getElem?_eq_getElem hj
    have hn : p.agents[j].name = e.agent := by
      have := (hl.agents_loaded j w _ hw hja).name.symm.trans hwn
      injection this
    have hij : j = it.agent := same_agent hl (n := e.agent) (by rw [hja, Option.map_some, hn]) (hnames i it e hit he)
    subst hij
    simp only [ScheduleParams.sampled, ScheduleParams.itemTime, List.getD_eq_getElem?_getD, hit, Option.getD_some, ← hps, ← hds, List.getElem?_map, hx,
      hy, Option.map_some, FloatEnv.div, hE₀ _]
  · exact (execution_iff (sp' := sp.sampled perf dur) hE₀ h hp hsp₀ hs₀ hlen hnames hdeps (fun i it hi => by simp [hi]) (fun i it hi => by simp [hi])
      (fun i it hi => by simp [hi])).1 hex
  · intro start' finish' hex' i hi
    have hnd : (s.map Item.task).Nodup := hs.complete.nodup_iff.2 List.nodup_range
    have hidx : ∀ (i : Nat) it, s[i]? = some it → (s.map Item.task).idxOf it.task = i := by
      intro i it hit
      have hi' : i < (s.map Item.task).length := by
        rw [List.length_map]
        exact (List.getElem?_eq_some_iff.1 hit).1
      have := hnd.idxOf_getElem i hi'
      rw [List.getElem_map, (List.getElem?_eq_some_iff.1 hit).2] at this
      exact this
    have := (execution_iff (sp' := sp.sampled perf dur) (start := fun t => start' ((s.map Item.task).idxOf t))
      (finish := fun t => finish' ((s.map Item.task).idxOf t)) hE₀ h hp hsp₀ hs₀ hlen hnames hdeps (fun i it hi => by simp [hi])
      (fun i it hi => by simp only [hidx i it hi]) (fun i it hi => by simp only [hidx i it hi])).2 hex'
    have hsi : s[i]? = some s[i] := List.getElem?_eq_getElem (hlen ▸ hi)
    have h2 := (hmin _ _ this _ (List.mem_of_getElem? hsi)).2
    simp only [hidx i _ hsi] at h2
    simpa [hsi] using h2
  · intro i hi
    have hsi : s[i]? = some s[i] := List.getElem?_eq_getElem (hlen ▸ hi)
    simpa [hsi] using hend.1 _ (List.mem_of_getElem? hsi)
  · obtain ⟨it, hit, hV⟩ := hend.2
    obtain ⟨i, hi, rfl⟩ := List.mem_iff_getElem.1 hit
    refine ⟨i, hlen ▸ hi, ?_⟩
    simpa [List.getElem?_eq_getElem hi] using hV

/-- Runs of the simulation in single precision, in terms of the document. -/
theorem simulations_float_of_runs (hE : E.IsFloat) (h : load rf root = ok p) (hp : p.Sound) (hfl : p.FloatsIn E)
    (hsp : toScheduleParams E p = ok sp) (hsp₀ : toScheduleParams E.unrounded p = ok sp₀)
    (hs : ValidSchedule sp s) (hlen : es.length = s.length)
    (hnames : ∀ (i : Nat) (it : Item) (e : TaskEntry), s[i]? = some it → es[i]? = some e →
      (p.agents[it.agent]?).map Agent.name = some e.agent)
    {vs : List Int} {zs rest : List K} (hr : Runs E p s vs zs rest) :
    SimulationsFloat rf root (s.map Item.task) es zs vs := by
  have key : ∃ runs : List (Int × List K), (∀ r ∈ runs, SimulatedFloat rf root (s.map Item.task) es r.2 r.1) ∧
      vs = runs.map Prod.fst ∧ runs.flatMap Prod.snd ++ rest = zs := by
    induction hr with
    | nil => exact ⟨[], by simp, rfl, rfl⟩
    | @snoc vs v zs zs' rest sim sim' _ hsim hc ih =>
      obtain ⟨runs, h1, h2, h3⟩ := ih
      obtain ⟨used, h4, h5⟩ := simulated_float_of_call hE h hp hfl hsp hsp₀ hs hlen hnames hsim hc
      refine ⟨runs ++ [(v, used)], ?_, by simp [h2], ?_⟩
      · intro r hr
        rcases List.mem_append.1 hr with hr | hr
        · exact h1 r hr
        · rw [List.mem_singleton.1 hr]
          exact h5
      · rw [← h3, h4]
        simp
  obtain ⟨runs, h1, h2, h3⟩ := key
  exact ⟨runs, h1, h2, rest, h3⟩

end

/-- C76, from the command line and the configuration file to the output file. Under the conditions of `document_to_schedule_float`, let the stopping rule answer, and be
satisfied after `10000 * k` runs, at most 2²⁴, and let the generator yield enough nonnegative numbers for them. Then the simulation ends, with the results `vs` of at most
`10000 * k` random runs of the timetable. If they fit an `int` the program exits successfully, and it has written the output file once: a timetable of the document
up to rounding, as for the command `schedule`; the histogram of exactly the results; and percentiles below which there are at least as many
results as they say. -/
theorem document_to_prediction_float (hE : E.IsFloat) (hsig : SignsAgree read) (hnof : isFile "" = false)
    (h : parse E read isFile terminal .predict a = .accepted o)
    (hz : ∀ t, a.restartPeriod = some t → ¬ LeadingZero t)
    (hb : ∀ t q, a.betaScale = some t → read t = some (.fin q) → ModerateBeta E q)
    (hout : a.output ≠ some "") (hd : m.source = .doc root) (hl : load m.readFloat root = ok p)
    (hread : ∀ s (q : ℚ), m.readFloat s = some (.fin q) → E.rnd (q : K) = q)
    (hs : Schedulable m.readFloat root 2 (2 ^ 30)) (hr : Doc.InRange m.readFloat root) (hw : CanWrite m o) (ht : 0 < m.threads)
    {k : Nat} (hk : 1 ≤ k) (hk' : 10000 * k ≤ 2 ^ 24) :
    ∃ (N : Nat) (mk : Int) (of : List Nat) (es : List TaskEntry), Doc.Timetable m.readFloat root CloseTo of es ∧ 1 ≤ mk ∧
      (∀ (i j : Nat) (e f : TaskEntry), es[i]? = some e → es[j]? = some f → MustWait root of es i j →
        f.start + f.duration ≤ 2 ^ 24 → f.start + f.duration ≤ e.start) ∧
      (∀ e ∈ es, ((e.start + e.duration : Int) : ℚ) ≤ mk + mk / 2 ^ 12 + 2) ∧
      (∃ e ∈ es, (mk : ℚ) ≤ (e.start + e.duration : Int) + mk / 2 ^ 12 + 4) ∧
      ∀ fuel, N ≤ fuel → ∀ fuel', k ≤ fuel' → ∀ zs : List K,
        10000 * k * ((agents root).length + (tasks root).length) ≤ (zs.countP fun z => 0 ≤ z) →
        (∀ vs, SimulationsFloat m.readFloat root of es zs vs → ∃ c, m.more vs = ok c) →
        (∀ vs, SimulationsFloat m.readFloat root of es zs vs → vs.length = 10000 * k → m.more vs = ok false) →
        ∃ (vs : List Int) (bins : List Bin) (st : HistogramStats), SimulationsFloat m.readFloat root of es zs vs ∧
          vs ≠ [] ∧ vs.length ≤ 10000 * k ∧ Describes (resolutionOf o.binSize mk) vs bins ∧ st.Conservative K vs bins ∧
          ((∀ v ∈ vs, v < 2 ^ 31) → status (body E { m with fuel := fuel, fuel' := fuel', zs := zs } .predict o).flow = .exit 0 ∧
            ∃ pre post : List (Effect K), (∀ e ∈ pre ++ post, ¬ e.IsFile) ∧
              (a.quiet = false → .stdout (estimation st) ∈ pre) ∧
              (body E { m with fuel := fuel, fuel' := fuel', zs := zs } .predict o).effects =
                pre ++ [.file (a.output.getD "time_estimation.json") (.obj [
                  ("histogram", .obj [("bin_size", .int (resolutionOf o.binSize mk)),
                    ("bins", .arr (bins.map fun b => .arr [.int b.low, .int b.count]))]),
                  ("makespan", .int mk),
                  ("stats", st.object),
                  ("tasks", .arr (es.map TaskEntry.object))])] ++ post) := by
  obtain ⟨hp, hmod⟩ := schedulable_sound hl hs
  have hll := (load_faithful hl).2
  have hfl : p.FloatsIn E := floatsIn_of_document hl hread
  have hir := inRange_of_document hl hr
  obtain ⟨sp, hsp, hwf⟩ := params_wellFormed (E := E) hp hfl
  obtain ⟨sp₀, hsp₀, _⟩ := params_wellFormed (E := E.unrounded) hp (fun _ _ _ _ => rfl)
  obtain ⟨ho, hf', hout'⟩ := accepted_options_partial (Or.inr hE) hsig hnof h hz hb hout hwf
  obtain ⟨N, s, mk, es, hvs, ⟨hmk, htab⟩, h7⟩ := predict_command_core hf' hout' hd hl hp hfl hw ht hsp ho (accepted_binSize hsig h)
    (P := fun s mk es => 1 ≤ mk ∧ FloatTimetable E p sp sp₀ s mk es) (Few := fun n => n ≤ 2 ^ 24)
    (fun s v hs hv => by
      obtain ⟨mk, es, h1, h2, h3⟩ := float_timetable_exists hE hp hmod hir hfl hsp hsp₀ hs hv
      have hmk : 1 ≤ mk := by
        obtain ⟨_, _, _, _, V, _, _, _, _, h5, hV2, _⟩ := h3
        have h6 := (abs_le.1 h5).1
        norm_num at h6
        have : (0 : K) < mk := by linarith
        exact_mod_cast this
      exact ⟨mk, es, h1, h2, hmk, hmk, h3⟩)
    (fun w vs h k hh hk hlen hn => percentiles_float hE hh hk hlen hn)
  obtain ⟨g1, g2, g3, g4⟩ := float_timetable_document hE hl hp hfl hsp hsp₀ hvs htab
  refine ⟨N, mk, s.map Item.task, es, g1, hmk, g2, g3, g4, fun fuel hN fuel' hf'' zs hzs hmore hstop' => ?_⟩
  have hsims : ∀ {vs rest}, Runs E p s vs zs rest → SimulationsFloat m.readFloat root (s.map Item.task) es zs vs := by
    intro vs rest hr
    obtain ⟨_, _, _, _, _, hlen, _, _, _, _, _, hcor⟩ := htab
    exact simulations_float_of_runs hE hl hp hfl hsp hsp₀ hvs hlen (fun i it e hi he => (hcor i it e hi he).1.agent) hr
  have hans : RuleAnswers E p s m.more zs := fun vs rest _ _ _ hr => hmore vs (hsims hr)
  have hstop : ∀ vs rest, Runs E p s vs zs rest → vs.length = 10000 * k → m.more vs = ok false := fun vs rest hr hlen => hstop' vs (hsims hr) hlen
  rcases h7 fuel hN fuel' zs hans _ rfl with ⟨_, _, h8⟩ | ⟨vs, rest, k', bins, e1, e2, e3, e4, e5, e6⟩
  · exact absurd h8 (histogram_ends hp hfl hsp hvs hans hk hstop hf'' (by rw [hll.agents_length, hll.tasks_length]; exact hzs))
  · have hkk := batches_le hk e2 e3 e4 hstop
    obtain ⟨st, e7, e8⟩ := e6 (by omega)
    refine ⟨vs, bins, st, hsims e3, ?_, by omega, e5, e7, fun hv => ?_⟩
    · rintro rfl
      simp at e2
      omega
    · have := e8 hv (by omega)
      have f1 : o.output = a.output.getD "time_estimation.json" := by
        obtain ⟨_, _, _, _, _, _, _, _, _, _, _, _, _, _, _, rfl⟩ := parse_accepted h
        rfl
      have f2 : o.quiet = a.quiet := by
        obtain ⟨_, _, _, _, _, _, _, _, _, _, _, _, _, _, _, rfl⟩ := parse_accepted h
        rfl
      rwa [f1, f2] at this

/-- C108, the prediction from the document, in single precision, see `prediction_names_partial` and `document_to_prediction_float` -/
theorem float_prediction_names_partial (hE : E.IsFloat) (hsig : SignsAgree read) (hnof : isFile "" = false)
    (h : parse E read isFile terminal .predict a = .accepted o)
    (hz : ∀ t, a.restartPeriod = some t → ¬ LeadingZero t)
    (hb : ∀ t q, a.betaScale = some t → read t = some (.fin q) → ModerateBeta E q)
    (hout : a.output ≠ some "") (hd : m.source = .doc root) (hl : load m.readFloat root = ok p)
    (hread : ∀ s (q : ℚ), m.readFloat s = some (.fin q) → E.rnd (q : K) = q)
    (hs : Schedulable m.readFloat root 2 (2 ^ 30)) (hr : Doc.InRange m.readFloat root) (hw : CanWrite m o) (ht : 0 < m.threads)
    {k : Nat} (hk : 1 ≤ k) (hk' : 10000 * k ≤ 2 ^ 24) :
    ∃ (N : Nat) (of : List Nat) (es : List TaskEntry), ∀ fuel, N ≤ fuel → ∀ fuel', k ≤ fuel' → ∀ zs : List K,
        10000 * k * ((agents root).length + (tasks root).length) ≤ (zs.countP fun z => 0 ≤ z) →
        (∀ vs, SimulationsFloat m.readFloat root of es zs vs → ∃ c, m.more vs = ok c) →
        (∀ vs, SimulationsFloat m.readFloat root of es zs vs → vs.length = 10000 * k → m.more vs = ok false) →
        ∃ vs, SimulationsFloat m.readFloat root of es zs vs ∧ vs.length ≤ 10000 * k ∧ ((∀ v ∈ vs, v < 2 ^ 31) →
          (Utf8Names root → status (Bytes.body E { m with fuel := fuel, fuel' := fuel', zs := zs } .predict o).flow = .exit 0 ∧
            Bytes.body E { m with fuel := fuel, fuel' := fuel', zs := zs } .predict o =
              Cli.body E { m with fuel := fuel, fuel' := fuel', zs := zs } .predict o) ∧
          (OtherName root → status (Bytes.body E { m with fuel := fuel, fuel' := fuel', zs := zs } .predict o).flow = .aborted .encoding ∧
            ∀ path j, Effect.file path j ∉ (Bytes.body E { m with fuel := fuel, fuel' := fuel', zs := zs } .predict o).effects)) := by
  obtain ⟨N, mk, of, es, h1, _, _, _, _, h2⟩ := document_to_prediction_float hE hsig hnof h hz hb hout hd hl hread hs hr hw ht hk hk'
  refine ⟨N, of, es, fun fuel hfuel fuel' hfuel' zs hzs hmore hstop => ?_⟩
  obtain ⟨vs, bins, st, g1, _, g3, _, _, g2⟩ := h2 fuel hfuel fuel' hfuel' zs hzs hmore hstop
  refine ⟨vs, g1, g3, fun hshort => ?_⟩
  obtain ⟨h3, pre, post, h4, _, h5⟩ := g2 hshort
  obtain ⟨f1, f2⟩ := names_of_prediction h1 h3 h4 h5
  exact ⟨fun hn => ⟨by rw [f1 hn]; exact h3, f1 hn⟩, f2⟩

/-! ### Examples -/

/-- `angonoka plan.yml` with the example document, a generator that always yields 1 and a rule that is satisfied with one batch -/
example (draws : Nat → Nat → Nat → Draws ℚ) : ∃ o N of es,
    parse ratFloat exampleRead (fun f => f == "plan.yml") true .predict { input := "plan.yml" } = .accepted o ∧
    Doc.Timetable Sample.number Sample.plan CloseTo of es ∧
    ∀ fuel, N ≤ fuel → ∀ fuel', 1 ≤ fuel' → ∃ vs,
      SimulationsFloat Sample.number Sample.plan of es (List.replicate 1000000 (1 : ℚ)) vs ∧ vs ≠ [] ∧ vs.length ≤ 10000 ∧
      ((∀ v ∈ vs, v < 2 ^ 31) → status (body ratFloat { exampleMachine draws with
        fuel := fuel, fuel' := fuel', zs := List.replicate 1000000 1 } .predict o).flow = .exit 0) := by
  have hpar := options_as_given (E := ratFloat) (isFile := fun f => f == "plan.yml") (terminal := true) (c := .predict)
    (a := { input := "plan.yml" }) exampleRead_naturals (by decide) (batch := 10000) (idle := 100000)
    (window := 100) (period := 256) (bin := none)
    (Or.inl ⟨rfl, rfl⟩) (Or.inl ⟨rfl, rfl⟩) (Or.inl ⟨rfl, rfl⟩) (Or.inl ⟨rfl, rfl⟩)
    (Or.inl ⟨rfl, rfl⟩) (Or.inl ⟨rfl, rfl⟩) (Or.inl ⟨rfl, rfl⟩)
  obtain ⟨N, _, of, es, htab, _, _, _, _, h⟩ := document_to_prediction_float (m := exampleMachine draws) (k := 1) ratFloat_isFloat exampleRead_signs
    (by decide) hpar (by simp) (by simp) (by simp) rfl Sample.plan_loads (sample_reads_floats draws) plan_schedulable plan_document_inRange
    example_canWrite (by exact (by decide : 0 < 4)) le_rfl (by norm_num)
  refine ⟨_, N, of, es, hpar, htab, fun fuel hN fuel' hf => ?_⟩
  have hl := (load_faithful Sample.plan_loads).2
  obtain ⟨vs, _, _, h1, h2, h3, _, _, h4⟩ := h fuel hN fuel' hf (List.replicate 1000000 1) (by
    rw [List.countP_replicate, if_pos (by decide), ← hl.agents_length, ← hl.tasks_length]
    exact (by decide : 10000 * 1 * (Sample.project.agents.length + Sample.project.tasks.length) ≤ 1000000))
    (fun _ _ => ⟨_, rfl⟩) (fun _ _ _ => rfl)
  exact ⟨vs, h1, h2, h3, fun hv => (h4 hv).1⟩

/-- C108 for `angonoka plan.yml` with a name in another encoding -/
example (draws : Nat → Nat → Nat → Draws ℚ) : ∃ o N of es,
    parse ratFloat exampleRead (fun f => f == "plan.yml") true .predict { input := "plan.yml" } = .accepted o ∧
    ∀ fuel, N ≤ fuel → ∀ fuel', 1 ≤ fuel' → ∃ vs,
      SimulationsFloat Sample.number (Latin.plan Latin.name) of es (List.replicate 1000000 (1 : ℚ)) vs ∧
      ((∀ v ∈ vs, v < 2 ^ 31) → status (Bytes.body ratFloat { exampleMachine draws with
        source := .doc (Latin.plan Latin.name), fuel := fuel, fuel' := fuel', zs := List.replicate 1000000 1 } .predict o).flow = .aborted .encoding) := by
  have hpar := options_as_given (E := ratFloat) (isFile := fun f => f == "plan.yml") (terminal := true) (c := .predict)
    (a := { input := "plan.yml" }) exampleRead_naturals (by decide) (batch := 10000) (idle := 100000)
    (window := 100) (period := 256) (bin := none)
    (Or.inl ⟨rfl, rfl⟩) (Or.inl ⟨rfl, rfl⟩) (Or.inl ⟨rfl, rfl⟩) (Or.inl ⟨rfl, rfl⟩)
    (Or.inl ⟨rfl, rfl⟩) (Or.inl ⟨rfl, rfl⟩) (Or.inl ⟨rfl, rfl⟩)
  have r1 : (Latin.project Latin.name).InRange := by
    refine ⟨by simp [Latin.project], by simp [Latin.project], ?_, ?_⟩
    · intro t ht
      simp only [Latin.project, List.mem_cons, List.not_mem_nil, or_false] at ht
      subst ht
      norm_num
    · intro a ha q hq
      simp only [Latin.project, List.mem_cons, List.not_mem_nil, or_false] at ha
      subst ha
      rcases hq with hq | hq <;> cases hq <;> norm_num
  have t1 : (Latin.project Latin.name).TakesBetween 2 (2 ^ 30) := by
    refine ⟨⟨_, List.mem_cons_self, ?_⟩, ?_⟩ <;>
    · intro a ha q hq
      simp only [Latin.project, List.mem_cons, List.not_mem_nil, or_false] at ha
      subst ha
      cases hq
      norm_num [Latin.project, Task.meanDuration]
  obtain ⟨N, of, es, h⟩ := float_prediction_names_partial (m := { exampleMachine draws with source := .doc (Latin.plan Latin.name) }) (k := 1)
    ratFloat_isFloat exampleRead_signs (by decide) hpar (by simp) (by simp) (by simp) rfl Latin.plan_loads (sample_reads_floats draws)
    (sound_schedulable Latin.plan_loads (Latin.sound Latin.plan_loads) t1) (document_inRange Latin.plan_loads r1)
    (example_canWrite (draws := draws)) (by exact (by decide : 0 < 4)) le_rfl (by norm_num)
  refine ⟨_, N, of, es, hpar, fun fuel hN fuel' hf => ?_⟩
  obtain ⟨vs, h1, _, h3⟩ := h fuel hN fuel' hf (List.replicate 1000000 1) (by
    have hl := (load_faithful Latin.plan_loads).2
    rw [List.countP_replicate, if_pos (by decide), ← hl.agents_length, ← hl.tasks_length]
    exact (by decide : 10000 * 1 * (1 + 1) ≤ 1000000))
    (fun _ _ => ⟨_, rfl⟩) (fun _ _ _ => rfl)
  exact ⟨vs, h1, fun hv => ((h3 hv).2 Latin.other).1⟩

end Angonoka.Props
