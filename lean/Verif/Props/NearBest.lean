import Verif.Props.Bounds
import Verif.Props.Chance
import Verif.Props.Log

/-!
# A best schedule in single precision
-/

set_option linter.unusedSectionVars false

namespace Angonoka.Props
open Outcome Stun Cli CommandLine Doc MeasureTheory

variable {K : Type} [_root_.Field K] [LinearOrder K] [IsStrictOrderedRing K] {E : FloatEnv K}
variable {root : Yaml} {p : Project}

/-- Validity has nothing to do with rounding. -/
theorem valid_of_unrounded {sp sp₀ : ScheduleParams K} (hsp : toScheduleParams E p = ok sp)
    (hsp₀ : toScheduleParams E.unrounded p = ok sp₀) {s : List Item} (hs : ValidSchedule sp₀ s) : ValidSchedule sp s := by
  obtain ⟨_, _, _, _, h1, h2, _, h3⟩ := toScheduleParams_ok hsp
  obtain ⟨_, _, _, _, k1, k2, _, k3⟩ := toScheduleParams_ok hsp₀
  have hd : ∀ t, sp.deps t = sp₀.deps t := fun t => by unfold ScheduleParams.deps; rw [h2, k2]
  have ha : ∀ t, sp.avail t = sp₀.avail t := fun t => by unfold ScheduleParams.avail; rw [h1, k1]
  have hc : sp₀.taskCount = sp.taskCount := by simp [ScheduleParams.taskCount, h3, k3]
  exact ⟨by rw [← hc]; exact hs.complete, fun a b c h d hd' => hs.ordered a b c h d (by rw [← hd]; exact hd'),
    fun it hit => by rw [ha]; exact hs.eligible it hit⟩

variable [FloorRing K] {read : ReadReal} {isFile : String → Bool} {terminal : Bool} {a : Arguments} {o : Cli.Options K} {m : Machine K}

/-- With some random numbers the command `schedule` writes a timetable of the document that is best up to rounding: its makespan is close to the end of a plan of the
document, and it is greater than the end of no plan by more than 0.0061 % and a second. -/
def WritesNearBest (E : FloatEnv K) (m : Machine K) (o : Cli.Options K) (root : Yaml) (output : String) (draws : Nat → Nat → Nat → Draws K) : Prop :=
  ∃ (N : Nat) (mk : Int) (of : List Nat) (es : List TaskEntry) (V : K),
    Doc.Timetable m.readFloat root CloseTo of es ∧
    (∀ (i j : Nat) (e f : TaskEntry), es[i]? = some e → es[j]? = some f → MustWait root of es i j →
      f.start + f.duration ≤ 2 ^ 24 → f.start + f.duration ≤ e.start) ∧
    (∀ e ∈ es, ((e.start + e.duration : Int) : ℚ) ≤ mk + mk / 2 ^ 12 + 2) ∧ CloseTo mk V ∧
    (∃ agent start finish, Doc.Plan m.readFloat root agent start finish ∧ ∀ k < (tasks root).length, finish k ≤ V) ∧
    (∀ agent start finish W, Doc.Plan m.readFloat root agent start finish →
      (∀ k < (tasks root).length, finish k ≤ W) → (mk : K) ≤ W + W / 2 ^ 14 + 1) ∧
    ∀ fuel, N ≤ fuel → status (body E { m with draws := draws, fuel := fuel } .schedule o).flow = .exit 0 ∧
      ∃ pre post : List (Effect K), (∀ e ∈ pre ++ post, ¬ e.IsFile) ∧
        (body E { m with draws := draws, fuel := fuel } .schedule o).effects = pre ++ [.file output
          (.obj [("makespan", .int mk), ("tasks", .arr (es.map TaskEntry.object))])] ++ post

/-- The program in single precision with random numbers that lead the optimizer to a best schedule. -/
theorem document_near_best_of (hE : E.IsFloat) (hsig : SignsAgree read)
    (hnof : isFile "" = false) (h : parse E read isFile terminal .schedule a = .accepted o)
    (hz : ∀ t, a.restartPeriod = some t → ¬ LeadingZero t)
    (hb : ∀ t q, a.betaScale = some t → read t = some (.fin q) → ModerateBeta E q)
    (hout : a.output ≠ some "") (hd : m.source = .doc root) (hl : load m.readFloat root = ok p)
    (hread : ∀ s (q : ℚ), m.readFloat s = some (.fin q) → E.rnd (q : K) = q)
    (hs : Schedulable m.readFloat root 2 (2 ^ 30)) (hr : Doc.InRange m.readFloat root)
    (hw : CanWrite m o) (ht : 0 < m.threads) {draws : Nat → Nat → Nat → Draws K}
    (hbest : ∀ {sp o₀}, toScheduleParams E p = ok sp → Optimizer.new E (o.opt.options sp) m.threads = ok o₀ →
      ∀ n o', o₀.rounds E draws n = ok o' → o'.hasConverged = true →
        ∃ s v, o'.schedule = ok s ∧ o'.normalizedMakespan = ok v ∧ ValidSchedule sp s ∧
          v = valueOf E sp s ∧ ∀ t, ValidSchedule sp t → v ≤ valueOf E sp t) :
    WritesNearBest E m o root (a.output.getD "schedule.json") draws := by
  obtain ⟨hp, hmod⟩ := schedulable_sound hl hs
  have hfl : p.FloatsIn E := floatsIn_of_document hl hread
  have hir := inRange_of_document hl hr
  obtain ⟨sp, hsp, hwf⟩ := params_wellFormed (E := E) hp hfl
  obtain ⟨sp₀, hsp₀, _⟩ := params_wellFormed (E := E.unrounded) hp (fun _ _ _ _ => rfl)
  obtain ⟨ho, hf', hout'⟩ := accepted_options_partial (Or.inr hE) hsig hnof h hz hb hout hwf
  have hE₀ := unrounded_exact E
  obtain ⟨hws₀, hc₀⟩ := secondsParams_wellFormed hp (fun _ _ _ _ => rfl) hsp₀
  have hcount := (params_faithful hp.agent_groups hp.task_groups hsp₀).1
  have hlen := (load_faithful hl).2.tasks_length
  obtain ⟨o₀, _, hnew, _⟩ := Optimizer.new_ok ho ht
  obtain ⟨N, s, mk, es, hvs, ⟨hmk, htab⟩, hmin, h7⟩ := best_command hf' hout' hd hl hp hw ht hsp ho
    (P := fun s mk es => Predict.makespan E sp (valueOf E sp s) = ok mk ∧ FloatTimetable E p sp sp₀ s mk es)
    (fun s v hs hv => by
      obtain ⟨mk, es, h1, h2, h3⟩ := float_timetable_exists hE hp hmod hir hfl hsp hsp₀ hs hv
      rw [(isMakespan_iff hwf hs).1 hv] at h1 ⊢
      exact ⟨mk, es, h1, h2, h1, h3⟩) hnew (hbest hsp hnew)
  obtain ⟨g1, g2, g3, _⟩ := float_timetable_document hE hl hp hfl hsp hsp₀ hvs htab
  obtain ⟨_, _, start₀, finish₀, V, _, _, k3, k4, k5, _, _⟩ := htab
  refine ⟨N, mk, s.map Item.task, es, V, g1, g2, g3, k5, ?_, ?_, ?_⟩
  · obtain ⟨agent, _, h⟩ := written_plan hE₀ hl hp hsp₀ (unrounded_valid hsp hsp₀ hvs) k3 k4
    exact ⟨agent, _, _, h⟩
  · intro agent start finish W hplan hW
    have hplan' := (plan_document hE₀ hl hp hsp₀).1 hplan
    obtain ⟨t, ht1, _, ht3⟩ := plan_has_schedule hws₀ hplan' (fun _ h => plan_positive hE₀ hp hsp₀ hplan' h)
    have ht₀ : ValidSchedule sp₀ t := ⟨hc₀ ▸ ht1.complete, ht1.ordered, ht1.eligible⟩
    have htv := valid_of_unrounded hsp hsp₀ ht₀
    obtain ⟨mk', _, e1, _, _, _, st, fi, V', _, _, e5, e6, e7, _⟩ :=
      float_timetable_exists hE hp hmod hir hfl hsp hsp₀ htv ((isMakespan_iff hwf htv).2 rfl)
    have hle : mk ≤ mk' := makespan_mono (durationMultiplier_nonneg hsp) (makespanValue_nonneg hwf hvs) (hmin t htv) hmk e1
    have hVW : V' ≤ W := by
      obtain ⟨it, hit, rfl⟩ := e6.2
      refine (e5.2 start finish ht3 it hit).2.trans (hW _ ?_)
      have := List.mem_range.1 (ht₀.complete.mem_iff.1 (List.mem_map_of_mem hit))
      rw [hcount, hlen] at this
      exact this
    have h1 := (abs_le.1 e7).2
    have h2 : (mk : K) ≤ mk' := by exact_mod_cast hle
    have h3 : V' / 2 ^ 14 ≤ W / 2 ^ 14 := div_le_div_of_nonneg_right hVW (by positivity)
    linarith
  · have : o.output = a.output.getD "schedule.json" := by
      obtain ⟨_, _, _, _, _, _, _, _, _, _, _, _, _, _, _, rfl⟩ := parse_accepted h
      rfl
    rwa [this] at h7

/-- C91 in single precision, under the conditions of C75 and with a limit of idle iterations of at least 8255 (the default is 100000): there are random numbers with
which the program writes a timetable that is best up to rounding. -/
theorem document_best_float (hE : E.IsFloat) (hsig : SignsAgree read)
    (hnof : isFile "" = false) (h : parse E read isFile terminal .schedule a = .accepted o)
    (hz : ∀ t, a.restartPeriod = some t → ¬ LeadingZero t)
    (hb : ∀ t q, a.betaScale = some t → read t = some (.fin q) → ModerateBeta E q)
    (hout : a.output ≠ some "") (hd : m.source = .doc root) (hl : load m.readFloat root = ok p)
    (hread : ∀ s (q : ℚ), m.readFloat s = some (.fin q) → E.rnd (q : K) = q)
    (hs : Schedulable m.readFloat root 2 (2 ^ 30)) (hr : Doc.InRange m.readFloat root)
    (hw : CanWrite m o) (ht : 0 < m.threads) (hidle : 8255 ≤ o.opt.maxIdleIters) :
    ∃ draws : Nat → Nat → Nat → Draws K, (∀ r k i, (draws r k i).u = 0) ∧ WritesNearBest E m o root (a.output.getD "schedule.json") draws := by
  obtain ⟨hp, hmod⟩ := schedulable_sound hl hs
  obtain ⟨sp, hsp, hwf⟩ := params_wellFormed (E := E) hp (floatsIn_of_document hl hread)
  obtain ⟨ho, _, _⟩ := accepted_options_partial (Or.inr hE) hsig hnof h hz hb hout hwf
  obtain ⟨l1, l2, l3⟩ := search_limits hl hp hsp hwf
  obtain ⟨o₀, _, hnew, _⟩ := Optimizer.new_ok ho ht
  obtain ⟨draws, hu, hbest⟩ := best_draws ho hnew (l2.trans hidle)
  refine ⟨draws, hu, document_near_best_of hE hsig hnof h hz hb hout hd hl hread hs hr hw ht fun {sp' o₁} hsp' hnew' => ?_⟩
  rw [hsp] at hsp'
  cases hsp'
  rw [hnew] at hnew'
  cases hnew'
  exact hbest

variable {Ω : Type} [MeasurableSpace Ω] {P : Measure Ω} {Z : Nat → Nat → Nat → Ω → Draws K}

/-- C98. The command `schedule` in single precision, under the conditions of C75 and with a limit of idle iterations of at least 8255 (the default is 100000). If
its random numbers are random, see C97, then with positive probability the program writes a timetable that is best up to rounding. -/
theorem document_near_best (hE : E.IsFloat) (hsig : SignsAgree read)
    (hnof : isFile "" = false) (h : parse E read isFile terminal .schedule a = .accepted o)
    (hz : ∀ t, a.restartPeriod = some t → ¬ LeadingZero t)
    (hb : ∀ t q, a.betaScale = some t → read t = some (.fin q) → ModerateBeta E q)
    (hout : a.output ≠ some "") (hd : m.source = .doc root) (hl : load m.readFloat root = ok p)
    (hread : ∀ s (q : ℚ), m.readFloat s = some (.fin q) → E.rnd (q : K) = q)
    (hs : Schedulable m.readFloat root 2 (2 ^ 30)) (hr : Doc.InRange m.readFloat root)
    (hw : CanWrite m o) (ht : 0 < m.threads) (hidle : 8255 ≤ o.opt.maxIdleIters) (hZ : RandomDraws E P 128 Z) :
    0 < P {ω | WritesNearBest E m o root (a.output.getD "schedule.json") (fun r k i => Z r k i ω)} := by
  obtain ⟨hp, hmod⟩ := schedulable_sound hl hs
  obtain ⟨sp, hsp, hwf⟩ := params_wellFormed (E := E) hp (floatsIn_of_document hl hread)
  obtain ⟨ho, _, _⟩ := accepted_options_partial (Or.inr hE) hsig hnof h hz hb hout hwf
  obtain ⟨l1, l2, l3⟩ := search_limits hl hp hsp hwf
  obtain ⟨o₀, _, hnew, _⟩ := Optimizer.new_ok ho ht
  obtain ⟨R, f, hf, hbest⟩ := best_draws_within ho hnew (l2.trans hidle) (b := 128) l1 l3
  refine (within_possible (threads := m.threads) (R := R) (batch := o.opt.batchSize) hZ hf).trans_le (measure_mono fun ω hω => ?_)
  refine document_near_best_of hE hsig hnof h hz hb hout hd hl hread hs hr hw ht fun {sp' o₁} hsp' hnew' => ?_
  rw [hsp] at hsp'
  cases hsp'
  rw [hnew] at hnew'
  cases hnew'
  exact hbest _ hω

/-- C75, continued. Whatever the random numbers are, the makespan in the file is close to the end of a plan of the document. -/
theorem document_plan_float (hE : E.IsFloat) (hsig : SignsAgree read)
    (hnof : isFile "" = false) (h : parse E read isFile terminal .schedule a = .accepted o)
    (hz : ∀ t, a.restartPeriod = some t → ¬ LeadingZero t)
    (hb : ∀ t q, a.betaScale = some t → read t = some (.fin q) → ModerateBeta E q)
    (hout : a.output ≠ some "") (hd : m.source = .doc root) (hl : load m.readFloat root = ok p)
    (hread : ∀ s (q : ℚ), m.readFloat s = some (.fin q) → E.rnd (q : K) = q)
    (hs : Schedulable m.readFloat root 2 (2 ^ 30)) (hr : Doc.InRange m.readFloat root)
    (hw : CanWrite m o) (ht : 0 < m.threads) :
    ∃ (mk : Int) (V : K), WritesMakespan E m o (a.output.getD "schedule.json") mk ∧ CloseTo mk V ∧ 2 ≤ V ∧
      ∃ agent start finish, Doc.Plan m.readFloat root agent start finish ∧ ∀ k < (tasks root).length, finish k ≤ V := by
  obtain ⟨hp, hmod⟩ := schedulable_sound hl hs
  have hfl : p.FloatsIn E := floatsIn_of_document hl hread
  have hir := inRange_of_document hl hr
  obtain ⟨sp, hsp, hwf⟩ := params_wellFormed (E := E) hp hfl
  obtain ⟨sp₀, hsp₀, _⟩ := params_wellFormed (E := E.unrounded) hp (fun _ _ _ _ => rfl)
  obtain ⟨ho, hf', hout'⟩ := accepted_options_partial (Or.inr hE) hsig hnof h hz hb hout hwf
  obtain ⟨N, s, mk, es, hvs, ⟨_, _, start₀, finish₀, V, _, _, k3, k4, k5, k6, _⟩, h7⟩ :=
    schedule_command_core hf' hout' hd hl hp hw ht hsp ho (P := FloatTimetable E p sp sp₀)
    (fun _ _ hs hv => float_timetable_exists hE hp hmod hir hfl hsp hsp₀ hs hv)
  obtain ⟨agent, _, hplan⟩ := written_plan (unrounded_exact E) hl hp hsp₀ (unrounded_valid hsp hsp₀ hvs) k3 k4
  have : o.output = a.output.getD "schedule.json" := by
    obtain ⟨_, _, _, _, _, _, _, _, _, _, _, _, _, _, _, rfl⟩ := parse_accepted h
    rfl
  rw [this] at h7
  exact ⟨mk, V, ⟨N, es, h7⟩, k5, k6, agent, _, _, hplan⟩

variable {root' : Yaml} {p' : Project}

/-- C98, two documents. More help hurts at most by rounding: C96 in single precision. -/
theorem more_help_float (hE : E.IsFloat) (hsig : SignsAgree read)
    (hnof : isFile "" = false) (h : parse E read isFile terminal .schedule a = .accepted o)
    (hz : ∀ t, a.restartPeriod = some t → ¬ LeadingZero t)
    (hb : ∀ t q, a.betaScale = some t → read t = some (.fin q) → ModerateBeta E q)
    (hout : a.output ≠ some "") (hd : m.source = .doc root) (hl : load m.readFloat root = ok p)
    (hread : ∀ s (q : ℚ), m.readFloat s = some (.fin q) → E.rnd (q : K) = q)
    (hs : Schedulable m.readFloat root 2 (2 ^ 30)) (hr : Doc.InRange m.readFloat root)
    (hw : CanWrite m o) (ht : 0 < m.threads) (hidle : 8255 ≤ o.opt.maxIdleIters) (hZ : RandomDraws E P 128 Z)
    (hl' : load m.readFloat root' = ok p') (hs' : Schedulable m.readFloat root' 2 (2 ^ 30)) (hr' : Doc.InRange m.readFloat root')
    {f g : Nat → Nat} (he : Eases m.readFloat root root' f g) :
    ∃ mk : Int, WritesMakespan E m o (a.output.getD "schedule.json") mk ∧
      0 < P {ω | ∃ mk' : Int, (mk' : ℚ) ≤ mk + mk / 2 ^ 12 + 3 ∧
        WritesMakespan E { m with source := .doc root', draws := fun r k i => Z r k i ω } o (a.output.getD "schedule.json") mk'} := by
  obtain ⟨mk, V, h1, h2, hV2, agent, start, finish, hplan, hV⟩ :=
    document_plan_float hE hsig hnof h hz hb hout hd hl hread hs hr hw ht
  refine ⟨mk, h1, (document_near_best (m := { m with source := .doc root' }) hE hsig hnof h hz hb hout rfl hl' hread hs' hr' hw ht hidle
    hZ).trans_le (measure_mono ?_)⟩
  rintro ω ⟨N', mk', _, es', V', _, _, _, _, _, g2, g3⟩
  refine ⟨mk', ?_, N', es', g3⟩
  obtain ⟨agent', start', finish', hplan', hle⟩ := eased_plan he hplan
  have hVV := g2 agent' start' finish' V hplan' fun k hk => by
    obtain ⟨q, hq, _⟩ := he.tasks k _ (List.getElem?_eq_getElem hk)
    exact (hle k hk).trans (hV _ (List.getElem?_eq_some_iff.1 hq).1)
  have h2 := (abs_le.1 h2).1
  have : (mk' : K) ≤ mk + mk / 2 ^ 12 + 3 := by
    norm_num at h2 hVV ⊢
    linarith
  exact_mod_cast this

/-! ### Examples -/

/-- The program in single precision, with the default options and fair dice, for the sample document -/
example (draws₀ : Nat → Nat → Nat → Draws ℚ) : ∃ o,
    parse ratFloat exampleRead (fun f => f == "plan.yml") true .schedule { input := "plan.yml" } = .accepted o ∧
    0 < fair {ω | WritesNearBest ratFloat (exampleMachine draws₀) o Sample.plan "schedule.json" (fun r k i => (ω (r, k, i)).draws)} := by
  have hpar := options_as_given (E := ratFloat) (isFile := fun f => f == "plan.yml") (terminal := true) (c := .schedule)
    (a := { input := "plan.yml" }) exampleRead_naturals (by decide) (batch := 10000) (idle := 100000) (window := 100) (period := 256)
    (Or.inl ⟨rfl, rfl⟩) (Or.inl ⟨rfl, rfl⟩) (Or.inl ⟨rfl, rfl⟩) (Or.inl ⟨rfl, rfl⟩)
    (Or.inl ⟨rfl, rfl⟩) (Or.inl ⟨rfl, rfl⟩) (Or.inl ⟨rfl, rfl⟩)
  exact ⟨_, hpar, document_near_best (m := exampleMachine draws₀) ratFloat_isFloat
    exampleRead_signs (by decide) hpar (by simp) (by simp) (by simp) rfl Sample.plan_loads (sample_reads_floats draws₀)
    plan_schedulable plan_document_inRange example_canWrite (by exact (by decide : 0 < 4))
    (by change 8255 ≤ 100000; decide) (example_random ratFloat)⟩

/-- Some random numbers lead the program to a best timetable for the sample document, up to rounding. -/
example (draws₀ : Nat → Nat → Nat → Draws ℚ) : ∃ o draws,
    parse ratFloat exampleRead (fun f => f == "plan.yml") true .schedule { input := "plan.yml" } = .accepted o ∧
    WritesNearBest ratFloat (exampleMachine draws₀) o Sample.plan "schedule.json" draws := by
  have hpar := options_as_given (E := ratFloat) (isFile := fun f => f == "plan.yml") (terminal := true) (c := .schedule)
    (a := { input := "plan.yml" }) exampleRead_naturals (by decide) (batch := 10000) (idle := 100000) (window := 100) (period := 256)
    (Or.inl ⟨rfl, rfl⟩) (Or.inl ⟨rfl, rfl⟩) (Or.inl ⟨rfl, rfl⟩) (Or.inl ⟨rfl, rfl⟩)
    (Or.inl ⟨rfl, rfl⟩) (Or.inl ⟨rfl, rfl⟩) (Or.inl ⟨rfl, rfl⟩)
  obtain ⟨draws, _, h⟩ := document_best_float (m := exampleMachine draws₀) ratFloat_isFloat
    exampleRead_signs (by decide) hpar (by simp) (by simp) (by simp) rfl Sample.plan_loads (sample_reads_floats draws₀)
    plan_schedulable plan_document_inRange example_canWrite (by exact (by decide : 0 < 4))
    (by change 8255 ≤ 100000; decide)
  exact ⟨_, draws, hpar, h⟩

end Angonoka.Props
