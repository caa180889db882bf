import Verif.Props.Rounding
import Verif.Props.Cli

/-!
# C68: the schedule command in single precision
-/

set_option linter.unusedSectionVars false

namespace Angonoka.Props
open Angonoka Outcome Stun Cli

variable {K : Type} [Field K] [LinearOrder K] [IsStrictOrderedRing K] [FloorRing K]
variable {E : FloatEnv K} {m : Machine K} {o : Cli.Options K}

/-- A valid schedule in single precision is one without rounding. -/
theorem unrounded_valid {p : Project} {sp sp₀ : ScheduleParams K} (hsp : toScheduleParams E p = ok sp)
    (hsp₀ : toScheduleParams E.unrounded p = ok sp₀) {s : List Item} (hs : ValidSchedule sp s) : ValidSchedule sp₀ s := by
  obtain ⟨_, _, _, _, h1, h2, _, h3⟩ := toScheduleParams_ok hsp
  obtain ⟨_, _, _, _, k1, k2, _, k3⟩ := toScheduleParams_ok hsp₀
  have hd : ∀ t, sp.deps t = sp₀.deps t := fun t => by unfold ScheduleParams.deps; rw [h2, k2]
  have ha : ∀ t, sp.avail t = sp₀.avail t := fun t => by unfold ScheduleParams.avail; rw [h1, k1]
  have hc : sp₀.taskCount = sp.taskCount := by simp [ScheduleParams.taskCount, h3, k3]
  exact ⟨by rw [hc]; exact hs.complete, fun a b c h d hd' => hs.ordered a b c h d (by rw [hd]; exact hd'),
    fun it hit => by rw [← ha]; exact hs.eligible it hit⟩

/-- C68. The schedule command, from the document to the output file, in single precision. Let the document load into a sound project without
extreme numbers, that takes at least two and less than 2³⁰ seconds, and let the options be valid.
Then, whatever the random numbers are, after some number of rounds the program exits successfully; it has written the output file
once. The file has the right names and priorities for a valid schedule of the project. Its times are those of the fastest exact execution of the schedule, up to
a relative error of 2⁻¹⁴ and one second. -/
theorem float_schedule_command (hE : E.IsFloat) (hf : o.filename ≠ "") (hout : o.output ≠ "")
    {root : Yaml} {p : Project} (hs : m.source = .doc root) (hl : load m.readFloat root = ok p)
    (hp : p.Sound) (hr : p.InRange) (hfl : p.FloatsIn E) (hmod : p.TakesBetween 2 (2 ^ 30)) (hw : CanWrite m o)
    (ht : 0 < m.threads) {sp sp₀ : ScheduleParams K} (hsp : toScheduleParams E p = ok sp)
    (hsp₀ : toScheduleParams E.unrounded p = ok sp₀) (ho : ValidOptions E (o.opt.options sp)) :
    ∃ (N : Nat) (s : List Item) (mk : Int) (es : List TaskEntry) (start start₀ finish₀ : Nat → K) (V : K),
      ValidSchedule sp s ∧ es.length = s.length ∧
      Earliest E.unrounded (p.secondsParams E.unrounded sp₀) s start₀ finish₀ ∧ IsEnd s finish₀ V ∧ CloseTo mk V ∧
      (∀ (i : Nat) (it : Item) (e : TaskEntry), s[i]? = some it → es[i]? = some e →
        e.Correct E p (p.secondsParams E sp) s start i it ∧ CloseTo e.start (start₀ it.task) ∧
        CloseTo e.duration ((p.secondsParams E.unrounded sp₀).itemTime E.unrounded it) ∧
        ((e.start + e.duration : Int) : K) ≤ mk + 2 * (V / 2 ^ 14) + 1) ∧
      ∀ fuel, N ≤ fuel → status (body E { m with fuel := fuel } .schedule o).flow = .exit 0 ∧
        ∃ pre post : List (Effect K), (∀ e ∈ pre ++ post, ¬ e.IsFile) ∧
          (body E { m with fuel := fuel } .schedule o).effects = pre ++ [.file o.output
            (.obj [("makespan", .int mk), ("tasks", .arr (es.map TaskEntry.object))])] ++ post := by
  have hE₀ := unrounded_exact E
  obtain ⟨hws₀, hc₀⟩ := secondsParams_wellFormed hp (fun _ _ _ _ => rfl) hsp₀
  obtain ⟨N, s, mk, es, hvs, ⟨start, start₀, finish₀, V, h1, h2, h3, h4, h5⟩, h⟩ := schedule_command_core hf hout hs hl hp hw ht
    hsp ho (P := fun s mk es => ∃ (start start₀ finish₀ : Nat → K) (V : K), es.length = s.length ∧
      Earliest E.unrounded (p.secondsParams E.unrounded sp₀) s start₀ finish₀ ∧ IsEnd s finish₀ V ∧ CloseTo mk V ∧
      (∀ (i : Nat) (it : Item) (e : TaskEntry), s[i]? = some it → es[i]? = some e →
        e.Correct E p (p.secondsParams E sp) s start i it ∧ CloseTo e.start (start₀ it.task) ∧
        CloseTo e.duration ((p.secondsParams E.unrounded sp₀).itemTime E.unrounded it) ∧
        ((e.start + e.duration : Int) : K) ≤ mk + 2 * (V / 2 ^ 14) + 1))
    (fun s v hs hv => by
      have hs₀ := unrounded_valid hsp hsp₀ hs
      obtain ⟨st, fi, hex, hend, _, hleast⟩ := makespanValue_spec (E := E.unrounded) hws₀ (secondsParams_valid hc₀ hs₀)
      obtain ⟨⟨a, b, hab, hlt⟩, hge⟩ := bounded_executions hE₀ hp (by norm_num) (by norm_num) hmod hsp₀ hs₀
      have hV2 := hend
      obtain ⟨it, hit, h2⟩ := hge st fi hex
      have hV := h2.trans (hend.1 it hit)
      obtain ⟨it', hit', he'⟩ := hend.2
      have hV' := lt_of_le_of_lt (hleast a b hab it' hit').2 (hlt it' hit')
      rw [he'] at hV'
      push_cast at hV hV'
      obtain ⟨mk, es, start, finish, hm, hj, hlen, hmk, _, hcor⟩ := float_json hE hp hr hfl hsp hsp₀ hs hv ⟨hex, hleast⟩ hend hV hV'
      exact ⟨mk, es, hm, hj, start, st, fi, _, hlen, ⟨hex, hleast⟩, hend, hmk, hcor⟩)
  exact ⟨N, s, mk, es, start, start₀, finish₀, V, hvs, h1, h2, h3, h4, h5, h⟩

/-! ### Example -/

theorem plan_inRange : Sample.project.InRange where
  tasks := by decide
  agents := by decide
  durations := by decide
  performance := by
    intro a ha q hq
    simp only [Sample.project, List.mem_cons, List.not_mem_nil, or_false] at ha
    rcases ha with rfl | rfl <;> rcases hq with hq | hq <;> cases hq <;> norm_num

theorem plan_takes : Sample.project.TakesBetween 2 (2 ^ 30) where
  longer := by
    refine ⟨_, List.mem_cons_self, ?_⟩
    intro a ha q hq
    simp only [Sample.project, List.mem_cons, List.not_mem_nil, or_false] at ha
    rcases ha with rfl | rfl <;> (cases hq; decide +kernel)
  shorter := by
    intro a ha q hq
    simp only [Sample.project, List.mem_cons, List.not_mem_nil, or_false] at ha
    rcases ha with rfl | rfl <;> (cases hq; decide +kernel)

theorem plan_floats : Sample.project.FloatsIn ratFloat := by
  intro a ha q hq
  simp only [Sample.project, List.mem_cons, List.not_mem_nil, or_false] at ha
  rcases ha with rfl | rfl <;> rcases hq with hq | hq <;> cases hq <;> decide +kernel

theorem cliOptions_valid_float {sp : ScheduleParams ℚ} (hw : WellFormed sp) :
    ValidOptions ratFloat (cliOptions.opt.options sp) := by
  refine ⟨hw, ?_, ?_, ?_, ⟨8, rfl⟩, ?_, ?_, ?_⟩
  · exact (by decide : 0 < exampleOpt.batchSize)
  · exact (by decide : 0 < exampleOpt.maxIdleIters)
  · exact (by decide : 0 < exampleOpt.stunWindow)
  · exact (by decide +kernel : 0 < exampleOpt.betaScale)
  · exact (by decide +kernel : ratFloat.rnd (ratFloat.slack + ratFloat.rnd (3 / 100)) * exampleOpt.betaScale ≤ 1)
  · exact (by decide +kernel : 0 ≤ exampleOpt.gamma)

/-- C68 applies to the example document `plan`: with the default options the program ends. -/
example (draws : Nat → Nat → Nat → Draws ℚ) : ∃ N, ∀ fuel, N ≤ fuel →
    status (body ratFloat { exampleMachine draws with fuel := fuel } .schedule cliOptions).flow
      = .exit 0 := by
  obtain ⟨sp, hsp, hw⟩ := params_wellFormed (E := ratFloat) plan_sound plan_floats
  obtain ⟨sp₀, hsp₀, _⟩ := params_wellFormed (E := ratFloat.unrounded) plan_sound (fun _ _ _ _ => rfl)
  obtain ⟨N, _, _, _, _, _, _, _, _, _, _, _, _, _, h⟩ := float_schedule_command (m := exampleMachine draws) ratFloat_isFloat
    (by decide) (by decide) rfl Sample.plan_loads plan_sound plan_inRange plan_floats plan_takes example_canWrite (by exact (by decide : 0 < 4))
    hsp hsp₀ (cliOptions_valid_float hw)
  exact ⟨N, fun fuel hN => (h fuel hN).1⟩

end Angonoka.Props
