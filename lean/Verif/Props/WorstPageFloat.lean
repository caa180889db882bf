import Verif.Props.PredictedPageFloat
import Verif.Props.LimitsFloat

/-!
# C106 up to the page, in single precision
-/

set_option linter.unusedSectionVars false

namespace Angonoka.Props
open Angonoka Outcome Visualizer JsonGrammar
open Cli CommandLine Doc Stun

variable {K : Type} [_root_.Field K] [LinearOrder K] [IsStrictOrderedRing K] [FloorRing K]
  {E D : FloatEnv K} {T : Texts K} {read : ReadReal} {isFile : String → Bool} {terminal : Bool} {a : Arguments} {o : Cli.Options K}
  {root : Yaml} {p : Project} {m : Machine K}

/-- C106, in part, from the document to the page, in single precision. Under the conditions of `worst_case_fits_float_partial` the output file is written, and if
its makespan is at most 16000000 seconds (185 days), pasting its text into the page's dialog opens the project with a timetable of the document, and with a histogram
of the simulated runs. Missing: the random numbers of the program are not between -2 and 2; see `Month.float_month_aborts`. -/
theorem worst_case_to_page_float_partial (hE : E.IsFloat) (hD : D.IsExact) (hsig : SignsAgree read) (hnof : isFile "" = false)
    (h : parse E read isFile terminal .predict a = .accepted o)
    (hz : ∀ t, a.restartPeriod = some t → ¬ LeadingZero t)
    (hb : ∀ t q, a.betaScale = some t → read t = some (.fin q) → ModerateBeta E q)
    (hout : a.output ≠ some "") (hd : m.source = .doc root) (hl : load m.readFloat root = ok p)
    (hread : ∀ s (q : ℚ), m.readFloat s = some (.fin q) → E.rnd (q : K) = q)
    (hs : Schedulable m.readFloat root 2 (2 ^ 30)) (hr : Doc.InRange m.readFloat root) (hw : CanWrite m o) (ht : 0 < m.threads)
    {k : Nat} (hk : 1 ≤ k) (hk' : 10000 * k ≤ 2 ^ 24) (hn : Narrow m.readFloat root)
    (hfit : ∀ his : List Nat, List.Forall₂ (fun q hi => ∃ lo, Duration q.2 lo hi) (tasks root) his →
      ∀ w ∈ agents root, ∀ (slow : ℚ) y, Performance m.readFloat w.2 (.fin slow) y → (his.sum : ℚ) ≤ 2 ^ 30 * slow)
    {jsonParse : String → Option Json} (hparse : Conforms jsonParse) :
    ∃ (N : Nat) (of : List Nat) (mk : Int) (es : List TaskEntry), Doc.Timetable m.readFloat root CloseTo of es ∧
      (mk ≤ 16000000 → ShowsAbout es mk (timelines D es mk)) ∧
      (mk ≤ 16000000 → ∀ fuel, N ≤ fuel → ∀ fuel', k ≤ fuel' → ∀ zs : List K, (∀ z ∈ zs, |z| ≤ 2) →
        10000 * k * ((agents root).length + (tasks root).length) ≤ (zs.countP fun z => 0 ≤ z) →
        (∀ vs, SimulationsFloat m.readFloat root of es zs vs → ∃ c, m.more vs = ok c) →
        (∀ vs, SimulationsFloat m.readFloat root of es zs vs → vs.length = 10000 * k → m.more vs = ok false) →
        ∃ (vs : List Int) (file : Json) (bins : List Bin) (st : HistogramStats), SimulationsFloat m.readFloat root of es zs vs ∧
          .file (a.output.getD "time_estimation.json") file ∈
            (body E { m with fuel := fuel, fuel' := fuel', zs := zs } .predict o).effects ∧
          Describes (resolutionOf o.binSize mk) vs bins ∧ st.Conservative K vs bins ∧
          ∀ (before : Shown) (evs : List PageEvent), DialogOpen D T jsonParse before evs →
            ∃ pg, (Page.start before).run D T jsonParse (evs ++ [.paste file.fileText]) = ok pg ∧ pg.dialog = none ∧
              pg.project = { makespan := mk, tasks := es,
                             histogram := some (resolutionOf o.binSize mk, bins.map fun b => (b.low, b.count)), stats := some st }) := by
  obtain ⟨N, of, mk, es, h1, h2, h3⟩ := prediction_to_page_float (T := T) hE hD hsig hnof h hz hb hout hd hl hread hs hr hw ht hk hk' hparse
  refine ⟨N, of, mk, es, h1, h2, fun hmk fuel hN fuel' hf zs hz2 hzs hm1 hm2 => ?_⟩
  obtain ⟨vs, g1, g2⟩ := h3 fuel hN fuel' hf zs hzs hm1 hm2
  obtain ⟨file, bins, st, g3, g4, g5, g6⟩ := g2 hmk (runs_fit_float hl h1 hn hfit hz2 g1)
  exact ⟨vs, file, bins, st, g1, g3, g4, g5, g6⟩

/-! ### Example -/

/-- The file for the example document opens in the page if its makespan is at most 185 days: the generator always yields 1 and the rule is satisfied with one batch. -/
example (draws : Nat → Nat → Nat → Draws ℚ) (T : Texts ℚ) : ∃ o N mk es,
    parse ratFloat exampleRead (fun f => f == "plan.yml") true .predict { input := "plan.yml" } = .accepted o ∧
    (mk ≤ 16000000 → ∀ fuel, N ≤ fuel → ∀ fuel', 1 ≤ fuel' →
      ∃ file : Json, .file "time_estimation.json" file ∈ (body ratFloat { exampleMachine draws with
          fuel := fuel, fuel' := fuel', zs := List.replicate 1000000 1 } .predict o).effects ∧
        ∀ before : Shown, ∃ pg, (Page.start before).run FloatEnv.rat T readText [.openDialog, .paste file.fileText] = ok pg ∧
          pg.project.tasks = es ∧ pg.project.makespan = mk) := by
  have hpar := options_as_given (E := ratFloat) (isFile := fun f => f == "plan.yml") (terminal := true) (c := .predict)
    (a := { input := "plan.yml" }) exampleRead_naturals (by decide) (batch := 10000) (idle := 100000)
    (window := 100) (period := 256) (bin := none)
    (Or.inl ⟨rfl, rfl⟩) (Or.inl ⟨rfl, rfl⟩) (Or.inl ⟨rfl, rfl⟩) (Or.inl ⟨rfl, rfl⟩)
    (Or.inl ⟨rfl, rfl⟩) (Or.inl ⟨rfl, rfl⟩) (Or.inl ⟨rfl, rfl⟩)
  obtain ⟨N, of, mk, es, _, _, h⟩ := worst_case_to_page_float_partial (D := FloatEnv.rat) (T := T) (m := exampleMachine draws) (k := 1)
    ratFloat_isFloat (fun _ => rfl) exampleRead_signs
    (by decide) hpar (by simp) (by simp) (by simp) rfl Sample.plan_loads (sample_reads_floats draws) plan_schedulable plan_document_inRange
    example_canWrite (by exact (by decide : 0 < 4)) le_rfl (by norm_num) sample_narrow sample_fits reader_exists
  refine ⟨_, N, mk, es, hpar, fun hmk fuel hN fuel' hf => ?_⟩
  have hl := (load_faithful Sample.plan_loads).2
  obtain ⟨vs, file, bins, st, _, g1, _, _, g2⟩ := h hmk fuel hN fuel' hf (List.replicate 1000000 1) (by
    intro z hz
    rw [List.eq_of_mem_replicate hz]
    norm_num) (by
    rw [List.countP_replicate, if_pos (by decide), ← hl.agents_length, ← hl.tasks_length]
    exact (by decide : 10000 * 1 * (Sample.project.agents.length + Sample.project.tasks.length) ≤ 1000000))
    (fun _ _ => ⟨_, rfl⟩) (fun _ _ _ => rfl)
  refine ⟨file, g1, fun before => ?_⟩
  obtain ⟨pg, h3, _, h4⟩ := g2 before [.openDialog] ⟨_, rfl, by simp⟩
  exact ⟨pg, h3, by rw [h4], by rw [h4]⟩

end Angonoka.Props
