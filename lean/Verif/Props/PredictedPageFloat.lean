import Verif.Props.PageFloat
import Verif.Props.DocumentedFloat

/-!
# C80, C90 for the prediction in single precision
-/

set_option linter.unusedSectionVars false

namespace Angonoka.Props
open Angonoka Outcome Visualizer JsonGrammar
open Cli CommandLine Doc Stun

variable {K : Type} [_root_.Field K] [LinearOrder K] [IsStrictOrderedRing K] [FloorRing K]
  {E D : FloatEnv K} {T : Texts K} {read : ReadReal} {isFile : String → Bool} {terminal : Bool} {a : Arguments} {o : Cli.Options K}
  {root : Yaml} {p : Project} {m : Machine K}

/-- C80 and C90 for the prediction in single precision, under the conditions of `document_to_prediction_float`. If the makespan is at most 16000000 seconds
(185 days), pasting the text of the output file into the page's dialog opens the project with the timetable, the histogram and the percentiles, and the page shows the
timetable, except that the last strips may stick out a little. -/
theorem prediction_to_page_float (hE : E.IsFloat) (hD : D.IsExact) (hsig : SignsAgree read) (hnof : isFile "" = false)
    (h : parse E read isFile terminal .predict a = .accepted o)
    (hz : ∀ t, a.restartPeriod = some t → ¬ LeadingZero t)
    (hb : ∀ t q, a.betaScale = some t → read t = some (.fin q) → ModerateBeta E q)
    (hout : a.output ≠ some "") (hd : m.source = .doc root) (hl : load m.readFloat root = ok p)
    (hread : ∀ s (q : ℚ), m.readFloat s = some (.fin q) → E.rnd (q : K) = q)
    (hs : Schedulable m.readFloat root 2 (2 ^ 30)) (hr : Doc.InRange m.readFloat root) (hw : CanWrite m o) (ht : 0 < m.threads)
    {k : Nat} (hk : 1 ≤ k) (hk' : 10000 * k ≤ 2 ^ 24) {jsonParse : String → Option Json} (hparse : Conforms jsonParse) :
    ∃ (N : Nat) (of : List Nat) (mk : Int) (es : List TaskEntry), Doc.Timetable m.readFloat root CloseTo of es ∧
      (mk ≤ 16000000 → ShowsAbout es mk (timelines D es mk)) ∧
      ∀ fuel, N ≤ fuel → ∀ fuel', k ≤ fuel' → ∀ zs : List K,
        10000 * k * ((agents root).length + (tasks root).length) ≤ (zs.countP fun z => 0 ≤ z) →
        (∀ vs, SimulationsFloat m.readFloat root of es zs vs → ∃ c, m.more vs = ok c) →
        (∀ vs, SimulationsFloat m.readFloat root of es zs vs → vs.length = 10000 * k → m.more vs = ok false) →
        ∃ vs, SimulationsFloat m.readFloat root of es zs vs ∧ (mk ≤ 16000000 → (∀ v ∈ vs, v < 2 ^ 31) →
          ∃ (file : Json) (bins : List Bin) (st : HistogramStats),
            .file (a.output.getD "time_estimation.json") file ∈
              (body E { m with fuel := fuel, fuel' := fuel', zs := zs } .predict o).effects ∧
            Describes (resolutionOf o.binSize mk) vs bins ∧ st.Conservative K vs bins ∧
            ∀ (before : Shown) (evs : List PageEvent), DialogOpen D T jsonParse before evs →
              ∃ pg, (Page.start before).run D T jsonParse (evs ++ [.paste file.fileText]) = ok pg ∧ pg.dialog = none ∧
                pg.project = { makespan := mk, tasks := es,
                               histogram := some (resolutionOf o.binSize mk, bins.map fun b => (b.low, b.count)), stats := some st }) := by
  obtain ⟨N, mk, of, es, h1, h2, h3, h4, _, h5⟩ := document_to_prediction_float hE hsig hnof h hz hb hout hd hl hread hs hr hw ht hk hk'
  have hend : mk ≤ 16000000 → ∀ e ∈ es, e.start + e.duration ≤ 2 ^ 24 := by
    intro hshort e he
    have h6 := h4 e he
    have h7 : (mk : ℚ) ≤ 16000000 := by exact_mod_cast hshort
    have h8 : ((e.start + e.duration : Int) : ℚ) ≤ ((2 ^ 24 : Int) : ℚ) := by
      push_cast at h6 ⊢
      norm_num at h6 ⊢
      linarith
    exact_mod_cast h8
  refine ⟨N, of, mk, es, h1, fun hshort => timelines_about hD h2 h1.nonneg h4
    (timetable_ordered h1 fun i j e f he hf hmw => h3 i j e f he hf hmw (hend hshort f (List.mem_of_getElem? hf))), ?_⟩
  intro fuel hN fuel' hf zs hzs hm1 hm2
  obtain ⟨vs, bins, st, g1, g2, g3, g4, gc, g5⟩ := h5 fuel hN fuel' hf zs hzs hm1 hm2
  refine ⟨vs, g1, fun hshort hv => ?_⟩
  replace hend := hend hshort
  obtain ⟨_, pre, post, _, _, g6⟩ := g5 hv
  have hwb : 1 ≤ resolutionOf o.binSize mk ∧ resolutionOf o.binSize mk < 2 ^ 31 := by
    unfold resolutionOf
    have := accepted_binSize hsig h
    split
    · rename_i b hb
      exact this b hb
    · split
      · omega
      · split <;> omega
  have hnn : ∀ v ∈ vs, 0 ≤ v := by
    obtain ⟨runs, hr, rfl, _⟩ := g1
    intro v hv
    obtain ⟨r, hr', rfl⟩ := List.mem_map.1 hv
    obtain ⟨_, _, _, _, _, _, _, _, _, _, _, _, _, _, h0, _⟩ := hr r hr'
    exact h0
  have hbin : ∀ b ∈ bins, -2 ^ 31 < b.low ∧ b.low < 2 ^ 31 ∧ 0 < b.count ∧ b.count < 2 ^ 31 ∧ b.middle = b.low + resolutionOf o.binSize mk / 2 := by
    intro b hb
    have hpos := g4.positive b hb
    have hcnt := g4.counts b hb
    have hwid := g4.width b hb
    obtain ⟨v, hv', hc⟩ : ∃ v ∈ vs, b.Contains v := by
      have : 0 < vs.countP fun v => b.Contains v := by omega
      obtain ⟨v, hv', hc⟩ := List.countP_pos_iff.1 this
      exact ⟨v, hv', of_decide_eq_true hc⟩
    have h6 := hnn v hv'
    have h7 := hv v hv'
    have h8 : vs.countP (fun v => b.Contains v) ≤ vs.length := List.countP_le_length
    obtain ⟨h9, h10⟩ := hc
    refine ⟨by omega, by omega, hpos, by omega, g4.middle b hb⟩
  have hsmall : ∀ i, Occurs i (.obj [
        ("histogram", .obj [("bin_size", .int (resolutionOf o.binSize mk)),
          ("bins", .arr (bins.map fun b => .arr [.int b.low, .int b.count]))]),
        ("makespan", .int mk), ("stats", st.object), ("tasks", .arr (es.map TaskEntry.object))]) → |i| ≤ 2 ^ 53 := by
    intro i hi
    rcases occurs_prediction K hi with rfl | rfl | ⟨b, hb, hi⟩ | ⟨q, hq⟩ | ⟨e, he, hi⟩
    · rw [abs_le]
      constructor <;> omega
    · rw [abs_le]
      constructor <;> omega
    · have := hbin b hb
      rw [abs_le]
      rcases hi with rfl | rfl <;> constructor <;> omega
    · obtain ⟨b, hb, rfl, _⟩ := gc q i hq
      have := hbin b hb
      rw [abs_le]
      constructor <;> omega
    · exact small_float_entry hl h1 hend he hi
  refine ⟨.obj [
        ("histogram", .obj [("bin_size", .int (resolutionOf o.binSize mk)),
          ("bins", .arr (bins.map fun b => .arr [.int b.low, .int b.count]))]),
        ("makespan", .int mk), ("stats", st.object), ("tasks", .arr (es.map TaskEntry.object))], bins, st, ?_, g4, gc, ?_⟩
  rotate_left
  · intro before evs hopen
    obtain ⟨h6, h7⟩ := paste_opens (D := D) (T := T) (post := []) hopen ⟨_, file_read hparse hsmall, read_prediction _ mk es bins st⟩
    obtain ⟨pg, h8, h9⟩ := h7 (by simp)
    refine ⟨pg, h8, ?_, h9⟩
    by_contra hne
    exact h6 ⟨pg, h8, hne⟩
  · rw [g6]
    exact List.mem_append_left _ (List.mem_append_right _ (List.mem_singleton.2 rfl))

/-! ### Example -/

/-- C80 and C90 apply to `angonoka plan.yml` with the example document in single precision, a generator that always yields 1 and a rule that is
satisfied with one batch. -/
example (draws : Nat → Nat → Nat → Draws ℚ) (T : Texts ℚ) : ∃ o N of mk es,
    parse ratFloat exampleRead (fun f => f == "plan.yml") true .predict { input := "plan.yml" } = .accepted o ∧
    Doc.Timetable Sample.number Sample.plan CloseTo of es ∧
    ∀ fuel, N ≤ fuel → ∀ fuel', 1 ≤ fuel' → ∃ vs,
      SimulationsFloat Sample.number Sample.plan of es (List.replicate 1000000 (1 : ℚ)) vs ∧ (mk ≤ 16000000 → (∀ v ∈ vs, v < 2 ^ 31) →
        ∃ file : Json, .file "time_estimation.json" file ∈ (body ratFloat { exampleMachine draws with
            fuel := fuel, fuel' := fuel', zs := List.replicate 1000000 1 } .predict o).effects ∧
          ∀ before : Shown, ∃ pg, (Page.start before).run FloatEnv.rat T readText [.openDialog, .paste file.fileText] = ok pg ∧
            pg.project.tasks = es ∧ pg.project.makespan = mk) := by
  have hpar := options_as_given (E := ratFloat) (isFile := fun f => f == "plan.yml") (terminal := true) (c := .predict)
    (a := { input := "plan.yml" }) exampleRead_naturals (by decide) (batch := 10000) (idle := 100000)
    (window := 100) (period := 256) (bin := none)
    (Or.inl ⟨rfl, rfl⟩) (Or.inl ⟨rfl, rfl⟩) (Or.inl ⟨rfl, rfl⟩) (Or.inl ⟨rfl, rfl⟩)
    (Or.inl ⟨rfl, rfl⟩) (Or.inl ⟨rfl, rfl⟩) (Or.inl ⟨rfl, rfl⟩)
  obtain ⟨N, of, mk, es, htab, _, h⟩ := prediction_to_page_float (D := FloatEnv.rat) (T := T) (m := exampleMachine draws) (k := 1)
    ratFloat_isFloat (fun _ => rfl) exampleRead_signs
    (by decide) hpar (by simp) (by simp) (by simp) rfl Sample.plan_loads (sample_reads_floats draws) plan_schedulable plan_document_inRange
    example_canWrite (by exact (by decide : 0 < 4)) le_rfl (by norm_num) reader_exists
  refine ⟨_, N, of, mk, es, hpar, htab, fun fuel hN fuel' hf => ?_⟩
  have hl := (load_faithful Sample.plan_loads).2
  obtain ⟨vs, h1, h2⟩ := h fuel hN fuel' hf (List.replicate 1000000 1) (by
    rw [List.countP_replicate, if_pos (by decide), ← hl.agents_length, ← hl.tasks_length]
    exact (by decide : 10000 * 1 * (Sample.project.agents.length + Sample.project.tasks.length) ≤ 1000000))
    (fun _ _ => ⟨_, rfl⟩) (fun _ _ _ => rfl)
  refine ⟨vs, h1, fun hmk hv => ?_⟩
  obtain ⟨file, bins, st, g1, _, _, g2⟩ := h2 hmk hv
  refine ⟨file, g1, fun before => ?_⟩
  obtain ⟨pg, h3, _, h4⟩ := g2 before [.openDialog] ⟨_, rfl, by simp⟩
  exact ⟨pg, h3, by rw [h4], by rw [h4]⟩

end Angonoka.Props
