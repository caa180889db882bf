import Verif.Props.JsonText

/-!
# C80, C90 in single precision

The timetable's times and the makespan are rounded in different ways, so that the end of a task may be a little later than the makespan. The numbers
that the page computes are not rounded here.
-/

set_option linter.unusedSectionVars false

namespace Angonoka.Props
open Angonoka Outcome Visualizer JsonGrammar

variable {K : Type} [_root_.Field K] [LinearOrder K] [IsStrictOrderedRing K]

/-- A timetable whose entries are in order, and end about when the makespan says, is shown as it should be. -/
theorem timelines_about {D : FloatEnv K} (hD : D.IsExact) {es : List TaskEntry} {mk : Int} (hmk : 1 ≤ mk)
    (h0 : ∀ e ∈ es, 0 ≤ e.start ∧ 0 ≤ e.duration) (hend : ∀ e ∈ es, ((e.start + e.duration : Int) : ℚ) ≤ mk + mk / 2 ^ 12 + 2)
    (hord : es.Pairwise fun a b => a.agent = b.agent → a.priority < b.priority ∧ a.start + a.duration ≤ b.start) :
    ShowsAbout es mk (timelines D es mk) := by
  have hmK : (0 : K) < mk := by exact_mod_cast (show 0 < mk by omega)
  have hfst : (timelines D es mk).map Prod.fst = agentNames es := by
    simp [timelines, Function.comp_def]
  have hrow := timelines_rows hD (mk := mk) hord
  refine ⟨by rw [hfst]; exact agentNames_sorted es, fun v => by rw [hfst]; exact mem_agentNames, hrow, ?_, ?_⟩
  · intro r hr x hx
    rw [hrow r hr] at hx
    obtain ⟨e, he, rfl⟩ := List.mem_map.1 hx
    have he' := List.mem_of_mem_filter he
    obtain ⟨h1, h2⟩ := h0 e he'
    have h1' : (0 : K) ≤ e.start := by exact_mod_cast h1
    have h2' : (0 : K) ≤ e.duration := by exact_mod_cast h2
    refine ⟨by positivity, by positivity, ?_⟩
    dsimp only
    have h3 : (e.start : K) + e.duration ≤ mk + mk / 2 ^ 12 + 2 := by exact_mod_cast hend e he'
    have h4 : ((e.start : K) + e.duration) / mk ≤ (mk + mk / 2 ^ 12 + 2) / mk := div_le_div_of_nonneg_right h3 hmK.le
    have h5 : ((mk : K) + mk / 2 ^ 12 + 2) / mk = 1 + 1 / 2 ^ 12 + 2 / mk := by
      field_simp
    have h6 : (200 : K) / mk = 2 / mk * 100 := by
      rw [div_mul_eq_mul_div]
      norm_num
    rw [← add_mul, ← add_div, h6]
    norm_num at h4 h5
    rw [h5] at h4
    linarith
  · intro r hr
    rw [hrow r hr, List.pairwise_map, List.pairwise_filter]
    refine hord.imp fun {a b} h ha hb => ?_
    have h1 := (h ((of_decide_eq_true ha).trans (of_decide_eq_true hb).symm)).2
    dsimp only
    rw [← add_mul, ← add_div]
    have : ((a.start : K) + a.duration) / mk ≤ b.start / mk := by
      apply div_le_div_of_nonneg_right _ hmK.le
      exact_mod_cast h1
    linarith

section
open Cli CommandLine Doc Stun
variable {E D : FloatEnv K} {T : Texts K} {read : ReadReal} {isFile : String → Bool} {terminal : Bool} {a : Arguments} {o : Cli.Options K}
  {root : Yaml} {p : Project}

/-- The numbers of the entries are small, in single precision. -/
theorem small_float_entry {rf : String → Option XFloat} {R : Int → ℚ → Prop} {of : List Nat} {es : List TaskEntry} (hl : load rf root = ok p)
    (h1 : Doc.Timetable rf root R of es) (h4 : ∀ e ∈ es, e.start + e.duration ≤ 2 ^ 24) {e : TaskEntry}
    (he : e ∈ es) {i : Int} (hi : i = e.duration ∨ i = e.start ∨ i = e.priority) : |i| ≤ 2 ^ 53 := by
  have hcount : es.length ≤ 127 := by
    rw [h1.length, h1.once.length_eq, List.length_range, ← (load_faithful hl).2.tasks_length]
    exact (load_faithful hl).2.tasks_limit
  rw [abs_le]
  have h6 := h1.nonneg e he
  have h7 := h4 e he
  rcases hi with rfl | rfl | rfl
  · constructor <;> omega
  · constructor <;> omega
  · obtain ⟨k, hk, rfl⟩ := List.mem_iff_getElem.1 he
    have h8 := h1.priority k _ (List.getElem?_eq_getElem hk)
    have h9 := (List.countP_le_length (p := fun x => decide (x.agent = es[k].agent)) (l := es.take k))
    rw [← h8, List.length_take] at h9
    constructor <;> omega

/-- C80 and C90 for the command `schedule` in single precision, under the conditions of `document_to_schedule_float`. The output file is a project for the
page. If its makespan is at most 16000000 seconds (185 days), pasting the text of the file into the page's dialog opens this project, which is a
timetable of the document, and the page shows it, except that the last strips may stick out a little. -/
theorem document_to_page_float [FloorRing K] {m : Machine K} (hE : E.IsFloat) (hD : D.IsExact) (hsig : SignsAgree read) (hnof : isFile "" = false)
    (h : parse E read isFile terminal .schedule a = .accepted o)
    (hz : ∀ t, a.restartPeriod = some t → ¬ LeadingZero t)
    (hb : ∀ t q, a.betaScale = some t → read t = some (.fin q) → ModerateBeta E q)
    (hout : a.output ≠ some "") (hd : m.source = .doc root) (hl : load m.readFloat root = ok p)
    (hread : ∀ s (q : ℚ), m.readFloat s = some (.fin q) → E.rnd (q : K) = q)
    (hs : Schedulable m.readFloat root 2 (2 ^ 30)) (hr : Doc.InRange m.readFloat root) (hw : CanWrite m o) (ht : 0 < m.threads)
    {jsonParse : String → Option Json} (hparse : Conforms jsonParse) :
    ∃ (N : Nat) (file : Json) (project : Shown) (of : List Nat),
      (∀ fuel, N ≤ fuel → .file (a.output.getD "schedule.json") file ∈ (body E { m with fuel := fuel } .schedule o).effects) ∧
      readProject file = some project ∧ Doc.Timetable m.readFloat root CloseTo of project.tasks ∧
      (project.makespan ≤ 16000000 →
        ShowsAbout project.tasks project.makespan (timelines D project.tasks project.makespan) ∧
        ∀ (before : Shown) (es : List PageEvent), DialogOpen D T jsonParse before es →
          ∃ pg, (Page.start before).run D T jsonParse (es ++ [.paste file.fileText]) = ok pg ∧ pg.project = project ∧ pg.dialog = none) := by
  obtain ⟨N, mk, of, es, h1, h2, h3, h4, _, h5⟩ := document_to_schedule_float hE hsig hnof h hz hb hout hd hl hread hs hr hw ht
  refine ⟨N, .obj [("makespan", .int mk), ("tasks", .arr (es.map TaskEntry.object))],
    { makespan := mk, tasks := es, histogram := none, stats := none }, of, ?_, read_schedule mk es, h1, fun hshort => ?_⟩
  · intro fuel hN
    obtain ⟨_, pre, post, _, h6⟩ := h5 fuel hN
    rw [h6]
    exact List.mem_append_left _ (List.mem_append_right _ (List.mem_singleton.2 rfl))
  dsimp only at hshort ⊢
  have hend : ∀ e ∈ es, e.start + e.duration ≤ 2 ^ 24 := by
    intro e he
    have h6 := h4 e he
    have h7 : (mk : ℚ) ≤ 16000000 := by exact_mod_cast hshort
    have h8 : ((e.start + e.duration : Int) : ℚ) ≤ ((2 ^ 24 : Int) : ℚ) := by
      push_cast at h6 ⊢
      norm_num at h6 ⊢
      linarith
    exact_mod_cast h8
  refine ⟨timelines_about hD h2 h1.nonneg h4 (timetable_ordered h1 fun i j e f he hf hmw => h3 i j e f he hf hmw (hend f (List.mem_of_getElem? hf))), ?_⟩
  intro before evs hopen
  have hsmall : ∀ i, Occurs i (.obj [("makespan", .int mk), ("tasks", .arr (es.map TaskEntry.object))]) → |i| ≤ 2 ^ 53 := by
    intro i hi
    rcases occurs_schedule hi with rfl | ⟨e, he, hi⟩
    · rw [abs_le]
      constructor <;> omega
    · exact small_float_entry hl h1 hend he hi
  obtain ⟨h6, h7⟩ := paste_opens (D := D) (T := T) (post := []) hopen ⟨_, file_read hparse hsmall, read_schedule mk es⟩
  obtain ⟨pg, h8, h9⟩ := h7 (by simp)
  refine ⟨pg, h8, h9, ?_⟩
  by_contra hne
  exact h6 ⟨pg, h8, hne⟩

end

/-! ### Example -/

/-- C80 and C90 apply to `angonoka schedule plan.yml` with the example document in single precision. -/
example (draws : Nat → Nat → Nat → Stun.Draws ℚ) (T : Texts ℚ) : ∃ o N file project of,
    CommandLine.parse ratFloat exampleRead (fun f => f == "plan.yml") true .schedule { input := "plan.yml" } = .accepted o ∧
    (∀ fuel, N ≤ fuel → .file "schedule.json" file ∈ (Cli.body ratFloat { exampleMachine draws with fuel := fuel } .schedule o).effects) ∧
    Doc.Timetable Sample.number Sample.plan CloseTo of project.tasks ∧
    (project.makespan ≤ 16000000 →
      ∀ before : Shown, ∃ pg, (Page.start before).run FloatEnv.rat T readText [.openDialog, .paste file.fileText] = ok pg ∧ pg.project = project) := by
  have hpar := options_as_given (E := ratFloat) (isFile := fun f => f == "plan.yml") (terminal := true) (c := .schedule)
    (a := { input := "plan.yml" }) exampleRead_naturals (by decide) (batch := 10000) (idle := 100000) (window := 100) (period := 256)
    (Or.inl ⟨rfl, rfl⟩) (Or.inl ⟨rfl, rfl⟩) (Or.inl ⟨rfl, rfl⟩) (Or.inl ⟨rfl, rfl⟩)
    (Or.inl ⟨rfl, rfl⟩) (Or.inl ⟨rfl, rfl⟩) (Or.inl ⟨rfl, rfl⟩)
  obtain ⟨N, file, project, of, h1, _, h2, h3⟩ := document_to_page_float (D := FloatEnv.rat) (T := T) (m := exampleMachine draws) ratFloat_isFloat
    (fun _ => rfl) exampleRead_signs (by decide) hpar (by simp) (by simp) (by simp) rfl Sample.plan_loads (sample_reads_floats draws)
    plan_schedulable plan_document_inRange example_canWrite (by exact (by decide : 0 < 4)) reader_exists
  refine ⟨_, N, file, project, of, hpar, h1, h2, fun hshort before => ?_⟩
  obtain ⟨pg, h4, h5, _⟩ := (h3 hshort).2 before [.openDialog] ⟨_, rfl, by simp⟩
  exact ⟨pg, h4, h5⟩

end Angonoka.Props
