import Verif.Proof.JsonText
import Verif.Props.Page

/-!
# C90: the output file is JSON
-/

set_option linter.unusedSectionVars false

namespace Angonoka.Props
open Angonoka Outcome Visualizer JsonGrammar

variable {K : Type} [_root_.Field K] [LinearOrder K] [IsStrictOrderedRing K]

/-- C90. What the program writes to the output file is a JSON text for the value, whatever is in the strings. -/
theorem file_is_json (j : Json) : IsText j j.fileText :=
  ⟨[], _, [], ws_nil, dump_text 0 j, ws_nil, by simp [Json.fileText]⟩

/-- C90. A JSON text stands for one value only. -/
theorem json_unambiguous {j j' : Json} {text : String} (h : IsText j text) (h' : IsText j' text) : j = j' := by
  have := (readText_text h).symm.trans (readText_text h')
  injection this

/-- C90. So different values have different texts. -/
theorem file_determines {j j' : Json} (h : j.fileText = j'.fileText) : j = j' :=
  json_unambiguous (h ▸ file_is_json j) (file_is_json j')

/-- There is a reader that understands every text. -/
theorem reader_exists : Conforms readText := fun _ _ h _ => readText_text h

/-- C90. Every reader of JSON gets the value back, if it has no number beyond 2⁵³. -/
theorem file_read {parse : String → Option Json} (hparse : Conforms parse) {j : Json} (hj : ∀ i, Occurs i j → |i| ≤ 2 ^ 53) :
    parse j.fileText = some j := hparse _ _ (file_is_json j) hj

/-! ### From the program to the page -/

/-- The numbers in a task's entry -/
theorem occurs_task {i : Int} {e : TaskEntry} (h : Occurs i e.object) : i = e.duration ∨ i = e.start ∨ i = e.priority := by
  unfold TaskEntry.object at h
  cases h with
  | obj hm hx =>
    simp only [List.mem_cons, Prod.mk.injEq, List.not_mem_nil, or_false] at hm
    rcases hm with ⟨_, rfl⟩ | ⟨_, rfl⟩ | ⟨_, rfl⟩ | ⟨_, rfl⟩ | ⟨_, rfl⟩ <;> cases hx <;> simp

/-- The numbers in a file with a schedule -/
theorem occurs_schedule {i mk : Int} {es : List TaskEntry}
    (h : Occurs i (.obj [("makespan", .int mk), ("tasks", .arr (es.map TaskEntry.object))])) :
    i = mk ∨ ∃ e ∈ es, i = e.duration ∨ i = e.start ∨ i = e.priority := by
  cases h with
  | obj hm hx =>
    simp only [List.mem_cons, Prod.mk.injEq, List.not_mem_nil, or_false] at hm
    rcases hm with ⟨_, rfl⟩ | ⟨_, rfl⟩
    · cases hx
      exact .inl rfl
    · cases hx with
      | arr hmem hx =>
        obtain ⟨e, he, rfl⟩ := List.mem_map.1 hmem
        exact .inr ⟨e, he, occurs_task hx⟩

/-- The numbers in a file with a prediction -/
theorem occurs_prediction (K : Type) [_root_.Field K] {i w mk : Int} {es : List TaskEntry} {bins : List Bin} {st : HistogramStats}
    (h : Occurs i (.obj [
        ("histogram", .obj [("bin_size", .int w), ("bins", .arr (bins.map fun b => .arr [.int b.low, .int b.count]))]),
        ("makespan", .int mk), ("stats", st.object), ("tasks", .arr (es.map TaskEntry.object))])) :
    i = w ∨ i = mk ∨ (∃ b ∈ bins, i = b.low ∨ i = b.count) ∨ (∃ q, (q, i) ∈ st.percentiles K) ∨
      ∃ e ∈ es, i = e.duration ∨ i = e.start ∨ i = e.priority := by
  cases h with
  | obj hm hx =>
    simp only [List.mem_cons, Prod.mk.injEq, List.not_mem_nil, or_false] at hm
    rcases hm with ⟨_, rfl⟩ | ⟨_, rfl⟩ | ⟨_, rfl⟩ | ⟨_, rfl⟩
    · cases hx with
      | obj hm hx =>
        simp only [List.mem_cons, Prod.mk.injEq, List.not_mem_nil, or_false] at hm
        rcases hm with ⟨_, rfl⟩ | ⟨_, rfl⟩
        · cases hx
          exact .inl rfl
        · cases hx with
          | arr hmem hx =>
            obtain ⟨b, hb, rfl⟩ := List.mem_map.1 hmem
            cases hx with
            | arr hmem hx =>
              simp only [List.mem_cons, List.not_mem_nil, or_false] at hmem
              refine .inr (.inr (.inl ⟨b, hb, ?_⟩))
              rcases hmem with rfl | rfl <;> cases hx
              · exact .inl rfl
              · exact .inr rfl
    · cases hx
      exact .inr (.inl rfl)
    · refine .inr (.inr (.inr (.inl ?_)))
      unfold HistogramStats.object at hx
      cases hx with
      | obj hm hx =>
        simp only [List.mem_cons, Prod.mk.injEq, List.not_mem_nil, or_false] at hm
        rcases hm with ⟨_, rfl⟩ | ⟨_, rfl⟩ | ⟨_, rfl⟩ | ⟨_, rfl⟩ | ⟨_, rfl⟩ <;> cases hx <;> simp [HistogramStats.percentiles, exists_or]
    · cases hx with
      | arr hmem hx =>
        obtain ⟨e, he, rfl⟩ := List.mem_map.1 hmem
        exact .inr (.inr (.inr (.inr ⟨e, he, occurs_task hx⟩)))

section
open Cli CommandLine Doc Stun
variable {E D : FloatEnv K} {T : Texts K} {read : ReadReal} {isFile : String → Bool} {terminal : Bool} {a : Arguments} {o : Cli.Options K}
  {root : Yaml} {p : Project}

/-- The numbers of the entries are small. -/
theorem small_entry {rf : String → Option XFloat} {of : List Nat} {es : List TaskEntry} {mk : Int} (hl : load rf root = ok p)
    (h1 : Doc.Timetable rf root IsWholePart of es) (h2 : mk < 2 ^ 31) (h4 : ∀ e ∈ es, e.start + e.duration ≤ mk) {e : TaskEntry}
    (he : e ∈ es) {i : Int} (hi : i = e.duration ∨ i = e.start ∨ i = e.priority) : |i| ≤ 2 ^ 53 := by
  have hcount : es.length ≤ 127 := by
    rw [h1.length, h1.once.length_eq, List.length_range, ← (load_faithful hl).2.tasks_length]
    exact (load_faithful hl).2.tasks_limit
  rw [abs_le]
  have h6 := h1.nonneg e he
  have h7 := h4 e he
  rcases hi with rfl | rfl | rfl
  · constructor <;> omega
  · constructor <;> omega
  · obtain ⟨k, hk, rfl⟩ := List.mem_iff_getElem.1 he
    have h8 := h1.priority k _ (List.getElem?_eq_getElem hk)
    have h9 := (List.countP_le_length (p := fun x => decide (x.agent = es[k].agent)) (l := es.take k))
    rw [← h8, List.length_take] at h9
    constructor <;> omega

/-- The results of random runs are not negative. -/
theorem simulated_nonneg {rf : String → Option XFloat} {of : List Nat} {es : List TaskEntry} {zs : List K} {v : Int}
    (h1 : Doc.Timetable rf root IsWholePart of es) (h : Simulated rf root of es zs v) : 0 ≤ v := by
  obtain ⟨perf, dur, time, start, finish, V, hp, hd, -, ht, hex, -, -, ⟨i, hi, hV⟩, hv⟩ := h
  have hio : i < of.length := h1.length ▸ hi
  have hk : of[i] < (tasks root).length := by
    have := h1.once.mem_iff.1 (List.getElem_mem hio)
    exact List.mem_range.1 this
  have hkd : of[i] < dur.length := hd.length_eq ▸ hk
  obtain ⟨w, hw, hwn, -⟩ := h1.agent i of[i] es[i] _ (List.getElem?_eq_getElem hio) (List.getElem?_eq_getElem hi) (List.getElem?_eq_getElem hk)
  obtain ⟨j, hj, rfl⟩ := List.mem_iff_getElem.1 hw
  have hjp : j < perf.length := hp.length_eq ▸ hj
  have htime := ht i of[i] j es[i] _ _ _ (List.getElem?_eq_getElem hi) (List.getElem?_eq_getElem hio) (List.getElem?_eq_getElem hkd)
    (List.getElem?_eq_getElem hj) hwn (List.getElem?_eq_getElem hjp)
  obtain ⟨_, _, _, hx⟩ := (List.forall₂_iff_get.1 hd).2 of[i] hk hkd
  obtain ⟨_, _, _, hy⟩ := (List.forall₂_iff_get.1 hp).2 j hj hjp
  have h3 : (0 : K) ≤ time i := by
    rw [htime]
    exact (div_pos hx.1 hy.1).le
  have h5 := hex.nonneg i hi
  have h6 := hex.time i hi
  have h7 : (0 : K) < ((v + 1 : Int) : K) := by
    push_cast
    have := hv.2
    rw [← hV, h6] at this
    linarith
  have : 0 < v + 1 := by exact_mod_cast h7
  omega

/-- C90. From the command line and the configuration file through the text of the output file to the page, for exact arithmetic. Under the
conditions of `document_to_schedule`, pasting the text of the output file into the page's dialog opens a project that is a timetable of the
document, whatever has been done on the page before, if the dialog is open; the page shows this timetable. -/
theorem text_to_page [FloorRing K] {m : Machine K} (hE : E.IsExact) (hD : D.IsExact) (hsig : SignsAgree read) (hnof : isFile "" = false)
    (h : parse E read isFile terminal .schedule a = .accepted o)
    (hz : ∀ t, a.restartPeriod = some t → ¬ LeadingZero t)
    (hb : ∀ t q, a.betaScale = some t → read t = some (.fin q) → ModerateBeta E q)
    (hout : a.output ≠ some "") (hd : m.source = .doc root) (hl : load m.readFloat root = ok p)
    (hs : Schedulable m.readFloat root 1 (2 ^ 31)) (hw : CanWrite m o) (ht : 0 < m.threads)
    {jsonParse : String → Option Json} (hparse : Conforms jsonParse) :
    ∃ (N : Nat) (file : Json) (project : Shown) (of : List Nat),
      (∀ fuel, N ≤ fuel → .file (a.output.getD "schedule.json") file ∈ (body E { m with fuel := fuel } .schedule o).effects) ∧
      Doc.Timetable m.readFloat root IsWholePart of project.tasks ∧
      (∀ (before : Shown) (es : List PageEvent), DialogOpen D T jsonParse before es →
        ∃ pg, (Page.start before).run D T jsonParse (es ++ [.paste file.fileText]) = ok pg ∧ pg.project = project ∧ pg.dialog = none) ∧
      ShowsTimetable project.tasks project.makespan (timelines D project.tasks project.makespan) := by
  obtain ⟨N, mk, of, es, h1, h2, h3, h4, _, h5⟩ := document_to_schedule hE hsig hnof h hz hb hout hd hl hs hw ht
  have hsmall : ∀ i, Occurs i (.obj [("makespan", .int mk), ("tasks", .arr (es.map TaskEntry.object))]) → |i| ≤ 2 ^ 53 := by
    intro i hi
    rcases occurs_schedule hi with rfl | ⟨e, he, hi⟩
    · rw [abs_le]
      constructor <;> omega
    · exact small_entry hl h1 h2.2 h4 he hi
  refine ⟨N, .obj [("makespan", .int mk), ("tasks", .arr (es.map TaskEntry.object))], { makespan := mk, tasks := es, histogram := none, stats := none }, of, ?_, h1, ?_, timelines_timetable hD h2.1 h1.nonneg h4 (timetable_ordered h1 h3)⟩
  · intro fuel hN
    obtain ⟨_, pre, post, _, h6⟩ := h5 fuel hN
    rw [h6]
    exact List.mem_append_left _ (List.mem_append_right _ (List.mem_singleton.2 rfl))
  · intro before evs hopen
    obtain ⟨h6, h7⟩ := paste_opens (D := D) (T := T) (post := []) hopen ⟨_, file_read hparse hsmall, read_schedule mk es⟩
    obtain ⟨pg, h8, h9⟩ := h7 (by simp)
    refine ⟨pg, h8, h9, ?_⟩
    by_contra hne
    exact h6 ⟨pg, h8, hne⟩

/-- C90. The same for the prediction, under the conditions of `document_to_prediction`: pasting the text of the output file opens the project with the
timetable, the histogram and the percentiles. -/
theorem text_to_predicted_page [FloorRing K] {m : Machine K} (hE : E.IsExact) (hsig : SignsAgree read) (hnof : isFile "" = false)
    (h : parse E read isFile terminal .predict a = .accepted o)
    (hz : ∀ t, a.restartPeriod = some t → ¬ LeadingZero t)
    (hb : ∀ t q, a.betaScale = some t → read t = some (.fin q) → ModerateBeta E q)
    (hout : a.output ≠ some "") (hd : m.source = .doc root) (hl : load m.readFloat root = ok p)
    (hs : Schedulable m.readFloat root 1 (2 ^ 31)) (hw : CanWrite m o) (ht : 0 < m.threads)
    {k : Nat} (hk : 1 ≤ k) (hk' : 10000 * k < 2 ^ 31) {jsonParse : String → Option Json} (hparse : Conforms jsonParse) :
    ∃ (N : Nat) (of : List Nat) (mk : Int) (es : List TaskEntry), Doc.Timetable m.readFloat root IsWholePart of es ∧
      ∀ fuel, N ≤ fuel → ∀ fuel', k ≤ fuel' → ∀ zs : List K,
        10000 * k * ((agents root).length + (tasks root).length) ≤ (zs.countP fun z => 0 ≤ z) →
        (∀ vs, Simulations m.readFloat root of es zs vs → ∃ c, m.more vs = ok c) →
        (∀ vs, Simulations m.readFloat root of es zs vs → vs.length = 10000 * k → m.more vs = ok false) →
        ∃ vs, Simulations m.readFloat root of es zs vs ∧ ((∀ v ∈ vs, v < 2 ^ 31) →
          ∃ (file : Json) (bins : List Bin) (st : HistogramStats),
            .file (a.output.getD "time_estimation.json") file ∈
              (body E { m with fuel := fuel, fuel' := fuel', zs := zs } .predict o).effects ∧
            Describes (resolutionOf o.binSize mk) vs bins ∧ st.Conservative K vs bins ∧
            ∀ (before : Shown) (evs : List PageEvent), DialogOpen D T jsonParse before evs →
              ∃ pg, (Page.start before).run D T jsonParse (evs ++ [.paste file.fileText]) = ok pg ∧ pg.dialog = none ∧
                pg.project = { makespan := mk, tasks := es,
                               histogram := some (resolutionOf o.binSize mk, bins.map fun b => (b.low, b.count)), stats := some st }) := by
  obtain ⟨N, mk, of, es, h1, h2, h3, h4, _, h5⟩ := document_to_prediction hE hsig hnof h hz hb hout hd hl hs hw ht hk hk'
  refine ⟨N, of, mk, es, h1, ?_⟩
  intro fuel hN fuel' hf zs hzs hm1 hm2
  obtain ⟨vs, bins, st, g1, g2, g3, g4, gc, g5⟩ := h5 fuel hN fuel' hf zs hzs hm1 hm2 _ rfl
  refine ⟨vs, g1, fun hv => ?_⟩
  obtain ⟨_, pre, post, _, _, g6⟩ := g5 hv
  have hwb : 1 ≤ resolutionOf o.binSize mk ∧ resolutionOf o.binSize mk < 2 ^ 31 := by
    unfold resolutionOf
    have := accepted_binSize hsig h
    split
    · rename_i b hb
      exact this b hb
    · split
      · omega
      · split <;> omega
  have hnn : ∀ v ∈ vs, 0 ≤ v := by
    obtain ⟨runs, hr, rfl, _⟩ := g1
    intro v hv
    obtain ⟨r, hr', rfl⟩ := List.mem_map.1 hv
    exact simulated_nonneg h1 (hr r hr')
  have hbin : ∀ b ∈ bins, -2 ^ 31 < b.low ∧ b.low < 2 ^ 31 ∧ 0 < b.count ∧ b.count < 2 ^ 31 ∧ b.middle = b.low + resolutionOf o.binSize mk / 2 := by
    intro b hb
    have hpos := g4.positive b hb
    have hcnt := g4.counts b hb
    have hwid := g4.width b hb
    obtain ⟨v, hv', hc⟩ : ∃ v ∈ vs, b.Contains v := by
      have : 0 < vs.countP fun v => b.Contains v := by omega
      obtain ⟨v, hv', hc⟩ := List.countP_pos_iff.1 this
      exact ⟨v, hv', of_decide_eq_true hc⟩
    have h6 := hnn v hv'
    have h7 := hv v hv'
    have h8 : vs.countP (fun v => b.Contains v) ≤ vs.length := List.countP_le_length
    obtain ⟨h9, h10⟩ := hc
    refine ⟨by omega, by omega, hpos, by omega, g4.middle b hb⟩
  have hsmall : ∀ i, Occurs i (.obj [
        ("histogram", .obj [("bin_size", .int (resolutionOf o.binSize mk)),
          ("bins", .arr (bins.map fun b => .arr [.int b.low, .int b.count]))]),
        ("makespan", .int mk), ("stats", st.object), ("tasks", .arr (es.map TaskEntry.object))]) → |i| ≤ 2 ^ 53 := by
    intro i hi
    rcases occurs_prediction K hi with rfl | rfl | ⟨b, hb, hi⟩ | ⟨q, hq⟩ | ⟨e, he, hi⟩
    · rw [abs_le]
      constructor <;> omega
    · rw [abs_le]
      constructor <;> omega
    · have := hbin b hb
      rw [abs_le]
      rcases hi with rfl | rfl <;> constructor <;> omega
    · obtain ⟨b, hb, rfl, _⟩ := gc q i hq
      have := hbin b hb
      rw [abs_le]
      constructor <;> omega
    · exact small_entry hl h1 h2.2 h4 he hi
  refine ⟨.obj [
        ("histogram", .obj [("bin_size", .int (resolutionOf o.binSize mk)),
          ("bins", .arr (bins.map fun b => .arr [.int b.low, .int b.count]))]),
        ("makespan", .int mk), ("stats", st.object), ("tasks", .arr (es.map TaskEntry.object))], bins, st, ?_, g4, gc, ?_⟩
  rotate_left
  · intro before evs hopen
    obtain ⟨h6, h7⟩ := paste_opens (D := D) (T := T) (post := []) hopen ⟨_, file_read hparse hsmall, read_prediction _ mk es bins st⟩
    obtain ⟨pg, h8, h9⟩ := h7 (by simp)
    refine ⟨pg, h8, ?_, h9⟩
    by_contra hne
    exact h6 ⟨pg, h8, hne⟩
  · rw [g6]
    exact List.mem_append_left _ (List.mem_append_right _ (List.mem_singleton.2 rfl))

end

/-! ### Examples -/

/-- C90 applies to `angonoka schedule plan.yml` with the example document. -/
example (draws : Nat → Nat → Nat → Stun.Draws ℚ) (T : Texts ℚ) : ∃ o N file project,
    CommandLine.parse FloatEnv.rat exampleRead (fun f => f == "plan.yml") true .schedule { input := "plan.yml" } = .accepted o ∧
    (∀ fuel, N ≤ fuel → .file "schedule.json" file ∈ (Cli.body FloatEnv.rat { exampleMachine draws with fuel := fuel } .schedule o).effects) ∧
    ∀ before : Shown, ∃ pg, (Page.start before).run FloatEnv.rat T readText [.openDialog, .paste file.fileText] = ok pg ∧ pg.project = project := by
  have hpar := options_as_given (E := FloatEnv.rat) (isFile := fun f => f == "plan.yml") (terminal := true) (c := .schedule)
    (a := { input := "plan.yml" }) exampleRead_naturals (by decide) (batch := 10000) (idle := 100000) (window := 100) (period := 256)
    (Or.inl ⟨rfl, rfl⟩) (Or.inl ⟨rfl, rfl⟩) (Or.inl ⟨rfl, rfl⟩) (Or.inl ⟨rfl, rfl⟩)
    (Or.inl ⟨rfl, rfl⟩) (Or.inl ⟨rfl, rfl⟩) (Or.inl ⟨rfl, rfl⟩)
  obtain ⟨N, file, project, of, h1, _, h2, _⟩ := text_to_page (D := FloatEnv.rat) (T := T) (m := exampleMachine draws) (fun _ => rfl) (fun _ => rfl)
    exampleRead_signs (by decide) hpar (by simp) (by simp) (by simp) rfl Sample.plan_loads
    (sound_schedulable Sample.plan_loads plan_sound plan_moderate) example_canWrite (by exact (by decide : 0 < 4)) reader_exists
  refine ⟨_, N, file, project, hpar, h1, fun before => ?_⟩
  obtain ⟨pg, h3, h4, _⟩ := h2 before [.openDialog] ⟨_, rfl, by simp⟩
  exact ⟨pg, h3, h4⟩

/-- A text with a quotation mark, a backslash, a new line and a control character -/
example : IsText (.str "a\"b\\\n\x01é") "\"a\\\"b\\\\\\n\\u0001é\"" := by
  have := file_is_json (.str "a\"b\\\n\x01é")
  rwa [show (Json.str "a\"b\\\n\x01é").fileText = "\"a\\\"b\\\\\\n\\u0001é\"" by
    unfold Json.fileText
    rw [Json.dump]
    decide +kernel] at this

/-- A file -/
example : (Json.obj [("makespan", .int 7), ("tasks", .arr [.obj [("agent", .str "Bob")], .int (-3)])]).fileText
    = "{\n    \"makespan\": 7,\n    \"tasks\": [\n        {\n            \"agent\": \"Bob\"\n        },\n        -3\n    ]\n}" := by
  unfold Json.fileText
  simp only [Json.dump, Json.dumpMembers, Json.dumpElements]
  decide +kernel

end Angonoka.Props
