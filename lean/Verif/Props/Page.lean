import Verif.Props.DocumentedRun
import Verif.Props.Visualizer
import Verif.Props.Bars
import Verif.Spec.Page

/-!
# C80, C81, C82: the visualizer's page
-/

set_option linter.unusedSectionVars false

namespace Angonoka.Props
open Angonoka Outcome Visualizer

variable {K : Type} [_root_.Field K] [LinearOrder K] [IsStrictOrderedRing K]

/-! ## C80: the program's files on the page -/

theorem readTask_object (e : TaskEntry) : readTask e.object = some e := by
  simp [readTask, TaskEntry.object, property, List.lookup, asString, asInt]

theorem readTask_objects (es : List TaskEntry) : es.mapM (readTask ∘ TaskEntry.object) = some es := by
  induction es with
  | nil => rfl
  | cons e es ih => simp [List.mapM_cons, readTask_object, ih]

theorem readBin_objects (bins : List Bin) :
    bins.mapM (readBin ∘ fun b => Json.arr [.int b.low, .int b.count]) = some (bins.map fun b => (b.low, b.count)) := by
  induction bins with
  | nil => rfl
  | cons e es ih => simp [List.mapM_cons, readBin, ih]

/-- C80. The page reads what the command `schedule` writes. -/
theorem read_schedule (mk : Int) (es : List TaskEntry) :
    readProject (.obj [("makespan", .int mk), ("tasks", .arr (es.map TaskEntry.object))])
      = some { makespan := mk, tasks := es, histogram := none, stats := none } := by
  simp [readProject, property, List.lookup, asInt, asArray, readTask_objects, readOptional]

/-- C80. The page reads what the prediction writes. -/
theorem read_prediction (w mk : Int) (es : List TaskEntry) (bins : List Bin) (st : HistogramStats) :
    readProject (.obj [
        ("histogram", .obj [("bin_size", .int w), ("bins", .arr (bins.map fun b => .arr [.int b.low, .int b.count]))]),
        ("makespan", .int mk), ("stats", st.object), ("tasks", .arr (es.map TaskEntry.object))])
      = some { makespan := mk, tasks := es, histogram := some (w, bins.map fun b => (b.low, b.count)), stats := some st } := by
  simp [readProject, property, List.lookup, asInt, asArray, readTask_objects, readBin_objects, readOptional, readHistogram,
    readStats, HistogramStats.object]

/-- The strips of an agent -/
theorem timelines_rows {D : FloatEnv K} (hD : D.IsExact) {es : List TaskEntry} {mk : Int}
    (hord : es.Pairwise fun a b => a.agent = b.agent → a.priority < b.priority ∧ a.start + a.duration ≤ b.start) :
    ∀ r ∈ timelines D es mk, r.2 = (es.filter fun e => e.agent = r.1).map fun e =>
      { name := e.task, left := (e.start : K) / mk * 100, width := (e.duration : K) / mk * 100 } := by
  intro r hr
  obtain ⟨v, _, rfl⟩ := List.mem_map.1 hr
  dsimp only
  rw [agentTasks_eq hord]
  have : (es.filter fun e => e.agent == v) = es.filter fun e => decide (e.agent = v) := by
    apply List.filter_congr
    intro e _
    rw [Bool.eq_iff_iff]
    simp
  rw [this]
  apply List.map_congr_left
  intro e _
  simp only [strip, FloatEnv.mul, FloatEnv.div, hD _]

/-- A timetable whose entries are in order is shown as it should be. -/
theorem timelines_timetable {D : FloatEnv K} (hD : D.IsExact) {es : List TaskEntry} {mk : Int} (hmk : 1 ≤ mk)
    (h0 : ∀ e ∈ es, 0 ≤ e.start ∧ 0 ≤ e.duration) (hend : ∀ e ∈ es, e.start + e.duration ≤ mk)
    (hord : es.Pairwise fun a b => a.agent = b.agent → a.priority < b.priority ∧ a.start + a.duration ≤ b.start) :
    ShowsTimetable es mk (timelines D es mk) := by
  have hmK : (0 : K) < mk := by exact_mod_cast (show 0 < mk by omega)
  have hfst : (timelines D es mk).map Prod.fst = agentNames es := by
    simp [timelines, Function.comp_def]
  have hrow := timelines_rows hD (mk := mk) hord
  refine ⟨by rw [hfst]; exact agentNames_sorted es, fun v => by rw [hfst]; exact mem_agentNames, hrow, ?_, ?_⟩
  · intro r hr x hx
    rw [hrow r hr] at hx
    obtain ⟨e, he, rfl⟩ := List.mem_map.1 hx
    have he' := List.mem_of_mem_filter he
    obtain ⟨h1, h2⟩ := h0 e he'
    have h1' : (0 : K) ≤ e.start := by exact_mod_cast h1
    have h2' : (0 : K) ≤ e.duration := by exact_mod_cast h2
    refine ⟨by positivity, by positivity, ?_⟩
    dsimp only
    rw [← add_mul, ← add_div]
    have : ((e.start : K) + e.duration) / mk ≤ 1 := by
      rw [div_le_one hmK]
      exact_mod_cast hend e he'
    linarith
  · intro r hr
    rw [hrow r hr, List.pairwise_map, List.pairwise_filter]
    refine hord.imp fun {a b} h ha hb => ?_
    have h1 := (h ((of_decide_eq_true ha).trans (of_decide_eq_true hb).symm)).2
    dsimp only
    rw [← add_mul, ← add_div]
    have : ((a.start : K) + a.duration) / mk ≤ b.start / mk := by
      apply div_le_div_of_nonneg_right _ hmK.le
      exact_mod_cast h1
    linarith

/-- The entries of an agent in a timetable of a document are in order. -/
theorem timetable_ordered {rf : String → Option XFloat} {root : Yaml} {R : Int → ℚ → Prop} {of : List Nat} {es : List TaskEntry}
    (h : Doc.Timetable rf root R of es)
    (hw : ∀ (i j : Nat) (e f : TaskEntry), es[i]? = some e → es[j]? = some f → Doc.MustWait root of es i j →
      f.start + f.duration ≤ e.start) :
    es.Pairwise fun a b => a.agent = b.agent → a.priority < b.priority ∧ a.start + a.duration ≤ b.start := by
  rw [List.pairwise_iff_getElem]
  intro i j hi hj hij hag
  have ei : es[i]? = some es[i] := List.getElem?_eq_getElem hi
  have ej : es[j]? = some es[j] := List.getElem?_eq_getElem hj
  refine ⟨?_, hw j i _ _ ej ei (Or.inr ⟨hij, _, _, ej, ei, hag.symm⟩)⟩
  rw [h.priority i _ ei, h.priority j _ ej, hag]
  have h1 : es.take (i + 1) <+: es.take j := by
    rw [List.prefix_take_iff]
    exact ⟨List.take_prefix _ _, by simp; omega⟩
  have h2 := h1.sublist.countP_le (p := fun x => decide (x.agent = es[j].agent))
  rw [List.take_add_one, List.countP_append] at h2
  have h3 : ((es[i]?).toList).countP (fun x => decide (x.agent = es[j].agent)) = 1 := by
    simp [hi, hag]
  omega

section
open Cli CommandLine Doc Stun
variable {E D : FloatEnv K} {read : ReadReal} {isFile : String → Bool} {terminal : Bool} {a : Arguments} {o : Cli.Options K}
  {root : Yaml} {p : Project}

/-- C80. From the command line and the configuration file to the page, for exact arithmetic. Under the conditions of `document_to_schedule`, the output file
is a project for the page, with a timetable of the document, and the page shows this timetable. -/
theorem document_to_page [FloorRing K] {m : Machine K} (hE : E.IsExact) (hD : D.IsExact) (hsig : SignsAgree read) (hnof : isFile "" = false)
    (h : parse E read isFile terminal .schedule a = .accepted o)
    (hz : ∀ t, a.restartPeriod = some t → ¬ LeadingZero t)
    (hb : ∀ t q, a.betaScale = some t → read t = some (.fin q) → ModerateBeta E q)
    (hout : a.output ≠ some "") (hd : m.source = .doc root) (hl : load m.readFloat root = ok p)
    (hs : Schedulable m.readFloat root 1 (2 ^ 31)) (hw : CanWrite m o) (ht : 0 < m.threads) :
    ∃ (N : Nat) (file : Json) (project : Shown) (of : List Nat),
      (∀ fuel, N ≤ fuel → .file (a.output.getD "schedule.json") file ∈ (body E { m with fuel := fuel } .schedule o).effects) ∧
      readProject file = some project ∧ Doc.Timetable m.readFloat root IsWholePart of project.tasks ∧
      ShowsTimetable project.tasks project.makespan (timelines D project.tasks project.makespan) := by
  obtain ⟨N, mk, of, es, h1, h2, h3, h4, _, h5⟩ := document_to_schedule hE hsig hnof h hz hb hout hd hl hs hw ht
  refine ⟨N, _, _, of, ?_, read_schedule mk es, h1, timelines_timetable hD h2.1 h1.nonneg h4 (timetable_ordered h1 h3)⟩
  intro fuel hN
  obtain ⟨_, pre, post, _, h6⟩ := h5 fuel hN
  rw [h6]
  exact List.mem_append_left _ (List.mem_append_right _ (List.mem_singleton.2 rfl))

/-- C80. The same for the prediction, under the conditions of `document_to_prediction`. The output file is a project for the page, with a timetable of the document and
the histogram and the percentiles of the simulations; the page shows the timetable and the simulations' results. -/
theorem document_to_predicted_page [FloorRing K] {m : Machine K} (hE : E.IsExact) (hD : D.IsExact) (hsig : SignsAgree read) (hnof : isFile "" = false)
    (h : parse E read isFile terminal .predict a = .accepted o)
    (hz : ∀ t, a.restartPeriod = some t → ¬ LeadingZero t)
    (hb : ∀ t q, a.betaScale = some t → read t = some (.fin q) → ModerateBeta E q)
    (hout : a.output ≠ some "") (hd : m.source = .doc root) (hl : load m.readFloat root = ok p)
    (hs : Schedulable m.readFloat root 1 (2 ^ 31)) (hw : CanWrite m o) (ht : 0 < m.threads)
    {k : Nat} (hk : 1 ≤ k) (hk' : 10000 * k < 2 ^ 31) :
    ∃ (N : Nat) (of : List Nat) (mk : Int) (es : List TaskEntry), Doc.Timetable m.readFloat root IsWholePart of es ∧
      ShowsTimetable es mk (timelines D es mk) ∧
      ∀ fuel, N ≤ fuel → ∀ fuel', k ≤ fuel' → ∀ zs : List K,
        10000 * k * ((agents root).length + (tasks root).length) ≤ (zs.countP fun z => 0 ≤ z) →
        (∀ vs, Simulations m.readFloat root of es zs vs → ∃ c, m.more vs = ok c) →
        (∀ vs, Simulations m.readFloat root of es zs vs → vs.length = 10000 * k → m.more vs = ok false) →
        ∃ vs, Simulations m.readFloat root of es zs vs ∧ vs ≠ [] ∧ vs.length ≤ 10000 * k ∧ ((∀ v ∈ vs, v < 2 ^ 31) →
          ∃ (file : Json) (w : Int) (bins : List (Int × Int)) (st : HistogramStats) (bs : List (Bar K)),
            .file (a.output.getD "time_estimation.json") file ∈
              (body E { m with fuel := fuel, fuel' := fuel', zs := zs } .predict o).effects ∧
            readProject file = some { makespan := mk, tasks := es, histogram := some (w, bins), stats := some st } ∧
            bars D w bins st = ok bs ∧ w = resolutionOf o.binSize mk ∧ ShowsHistogram w vs st.p95 bs) := by
  obtain ⟨N, mk, of, es, h1, h2, h3, h4, _, h5⟩ := document_to_prediction hE hsig hnof h hz hb hout hd hl hs hw ht hk hk'
  refine ⟨N, of, mk, es, h1, timelines_timetable hD h2.1 h1.nonneg h4 (timetable_ordered h1 h3), ?_⟩
  intro fuel hN fuel' hf zs hzs hm1 hm2
  obtain ⟨vs, bins, st, g1, g2, g3, g4, _, g5⟩ := h5 fuel hN fuel' hf zs hzs hm1 hm2 _ rfl
  refine ⟨vs, g1, g2, g3, fun hv => ?_⟩
  obtain ⟨_, pre, post, _, _, g6⟩ := g5 hv
  have hw1 : 1 ≤ resolutionOf o.binSize mk := by
    unfold resolutionOf
    have := accepted_binSize hsig h
    split
    · rename_i b hb
      exact (this b hb).1
    · split
      · omega
      · split <;> omega
  have hne : bins ≠ [] := by
    rintro rfl
    obtain ⟨v, hv'⟩ := List.exists_mem_of_ne_nil _ g2
    obtain ⟨b, hb, _⟩ := g4.covers v hv'
    cases hb
  obtain ⟨bs, most, b1, b2, b3, _, b5, b6⟩ := bars_describe hD hw1 g4 hne st
  refine ⟨_, _, _, st, bs, ?_, read_prediction _ mk es bins st, b1, rfl, b2, b3, most, b5, b6⟩
  rw [g6]
  exact List.mem_append_left _ (List.mem_append_right _ (List.mem_singleton.2 rfl))

/-- C80 applies to `angonoka schedule plan.yml` with the example document. -/
example (draws : Nat → Nat → Nat → Draws ℚ) : ∃ o N file project,
    CommandLine.parse FloatEnv.rat exampleRead (fun f => f == "plan.yml") true .schedule { input := "plan.yml" } = .accepted o ∧
    (∀ fuel, N ≤ fuel → .file "schedule.json" file ∈ (body FloatEnv.rat { exampleMachine draws with fuel := fuel } .schedule o).effects) ∧
    readProject file = some project ∧
    ShowsTimetable project.tasks project.makespan (timelines FloatEnv.rat project.tasks project.makespan) := by
  have hpar := options_as_given (E := FloatEnv.rat) (isFile := fun f => f == "plan.yml") (terminal := true) (c := .schedule)
    (a := { input := "plan.yml" }) exampleRead_naturals (by decide) (batch := 10000) (idle := 100000) (window := 100) (period := 256)
    (Or.inl ⟨rfl, rfl⟩) (Or.inl ⟨rfl, rfl⟩) (Or.inl ⟨rfl, rfl⟩) (Or.inl ⟨rfl, rfl⟩)
    (Or.inl ⟨rfl, rfl⟩) (Or.inl ⟨rfl, rfl⟩) (Or.inl ⟨rfl, rfl⟩)
  obtain ⟨N, file, project, of, h1, h2, _, h3⟩ := document_to_page (D := FloatEnv.rat) (m := exampleMachine draws) (fun _ => rfl) (fun _ => rfl)
    exampleRead_signs (by decide) hpar (by simp) (by simp) (by simp) rfl Sample.plan_loads
    (sound_schedulable Sample.plan_loads plan_sound plan_moderate) example_canWrite (by exact (by decide : 0 < 4))
  exact ⟨_, N, file, project, hpar, h1, h2, h3⟩

end

/-! ## C81: opening projects -/

section
variable {D : FloatEnv K} {T : Texts K} {parse : String → Option Json} {pg pg' pg₁ : Page} {es : List PageEvent}

theorem run_append {xs ys : List PageEvent} : pg.run D T parse (xs ++ ys) = (do
    let pg ← pg.run D T parse xs
    pg.run D T parse ys) := by
  induction xs generalizing pg with
  | nil => rfl
  | cons e xs ih =>
    simp only [List.cons_append, Page.run]
    cases h : pg.step D T parse e with
    | ok q => simp only [ok_bind]; exact ih
    | throws e => rfl
    | ub s => rfl

theorem run_append_ok {xs ys : List PageEvent} (h : pg.run D T parse (xs ++ ys) = ok pg') :
    ∃ q, pg.run D T parse xs = ok q ∧ q.run D T parse ys = ok pg' := by
  rw [run_append] at h
  exact bind_eq_ok.1 h

theorem run_cons_ok {e : PageEvent} {ys : List PageEvent} (h : pg.run D T parse (e :: ys) = ok pg') :
    ∃ q, pg.step D T parse e = ok q ∧ q.run D T parse ys = ok pg' :=
  bind_eq_ok.1 h

/-- What a step can do -/
theorem step_cases {e : PageEvent} (h : pg.step D T parse e = ok pg') :
    (∃ text, (e = .paste text ∨ ∃ k, e = .fileRead k ∧ pg.files[k]? = some (pg.opened, text)) ∧ pg.dialog.isSome ∧
      ∃ project, IsProject parse text project ∧ pg' = { pg with dialog := none, project := project }) ∨
    (∃ text, e = .paste text ∧ pg.dialog.isSome ∧ parse text = none ∧ pg' = { pg with dialog := some "Invalid JSON" }) ∨
    (∃ k, e = .fileRead k ∧ pg' = pg) ∨
    (¬ e.Brings ∧ pg'.project = pg.project ∧ (pg'.panel = pg.panel ∧ (e = .openDialog ∧ (pg.dialog.isSome ∧ pg' = pg ∨
          pg.dialog = none ∧ pg'.dialog = some "" ∧ pg'.opened = pg.opened + 1 ∧ pg'.files = pg.files) ∨
        e = .closeDialog ∧ pg'.dialog = none ∧ pg'.opened = pg.opened ∧ pg'.files = pg.files ∨
        pg'.dialog = pg.dialog ∧ pg'.opened = pg.opened ∧ (pg'.files = pg.files ∨
          ∃ text, e = .choose text ∧ pg'.files = pg.files ++ [(pg.opened, text)])) ∨
      pg'.dialog = pg.dialog ∧ pg'.opened = pg.opened ∧ pg'.files = pg.files ∧
        (pg'.panel = none ∨ ∃ x, pg'.panel = some x ∧ ((∃ (i : Nat) (name : String), (agentNames pg.project.tasks)[i]? = some name ∧
            x = agentPanel D T name (agentTasks pg.project.tasks name) pg.project.makespan) ∨
          ∃ (i j : Nat) (name : String) (en : TaskEntry), (agentNames pg.project.tasks)[i]? = some name ∧
            (agentTasks pg.project.tasks name)[j]? = some en ∧ x = taskPanel T en)))) ∨
    (pg' = pg ∧ ((∃ text, e = .paste text) ∧ pg.dialog = none ∨ ¬ e.Brings)) := by
  have opens : ∀ {j : Json} {text : String}, parse text = some j → pg.openProject j = ok pg' →
      ∃ project, IsProject parse text project ∧ pg' = { pg with dialog := none, project := project } := by
    intro j text hj ho
    unfold Page.openProject at ho
    cases hr : readProject j with
    | none => rw [hr] at ho; cases ho
    | some project =>
      rw [hr] at ho
      cases ho
      exact ⟨project, ⟨j, hj, hr⟩, rfl⟩
  cases e with
  | openDialog =>
    unfold Page.step at h
    dsimp only at h
    split at h
    · rename_i hd
      cases h
      exact .inr (.inr (.inr (.inl ⟨id, rfl, .inl ⟨rfl, .inl ⟨rfl, .inl ⟨hd, rfl⟩⟩⟩⟩)))
    · rename_i hd
      cases h
      exact .inr (.inr (.inr (.inl ⟨id, rfl, .inl ⟨rfl, .inl ⟨rfl, .inr ⟨by simpa using hd, rfl, rfl, rfl⟩⟩⟩⟩)))
  | closeDialog =>
    cases h
    exact .inr (.inr (.inr (.inl ⟨id, rfl, .inl ⟨rfl, .inr (.inl ⟨rfl, rfl, rfl, rfl⟩)⟩⟩)))
  | paste text =>
    unfold Page.step at h
    dsimp only at h
    split at h
    · rename_i hd
      unfold Page.pasteProject at h
      cases hp : parse text with
      | none =>
        rw [hp] at h
        cases h
        exact .inr (.inl ⟨text, rfl, hd, hp, rfl⟩)
      | some j =>
        rw [hp] at h
        obtain ⟨q, h1, h2⟩ := opens hp h
        exact .inl ⟨text, .inl rfl, hd, q, h1, h2⟩
    · rename_i hd
      cases h
      exact .inr (.inr (.inr (.inr ⟨rfl, .inl ⟨⟨text, rfl⟩, by simpa using hd⟩⟩)))
  | choose text =>
    unfold Page.step at h
    dsimp only at h
    split at h
    · cases h
      exact .inr (.inr (.inr (.inl ⟨id, rfl, .inl ⟨rfl, .inr (.inr ⟨rfl, rfl, .inr ⟨text, rfl, rfl⟩⟩)⟩⟩)))
    · cases h
      exact .inr (.inr (.inr (.inr ⟨rfl, .inr id⟩)))
  | fileRead k =>
    unfold Page.step at h
    dsimp only at h
    cases hf : pg.files[k]? with
    | none =>
      rw [hf] at h
      cases h
      exact .inr (.inr (.inl ⟨k, rfl, rfl⟩))
    | some x =>
      obtain ⟨n, text⟩ := x
      rw [hf] at h
      dsimp only at h
      unfold Page.uploadProject at h
      split at h
      · rename_i hd
        cases hp : parse text with
        | none =>
          rw [hp] at h
          cases h
          exact .inr (.inr (.inl ⟨k, rfl, rfl⟩))
        | some j =>
          rw [hp] at h
          obtain ⟨q, h1, h2⟩ := opens hp h
          exact .inl ⟨text, .inr ⟨k, rfl, by rw [← hd.2]; exact hf⟩, hd.1, q, h1, h2⟩
      · cases h
        exact .inr (.inr (.inl ⟨k, rfl, rfl⟩))
  | agent i =>
    unfold Page.step at h
    dsimp only at h
    cases hn : (agentNames pg.project.tasks)[i]? with
    | none =>
      rw [hn] at h
      cases h
      exact .inr (.inr (.inr (.inr ⟨rfl, .inr id⟩)))
    | some name =>
      rw [hn] at h
      cases h
      exact .inr (.inr (.inr (.inl ⟨id, rfl, .inr ⟨rfl, rfl, rfl, .inr ⟨_, rfl, .inl ⟨i, name, hn, rfl⟩⟩⟩⟩)))
  | task i j =>
    unfold Page.step at h
    dsimp only at h
    cases hn : (agentNames pg.project.tasks)[i]? with
    | none =>
      rw [hn] at h
      cases h
      exact .inr (.inr (.inr (.inr ⟨rfl, .inr id⟩)))
    | some name =>
      rw [hn, Option.bind_some] at h
      cases ht : (agentTasks pg.project.tasks name)[j]? with
      | none =>
        rw [ht] at h
        cases h
        exact .inr (.inr (.inr (.inr ⟨rfl, .inr id⟩)))
      | some en =>
        rw [ht] at h
        cases h
        exact .inr (.inr (.inr (.inl ⟨id, rfl, .inr ⟨rfl, rfl, rfl, .inr ⟨_, rfl, .inr ⟨i, j, name, en, hn, ht, rfl⟩⟩⟩⟩)))
  | closePanel =>
    cases h
    exact .inr (.inr (.inr (.inl ⟨id, rfl, .inr ⟨rfl, rfl, rfl, .inl rfl⟩⟩)))

/-- C81. The page shows the project it was opened with, or one that the user has pasted or chosen as a file. -/
theorem project_source {project : Shown} (h : (Page.start project).run D T parse es = ok pg) :
    pg.project = project ∨ ∃ text, (.paste text ∈ es ∨ .choose text ∈ es) ∧ IsProject parse text pg.project := by
  suffices key : ∀ {pg₀ pg : Page} {es : List PageEvent}, pg₀.run D T parse es = ok pg →
      (∀ x ∈ pg.files, x ∈ pg₀.files ∨ .choose x.2 ∈ es) ∧
      (pg.project = pg₀.project ∨ ∃ text, (.paste text ∈ es ∨ .choose text ∈ es ∨ ∃ n, (n, text) ∈ pg₀.files) ∧
        IsProject parse text pg.project) by
    obtain ⟨_, h1 | ⟨text, h1 | h1 | ⟨n, h1⟩, h2⟩⟩ := key h
    · exact .inl h1
    · exact .inr ⟨text, .inl h1, h2⟩
    · exact .inr ⟨text, .inr h1, h2⟩
    · cases h1
  intro pg₀ pg es
  induction es generalizing pg₀ with
  | nil =>
    intro h
    cases h
    exact ⟨fun x hx => .inl hx, .inl rfl⟩
  | cons e es ih =>
    intro h
    obtain ⟨q, h1, h2⟩ := run_cons_ok h
    obtain ⟨i1, i2⟩ := ih h2
    -- files of the page after the first event
    have hf : ∀ x ∈ q.files, x ∈ pg₀.files ∨ .choose x.2 ∈ e :: es := by
      intro x hx
      rcases step_cases h1 with ⟨_, _, _, _, _, rfl⟩ | ⟨_, _, _, _, rfl⟩ | ⟨_, _, rfl⟩ | ⟨_, _, hc⟩ | ⟨rfl, _⟩
      · exact .inl hx
      · exact .inl hx
      · exact .inl hx
      · rcases hc with ⟨_, ⟨_, ⟨_, rfl⟩ | ⟨_, _, _, hc⟩⟩ | ⟨_, _, _, hc⟩ | ⟨_, _, hc | ⟨text, rfl, hc⟩⟩⟩ | ⟨_, _, hc, _⟩
        · exact .inl hx
        · exact .inl (hc ▸ hx)
        · exact .inl (hc ▸ hx)
        · exact .inl (hc ▸ hx)
        · rw [hc] at hx
          rcases List.mem_append.1 hx with hx | hx
          · exact .inl hx
          · rw [List.mem_singleton.1 hx]
            exact .inr (by simp)
        · exact .inl (hc ▸ hx)
      · exact .inl hx
    refine ⟨?_, ?_⟩
    · intro x hx
      rcases i1 x hx with hx | hx
      · exact hf x hx
      · exact .inr (List.mem_cons_of_mem _ hx)
    · rcases i2 with i2 | ⟨text, i2, i3⟩
      · rw [i2]
        rcases step_cases h1 with ⟨text, ht, _, pr, hp, rfl⟩ | ⟨_, _, _, _, rfl⟩ | ⟨_, _, rfl⟩ | ⟨_, hc, _⟩ | ⟨rfl, _⟩
        · refine .inr ⟨text, ?_, hp⟩
          rcases ht with rfl | ⟨k, _, hk⟩
          · exact .inl (by simp)
          · exact .inr (.inr ⟨_, List.mem_of_getElem? hk⟩)
        · exact .inl rfl
        · exact .inl rfl
        · exact .inl hc
        · exact .inl rfl
      · refine .inr ⟨text, ?_, i3⟩
        rcases i2 with i2 | i2 | ⟨n, i2⟩
        · exact .inl (List.mem_cons_of_mem _ i2)
        · exact .inr (.inl (List.mem_cons_of_mem _ i2))
        · rcases hf _ i2 with i2 | i2
          · exact .inr (.inr ⟨n, i2⟩)
          · exact .inr (.inl i2)

/-- Without events that bring a project, the page shows the same project and nothing goes wrong. -/
theorem run_keeps (h : ∀ e ∈ es, ¬ e.Brings) : ∃ pg', pg.run D T parse es = ok pg' ∧ pg'.project = pg.project := by
  induction es generalizing pg with
  | nil => exact ⟨pg, rfl, rfl⟩
  | cons e es ih =>
    have he := h e (by simp)
    have hs : ∃ q, pg.step D T parse e = ok q := by
      cases e with
      | paste => exact absurd trivial he
      | fileRead => exact absurd trivial he
      | openDialog => unfold Page.step; dsimp only; split <;> exact ⟨_, rfl⟩
      | closeDialog => exact ⟨_, rfl⟩
      | choose => unfold Page.step; dsimp only; split <;> exact ⟨_, rfl⟩
      | agent => unfold Page.step; dsimp only; split <;> exact ⟨_, rfl⟩
      | task => unfold Page.step; dsimp only; split <;> exact ⟨_, rfl⟩
      | closePanel => exact ⟨_, rfl⟩
    obtain ⟨q, hq⟩ := hs
    obtain ⟨pg', h1, h2⟩ := ih (pg := q) fun e he => h e (by simp [he])
    refine ⟨pg', by rw [Page.run, hq, ok_bind, h1], ?_⟩
    rw [h2]
    rcases step_cases hq with ⟨_, ht, _⟩ | ⟨_, rfl, _⟩ | ⟨_, rfl, _⟩ | ⟨_, hc, _⟩ | ⟨rfl, _⟩
    · rcases ht with rfl | ⟨_, rfl, _⟩ <;> exact absurd trivial he
    · exact absurd trivial he
    · exact absurd trivial he
    · exact hc
    · rfl

/-- C81. A project that is pasted into the dialog closes the dialog and is shown from then on, until another text is pasted or another file has been read. -/
theorem paste_opens {project new : Shown} {text : String} {pre post : List PageEvent}
    (hpre : DialogOpen D T parse project pre) (ht : IsProject parse text new) :
    ¬ DialogOpen D T parse project (pre ++ [.paste text]) ∧
    ((∀ e ∈ post, ¬ e.Brings) →
      ∃ pg, (Page.start project).run D T parse (pre ++ .paste text :: post) = ok pg ∧ pg.project = new) := by
  obtain ⟨q, hq, hd⟩ := hpre
  obtain ⟨j, hj, hr⟩ := ht
  have hstep : q.step D T parse (.paste text) = ok { q with dialog := none, project := new } := by
    simp only [Page.step, Option.isSome_iff_ne_none.2 hd, if_true, Page.pasteProject, hj, Page.openProject, hr]
  refine ⟨?_, fun hpost => ?_⟩
  · rintro ⟨q', hq', hd'⟩
    rw [run_append, hq, ok_bind, Page.run, hstep] at hq'
    cases hq'
    exact hd' rfl
  · obtain ⟨pg, h1, h2⟩ := run_keeps (D := D) (T := T) (parse := parse) (pg := { q with dialog := none, project := new }) hpost
    exact ⟨pg, by rw [run_append, hq, ok_bind, Page.run, hstep, ok_bind, h1], h2⟩

/-- C81. Text that is not JSON does not change what is shown, and the dialog says so. -/
theorem paste_rejected {text : String} (hd : pg.dialog ≠ none) (ht : parse text = none) :
    pg.step D T parse (.paste text) = ok { pg with dialog := some "Invalid JSON" } := by
  simp only [Page.step, Option.isSome_iff_ne_none.2 hd, if_true, Page.pasteProject, ht]

/-- The dialog has the message. -/
theorem message_cases {project : Shown} (h : (Page.start project).run D T parse es = ok pg) {msg : String} (hm : pg.dialog = some msg) :
    (msg = "" ∧ ¬ PastedInvalid D T parse project es) ∨
    (msg = "Invalid JSON" ∧ PastedInvalid D T parse project es) := by
  induction es using List.reverseRecOn generalizing pg msg with
  | nil =>
    cases h
    cases hm
  | append_singleton es e ih =>
    obtain ⟨q, h1, h2⟩ := run_append_ok h
    have hopen : DialogOpen D T parse project (es ++ [e]) := ⟨pg, h, by rw [hm]; simp⟩
    have h3 : q.step D T parse e = ok pg := by
      obtain ⟨q', h3, h4⟩ := run_cons_ok h2
      cases h4
      exact h3
    -- messages stay while the dialog is open
    have extend : PastedInvalid D T parse project es →
        PastedInvalid D T parse project (es ++ [e]) := by
      rintro ⟨pre, text, post, rfl, g1, g2, g3⟩
      refine ⟨pre, text, post ++ [e], by simp, g1, g2, ?_⟩
      intro k hk
      rw [List.length_append, List.length_singleton] at hk
      by_cases hk' : k ≤ post.length
      · rw [List.take_append_of_le_length hk']
        exact g3 k hk'
      · rw [List.take_of_length_le (by simp; omega)]
        simpa using hopen
    have shrink : ¬ (∃ text, e = .paste text ∧ parse text = none ∧ q.dialog ≠ none) → q.dialog ≠ none →
        PastedInvalid D T parse project (es ++ [e]) →
        PastedInvalid D T parse project es := by
      rintro hno hqd ⟨pre, text, post, g0, g1, g2, g3⟩
      rcases List.eq_nil_or_concat post with rfl | ⟨post', e', rfl⟩
      · have := List.append_inj' g0 rfl
        obtain ⟨rfl, he⟩ := this
        cases he
        exact absurd ⟨text, rfl, g1, hqd⟩ hno
      · have g0' : es ++ [e] = (pre ++ .paste text :: post') ++ [e'] := by simpa using g0
        obtain ⟨rfl, he⟩ := List.append_inj' g0' rfl
        refine ⟨pre, text, post', rfl, g1, g2, fun k hk => ?_⟩
        have := g3 k (by simp; omega)
        rwa [List.concat_eq_append, List.take_append_of_le_length hk] at this
    have same : pg.dialog = q.dialog → ¬ (∃ text, e = .paste text ∧ parse text = none ∧ q.dialog ≠ none) →
        (msg = "" ∧ ¬ PastedInvalid D T parse project (es ++ [e])) ∨ (msg = "Invalid JSON" ∧ PastedInvalid D T parse project (es ++ [e])) := fun hsame hno => by
      have hqd : q.dialog = some msg := by rw [← hsame, hm]
      rcases ih h1 hqd with ⟨g1, g2⟩ | ⟨g1, g2⟩
      · exact Or.inl ⟨g1, fun hc => g2 (shrink hno (by rw [hqd]; simp) hc)⟩
      · exact Or.inr ⟨g1, extend g2⟩
    rcases step_cases h3 with ⟨_, _, _, _, _, rfl⟩ | ⟨text, rfl, g1, g2, rfl⟩ | ⟨k, rfl, rfl⟩ | ⟨hb, _, hc⟩ | ⟨rfl, hc⟩
    · cases hm
    · cases hm
      refine Or.inr ⟨rfl, es, text, [], rfl, g2, ⟨q, h1, Option.isSome_iff_ne_none.1 g1⟩, ?_⟩
      intro k _
      simpa using hopen
    · refine same rfl ?_
      rintro ⟨_, h, _⟩
      cases h
    · have hno : ¬ (∃ text, e = .paste text ∧ parse text = none ∧ q.dialog ≠ none) := by
        rintro ⟨_, rfl, _⟩
        exact hb trivial
      rcases hc with ⟨_, ⟨rfl, ⟨_, rfl⟩ | ⟨g1, g2, _⟩⟩ | ⟨_, hc, _⟩ | ⟨hc, _⟩⟩ | ⟨hc, _⟩
      · exact same rfl hno
      · rw [g2] at hm
        cases hm
        refine Or.inl ⟨rfl, ?_⟩
        rintro ⟨pre, text, post, g0, _, _, g3⟩
        rcases List.eq_nil_or_concat post with rfl | ⟨post', e', rfl⟩
        · have := List.append_inj' g0 rfl
          cases this.2
        · have g0' : es ++ [PageEvent.openDialog] = (pre ++ .paste text :: post') ++ [e'] := by simpa using g0
          obtain ⟨rfl, he⟩ := List.append_inj' g0' rfl
          have := g3 post'.length (by simp)
          rw [List.concat_eq_append, List.take_append_of_le_length le_rfl, List.take_length] at this
          obtain ⟨q', hq', hd'⟩ := this
          rw [h1] at hq'
          cases hq'
          exact hd' g1
      · rw [hc] at hm
        cases hm
      · exact same hc hno
      · exact same hc hno
    · refine same rfl ?_
      rintro ⟨_, rfl, _, hd⟩
      rcases hc with ⟨_, hc⟩ | hc
      · exact hd hc
      · exact hc trivial

/-- C81. The dialog has the message `Invalid JSON` if and only if text that is not JSON has been pasted since the dialog was opened. Otherwise it has none.
What is missing is the same for files, see `upload_silent`. -/
theorem message_shown_partial {project : Shown} (h : (Page.start project).run D T parse es = ok pg) {msg : String} (hm : pg.dialog = some msg) :
    (msg = "" ∨ msg = "Invalid JSON") ∧
    (msg = "Invalid JSON" ↔ PastedInvalid D T parse project es) := by
  rcases message_cases h hm with ⟨rfl, h1⟩ | ⟨rfl, h1⟩
  · exact ⟨.inl rfl, ⟨fun h => absurd h (by decide), fun h => absurd h h1⟩⟩
  · exact ⟨.inr rfl, ⟨fun _ => h1, fun _ => rfl⟩⟩

/-- Files are only added, and dialogs are numbered in order. -/
theorem run_files (h : pg.run D T parse es = ok pg') : pg.files <+: pg'.files ∧ pg.opened ≤ pg'.opened := by
  induction es generalizing pg with
  | nil =>
    cases h
    exact ⟨List.prefix_rfl, le_rfl⟩
  | cons e es ih =>
    obtain ⟨q, h1, h2⟩ := run_cons_ok h
    obtain ⟨i1, i2⟩ := ih h2
    have : pg.files <+: q.files ∧ pg.opened ≤ q.opened := by
      rcases step_cases h1 with ⟨_, _, _, _, _, rfl⟩ | ⟨_, _, _, _, rfl⟩ | ⟨_, _, rfl⟩ | ⟨_, _, hc⟩ | ⟨rfl, _⟩
      · exact ⟨List.prefix_rfl, le_rfl⟩
      · exact ⟨List.prefix_rfl, le_rfl⟩
      · exact ⟨List.prefix_rfl, le_rfl⟩
      · rcases hc with ⟨_, ⟨_, ⟨_, rfl⟩ | ⟨_, _, ho, hc⟩⟩ | ⟨_, _, ho, hc⟩ | ⟨_, ho, hc | ⟨text, rfl, hc⟩⟩⟩ | ⟨_, ho, hc, _⟩
        · exact ⟨List.prefix_rfl, le_rfl⟩
        all_goals rw [hc, ho]
        · exact ⟨List.prefix_rfl, by omega⟩
        · exact ⟨List.prefix_rfl, le_rfl⟩
        · exact ⟨List.prefix_rfl, le_rfl⟩
        · exact ⟨List.prefix_append _ _, le_rfl⟩
        · exact ⟨List.prefix_rfl, le_rfl⟩
      · exact ⟨List.prefix_rfl, le_rfl⟩
    exact ⟨this.1.trans i1, this.2.trans i2⟩

/-- While the dialog stays open it is the same one. -/
theorem same_dialog (hd : pg.dialog ≠ none) (h : pg.run D T parse es = ok pg')
    (hopen : ∀ k ≤ es.length, ∃ q, pg.run D T parse (es.take k) = ok q ∧ q.dialog ≠ none) : pg'.opened = pg.opened := by
  induction es generalizing pg with
  | nil =>
    cases h
    rfl
  | cons e es ih =>
    obtain ⟨q, h1, h2⟩ := run_cons_ok h
    have hq : q.dialog ≠ none := by
      obtain ⟨q', hq', hd'⟩ := hopen 1 (by simp)
      simp only [List.take_succ_cons, List.take_zero, Page.run, h1, ok_bind] at hq'
      cases hq'
      exact hd'
    rw [ih hq h2]
    · rcases step_cases h1 with ⟨_, _, _, _, _, rfl⟩ | ⟨_, _, _, _, rfl⟩ | ⟨_, _, rfl⟩ | ⟨_, _, hc⟩ | ⟨rfl, _⟩
      · rfl
      · rfl
      · rfl
      · rcases hc with ⟨_, ⟨_, ⟨_, rfl⟩ | ⟨hc, _, ho, _⟩⟩ | ⟨_, _, ho, _⟩ | ⟨_, ho, _⟩⟩ | ⟨_, ho, _⟩
        · rfl
        · exact absurd hc hd
        · exact ho
        · exact ho
        · exact ho
      · rfl
    · intro k hk
      obtain ⟨q', hq', hd'⟩ := hopen (k + 1) (by simp; omega)
      rw [List.take_succ_cons, Page.run, h1, ok_bind] at hq'
      exact ⟨q', hq', hd'⟩

/-- A dialog that has been closed does not come back. -/
theorem stale_dialog {n : Nat} (hn : n ≤ pg.opened) (hs : n = pg.opened → pg.dialog = none) (h : pg.run D T parse es = ok pg') :
    n ≤ pg'.opened ∧ (n = pg'.opened → pg'.dialog = none) := by
  induction es generalizing pg with
  | nil =>
    cases h
    exact ⟨hn, hs⟩
  | cons e es ih =>
    obtain ⟨q, h1, h2⟩ := run_cons_ok h
    suffices hq : n ≤ q.opened ∧ (n = q.opened → q.dialog = none) from ih hq.1 hq.2 h2
    rcases step_cases h1 with ⟨_, _, _, _, _, rfl⟩ | ⟨_, _, hd, _, rfl⟩ | ⟨_, _, rfl⟩ | ⟨_, _, hc⟩ | ⟨rfl, _⟩
    · exact ⟨hn, fun _ => rfl⟩
    · refine ⟨hn, fun he => ?_⟩
      rw [hs he] at hd
      cases hd
    · exact ⟨hn, hs⟩
    · rcases hc with ⟨_, ⟨_, ⟨_, rfl⟩ | ⟨_, _, ho, _⟩⟩ | ⟨_, hd, ho, _⟩ | ⟨hd, ho, _⟩⟩ | ⟨hd, ho, _⟩
      · exact ⟨hn, hs⟩
      · exact ⟨by omega, fun he => by omega⟩
      all_goals rw [hd, ho]
      · exact ⟨hn, fun _ => rfl⟩
      · exact ⟨hn, hs⟩
      · exact ⟨hn, hs⟩
    · exact ⟨hn, hs⟩

/-- C81. A file with a project that is chosen in the dialog is shown as soon as it has been read, if the dialog stays open until then. The
dialog closes, and the project is shown until another text is pasted or another file has been read. -/
theorem upload_opens {project new : Shown} {text : String} {pre mid post : List PageEvent} (ht : IsProject parse text new)
    (hq : (Page.start project).run D T parse pre = ok pg)
    (hd : DialogOpen D T parse project pre)
    (hmid : ∀ k ≤ mid.length, DialogOpen D T parse project (pre ++ .choose text :: mid.take k)) :
    ¬ DialogOpen D T parse project (pre ++ .choose text :: mid ++ [.fileRead pg.files.length]) ∧
    ((∀ e ∈ post, ¬ e.Brings) → ∃ pg', (Page.start project).run D T parse
      (pre ++ .choose text :: mid ++ .fileRead pg.files.length :: post) = ok pg' ∧ pg'.project = new) := by
  obtain ⟨j, hj, hr⟩ := ht
  obtain ⟨q₀, hq₀, hd₀⟩ := hd
  rw [hq] at hq₀
  cases hq₀
  have hstep : pg.step D T parse (.choose text) = ok { pg with files := pg.files ++ [(pg.opened, text)] } := by
    simp only [Page.step, Option.isSome_iff_ne_none.2 hd₀, if_true]
  obtain ⟨q, hq', hdq⟩ := hmid mid.length le_rfl
  rw [List.take_length, run_append, hq, ok_bind, Page.run, hstep, ok_bind] at hq'
  have ho := same_dialog (pg := { pg with files := pg.files ++ [(pg.opened, text)] }) hd₀ hq' (fun k hk => by
    obtain ⟨x, hx, hdx⟩ := hmid k hk
    rw [run_append, hq, ok_bind, Page.run, hstep, ok_bind] at hx
    exact ⟨x, hx, hdx⟩)
  obtain ⟨rest, hrest⟩ := (run_files hq').1
  have hfile : q.files[pg.files.length]? = some (pg.opened, text) := by
    rw [← hrest]
    simp
  have hread : q.step D T parse (.fileRead pg.files.length) = ok { q with dialog := none, project := new } := by
    simp only [Page.step, hfile, Page.uploadProject, Option.isSome_iff_ne_none.2 hdq, ho, true_and, if_true, hj,
      Page.openProject, hr]
  refine ⟨?_, fun hpost => ?_⟩
  · rintro ⟨q', hq'', hd'⟩
    rw [List.append_assoc, run_append, hq, ok_bind, List.cons_append, Page.run, hstep, ok_bind, run_append, hq', ok_bind, Page.run, hread] at hq''
    cases hq''
    exact hd' rfl
  · obtain ⟨pg', h1, h2⟩ := run_keeps (D := D) (T := T) (parse := parse) (pg := { q with dialog := none, project := new }) hpost
    exact ⟨pg', by rw [List.append_assoc, run_append, hq, ok_bind, List.cons_append, Page.run, hstep, ok_bind, run_append, hq', ok_bind,
      Page.run, hread, ok_bind, h1], h2⟩

/-- C81. If the dialog is closed before the file has been read, the file is ignored. -/
theorem upload_cancelled {project : Shown} {text : String} {pre mid mid' : List PageEvent}
    (hq : (Page.start project).run D T parse pre = ok pg) (hd : DialogOpen D T parse project pre)
    (hclosed : ¬ DialogOpen D T parse project (pre ++ .choose text :: mid))
    (hend : (Page.start project).run D T parse (pre ++ .choose text :: mid ++ mid') = ok pg') :
    pg'.step D T parse (.fileRead pg.files.length) = ok pg' := by
  obtain ⟨q₀, hq₀, hd₀⟩ := hd
  rw [hq] at hq₀
  cases hq₀
  have hstep : pg.step D T parse (.choose text) = ok { pg with files := pg.files ++ [(pg.opened, text)] } := by
    simp only [Page.step, Option.isSome_iff_ne_none.2 hd₀, if_true]
  obtain ⟨q, h1, h2⟩ := run_append_ok hend
  have hnone : q.dialog = none := by
    by_contra hc
    exact hclosed ⟨q, h1, hc⟩
  rw [run_append, hq, ok_bind, Page.run, hstep, ok_bind] at h1
  obtain ⟨f1, f2⟩ := run_files h1
  obtain ⟨g1, _⟩ := run_files h2
  obtain ⟨rest, hrest⟩ := f1.trans g1
  have hfile : pg'.files[pg.files.length]? = some (pg.opened, text) := by
    rw [← hrest]
    simp
  obtain ⟨_, h3⟩ := stale_dialog f2 (fun _ => hnone) h2
  have hno : ¬ (pg'.dialog.isSome = true ∧ pg.opened = pg'.opened) := by
    rintro ⟨a, b⟩
    rw [h3 b] at a
    cases a
  simp only [Page.step, hfile, Page.uploadProject, if_neg hno]

/-- C81 does not hold for files that are not JSON: when such a file has been read nothing happens, and the dialog stays as it is, without a message. -/
theorem upload_silent {k n : Nat} {text : String} (hk : pg.files[k]? = some (n, text)) (ht : parse text = none) :
    pg.step D T parse (.fileRead k) = ok pg := by
  simp only [Page.step, hk, Page.uploadProject, ht, ite_self]

/-! ## C82: the panel -/

theorem formatDuration_spec (d : Int) : T.Duration d (T.formatDuration d) := by
  unfold Texts.formatDuration
  constructor <;> intro h
  · rw [if_pos (by omega)]
  · rw [if_neg (by omega)]

theorem mem_agentTasks {tasks : List TaskEntry} {v : String} {e : TaskEntry} :
    e ∈ agentTasks tasks v ↔ e ∈ tasks ∧ e.agent = v := by
  unfold agentTasks
  rw [List.mem_insertionSort, List.mem_filter, beq_iff_eq]

theorem taskPanel_of (e : TaskEntry) : (taskPanel T e).OfTask T e :=
  ⟨rfl, _, formatDuration_spec _, rfl⟩

theorem agentPanel_of (hD : D.IsExact) (project : Shown) (name : String) :
    (agentPanel D T name (agentTasks project.tasks name) project.makespan).OfAgent T project name := by
  have hperm : (agentTasks project.tasks name).Perm (project.tasks.filter fun e => e.agent = name) := by
    unfold agentTasks
    have : (project.tasks.filter fun e => e.agent == name) = project.tasks.filter fun e => decide (e.agent = name) := by
      apply List.filter_congr
      intro e _
      rw [Bool.eq_iff_iff]
      simp
    rw [this]
    exact List.perm_insertionSort _ _
  have hsum : (agentTasks project.tasks name).foldl (fun a v => a + v.duration) 0
      = ((project.tasks.filter fun e => e.agent = name).map TaskEntry.duration).sum := by
    rw [foldl_durations, zero_add, (hperm.map _).sum_eq]
  refine ⟨rfl, _, _, _, rfl, formatDuration_spec _, formatDuration_spec _, ?_⟩
  unfold agentPanel agentInfo
  dsimp only
  rw [hsum, hperm.length_eq]
  simp only [FloatEnv.div, hD _]
  push_cast
  rfl

/-- C82. Whatever panel is shown, it is about an agent or a task of the project that was shown when it was opened. If no project has been opened since, this is the
project on the page. What is missing is the latter without this condition, see `panel_stale`. -/
theorem panel_true_partial (hD : D.IsExact) {pre post : List PageEvent} {project : Shown}
    (hpre : (Page.start project).run D T parse pre = ok pg) (hnone : pg.panel = none) (hpost : ∀ e ∈ post, ¬ e.Brings)
    (h : (Page.start project).run D T parse (pre ++ post) = ok pg') {x : Panel} (hx : pg'.panel = some x) :
    x.Describes T pg'.project := by
  rw [run_append, hpre, ok_bind] at h
  clear hpre
  suffices key : ∀ {es : List PageEvent} {pg pg' : Page}, (∀ e ∈ es, ¬ e.Brings) → pg.run D T parse es = ok pg' →
      (∀ x, pg.panel = some x → x.Describes T pg.project) → ∀ x, pg'.panel = some x → x.Describes T pg'.project from
    key hpost h (fun x hx => by rw [hnone] at hx; cases hx) x hx
  clear h hx hnone hpost
  intro es
  induction es with
  | nil =>
    intro pg pg' _ h hi
    cases h
    exact hi
  | cons e es ih =>
    intro pg pg' hb h hi
    obtain ⟨q, h1, h2⟩ := run_cons_ok h
    refine ih (fun e he => hb e (by simp [he])) h2 ?_
    have he := hb e (by simp)
    rcases step_cases h1 with ⟨_, ht, _⟩ | ⟨_, rfl, _⟩ | ⟨_, rfl, _⟩ | ⟨_, hp, hc⟩ | ⟨rfl, _⟩
    · rcases ht with rfl | ⟨_, rfl, _⟩ <;> exact absurd trivial he
    · exact absurd trivial he
    · exact absurd trivial he
    · intro x hx
      rw [hp]
      rcases hc with ⟨hc, _⟩ | ⟨_, _, _, hc | ⟨x', hx', hc⟩⟩
      · exact hi x (hc ▸ hx)
      · rw [hc] at hx
        cases hx
      · rw [hx'] at hx
        cases hx
        rcases hc with ⟨i, name, hn, rfl⟩ | ⟨i, j, name, en, hn, ht, rfl⟩
        · obtain ⟨e, he, rfl⟩ := mem_agentNames.1 (List.mem_of_getElem? hn)
          exact Or.inr ⟨e, he, agentPanel_of hD _ _⟩
        · exact Or.inl ⟨en, (mem_agentTasks.1 (List.mem_of_getElem? ht)).1, taskPanel_of en⟩
    · exact hi

/-- C82. A panel that has been closed does not come back unless an agent or a task is clicked. -/
theorem panel_closed {pre post : List PageEvent} {project : Shown}
    (hpost : ∀ e ∈ post, (∀ i, e ≠ .agent i) ∧ ∀ i j, e ≠ .task i j)
    (h : (Page.start project).run D T parse (pre ++ .closePanel :: post) = ok pg') : pg'.panel = none := by
  obtain ⟨pg, _, h'⟩ := run_append_ok h
  obtain ⟨pg₁, h1, h2⟩ := run_cons_ok h'
  have h0 : pg₁.panel = none := by
    cases h1
    rfl
  clear h h' h1
  induction post generalizing pg₁ with
  | nil =>
    cases h2
    exact h0
  | cons e es ih =>
    obtain ⟨pg₂, h3, h4⟩ := run_cons_ok h2
    refine ih (fun e he => hpost e (List.mem_cons_of_mem _ he)) pg₂ h4 ?_
    obtain ⟨ha, ht⟩ := hpost e (by simp)
    rcases step_cases h3 with ⟨_, _, _, _, _, rfl⟩ | ⟨_, _, _, _, rfl⟩ | ⟨_, _, rfl⟩ | ⟨_, _, h5⟩ | ⟨rfl, _⟩
    · exact h0
    · exact h0
    · exact h0
    · rcases h5 with ⟨h5, _⟩ | ⟨_, _, _, h5 | h5⟩
      · rw [h5, h0]
      · exact h5
      · cases e with
        | agent i => exact absurd rfl (ha i)
        | task i j => exact absurd rfl (ht i j)
        | openDialog => unfold Page.step at h3; dsimp only at h3; split at h3 <;> cases h3 <;> exact h0
        | closeDialog => cases h3; exact h0
        | closePanel => cases h3; rfl
        | choose text => unfold Page.step at h3; dsimp only at h3; split at h3 <;> cases h3 <;> exact h0
        | paste text => exact absurd trivial ‹_›
        | fileRead k => exact absurd trivial ‹_›
    · exact h0

/-- C82. A click on the name in row `i` opens the panel of this agent, and a click on a strip that of its task. -/
theorem click_opens (hD : D.IsExact) :
    (∀ (i : Nat) (row : String × List (Strip K)), (timelines D pg.project.tasks pg.project.makespan)[i]? = some row →
      ∃ pg' x, pg.step D T parse (.agent i) = ok pg' ∧ pg'.panel = some x ∧ x.OfAgent T pg.project row.1) ∧
    ∀ (i j : Nat) (row : String × List (Strip K)) (strip : Strip K),
      (timelines D pg.project.tasks pg.project.makespan)[i]? = some row → row.2[j]? = some strip →
      ∃ pg' x, ∃ e ∈ pg.project.tasks, pg.step D T parse (.task i j) = ok pg' ∧ pg'.panel = some x ∧ x.OfTask T e ∧
        e.agent = row.1 ∧
        strip = { name := e.task, left := e.start / pg.project.makespan * 100, width := e.duration / pg.project.makespan * 100 } := by
  constructor
  · intro i row hr
    unfold timelines at hr
    rw [List.getElem?_map, Option.map_eq_some_iff] at hr
    obtain ⟨name, hn, rfl⟩ := hr
    refine ⟨{ pg with panel := some (agentPanel D T name (agentTasks pg.project.tasks name) pg.project.makespan) }, _, ?_, rfl,
      agentPanel_of hD pg.project name⟩
    simp only [Page.step, hn]
  · intro i j row strip hr hs
    unfold timelines at hr
    rw [List.getElem?_map, Option.map_eq_some_iff] at hr
    obtain ⟨name, hn, rfl⟩ := hr
    rw [List.getElem?_map, Option.map_eq_some_iff] at hs
    obtain ⟨e, he, rfl⟩ := hs
    have hm := mem_agentTasks.1 (List.mem_of_getElem? he)
    refine ⟨{ pg with panel := some (taskPanel T e) }, _, e, hm.1, ?_, rfl, taskPanel_of e, hm.2, ?_⟩
    swap
    · unfold Visualizer.strip FloatEnv.mul FloatEnv.div
      simp only [hD _]
    simp only [Page.step, hn, Option.bind_some, he]

/-! ### Cases that meet the hypotheses -/

/-- A project with two tasks of one agent -/
def pageProject : Shown where
  makespan := 5
  tasks := [{ task := "build", agent := "Ann", priority := 0, duration := 2, start := 0 },
    { task := "test", agent := "Ann", priority := 1, duration := 3, start := 2 }]
  histogram := none
  stats := none

/-- Another project -/
def otherProject : Shown where
  makespan := 7
  tasks := [{ task := "paint", agent := "Bob", priority := 0, duration := 7, start := 0 }]
  histogram := none
  stats := none

/-- A parser that knows one text, that of the other project -/
def oneText (text : String) : Option Json :=
  if text = "other" then some (.obj [("makespan", .int 7), ("tasks", .arr [.obj [("agent", .str "Bob"), ("expected_duration", .int 7),
    ("expected_start", .int 0), ("priority", .int 0), ("task", .str "paint")]])]) else none

/-- Texts for numbers -/
def pageTexts : Texts ℚ := ⟨fun d => toString d ++ " s", fun q => toString q.floor⟩

example : IsProject oneText "other" otherProject := ⟨_, rfl, by decide +kernel⟩

example : DialogOpen FloatEnv.rat pageTexts oneText pageProject [.openDialog] := ⟨_, rfl, by decide⟩

example : PastedInvalid FloatEnv.rat pageTexts oneText pageProject [.openDialog, .paste "x", .task 0 1] :=
  ⟨[.openDialog], "x", [.task 0 1], rfl, by decide, ⟨_, rfl, by decide⟩, fun k hk => by
    have : k = 0 ∨ k = 1 := by simp at hk; omega
    rcases this with rfl | rfl
    · exact ⟨_, rfl, by decide⟩
    · exact ⟨_, rfl, by decide +kernel⟩⟩

/-- The file is chosen, the panel of a task opened, and then the file has been read. -/
example : ∃ pg, (Page.start pageProject).run FloatEnv.rat pageTexts oneText [.openDialog, .choose "other", .task 0 1, .fileRead 0] = ok pg ∧
    pg.project = otherProject := by
  have := (upload_opens (D := FloatEnv.rat) (T := pageTexts) (parse := oneText) (project := pageProject) (new := otherProject) (text := "other")
    (pre := [.openDialog]) (mid := [.task 0 1]) (post := []) ⟨_, rfl, by decide +kernel⟩ rfl ⟨_, rfl, by decide⟩ (fun k hk => by
      have : k = 0 ∨ k = 1 := by simp at hk; omega
      rcases this with rfl | rfl
      · exact ⟨_, rfl, by decide⟩
      · exact ⟨_, rfl, by decide +kernel⟩)).2 (by simp)
  exact this

/-- Closing the dialog before the file has been read -/
example : ∃ pg, (Page.start pageProject).run FloatEnv.rat pageTexts oneText [.openDialog, .choose "other", .closeDialog, .openDialog] = ok pg ∧
    pg.step FloatEnv.rat pageTexts oneText (.fileRead 0) = ok pg :=
  ⟨_, rfl, upload_cancelled (project := pageProject) (text := "other") (pre := [.openDialog]) (mid := [.closeDialog]) (mid' := [.openDialog])
    rfl ⟨_, rfl, by decide⟩ (by rintro ⟨q, h, hd⟩; cases h; exact hd rfl) rfl⟩

/-- The panel of a task, opened by a click -/
example : ∃ pg x, (Page.start pageProject).run FloatEnv.rat pageTexts oneText [.openDialog, .closeDialog, .task 0 1] = ok pg ∧ pg.panel = some x ∧
    x.title = "test" ∧ x.Describes pageTexts pg.project :=
  ⟨_, _, rfl, rfl, by decide +kernel, panel_true_partial (D := FloatEnv.rat) (parse := oneText) (fun _ => rfl) (pre := [.openDialog, .closeDialog]) (post := [.task 0 1])
    (project := pageProject) rfl rfl (by simp [PageEvent.Brings]) rfl rfl⟩

/-- C82 does not hold without the condition: a panel stays when another project is opened, and is about an agent that this project does not have. -/
theorem panel_stale : ∃ pg x, (Page.start pageProject).run FloatEnv.rat pageTexts oneText [.agent 0, .openDialog, .paste "other"] = ok pg ∧
    pg.project = otherProject ∧ pg.panel = some x ∧ ¬ x.Describes pageTexts pg.project := by
  refine ⟨_, _, rfl, by decide +kernel, rfl, ?_⟩
  rintro (⟨e, he, h, _⟩ | ⟨e, he, h, _⟩)
  · revert h
    have : e = { task := "paint", agent := "Bob", priority := 0, duration := 7, start := 0 } := by simpa using he
    subst this
    decide +kernel
  · revert h
    have : e = { task := "paint", agent := "Bob", priority := 0, duration := 7, start := 0 } := by simpa using he
    subst this
    decide +kernel

end

end Angonoka.Props
