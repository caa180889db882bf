import Verif.Proof.NamesRun
import Verif.Props.Files
import Verif.Props.Serial
import Verif.Props.LoadingExamples

/-!
# C110: names do not matter
-/

set_option linter.unusedSectionVars false

namespace Angonoka.Props
open Outcome Stun Cli Doc

/-! ### Loading -/

/-- C110. Loading a document with other names gives the project with the other names, or fails in the same way, perhaps with another name in the message. -/
theorem names_load {ν : Naming} (hν : ν.Proper) (rf : String → Option XFloat) (root : Yaml) :
    (∀ p, load rf root = ok p → load rf (ν.inDocument root) = ok
      { groups := p.groups.map ν.group
        agents := p.agents.map fun a => { a with name := ν.agent a.name }
        tasks := p.tasks.map fun t => { t with name := ν.task t.name, id := ν.id t.id } }) ∧
    (∀ e, load rf root = throws e → ∃ e', load rf (ν.inDocument root) = throws e' ∧ e'.ctorIdx = e.ctorIdx) ∧
    ∀ s, load rf root = ub s → load rf (ν.inDocument root) = ub s := by
  have h := load_follows hν rf root
  refine ⟨fun p hp => ?_, fun e he => ?_, fun s hs => ?_⟩
  · rw [hp] at h; exact h
  · rw [he] at h
    obtain ⟨e', h1, h2, _⟩ := h
    exact ⟨e', h1, h2⟩
  · rw [hs] at h; exact h

variable {K : Type} [Field K] [LinearOrder K] [IsStrictOrderedRing K] [FloorRing K]
variable {E : FloatEnv K} {m : Machine K} {c : Command} {o : Cli.Options K} {ν : Naming} {root : Yaml} {p : Project}

/-! ### The output -/

theorem lift_map {α β : Type} (g : α → β) (x : Outcome α) :
    (Io.lift (g <$> x) : Io K β) = Io.lift x >>= fun a => pure (g a) := by
  cases x <;> rfl

theorem setKey_map (F : String × Json → String × Json) (hF : ∀ e, (F e).1 = e.1) (key : String) (v : Json)
    (hv : F (key, v) = (key, v)) (l : List (String × Json)) : setKey key v (l.map F) = (setKey key v l).map F := by
  induction l with
  | nil => simp [setKey, hv]
  | cons e rest ih =>
    obtain ⟨k, w⟩ := e
    have hk := hF (k, w)
    rcases he : F (k, w) with ⟨k', w'⟩
    rw [he] at hk
    dsimp only at hk
    subst hk
    rw [List.map_cons, he, setKey, setKey]
    split
    · simp [hv]
    · split
      · simp [hv, he]
      · simp [he, ih]

theorem setField_named (j : Json) (key : String) (v : Json) (hk : key ≠ "tasks") :
    setField (ν.inOutput j) key v = ν.inOutput <$> setField j key v := by
  cases j with
  | obj l =>
    change ok (Json.obj (setKey key v (l.map _))) = ok (Json.obj ((setKey key v l).map _))
    rw [setKey_map]
    · rintro ⟨k, w⟩
      dsimp only
      split <;> simp_all
    · split
      · rename_i h
        rw [Prod.mk.injEq] at h
        exact absurd h.1 hk
      · rfl
  | int i => rfl
  | str s => rfl
  | arr l => rfl

theorem jsonSchedule_named (p : Project) :
    jsonSchedule E m (p.named ν) o = jsonSchedule E m p o >>= fun j => pure (ν.inOutput j) := by
  unfold jsonSchedule
  simp only [schedule_named, Timetable.toJson_named, lift_map, Io.bind_assoc',
    show (p.named ν).tasks.isEmpty = p.tasks.isEmpty from List.isEmpty_map,
    show (p.named ν).agents.isEmpty = p.agents.isEmpty from List.isEmpty_map]

theorem runPrediction_named (p : Project) :
    runPrediction E m (p.named ν) o = runPrediction E m p o >>= fun j => pure (ν.inOutput j) := by
  unfold runPrediction
  simp only [predict_named, Timetable.toJson_named, lift_map, Io.bind_assoc', Io.pure_bind',
    setField_named (ν := ν) _ "stats" _ (by decide), setField_named (ν := ν) _ "histogram" _ (by decide),
    show (p.named ν).tasks.isEmpty = p.tasks.isEmpty from List.isEmpty_map,
    show (p.named ν).agents.isEmpty = p.agents.isEmpty from List.isEmpty_map]

theorem inEffect_id {es : List (Effect K)} (h : ∀ e ∈ es, ¬ e.IsFile) : es.map ν.inEffect = es := by
  refine (List.map_congr_left fun e he => ?_).trans (List.map_id es)
  have := h e he
  cases e with
  | file n j => exact absurd trivial this
  | _ => rfl

theorem files_nil {es : List (Effect K)} (h : ∀ e ∈ es, ¬ e.IsFile) : Naming.files es = [] := by
  refine List.filter_eq_nil_iff.2 fun e he => ?_
  have := h e he
  cases e with
  | file n j => exact absurd trivial this
  | truncated n => exact absurd trivial this
  | _ => simp

theorem files_map (es : List (Effect K)) : Naming.files (es.map ν.inEffect) = (Naming.files es).map ν.inEffect := by
  unfold Naming.files
  rw [List.filter_map]
  congr 2
  funext e
  cases e <;> rfl

theorem isEmptyJson_named (j : Json) : isEmptyJson (ν.inOutput j) = isEmptyJson j := by
  cases j <;> simp [Naming.inOutput, isEmptyJson]

theorem save_named (f s : String) (j : Json) : saveJson m o f s (ν.inOutput j)
    = ⟨(saveJson m o f s j).effects.map ν.inEffect, (saveJson m o f s j).flow⟩ := by
  by_cases ho : o.output = ""
  · unfold saveJson
    rw [show expects (o.output != "") "save_json: output not empty" = ub "save_json: output not empty" by simp [expects, ho]]
    rfl
  · by_cases hj : isEmptyJson j = false
    · rw [saveJson_eq ho hj, saveJson_eq ho (by rw [isEmptyJson_named]; exact hj)]
      cases m.writable <;> cases m.room <;> cases o.quiet <;> rfl
    · unfold saveJson
      rw [isEmptyJson_named, expects_true (by simpa using ho), Io.lift_ok_bind, Io.lift_ok_bind,
        show expects (!isEmptyJson j) "save_json: json not empty" = ub "save_json: json not empty" by
          simp [expects, Bool.not_eq_false _ ▸ hj]]
      rfl

theorem parse_named (hs : m.source = .doc root) (hl : load m.readFloat root = ok p)
    (hl' : load m.readFloat (ν.inDocument root) = ok (p.named ν)) {α : Type} {f f' : Project → Io K α}
    (hf : f' (p.named ν) = f p) :
    parseConfig { m with source := .doc (ν.inDocument root) } o >>= f' = parseConfig m o >>= f := by
  unfold parseConfig
  dsimp only
  rw [hs]
  dsimp only
  rw [hl, hl']
  simp only [Io.bind_assoc', Io.pure_bind', hf]

/-- C110. If the document loads, then with other names the program does exactly the same, with the other names in the output file. This
holds for both commands, all options, all random numbers, and any arithmetic, single precision in particular. -/
theorem names_output (hν : ν.Proper) (hs : m.source = .doc root) (hl : load m.readFloat root = ok p) :
    (body E { m with source := .doc (ν.inDocument root) } c o).effects = (body E m c o).effects.map ν.inEffect ∧
      (body E { m with source := .doc (ν.inDocument root) } c o).flow = (body E m c o).flow := by
  have hl' : load m.readFloat (ν.inDocument root) = ok (p.named ν) := (names_load hν _ _).1 p hl
  have hc : compute E { m with source := .doc (ν.inDocument root) } c o
      = compute E m c o >>= fun j => pure (ν.inOutput j) := by
    unfold compute
    rw [Io.bind_assoc']
    refine parse_named hs hl hl' ?_
    cases c with
    | schedule => exact jsonSchedule_named p
    | predict => exact runPrediction_named p
  have hb : body E { m with source := .doc (ν.inDocument root) } c o = compute E m c o >>= fun j =>
      saveJson m o (failureText c) (successText o c) (ν.inOutput j) := by
    rw [body_eq, hc, Io.bind_assoc']
    rfl
  rw [hb, body_eq]
  have hno := compute_no_file (E := E) (m := m) (c := c) (o := o)
  generalize compute E m c o = x at hno
  obtain ⟨es, fl⟩ := x
  have hes : es.map ν.inEffect = es := inEffect_id hno
  cases fl with
  | ok j => rw [Io.bind_ok, Io.bind_ok, save_named, List.map_append, hes]; exact ⟨rfl, rfl⟩
  | user => exact ⟨hes.symm, rfl⟩
  | throws e => exact ⟨hes.symm, rfl⟩
  | ub s => exact ⟨hes.symm, rfl⟩
  | hang => exact ⟨hes.symm, rfl⟩
  | running => exact ⟨hes.symm, rfl⟩

/-- How a document that does not load ends the program -/
theorem parse_fails {root : Yaml} (hs : m.source = .doc root) (hl : ∀ p, load m.readFloat root ≠ ok p) :
    (body E m c o).flow = (if o.filename = "" then .ub "load_file: path not empty" else
      match load m.readFloat root with
      | throws e => if e.isValidationError then .user else .throws e
      | ub s => .ub s
      | ok _ => .user) ∧ Naming.files (body E m c o).effects = [] := by
  have hno : ∀ e ∈ (body E m c o).effects, ¬ e.IsFile := by
    refine failure_has_no_result fun h => ?_
    obtain ⟨a, ha⟩ := status_exit_zero h
    obtain ⟨p, hp, _⟩ := io_bind_ok ha
    obtain ⟨root', h1, h2⟩ := parsed hp
    rw [hs] at h1
    cases h1
    exact hl p h2
  refine ⟨?_, files_nil hno⟩
  unfold body parseConfig
  rw [hs]
  dsimp only
  by_cases hf : o.filename = ""
  · rw [show expects (o.filename != "") "load_file: path not empty" = ub "load_file: path not empty" by simp [expects, hf], if_pos hf]
    cases o.quiet <;> rfl
  · rw [expects_true (by simpa using hf), Io.lift_ok_bind, if_neg hf]
    cases hx : load m.readFloat root with
    | ok p => exact absurd hx (hl p)
    | ub s => cases o.quiet <;> rfl
    | throws e =>
      dsimp only
      split <;> rfl

theorem kind_validation {e e' : Err} (hk : e'.ctorIdx = e.ctorIdx) : e'.isValidationError = e.isValidationError := by
  cases e <;> cases e' <;> first | rfl | (simp [Err.ctorIdx] at hk)

/-- C110. With other names the program ends in the same way, and writes the same file except for the names. -/
theorem names_do_not_matter (hν : ν.Proper) (hs : m.source = .doc root) :
    status (body E { m with source := .doc (ν.inDocument root) } c o).flow = status (body E m c o).flow ∧
      Naming.files (body E { m with source := .doc (ν.inDocument root) } c o).effects
        = (Naming.files (body E m c o).effects).map ν.inEffect := by
  by_cases hl : ∃ p, load m.readFloat root = ok p
  · obtain ⟨p, hl⟩ := hl
    obtain ⟨h1, h2⟩ := names_output (E := E) (c := c) (o := o) hν hs hl
    rw [h1, h2, files_map]
    exact ⟨rfl, rfl⟩
  · have hF := load_follows hν m.readFloat root
    have hn : ∀ p, load m.readFloat root ≠ ok p := fun p h => hl ⟨p, h⟩
    have hn' : ∀ p, load m.readFloat (ν.inDocument root) ≠ ok p := fun p h => by
      cases hx : load m.readFloat root with
      | ok q => exact hn q hx
      | throws e =>
        rw [hx] at hF
        obtain ⟨e', h', _⟩ := hF
        rw [h'] at h; cases h
      | ub s =>
        rw [hx] at hF
        rw [show _ = ub s from hF] at h; cases h
    obtain ⟨h1, h2⟩ := parse_fails (E := E) (c := c) (o := o) hs hn
    obtain ⟨h3, h4⟩ := parse_fails (E := E) (m := { m with source := .doc (ν.inDocument root) }) (c := c) (o := o) rfl hn'
    rw [h1, h2, h3, h4]
    refine ⟨?_, rfl⟩
    split
    · rfl
    · cases hx : load m.readFloat root with
      | ok q => exact absurd hx (hn q)
      | throws e =>
        rw [hx] at hF
        obtain ⟨e', h', hk, hv⟩ := hF
        rw [h']
        dsimp only
        cases hval : e.isValidationError with
        | false => rw [hv hval, hval]
        | true =>
          have : e'.isValidationError = true := (kind_validation hk).trans hval
          rw [this]
          rfl
      | ub s =>
        rw [hx] at hF
        rw [show _ = ub s from hF]

/-! ### Example -/

namespace Sample

/-- Everybody and everything gets another name. -/
def polite : Naming where
  agent s := if s = "" then "" else "Dr. " ++ s
  task s := if s = "" then "" else "Task"
  id s := if s = "" then "" else s ++ "!"
  group s := s

theorem polite_proper : polite.Proper where
  agent := by
    refine ⟨fun a b h => ?_, rfl⟩
    simp only [polite] at h
    split_ifs at h with h1 h2
    · rw [h1, h2]
    · exact absurd (congrArg String.length h) (by rw [String.length_append, show "Dr. ".length = 4 from rfl, show "".length = 0 from rfl]; omega)
    · exact absurd (congrArg String.length h) (by rw [String.length_append, show "Dr. ".length = 4 from rfl, show "".length = 0 from rfl]; omega)
    · simpa using h
  task s := by
    simp only [polite]
    split_ifs with h <;> simp [h]
  id := by
    refine ⟨fun a b h => ?_, rfl⟩
    simp only [polite] at h
    split_ifs at h with h1 h2
    · rw [h1, h2]
    · exact absurd (congrArg String.length h) (by rw [String.length_append, show "!".length = 1 from rfl, show "".length = 0 from rfl]; omega)
    · exact absurd (congrArg String.length h) (by rw [String.length_append, show "!".length = 1 from rfl, show "".length = 0 from rfl]; omega)
    · simpa using h
  group := ⟨Function.injective_id, rfl⟩

/-- The document `plan` with these names -/
def politePlan : Yaml := obj [
  ("agents", obj [
    ("Dr. Bob", obj [("groups", .seq [str "A", str "B"]), ("performance", obj [("min", str "0.5"), ("max", str "2")])]),
    ("Dr. Jack", .null)]),
  ("tasks", .seq [
    obj [("name", str "Task"), ("id", str "b!"), ("duration", str "2h"), ("group", str "B"),
      ("subtasks", .seq [
        obj [("name", str "Task"), ("duration", str "1h and 30m"), ("agent", str "Dr. Jack")],
        obj [("name", str "Task"), ("duration", obj [("min", str "10 minutes"), ("max", str "1h")]),
          ("groups", .seq [str "B", str "C"])]])],
    obj [("name", str "Task"), ("duration", str "45s"), ("depends_on", .seq [str "b!"])]])]

theorem politePlan_eq : polite.inDocument plan = politePlan := by
  simp [plan, politePlan, obj, str, Naming.inDocument, Naming.inAgents, Naming.inAgent, Naming.inTasks, Naming.inTaskList,
    Naming.inTask, Naming.inAttributes, Naming.inValue, Naming.scalars, Naming.scalar, Yaml.text, polite]

end Sample

/-- C110 for the example: whatever the command, the options and the random numbers are -/
example (draws : Nat → Nat → Nat → Draws ℚ) (c : Command) (o : Cli.Options ℚ) :
    Naming.files (body FloatEnv.rat { exampleMachine draws with source := .doc Sample.politePlan } c o).effects
      = (Naming.files (body FloatEnv.rat (exampleMachine draws) c o).effects).map Sample.polite.inEffect := by
  rw [← Sample.politePlan_eq]
  exact (names_do_not_matter (m := exampleMachine draws) Sample.polite_proper rfl).2

/-- The document does load, so the output file is written, see C62. -/
example : load Sample.number Sample.politePlan = ok
    { Sample.project with
      agents := Sample.project.agents.map fun a => { a with name := Sample.polite.agent a.name }
      tasks := Sample.project.tasks.map fun t => { t with name := Sample.polite.task t.name, id := Sample.polite.id t.id } } := by
  rw [← Sample.politePlan_eq, (names_load Sample.polite_proper _ _).1 _ Sample.plan_loads]
  rfl

end Angonoka.Props
