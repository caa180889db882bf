import Verif.Proof.Notation
import Verif.Props.Serial
import Verif.Props.Files
import Verif.Props.LoadingExamples

/-!
# C112: short and long forms mean the same
# C113: documented defaults can be written out
-/

set_option linter.unusedSectionVars false

namespace Angonoka.Props
open Outcome Stun Cli Doc Load

variable {rf : String → Option XFloat} {root root' : Yaml} {p : Project}

/-! ### C112 -/

/-- C112. Two documents that describe the same project in different notation load to the very same project: groups and indices included. If there are
no more than 128 tasks they also fail in the same way, with the same message. -/
theorem notation_load (h : SameProject rf root root') (hc : IsConfiguration root) (hc' : IsConfiguration root') :
    (∀ p, load rf root = ok p ↔ load rf root' = ok p) ∧ ((tasks root).length ≤ 128 → load rf root' = load rf root) := by
  refine ⟨fun p => ?_, load_same h hc hc'⟩
  by_cases hs : (tasks root).length ≤ 128
  · rw [load_same h hc hc' hs]
  · obtain ⟨l, l', -, -, -, c1, c2⟩ := tasks_same h hc hc'
    refine ⟨fun hp => ?_, fun hp => ?_⟩ <;>
    · have hl := (load_faithful hp).2
      have := hl.tasks_limit
      rw [hl.tasks_length] at this
      omega

variable {K : Type} [Field K] [LinearOrder K] [IsStrictOrderedRing K] [FloorRing K]
variable {E : FloatEnv K} {m : Machine K} {c : Command} {o : Cli.Options K}

/-- C112. With the other notation the program does exactly the same: prints the same, writes the same file, ends in the same way. This holds for both commands,
all options, all random numbers, and any arithmetic, single precision in particular. -/
theorem notation_does_not_matter (hs : m.source = .doc root) (h : SameProject m.readFloat root root') (hc : IsConfiguration root)
    (hc' : IsConfiguration root') (hn : (tasks root).length ≤ 128) :
    body E { m with source := .doc root' } c o = body E m c o := by
  have hl := (notation_load h hc hc').2 hn
  have hp : parseConfig { m with source := .doc root' } o = parseConfig m o := by
    unfold parseConfig
    rw [hs]
    dsimp only
    rw [hl]
  rw [body_eq, body_eq]
  have hcomp : compute E { m with source := .doc root' } c o = compute E m c o := by
    unfold compute
    rw [hp]
    rfl
  rw [hcomp]
  rfl

/-! ### C113 -/

theorem field_add {es new : List (Yaml × Yaml)} {key : String} {v : Yaml} (h : Doc.Field (.map es) key v) : Doc.Field (.map (new ++ es)) key v := by
  obtain ⟨_, e, h⟩ := h
  cases e
  exact ⟨_, rfl, List.mem_append_right _ h⟩

theorem field_added {es : List (Yaml × Yaml)} {k key : String} {w v : Yaml} :
    Doc.Field (.map ((.scalar k, w) :: es)) key v ↔ (key = k ∧ v = w) ∨ Doc.Field (.map es) key v := by
  constructor
  · rintro ⟨_, e, h⟩
    cases e
    rcases List.mem_cons.1 h with h | h
    · cases h; exact Or.inl ⟨rfl, rfl⟩
    · exact Or.inr ⟨_, rfl, h⟩
  · rintro (⟨rfl, rfl⟩ | ⟨_, e, h⟩)
    · exact ⟨_, rfl, by simp⟩
    · cases e; exact ⟨_, rfl, by simp [h]⟩

theorem other_field {es : List (Yaml × Yaml)} {k key : String} {w v : Yaml} (hk : key ≠ k) :
    Doc.Field (.map ((.scalar k, w) :: es)) key v ↔ Doc.Field (.map es) key v := by
  rw [field_added]
  exact or_iff_right fun h => hk h.1

theorem other_missing {es : List (Yaml × Yaml)} {k key : String} {w : Yaml} (hk : key ≠ k) :
    Missing (.map ((.scalar k, w) :: es)) key ↔ Missing (.map es) key :=
  not_congr (exists_congr fun _ => other_field hk)

theorem performance_other {es : List (Yaml × Yaml)} {k : String} {w : Yaml} {lo hi : XFloat} (hk : "performance" ≠ k) :
    Doc.Performance rf (.map ((.scalar k, w) :: es)) lo hi ↔ Doc.Performance rf (.map es) lo hi := by
  unfold Doc.Performance
  simp only [other_field hk]

theorem duration_other {es : List (Yaml × Yaml)} {k : String} {w : Yaml} {lo hi : Nat} (hk : "duration" ≠ k) :
    Doc.Duration (.map ((.scalar k, w) :: es)) lo hi ↔ Doc.Duration (.map es) lo hi := by
  unfold Doc.Duration
  simp only [other_field hk]

/-- C113. Writing out `performance: 1.0` makes no difference to an agent, if the text is read as one. -/
theorem default_performance {e : Yaml × Yaml} {k : Yaml} {es : List (Yaml × Yaml)} {s : String} (h : SameAgent rf e (k, .map es))
    (hm : Missing (.map es) "performance") (hs : rf s = some (.fin 1)) :
    SameAgent rf e (k, .map ((.scalar "performance", .scalar s) :: es)) := by
  obtain ⟨h1, ⟨l, g1, g2⟩, lo, hi, p1, p2⟩ := h
  refine ⟨h1, ⟨l, g1, ?_⟩, lo, hi, p1, ?_⟩
  · cases g2 with
    | written g => exact .written ((other_field (by decide)).2 g)
    | left g => exact .left ((other_missing (by decide)).2 g)
  · rcases p2 with ⟨-, rfl, rfl⟩ | ⟨t, ht, -⟩ | ⟨v, _, _, hv, -⟩
    · exact Or.inr (Or.inl ⟨s, field_added.2 (Or.inl ⟨rfl, rfl⟩), hs, rfl⟩)
    · exact absurd ⟨_, ht⟩ hm
    · exact absurd ⟨_, hv⟩ hm

/-- C113. Writing out `groups: []` makes no difference to an agent. -/
theorem default_groups {e : Yaml × Yaml} {k : Yaml} {es : List (Yaml × Yaml)} (h : SameAgent rf e (k, .map es))
    (hm : Missing (.map es) "groups") : SameAgent rf e (k, .map ((.scalar "groups", .seq []) :: es)) := by
  obtain ⟨h1, ⟨l, g1, g2⟩, lo, hi, p1, p2⟩ := h
  refine ⟨h1, ⟨l, g1, ?_⟩, lo, hi, p1, (performance_other (by decide)).2 p2⟩
  cases g2 with
  | written g => exact absurd ⟨_, g⟩ hm
  | left g => exact .written (field_added.2 (Or.inl ⟨rfl, rfl⟩))

/-- C113. Writing out `subtasks: []` makes no difference to a task. -/
theorem default_subtasks {n : Yaml} {es : List (Yaml × Yaml)} (h : SameTask n (.map es)) (hm : Missing (.map es) "subtasks") :
    SameTask n (.map ((.scalar "subtasks", .seq []) :: es)) := by
  cases h with
  | mk name id duration assignment dependencies subtasks subtasks' length same =>
    obtain ⟨lo, hi, d1, d2⟩ := duration
    obtain ⟨gs, a, a1, a2⟩ := assignment
    obtain ⟨ds, e1, e2⟩ := dependencies
    refine .mk (l' := []) (fun v => (other_field (by decide)).trans (name v)) (fun v => (other_field (by decide)).trans (id v))
      ⟨lo, hi, d1, (duration_other (by decide)).2 d2⟩ ⟨gs, a, a1, ?_⟩ ⟨ds, e1, ?_⟩ subtasks (.written (field_added.2 (Or.inl ⟨rfl, rfl⟩))) ?_ ?_
    · cases a2 with
      | group x y z => exact .group ((other_field (by decide)).2 x) ((other_missing (by decide)).2 y) ((other_missing (by decide)).2 z)
      | groups x y z => exact .groups ((other_missing (by decide)).2 x) ((other_field (by decide)).2 y) ((other_missing (by decide)).2 z)
      | agent x y z => exact .agent ((other_missing (by decide)).2 x) ((other_missing (by decide)).2 y) ((other_field (by decide)).2 z)
      | left x y z => exact .left ((other_missing (by decide)).2 x) ((other_missing (by decide)).2 y) ((other_missing (by decide)).2 z)
    · cases e2 with
      | one x => exact .one ((other_field (by decide)).2 x)
      | list x y => exact .list ((other_field (by decide)).2 x) y
      | left x => exact .left ((other_missing (by decide)).2 x)
    · cases subtasks' with
      | written x => exact absurd ⟨_, x⟩ hm
      | left x => exact length
    · intro i _ _ _ h
      cases h

/-- C113 is wrong for the other defaults. The documentation gives the empty text as the default of `id`, `group` and `depends_on`,
but no document in which one of them is written out is accepted. -/
theorem default_texts_rejected {q : List Nat × Yaml} (hq : q ∈ tasks root)
    (h : Doc.Field q.2 "id" (.scalar "") ∨ Doc.Field q.2 "group" (.scalar "") ∨ Doc.Field q.2 "depends_on" (.scalar "")) :
    load rf root ≠ ok p := by
  intro hl
  obtain ⟨hc, hL⟩ := load_faithful hl
  obtain ⟨i, hi, rfl⟩ := List.mem_iff_getElem.1 hq
  have hi' : i < p.tasks.length := by rw [hL.tasks_length]; exact hi
  have ht := hL.tasks_loaded i _ _ (List.getElem?_eq_getElem hi) (List.getElem?_eq_getElem hi')
  obtain ⟨hd, hcause⟩ := load_iff.1 ⟨p, hl⟩
  rcases h with h | h | h
  · exact hcause _ (show Cause rf root (.cantBeEmpty _) from
      Or.inr (Or.inr ⟨_, hq, Or.inr (Or.inr ⟨_, ht.name, Or.inl ⟨rfl, h⟩⟩)⟩))
  · exact hd (Or.inr (Or.inl (Or.inr ⟨_, hq, Or.inl h⟩)))
  · exact hcause _ (show Cause rf root (.cantBeEmpty _) from
      Or.inr (Or.inr ⟨_, hq, Or.inr (Or.inr ⟨_, ht.name, Or.inr ⟨rfl, Or.inl h⟩⟩)⟩))

/-! ### Example -/

namespace Sample

/-- Reads the numbers in the documents below. -/
def reading (s : String) : Option XFloat := if s = "1" then some (.fin 1) else number s

/-- The document `plan` in other notation -/
def longPlan : Yaml := obj [
  ("tasks", .seq [
    obj [("duration", obj [("max", str "2 hours"), ("min", str "120m")]), ("name", str "build"), ("id", str "b"), ("groups", .seq [str "B"]),
      ("subtasks", .seq [
        obj [("agent", str "Jack"), ("name", str "walls"), ("duration", str "90 minutes"), ("subtasks", .seq [])],
        obj [("name", str "roof"), ("duration", obj [("min", str "600s"), ("max", str "60 min")]),
          ("groups", .seq [str "B", str "C"])]])],
    obj [("name", str "paint"), ("duration", obj [("min", str "45s"), ("max", str "45 sec")]), ("depends_on", str "b")]]),
  ("agents", obj [
    ("Bob", obj [("performance", obj [("min", str "0.5"), ("max", str "2")]), ("groups", .seq [str "A", str "B"])]),
    ("Jack", obj [("performance", str "1"), ("groups", .seq [])])])]

theorem means {s : String} {v : Nat} (h : parseDuration s = ok v) : DurationText.Means s v := ((parseDuration_spec s).1 v).1 h

theorem one_value {es : List (String × Yaml)} {s : String} {v : Nat} (hf : ("duration", str s) ∈ es) (h : parseDuration s = ok v) :
    Doc.Duration (obj es) v v := Or.inl ⟨s, field_obj.2 hf, means h, rfl⟩

theorem two_values {es ds : List (String × Yaml)} {a b : String} {v w : Nat} (hf : ("duration", obj ds) ∈ es) (h1 : ("min", str a) ∈ ds)
    (h2 : ("max", str b) ∈ ds) (ha : parseDuration a = ok v) (hb : parseDuration b = ok w) : Doc.Duration (obj es) v w :=
  Or.inr ⟨_, a, b, field_obj.2 hf, field_obj.2 h1, field_obj.2 h2, means ha, means hb⟩

theorem not_written {es : List (String × Yaml)} {key : String} (h : key ∉ es.map Prod.fst) : Missing (obj es) key := by
  rintro ⟨v, hv⟩
  exact h (List.mem_map.2 ⟨_, field_obj.1 hv, rfl⟩)

theorem walls_same : SameTask (obj [("name", str "walls"), ("duration", str "1h and 30m"), ("agent", str "Jack")])
    (obj [("agent", str "Jack"), ("name", str "walls"), ("duration", str "90 minutes"), ("subtasks", .seq [])]) := by
  refine .mk (l := []) (l' := []) (fun v => ?_) (fun v => ?_)
    ⟨5400, 5400, one_value (s := "1h and 30m") (by simp) (by decide +kernel), one_value (s := "90 minutes") (by simp) (by decide +kernel)⟩
    ⟨[], some (str "Jack"), .agent (not_written (by simp)) (not_written (by simp)) (field_obj.2 (by simp)),
      .agent (not_written (by simp)) (not_written (by simp)) (field_obj.2 (by simp))⟩
    ⟨[], .left (not_written (by simp)), .left (not_written (by simp))⟩ (.left (not_written (by simp))) (.written (field_obj.2 (by simp)))
    rfl (fun i _ _ h => by cases h)
  · simp [field_obj]
  · simp [field_obj]

theorem roof_same : SameTask (obj [("name", str "roof"), ("duration", obj [("min", str "10 minutes"), ("max", str "1h")]), ("groups", .seq [str "B", str "C"])])
    (obj [("name", str "roof"), ("duration", obj [("min", str "600s"), ("max", str "60 min")]), ("groups", .seq [str "B", str "C"])]) := by
  refine .mk (l := []) (l' := []) (fun v => ?_) (fun v => ?_)
    ⟨600, 3600, two_values (ds := [("min", str "10 minutes"), ("max", str "1h")]) (a := "10 minutes") (b := "1h") (by simp) (by simp) (by simp)
        (by decide +kernel) (by decide +kernel),
      two_values (ds := [("min", str "600s"), ("max", str "60 min")]) (a := "600s") (b := "60 min") (by simp) (by simp) (by simp)
        (by decide +kernel) (by decide +kernel)⟩
    ⟨[str "B", str "C"], none, .groups (not_written (by simp)) (field_obj.2 (by simp)) (not_written (by simp)),
      .groups (not_written (by simp)) (field_obj.2 (by simp)) (not_written (by simp))⟩
    ⟨[], .left (not_written (by simp)), .left (not_written (by simp))⟩ (.left (not_written (by simp))) (.left (not_written (by simp)))
    rfl (fun i _ _ h => by cases h)
  · simp [field_obj]
  · simp [field_obj]

theorem paint_same : SameTask (obj [("name", str "paint"), ("duration", str "45s"), ("depends_on", .seq [str "b"])])
    (obj [("name", str "paint"), ("duration", obj [("min", str "45s"), ("max", str "45 sec")]), ("depends_on", str "b")]) := by
  refine .mk (l := []) (l' := []) (fun v => ?_) (fun v => ?_)
    ⟨45, 45, one_value (s := "45s") (by simp) (by decide +kernel),
      two_values (ds := [("min", str "45s"), ("max", str "45 sec")]) (a := "45s") (b := "45 sec") (by simp) (by simp) (by simp)
        (by decide +kernel) (by decide +kernel)⟩
    ⟨[], none, .left (not_written (by simp)) (not_written (by simp)) (not_written (by simp)),
      .left (not_written (by simp)) (not_written (by simp)) (not_written (by simp))⟩
    ⟨[str "b"], .list (field_obj.2 (by simp)) (by simp), .one (field_obj.2 (by simp [str]))⟩
    (.left (not_written (by simp))) (.left (not_written (by simp)))
    rfl (fun i _ _ h => by cases h)
  · simp [field_obj]
  · simp [field_obj]

theorem build_same {l l' : List Yaml} (h : List.Forall₂ SameTask l l') :
    SameTask (obj [("name", str "build"), ("id", str "b"), ("duration", str "2h"), ("group", str "B"), ("subtasks", .seq l)])
    (obj [("duration", obj [("max", str "2 hours"), ("min", str "120m")]), ("name", str "build"), ("id", str "b"), ("groups", .seq [str "B"]),
      ("subtasks", .seq l')]) := by
  refine .mk (l := l) (l' := l') (fun v => ?_) (fun v => ?_)
    ⟨7200, 7200, one_value (s := "2h") (by simp) (by decide +kernel),
      two_values (ds := [("max", str "2 hours"), ("min", str "120m")]) (a := "120m") (b := "2 hours") (by simp) (by simp) (by simp)
        (by decide +kernel) (by decide +kernel)⟩
    ⟨[str "B"], none, .group (field_obj.2 (by simp)) (not_written (by simp)) (not_written (by simp)),
      .groups (not_written (by simp)) (field_obj.2 (by simp)) (not_written (by simp))⟩
    ⟨[], .left (not_written (by simp)), .left (not_written (by simp))⟩
    (.written (field_obj.2 (by simp))) (.written (field_obj.2 (by simp))) h.length_eq.symm ?_
  · simp [field_obj]
  · simp [field_obj]
  · intro i m m' hm hm'
    obtain ⟨h1, rfl⟩ := List.getElem?_eq_some_iff.1 hm
    obtain ⟨h2, rfl⟩ := List.getElem?_eq_some_iff.1 hm'
    exact (List.forall₂_iff_get.1 h).2 i h1 h2

theorem jack_same : SameAgent reading (.scalar "Jack", .null) (.scalar "Jack", obj [("performance", str "1"), ("groups", .seq [])]) :=
  ⟨rfl, ⟨[], .left fun ⟨_, h⟩ => field_null h, .written (field_obj.2 (by simp))⟩, .fin 1, .fin 1,
    Or.inl ⟨fun ⟨_, h⟩ => field_null h, rfl, rfl⟩, Or.inr (Or.inl ⟨"1", field_obj.2 (by simp [str]), by decide +kernel, rfl⟩)⟩

theorem bob_performance {es : List (String × Yaml)} (h : ("performance", obj [("min", str "0.5"), ("max", str "2")]) ∈ es) :
    Doc.Performance reading (obj es) (.fin (1 / 2)) (.fin 2) :=
  Or.inr (Or.inr ⟨_, "0.5", "2", field_obj.2 h, field_obj.2 (by simp [str]), field_obj.2 (by simp [str]), by decide +kernel, by decide +kernel⟩)

theorem bob_same : SameAgent reading
    (.scalar "Bob", obj [("groups", .seq [str "A", str "B"]), ("performance", obj [("min", str "0.5"), ("max", str "2")])])
    (.scalar "Bob", obj [("performance", obj [("min", str "0.5"), ("max", str "2")]), ("groups", .seq [str "A", str "B"])]) :=
  ⟨rfl, ⟨[str "A", str "B"], .written (field_obj.2 (by simp)), .written (field_obj.2 (by simp))⟩, .fin (1 / 2), .fin 2,
    bob_performance (by simp), bob_performance (by simp)⟩

theorem longPlan_same : SameProject reading plan longPlan where
  agents := .cons bob_same (.cons jack_same .nil)
  tasks := ⟨_, _, field_obj.2 (.tail _ (.head _)), field_obj.2 (.head _),
    .cons (build_same (.cons walls_same (.cons roof_same .nil))) (.cons paint_same .nil)⟩

theorem plan_reading : load reading plan = ok project := by
  rw [Load.load_eval 20 _ _ (by decide)]
  decide +kernel

/-- The other notation passes the schema check. -/
theorem longPlan_loads : load reading longPlan = ok project := by
  rw [Load.load_eval 20 _ _ (by decide)]
  decide +kernel

/-- Written out, the default of `group` is a violated contract. -/
theorem default_group_aborts : load number (obj [("agents", obj [("Jack", .null)]),
    ("tasks", .seq [obj [("name", str "walls"), ("duration", str "2h"), ("group", str "")]])]) = ub "parse_task_group: group not empty" := by
  rw [Load.load_eval 20 _ _ (by decide)]
  decide +kernel

end Sample

/-- C112 for the example: whatever the command, the options and the random numbers are -/
example (draws : Nat → Nat → Nat → Draws ℚ) (c : Command) (o : Cli.Options ℚ) :
    body FloatEnv.rat { exampleMachine draws with source := .doc Sample.longPlan, readFloat := Sample.reading } c o
      = body FloatEnv.rat { exampleMachine draws with readFloat := Sample.reading } c o :=
  notation_does_not_matter (m := { exampleMachine draws with readFloat := Sample.reading }) rfl Sample.longPlan_same
    (load_faithful Sample.plan_reading).1 (load_faithful Sample.longPlan_loads).1 (by
      have h := (load_faithful Sample.plan_reading).2
      rw [← h.tasks_length]
      decide)

end Angonoka.Props
