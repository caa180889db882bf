import Verif.Proof.DurationLimits
import Verif.Proof.Eval
import Verif.Proof.LoadTree
import Verif.Props.Params

/-!
# C01-C10, C12, C13: loading a configuration

`load rf root` is `load_text`/`load_file` after the YAML parser; `rf` reads a `float`. What the document says
(`Doc.tasks`, `Doc.agents`, `Doc.DependsOn`, ...) is defined in `Verif/Spec/Loading.lean` without the loader.
-/

namespace Angonoka.Props
open Angonoka Outcome Doc Validation

variable {rf : String → Option XFloat} {root : Yaml} {p : Project}

/-! ## Example documents -/

namespace Sample

/-- A map with text keys. -/
def obj (es : List (String × Yaml)) : Yaml := .map (es.map fun e => (.scalar e.1, e.2))

def str (s : String) : Yaml := .scalar s

/-- Reads the numbers that the examples use. -/
def number (s : String) : Option XFloat :=
  if s = "2" then some (.fin 2) else if s = "0.5" then some (.fin (1 / 2))
  else if s = "nan" then some .nan else none

/-- Two agents and four tasks: the first has two subtasks, the last depends on the first. -/
def plan : Yaml := obj [
  ("agents", obj [
    ("Bob", obj [("groups", .seq [str "A", str "B"]), ("performance", obj [("min", str "0.5"), ("max", str "2")])]),
    ("Jack", .null)]),
  ("tasks", .seq [
    obj [("name", str "build"), ("id", str "b"), ("duration", str "2h"), ("group", str "B"),
      ("subtasks", .seq [
        obj [("name", str "walls"), ("duration", str "1h and 30m"), ("agent", str "Jack")],
        obj [("name", str "roof"), ("duration", obj [("min", str "10 minutes"), ("max", str "1h")]),
          ("groups", .seq [str "B", str "C"])]])],
    obj [("name", str "paint"), ("duration", str "45s"), ("depends_on", .seq [str "b"])]])]

/-- What `plan` is loaded as. -/
def project : Project where
  groups := ["A", "B", "C"]
  agents := [
    { id := 0, name := "Bob", groupIds := [0, 1], perfMin := .fin (1 / 2), perfMax := .fin 2 },
    { id := 1, name := "Jack" }]
  tasks := [
    { name := "build", id := "b", groupIds := [1], dependencies := [1, 2], durMin := 7200, durMax := 7200 },
    { name := "walls", agentId := some 1, durMin := 5400, durMax := 5400 },
    { name := "roof", groupIds := [1, 2], durMin := 600, durMax := 3600 },
    { name := "paint", dependencies := [0], durMin := 45, durMax := 45 }]

theorem plan_loads : load number plan = ok project := by
  rw [Load.load_eval 20 _ _ (by decide)]
  decide +kernel


end Sample
open Sample

/-! ## The loader as a whole -/

/-- A project that is returned is what the document says. -/
theorem load_faithful (h : load rf root = ok p) : IsConfiguration root ∧ Loaded rf root p := by
  refine ⟨?_, ?_⟩
  · by_contra hc
    unfold load at h
    cases hv : validateConfiguration root with
    | ok u => exact hc ((validateConfiguration_ok root).1 hv)
    | error e =>
      rw [hv] at h
      cases h
  · have := load_sat rf root
    rw [h] at this
    exact this

/-- An error that is raised is one the document has. -/
theorem load_error_true {e : Err} (h : load rf root = throws e) : Cause rf root e := by
  have := load_sat rf root
  rw [h] at this
  exact this

theorem duration_values {n : Yaml} (un : ∀ v w, Field n "duration" v → Field n "duration" w → v = w)
    (hr : ∀ v, Field n "duration" v → IsRange v) {lo hi lo' hi' : Nat} (h : Duration n lo hi)
    (h' : Duration n lo' hi') : lo = lo' ∧ hi = hi' := by
  have det : ∀ s v w, DurationText.Means s v → DurationText.Means s w → v = w := by
    intro s v w hv hw
    have a := ((parseDuration_spec s).1 v).2 hv
    have b := ((parseDuration_spec s).1 w).2 hw
    rw [a] at b
    injection b
  rcases h with ⟨s, h1, h2, rfl⟩ | ⟨v, c, d, h1, h2, h3, h4, h5⟩ <;>
    rcases h' with ⟨s', g1, g2, rfl⟩ | ⟨v', c', d', g1, g2, g3, g4, g5⟩
  · have := un _ _ h1 g1
    injection this with this
    subst this
    exact ⟨det _ _ _ h2 g2, det _ _ _ h2 g2⟩
  · have := un _ _ h1 g1
    subst this
    obtain ⟨es, he, -⟩ := g2
    cases he
  · have := un _ _ h1 g1
    subst this
    obtain ⟨es, he, -⟩ := h2
    cases he
  · have := un _ _ h1 g1
    subst this
    rcases hr _ h1 with ⟨z, rfl⟩ | ⟨hkeys, -⟩
    · obtain ⟨es, he, -⟩ := h2
      cases he
    · have e1 := Load.field_unique hkeys h2 g2
      have e2 := Load.field_unique hkeys h3 g3
      injection e1 with e1
      injection e2 with e2
      subst e1 e2
      exact ⟨det _ _ _ h4 g4, det _ _ _ h5 g5⟩

/-- A document that is loaded has no defect. -/
theorem load_ok_clean (h : load rf root = ok p) (e : Err) : ¬ Cause rf root e := by
  obtain ⟨hr, hl⟩ := load_faithful h
  have hshape := Load.isTask_tasks hr
  have hagent : ∀ x ∈ agents root, IsAgent x.2 := by
    intro x hx
    unfold agents at hx
    split at hx
    · rename_i es hes
      obtain ⟨es', e', hs⟩ := hr.2.1 _ ((get_iff hr.1 _ _).1 hes)
      injection e' with e'
      subst e'
      exact hs x hx
    · cases hx
  have task : ∀ q ∈ tasks root, ∃ t, TaskLoaded p.agents p.groups q.2 t := by
    intro q hq
    obtain ⟨i, hi, rfl⟩ := List.mem_iff_getElem.1 hq
    have hi' : i < p.tasks.length := by rw [hl.tasks_length]; exact hi
    exact ⟨_, hl.tasks_loaded i _ _ (List.getElem?_eq_getElem hi) (List.getElem?_eq_getElem hi')⟩
  have agent : ∀ x ∈ agents root, ∃ a, AgentLoaded rf p.groups x a := by
    intro x hx
    obtain ⟨i, hi, rfl⟩ := List.mem_iff_getElem.1 hx
    have hi' : i < p.agents.length := by rw [hl.agents_length]; exact hi
    exact ⟨_, hl.agents_loaded i _ _ (List.getElem?_eq_getElem hi) (List.getElem?_eq_getElem hi')⟩
  have idOf : ∀ q ∈ tasks root, ∀ s, Field q.2 "id" (.scalar s) →
      ∀ t, TaskLoaded p.agents p.groups q.2 t → t.id = s ∧ s ≠ "" := by
    intro q hq s hf t ht
    rcases ht.id with ⟨h1, h2⟩ | ⟨-, h2⟩
    · have := (hshape q hq).unique h2 hf
      injection this with this
      exact ⟨this, this ▸ h1⟩
    · exact absurd ⟨_, hf⟩ h2
  have range : ∀ n : Yaml, IsRange n → ∀ s key, ¬ (n = .scalar s ∧ ∃ v, Field n key v) := by
    rintro n _ s key ⟨rfl, v, es, he, -⟩
    cases he
  cases e with
  | schema m => exact fun hc => hc hr
  | narrowing => exact id
  | system => exact id
  | encoding => exact id
  | cantBeEmpty m =>
    rintro (⟨-, hc⟩ | ⟨-, hc⟩ | ⟨q, hq, hc⟩)
    · have := hl.agents_length
      rw [hc] at this
      exact hl.agents_ne (List.eq_nil_of_length_eq_zero this)
    · have := hl.tasks_length
      rw [hc] at this
      exact hl.tasks_ne (List.eq_nil_of_length_eq_zero this)
    · obtain ⟨t, ht⟩ := task q hq
      rcases hc with ⟨-, hc⟩ | ⟨-, hc⟩ | ⟨_, -, ⟨-, hc⟩ | ⟨-, hc⟩⟩
      · have := (hshape q hq).unique ht.name hc
        injection this with this
        exact ht.named this
      · cases hag : t.agentId with
        | none => exact ht.no_agent hag ⟨_, hc⟩
        | some i =>
          obtain ⟨s, a, h1, h2, h3⟩ := ht.agent i hag
          have := (hshape q hq).unique h1 hc
          injection this with this
          subst this
          have hi : i < (agents root).length := by
            rw [← hl.agents_length]
            by_contra hc'
            rw [List.getElem?_eq_none (by omega)] at h2
            cases h2
          exact (hl.agents_loaded i _ a (List.getElem?_eq_getElem hi) h2).named h3
      · exact (idOf q hq _ hc t ht).2 rfl
      · obtain ⟨q', hq', hf⟩ := hl.deps_known q hq "" hc
        obtain ⟨t', ht'⟩ := task q' hq'
        exact (idOf q' hq' _ hf t' ht').2 rfl
  | duplicateAgentDefinition who =>
    rintro ⟨i, j, x, y, hij, hx, hy, ex, ey⟩
    have get : ∀ (k : Nat) (z : Yaml × Yaml), (agents root)[k]? = some z → z.1 = .scalar who →
        ∃ a, p.agents[k]? = some a ∧ a.name = who := by
      intro k z hz ez
      have hk : k < p.agents.length := by
        rw [hl.agents_length]
        by_contra hc'
        rw [List.getElem?_eq_none (by omega)] at hz
        cases hz
      refine ⟨_, List.getElem?_eq_getElem hk, ?_⟩
      have := (hl.agents_loaded k z _ hz (List.getElem?_eq_getElem hk)).name
      rw [ez] at this
      injection this with this
      exact this.symm
    obtain ⟨a, ha, na⟩ := get i x hx ex
    obtain ⟨b, hb, nb⟩ := get j y hy ey
    have hi : i < (p.agents.map Agent.name).length := by
      rw [List.length_map]
      by_contra hc'
      rw [List.getElem?_eq_none (by omega)] at ha
      cases ha
    have := (List.getElem?_inj hi hl.agent_names).1
      (show (p.agents.map Agent.name)[i]? = (p.agents.map Agent.name)[j]? by
        rw [List.getElem?_map, List.getElem?_map, ha, hb]
        simp [na, nb])
    omega
  | invalidAgentPerformance who =>
    rintro ⟨x, hx, -, s, hs, hn⟩
    obtain ⟨a, ha⟩ := agent x hx
    have hk := (hagent x hx).1
    have un : ∀ v w, Field x.2 "performance" v → Field x.2 "performance" w → v = w :=
      fun v w => Load.field_unique hk
    rcases ha.performance with ⟨h1, -⟩ | ⟨s', h1, h2, -⟩ | ⟨v, c, d, h1, h2, h3, h4, h5⟩
    · rcases hs with hs | ⟨v, hs, -⟩ <;> exact h1 ⟨_, hs⟩
    · rcases hs with hs | ⟨v, hs, hs'⟩
      · have := un _ _ hs h1
        injection this with this
        rw [this, h2] at hn
        cases hn
      · have := un _ _ hs h1
        subst this
        rcases hs' with ⟨es, he, -⟩ | ⟨es, he, -⟩ <;> cases he
    · rcases hs with hs | ⟨v', hs, hs'⟩
      · have := un _ _ hs h1
        subst this
        obtain ⟨es, he, -⟩ := h2
        cases he
      · have := un _ _ hs h1
        subst this
        rcases (hagent x hx).2.1 _ hs with ⟨z, rfl⟩ | ⟨hkeys, -⟩
        · obtain ⟨es, he, -⟩ := h2
          cases he
        · rcases hs' with hs' | hs'
          · have := Load.field_unique hkeys hs' h2
            injection this with this
            rw [this, h4] at hn
            cases hn
          · have := Load.field_unique hkeys hs' h3
            injection this with this
            rw [this, h5] at hn
            cases hn
  | negativePerformance who =>
    rintro ⟨x, hx, -, s, y, hs, hn, hle⟩
    obtain ⟨a, ha⟩ := agent x hx
    have hk := (hagent x hx).1
    obtain ⟨p1, p2⟩ := ha.positive
    have un : ∀ v w, Field x.2 "performance" v → Field x.2 "performance" w → v = w :=
      fun v w => Load.field_unique hk
    rcases ha.performance with ⟨h1, -⟩ | ⟨s', h1, h2, -⟩ | ⟨v, c, d, h1, h2, h3, h4, h5⟩
    · rcases hs with hs | ⟨v, hs, -⟩ <;> exact h1 ⟨_, hs⟩
    · rcases hs with hs | ⟨v, hs, hs'⟩
      · have := un _ _ hs h1
        injection this with this
        rw [this, h2] at hn
        cases hn
        rw [hle] at p1
        cases p1
      · have := un _ _ hs h1
        subst this
        rcases hs' with ⟨es, he, -⟩ | ⟨es, he, -⟩ <;> cases he
    · rcases hs with hs | ⟨v', hs, hs'⟩
      · have := un _ _ hs h1
        subst this
        obtain ⟨es, he, -⟩ := h2
        cases he
      · have := un _ _ hs h1
        subst this
        rcases (hagent x hx).2.1 _ hs with ⟨z, rfl⟩ | ⟨hkeys, -⟩
        · obtain ⟨es, he, -⟩ := h2
          cases he
        · rcases hs' with hs' | hs'
          · have := Load.field_unique hkeys hs' h2
            injection this with this
            rw [this, h4] at hn
            cases hn
            rw [hle] at p1
            cases p1
          · have := Load.field_unique hkeys hs' h3
            injection this with this
            rw [this, h5] at hn
            cases hn
            rw [hle] at p2
            cases p2
  | agentPerformanceMinMax who =>
    rintro ⟨x, hx, -, v, c, d, y, z, h1, h2, h3, h4, h5, hgt⟩
    obtain ⟨a, ha⟩ := agent x hx
    have hk := (hagent x hx).1
    have un : ∀ v w, Field x.2 "performance" v → Field x.2 "performance" w → v = w :=
      fun v w => Load.field_unique hk
    rcases ha.performance with ⟨g1, -⟩ | ⟨s', g1, -⟩ | ⟨v', c', d', g1, g2, g3, g4, g5⟩
    · exact g1 ⟨_, h1⟩
    · have := un _ _ h1 g1
      subst this
      obtain ⟨es, he, -⟩ := h2
      cases he
    · have := un _ _ h1 g1
      subst this
      rcases (hagent x hx).2.1 _ h1 with ⟨z, rfl⟩ | ⟨hkeys, -⟩
      · obtain ⟨es, he, -⟩ := h2
        cases he
      · have e1 := Load.field_unique hkeys h2 g2
        have e2 := Load.field_unique hkeys h3 g3
        injection e1 with e1
        injection e2 with e2
        rw [e1, g4] at h4
        rw [e2, g5] at h5
        cases h4
        cases h5
        rw [ha.ordered] at hgt
        cases hgt
  | duplicateTaskDefinition id =>
    rintro ⟨i, j, q, r, hij, hq, hr', fq, fr⟩
    have get : ∀ (k : Nat) (z : List Nat × Yaml), (tasks root)[k]? = some z →
        Field z.2 "id" (.scalar id) → ∃ t, p.tasks[k]? = some t ∧ t.id = id ∧ id ≠ "" := by
      intro k z hz fz
      have hk : k < p.tasks.length := by
        rw [hl.tasks_length]
        by_contra hc'
        rw [List.getElem?_eq_none (by omega)] at hz
        cases hz
      exact ⟨_, List.getElem?_eq_getElem hk, idOf z (List.mem_of_getElem? hz) id fz _
        (hl.tasks_loaded k z _ hz (List.getElem?_eq_getElem hk))⟩
    obtain ⟨t, ht, nt, hne⟩ := get i q hq fq
    obtain ⟨u, hu, nu, -⟩ := get j r hr' fr
    have := hl.task_ids i j t u ht hu (nt.trans nu.symm) (nt ▸ hne)
    omega
  | invalidDuration task' text =>
    rintro ⟨q, hq, -, hs, hw⟩
    obtain ⟨t, ht⟩ := task q hq
    have un : ∀ v w, Field q.2 "duration" v → Field q.2 "duration" w → v = w :=
      fun v w => (hshape q hq).unique
    have wf : ∀ s v, DurationText.Means s v → DurationText.WellFormed s :=
      fun s v h => ⟨v, DurationText.Components.mono h.1 (fun _ _ => True.intro)⟩
    have hrange : ∀ v, Field q.2 "duration" v → IsRange v := by
      intro v hv
      cases hshape q hq with
      | mk _ _ _ _ _ _ _ h => exact h v hv
    obtain ⟨lo, hi, hd, -⟩ := ht.duration
    rcases hd with ⟨s', h1, h2, -⟩ | ⟨v, c, d, h1, h2, h3, h4, h5⟩
    · rcases hs with hs | ⟨v, hs, hs'⟩
      · have := un _ _ hs h1
        injection this with this
        subst this
        exact hw (wf _ _ h2)
      · have := un _ _ hs h1
        subst this
        rcases hs' with ⟨es, he, -⟩ | ⟨es, he, -⟩ <;> cases he
    · rcases hs with hs | ⟨v', hs, hs'⟩
      · have := un _ _ hs h1
        subst this
        obtain ⟨es, he, -⟩ := h2
        cases he
      · have := un _ _ hs h1
        subst this
        rcases hrange _ hs with ⟨z, rfl⟩ | ⟨hkeys, -⟩
        · obtain ⟨es, he, -⟩ := h2
          cases he
        · rcases hs' with hs' | hs'
          · have := Load.field_unique hkeys hs' h2
            injection this with this
            subst this
            exact hw (wf _ _ h4)
          · have := Load.field_unique hkeys hs' h3
            injection this with this
            subst this
            exact hw (wf _ _ h5)
  | taskDurationMinMax task' =>
    rintro ⟨q, hq, -, lo, hi, hd, hlt⟩
    obtain ⟨t, ht⟩ := task q hq
    obtain ⟨lo', hi', hd', hle, -⟩ := ht.duration
    have hrange : ∀ v, Field q.2 "duration" v → IsRange v := by
      intro v hv
      cases hshape q hq with
      | mk _ _ _ _ _ _ _ h => exact h v hv
    have := duration_values (fun v w => (hshape q hq).unique) hrange hd hd'
    omega
  | invalidTaskAssignment task' =>
    rintro ⟨q, hq, -, hc⟩
    obtain ⟨t, ht⟩ := task q hq
    rcases hc with ⟨v, w, h1, h2⟩ | ⟨v, w, h1, h2⟩ | ⟨v, w, h1, h2⟩
    · exact ht.one_group ⟨_, h1⟩ ⟨_, h2⟩
    · exact (ht.one_way ⟨_, h2⟩).1 ⟨_, h1⟩
    · exact (ht.one_way ⟨_, h2⟩).2 ⟨_, h1⟩
  | noSuitableAgent g =>
    rintro ⟨⟨q, hq, hg⟩, hc⟩
    obtain ⟨x, hx, h1 | h1⟩ := hl.suitable q hq g hg
    · exact (hc x hx).1 h1
    · obtain ⟨g', hg'⟩ := (hc x hx).2
      exact h1 g' hg'
  | agentNotFound name =>
    rintro ⟨⟨q, hq, hf⟩, hc⟩
    obtain ⟨t, ht⟩ := task q hq
    cases hag : t.agentId with
    | none => exact ht.no_agent hag ⟨_, hf⟩
    | some i =>
      obtain ⟨s, a, h1, h2, h3⟩ := ht.agent i hag
      have := (hshape q hq).unique h1 hf
      injection this with this
      subst this
      have hi : i < (agents root).length := by
        rw [← hl.agents_length]
        by_contra hc'
        rw [List.getElem?_eq_none (by omega)] at h2
        cases h2
      have := (hl.agents_loaded i _ a (List.getElem?_eq_getElem hi) h2).name
      exact hc _ (List.getElem_mem hi) (by rw [this, h3])
  | taskNotFound id =>
    rintro ⟨⟨q, hq, hf⟩, hc⟩
    obtain ⟨q', hq', hf'⟩ := hl.deps_known q hq id hf
    exact hc q' hq' hf'
  | dependencyCycle =>
    rintro ⟨i, hi⟩
    exact hl.acyclic i hi
  | range =>
    rintro (hc | hc | ⟨gs, h1, h2, h3⟩)
    · have := hl.agents_length
      have := hl.agents_limit
      omega
    · have := hl.tasks_length
      have := hl.tasks_limit
      omega
    · have hsub : gs ⊆ p.groups := fun g hg => (hl.groups_mentioned g).2 (h3 g hg)
      have := (h1.subperm hsub).length_le
      have := hl.groups_limit
      omega
  | duration _ => exact fun h => h
  | yaml => exact fun h => h

/-- Documents without the degenerate texts are loaded exactly when they have no defect. -/
theorem load_accepts_iff (hd : ¬ Degenerate root) :
    (∃ p, load rf root = ok p) ↔ ∀ e, ¬ Cause rf root e := by
  constructor
  · rintro ⟨p, h⟩ e
    exact load_ok_clean h e
  · intro h
    have := load_sat rf root
    cases hl : load rf root with
    | ok p => exact ⟨p, rfl⟩
    | throws e =>
      rw [hl] at this
      exact absurd this (h e)
    | ub s =>
      rw [hl] at this
      exact absurd this hd

/-- A document with one of the degenerate texts is never loaded. -/
theorem load_not_degenerate (h : load rf root = ok p) : ¬ Degenerate root := by
  obtain ⟨hr, hl⟩ := load_faithful h
  rintro (⟨e, he, h0⟩ | hm | ⟨q, hq, hf⟩ | ⟨q, hq, s, hs, hbig⟩)
  · obtain ⟨i, hi, rfl⟩ := List.mem_iff_getElem.1 he
    have hi' : i < p.agents.length := by rw [hl.agents_length]; exact hi
    have ha := hl.agents_loaded i _ _ (List.getElem?_eq_getElem hi) (List.getElem?_eq_getElem hi')
    rw [ha.name] at h0
    exact ha.named h0
  · exact hl.groups_named ((hl.groups_mentioned "").2 hm)
  · obtain ⟨i, hi, rfl⟩ := List.mem_iff_getElem.1 hq
    have hi' : i < p.tasks.length := by rw [hl.tasks_length]; exact hi
    exact (hl.tasks_loaded i _ _ (List.getElem?_eq_getElem hi) (List.getElem?_eq_getElem hi')).listed hf
  · obtain ⟨i, hi, rfl⟩ := List.mem_iff_getElem.1 hq
    have hi' : i < p.tasks.length := by rw [hl.tasks_length]; exact hi
    obtain ⟨lo, hi, hd, -⟩ := (hl.tasks_loaded i _ _ (List.getElem?_eq_getElem hi) (List.getElem?_eq_getElem hi')).duration
    have hshape := Load.isTask_tasks hr _ hq
    have un : ∀ v w, Field (tasks root)[i].2 "duration" v → Field (tasks root)[i].2 "duration" w → v = w :=
      fun v w => hshape.unique
    have hrange : ∀ v, Field (tasks root)[i].2 "duration" v → IsRange v := by
      intro v hv
      cases hshape with
      | mk _ _ _ _ _ _ _ h => exact h v hv
    have no : ∀ s v, DurationText.Means s v → ¬ (DurationText.HugeNumber s ∨ DurationText.Overlong s) :=
      fun s v h h' => h'.elim h.not_huge h.not_overlong
    rcases hd with ⟨s', h1, h2, -⟩ | ⟨v, c, d, h1, h2, h3, h4, h5⟩
    · rcases hs with hs | ⟨v, hs, hs'⟩
      · cases un _ _ hs h1
        exact no _ _ h2 hbig
      · cases un _ _ hs h1
        rcases hs' with ⟨es, he, -⟩ | ⟨es, he, -⟩ <;> cases he
    · rcases hs with hs | ⟨v', hs, hs'⟩
      · cases un _ _ hs h1
        obtain ⟨es, he, -⟩ := h2
        cases he
      · cases un _ _ hs h1
        rcases hrange _ hs with ⟨z, rfl⟩ | ⟨hkeys, -⟩
        · obtain ⟨es, he, -⟩ := h2
          cases he
        · rcases hs' with hs' | hs'
          · cases Load.field_unique hkeys hs' h2
            exact no _ _ h4 hbig
          · cases Load.field_unique hkeys hs' h3
            exact no _ _ h5 hbig

/-- Exactly the documents that load: those without a defect and without the degenerate texts. -/
theorem load_iff : (∃ p, load rf root = ok p) ↔ ¬ Degenerate root ∧ ∀ e, ¬ Cause rf root e :=
  ⟨fun ⟨_, h⟩ => ⟨load_not_degenerate h, load_ok_clean h⟩, fun h => (load_accepts_iff h.1).2 h.2⟩

/-- A document with a defect but without degenerate texts raises an error, and the error is a defect the
document has. -/
theorem load_reports (hd : ¬ Degenerate root) {e : Err} (he : Cause rf root e) :
    ∃ e', load rf root = throws e' ∧ Cause rf root e' := by
  have := load_sat rf root
  cases hl : load rf root with
  | ok p => exact absurd he (load_ok_clean hl e)
  | throws e' =>
    rw [hl] at this
    exact ⟨e', rfl, this⟩
  | ub s =>
    rw [hl] at this
    exact absurd this hd

/-- If all its defects are of the kind `K`, that kind of error is raised. -/
theorem load_reports_kind (hd : ¬ Degenerate root) {e : Err} (he : Cause rf root e) {K : Err → Prop}
    (hK : ∀ e', Cause rf root e' → K e') : ∃ e', load rf root = throws e' ∧ K e' := by
  obtain ⟨e', h1, h2⟩ := load_reports hd he
  exact ⟨e', h1, hK e' h2⟩

theorem task_of (h : Loaded rf root p) {i : Nat} {t : Task} (ht : p.tasks[i]? = some t) :
    ∃ q, (tasks root)[i]? = some q := by
  have hi : i < p.tasks.length := (List.getElem?_eq_some_iff.1 ht).1
  rw [h.tasks_length] at hi
  exact ⟨_, List.getElem?_eq_getElem hi⟩

theorem agent_of (h : Loaded rf root p) {i : Nat} {a : Agent} (ha : p.agents[i]? = some a) :
    ∃ e, (agents root)[i]? = some e := by
  have hi : i < p.agents.length := (List.getElem?_eq_some_iff.1 ha).1
  rw [h.agents_length] at hi
  exact ⟨_, List.getElem?_eq_getElem hi⟩

/-- Two ways of assignment are one of the three combinations. -/
theorem two_ways_cause (hr : IsConfiguration root)
    (hc : ∃ q ∈ tasks root, ∃ a b v w, a ∈ ["agent", "group", "groups"] ∧
      b ∈ ["agent", "group", "groups"] ∧ a ≠ b ∧ Field q.2 a v ∧ Field q.2 b w) {F : Prop}
    (hF : ∀ name, Cause rf root (.invalidTaskAssignment name) → F) : F := by
  obtain ⟨q, hq, a, b, v, w, ha, hb, hab, fa, fb⟩ := hc
  have hs := Load.isTask_tasks hr q hq
  obtain ⟨vn, gn⟩ := get_required hs.keys' (key := "name") (by simp)
  have fn := (hs.get _ _).1 gn
  obtain ⟨name, rfl⟩ : IsText vn := by
    cases hs with
    | mk _ _ _ _ h => exact h vn fn
  refine hF name ⟨q, hq, fn, ?_⟩
  simp only [List.mem_cons, List.not_mem_nil, or_false] at ha hb
  rcases ha with rfl | rfl | rfl <;> rcases hb with rfl | rfl | rfl
  · exact absurd rfl hab
  · exact Or.inr (Or.inl ⟨_, _, fb, fa⟩)
  · exact Or.inr (Or.inr ⟨_, _, fb, fa⟩)
  · exact Or.inr (Or.inl ⟨_, _, fa, fb⟩)
  · exact absurd rfl hab
  · exact Or.inl ⟨_, _, fa, fb⟩
  · exact Or.inr (Or.inr ⟨_, _, fa, fb⟩)
  · exact Or.inl ⟨_, _, fb, fa⟩
  · exact absurd rfl hab

/-! ## C01, C02: dependencies -/

/-- C02. The dependencies of task `i` are exactly its direct subtasks and the tasks whose id it lists. -/
theorem dependencies_declared (h : load rf root = ok p) {i : Nat} {t : Task}
    (ht : p.tasks[i]? = some t) :
    IndexSet.Sorted t.dependencies ∧ (∀ d ∈ t.dependencies, d < p.tasks.length) ∧
    ∀ d, d ∈ t.dependencies ↔ ∃ qi qd, (tasks root)[i]? = some qi ∧ (tasks root)[d]? = some qd ∧
      ((∃ k, qd.1 = qi.1 ++ [k]) ∨
        ∃ s, (Field qi.2 "depends_on" (.scalar s) ∨
          ∃ l, Field qi.2 "depends_on" (.seq l) ∧ Yaml.scalar s ∈ l) ∧
          Field qd.2 "id" (.scalar s)) := by
  have hl := (load_faithful h).2
  refine ⟨hl.deps_sorted t (List.mem_of_getElem? ht), ?_, fun d => hl.deps i t ht d⟩
  intro d hd
  obtain ⟨qi, qd, -, h2, -⟩ := (hl.deps i t ht d).1 hd
  rw [hl.tasks_length]
  exact (List.getElem?_eq_some_iff.1 h2).1

/-- C02. An id that no task has: `TaskNotFound` is only raised for such an id, and with such an id the document is not
loaded. -/
theorem unknown_dependency (s : String) :
    (load rf root = throws (.taskNotFound s) →
      (∃ q ∈ tasks root, DependsOnId q.2 s) ∧ ∀ q ∈ tasks root, ¬ Field q.2 "id" (.scalar s)) ∧
    ((∃ q ∈ tasks root, DependsOnId q.2 s) → (∀ q ∈ tasks root, ¬ Field q.2 "id" (.scalar s)) →
      (∀ p, load rf root ≠ ok p) ∧
      (¬ Degenerate root → (∀ e, Cause rf root e → e = .taskNotFound s) →
        load rf root = throws (.taskNotFound s))) := by
  refine ⟨fun h => load_error_true h, fun h1 h2 => ⟨?_, ?_⟩⟩
  · intro p h
    exact load_ok_clean h (.taskNotFound s) ⟨h1, h2⟩
  · intro hd hK
    obtain ⟨e, he, rfl⟩ := load_reports_kind hd (e := .taskNotFound s) ⟨h1, h2⟩ hK
    exact he

/-- Task `i` of the loaded project depends on `d` exactly when the document says so. -/
theorem dependsOn_iff (h : load rf root = ok p) (i d : Nat) :
    p.DependsOn i d ↔ Doc.DependsOn root i d := by
  have hl := (load_faithful h).2
  constructor
  · rintro ⟨t, ht, hd⟩
    exact (hl.deps i t ht d).1 hd
  · intro hd
    have hi : i < p.tasks.length := by
      obtain ⟨qi, qd, h1, -⟩ := hd
      rw [hl.tasks_length]
      exact (List.getElem?_eq_some_iff.1 h1).1
    exact ⟨_, List.getElem?_eq_getElem hi, (hl.deps i _ (List.getElem?_eq_getElem hi) d).2 hd⟩

/-- C01. A returned project has no dependency cycle; `DependencyCycle` is only raised when the document
has one; and a document with a cycle is never returned, and gets this error if it has no other defect. -/
theorem cycles_rejected :
    (∀ p, load rf root = ok p → ∀ i, ¬ Relation.TransGen p.DependsOn i i) ∧
    (load rf root = throws .dependencyCycle → ∃ i, Relation.TransGen (Doc.DependsOn root) i i) ∧
    ((∃ i, Relation.TransGen (Doc.DependsOn root) i i) →
      (∀ p, load rf root ≠ ok p) ∧
      (¬ Degenerate root → (∀ e, Cause rf root e → e = .dependencyCycle) →
        load rf root = throws .dependencyCycle)) := by
  refine ⟨?_, fun h => load_error_true h, fun hc => ⟨?_, ?_⟩⟩
  · intro p h i
    have : p.DependsOn = Doc.DependsOn root := by
      funext i d
      exact propext (dependsOn_iff h i d)
    rw [this]
    exact (load_faithful h).2.acyclic i
  · intro p h
    exact load_ok_clean h .dependencyCycle hc
  · intro hd hK
    obtain ⟨e, he, rfl⟩ := load_reports_kind hd (e := .dependencyCycle) hc hK
    exact he

/-- C01. The check itself, on any task list with valid indices within the limit: it raises
`DependencyCycle` if there is a cycle and returns otherwise. -/
theorem cycle_check_exact {ts : List Task} (hne : ts ≠ []) (hlim : ts.length ≤ 127)
    (hin : ∀ t ∈ ts, ∀ d ∈ t.dependencies, d < ts.length) :
    (Load.checkForCycles ts = throws .dependencyCycle ↔
      ∃ v, Relation.TransGen (fun i d => ∃ t : Task, ts[i]? = some t ∧ d ∈ t.dependencies) v v) ∧
    (Load.checkForCycles ts = ok () ↔
      ∀ v, ¬ Relation.TransGen (fun i d => ∃ t : Task, ts[i]? = some t ∧ d ∈ t.dependencies) v v) := by
  have hin' : ∀ i d, Dep ts i d → d < ts.length := by
    rintro i d ⟨t, ht, hd⟩
    exact hin t (List.mem_of_getElem? ht) d hd
  rcases checkForCycles_spec hne hin' with ⟨e, h, -⟩ | ⟨e, v, h⟩ | ⟨-, h⟩
  · rw [e]
    refine ⟨⟨by simp, ?_⟩, ⟨fun _ => h, fun _ => rfl⟩⟩
    rintro ⟨v, hv⟩
    exact absurd hv (h v)
  · rw [e]
    refine ⟨⟨fun _ => ⟨v, h⟩, fun _ => rfl⟩, ⟨by simp, ?_⟩⟩
    intro h'
    exact absurd h (h' v)
  · omega

/-- The example: 0 depends on its subtasks 1 and 2, 3 depends on 0 by id. -/
example : ∀ t, project.tasks[0]? = some t → t.dependencies = [1, 2] := by decide

/-- `paint` needs `build`, `build` needs its subtask `walls`, `walls` needs `paint`. -/
def Sample.cyclic : Yaml := obj [
  ("agents", obj [("Jack", .null)]),
  ("tasks", .seq [
    obj [("name", str "build"), ("id", str "b"), ("duration", str "2h"),
      ("subtasks", .seq [
        obj [("name", str "walls"), ("duration", str "1h"), ("depends_on", str "p")]])],
    obj [("name", str "paint"), ("id", str "p"), ("duration", str "45s"),
      ("depends_on", .seq [str "b"])]])]

/-- The cycle through a subtask and two ids is found. -/
theorem cyclic_rejected : load number cyclic = throws .dependencyCycle := by
  rw [Load.load_eval 20 _ _ (by decide)]
  decide +kernel

/-! ## C03: tasks in order -/

/-- C03. Task `i` of the project is task `i` of the document, counting subtasks right after their
parent, with its name, id and duration. -/
theorem tasks_in_order (h : load rf root = ok p) :
    p.tasks.length = (tasks root).length ∧
    ∀ (i : Nat) (q : List Nat × Yaml) (t : Task), (tasks root)[i]? = some q →
      p.tasks[i]? = some t →
      t.name ≠ "" ∧ Field q.2 "name" (.scalar t.name) ∧
      ((t.id ≠ "" ∧ Field q.2 "id" (.scalar t.id)) ∨ (t.id = "" ∧ ¬ ∃ v, Field q.2 "id" v)) ∧
      ∃ lo hi : Nat, Duration q.2 lo hi ∧ t.durMin = lo ∧ t.durMax = hi := by
  have hl := (load_faithful h).2
  refine ⟨hl.tasks_length, ?_⟩
  intro i q t hq ht
  have := hl.tasks_loaded i q t hq ht
  obtain ⟨lo, hi, h1, -, h2, h3⟩ := this.duration
  exact ⟨this.named, this.name, this.id, lo, hi, h1, h2, h3⟩

/-- The order of `Doc.tasks` is that of the paths, read as in a table of contents: 0, 0.0, 0.1, 1, ... -/
theorem document_order (root : Yaml) : (tasks root).Pairwise (fun a b => a.1 < b.1) :=
  tasks_pairwise root

/-- Names and paths of the tasks of the example. -/
theorem plan_order : (tasks plan).map Prod.fst = [[0], [0, 0], [0, 1], [1]] := by
  simp [tasks, plan, obj, str, Yaml.get, Yaml.lookup, listAt, tasksAt_eq, subs]

/-! ## C04: agents -/

/-- C04. Agent `i` of the project is entry `i` of `agents` and has id `i`; names differ; a name that is used
twice is rejected. -/
theorem agents_keep_identity :
    (∀ p, load rf root = ok p →
      p.agents.length = (agents root).length ∧
      (∀ (i : Nat) (e : Yaml × Yaml) (a : Agent), (agents root)[i]? = some e → p.agents[i]? = some a →
        a.id = i ∧ e.1 = .scalar a.name ∧ Performance rf e.2 a.perfMin a.perfMax) ∧
      ∀ (i j : Nat) (a b : Agent), p.agents[i]? = some a → p.agents[j]? = some b → a.name = b.name →
        i = j) ∧
    (∀ who, load rf root = throws (.duplicateAgentDefinition who) →
      ∃ (i j : Nat) (e f : Yaml × Yaml), i < j ∧ (agents root)[i]? = some e ∧
        (agents root)[j]? = some f ∧ e.1 = .scalar who ∧ f.1 = .scalar who) ∧
    (∀ who, (∃ (i j : Nat) (e f : Yaml × Yaml), i < j ∧ (agents root)[i]? = some e ∧
        (agents root)[j]? = some f ∧ e.1 = .scalar who ∧ f.1 = .scalar who) →
      (∀ p, load rf root ≠ ok p) ∧
      (¬ Degenerate root → (∀ e, Cause rf root e → e = .duplicateAgentDefinition who) →
        load rf root = throws (.duplicateAgentDefinition who))) := by
  refine ⟨?_, fun who h => load_error_true h, fun who hc => ⟨?_, ?_⟩⟩
  · intro p h
    have hl := (load_faithful h).2
    refine ⟨hl.agents_length, ?_, ?_⟩
    · intro i e a he ha
      have := hl.agents_loaded i e a he ha
      exact ⟨hl.agent_ids i a ha, this.name, this.performance⟩
    · intro i j a b ha hb hab
      have hi : i < (p.agents.map Agent.name).length := by
        rw [List.length_map]
        exact (List.getElem?_eq_some_iff.1 ha).1
      refine (List.getElem?_inj hi hl.agent_names).1 ?_
      rw [List.getElem?_map, List.getElem?_map, ha, hb]
      simp [hab]
  · intro p h
    exact load_ok_clean h (.duplicateAgentDefinition who) hc
  · intro hd hK
    obtain ⟨e, he, rfl⟩ := load_reports_kind hd (e := .duplicateAgentDefinition who) hc hK
    exact he

/-! ## C05: groups -/

/-- C05. The group names of an agent or task are exactly those written for it, and the table of groups has no
duplicates and nothing that is not in the document. -/
theorem groups_written (h : load rf root = ok p) :
    p.groups.Nodup ∧ (∀ g, g ∈ p.groups ↔ Mentioned root g) ∧
    (∀ (i : Nat) (e : Yaml × Yaml) (a : Agent), (agents root)[i]? = some e → p.agents[i]? = some a →
      IndexSet.Sorted a.groupIds ∧ (∀ k ∈ a.groupIds, k < p.groups.length) ∧
      ∀ g, AgentGroup e g ↔ ∃ k ∈ a.groupIds, p.groups[k]? = some g) ∧
    (∀ (i : Nat) (q : List Nat × Yaml) (t : Task), (tasks root)[i]? = some q →
      p.tasks[i]? = some t →
      IndexSet.Sorted t.groupIds ∧ (∀ k ∈ t.groupIds, k < p.groups.length) ∧
      ∀ g, TaskGroup q.2 g ↔ ∃ k ∈ t.groupIds, p.groups[k]? = some g) := by
  have hl := (load_faithful h).2
  have names : ∀ ids S, Names p.groups ids S →
      IndexSet.Sorted ids ∧ (∀ k ∈ ids, k < p.groups.length) ∧
      ∀ g, S g ↔ ∃ k ∈ ids, p.groups[k]? = some g := by
    intro ids S hn
    refine ⟨hn.sorted, ?_, fun g => ⟨hn.complete g, ?_⟩⟩
    · intro k hk
      obtain ⟨g, hg, -⟩ := hn.sound k hk
      exact (List.getElem?_eq_some_iff.1 hg).1
    · rintro ⟨k, hk, hg⟩
      obtain ⟨g', hg', hs⟩ := hn.sound k hk
      rw [hg] at hg'
      cases hg'
      exact hs
  exact ⟨hl.groups_nodup, hl.groups_mentioned,
    fun i e a he ha => names _ _ (hl.agents_loaded i e a he ha).groups,
    fun i q t hq ht => names _ _ (hl.tasks_loaded i q t hq ht).groups⟩

/-- C05. Looking up a group, adding it if needed, never moves the groups that are already there. -/
theorem group_indices_stable {groups : List String} {g : String} {r : List String × Nat × Bool}
    (h : Load.findOrInsertGroup groups g = ok r) :
    (∀ (k : Nat) (x : String), groups[k]? = some x → r.1[k]? = some x) ∧ r.1[r.2.1]? = some g ∧
      (r.1 = groups ∨ g ∉ groups ∧ r.1 = groups ++ [g]) := by
  unfold Load.findOrInsertGroup at h
  rw [bind_eq_ok] at h
  obtain ⟨_, -, h⟩ := h
  cases hf : Load.findIdx g groups with
  | some i =>
    rw [hf] at h
    rw [bind_eq_ok] at h
    obtain ⟨k, hk, h⟩ := h
    unfold toInt8 at hk
    split at hk
    · cases hk
      cases h
      exact ⟨fun _ _ h => h, (Load.findIdx_some hf).1, Or.inl rfl⟩
    · cases hk
  | none =>
    rw [hf] at h
    dsimp only at h
    rw [bind_eq_ok] at h
    obtain ⟨k, hk, h⟩ := h
    unfold toInt8 at hk
    split at hk
    · cases hk
      cases h
      refine ⟨?_, by simp, Or.inr ⟨Load.findIdx_none hf, rfl⟩⟩
      intro k x hx
      rw [List.getElem?_append_left (List.getElem?_eq_some_iff.1 hx).1]
      exact hx
    · cases hk

/-! ## C06: bounds -/

/-- C06 in part. Bounds are in the right order and none is negative. What is missing: a duration may be zero
(`zero_duration_accepted`), and a performance need not be a number (`nan_performance_accepted`). -/
theorem bounds_partial (h : load rf root = ok p) :
    (∀ a ∈ p.agents, a.perfMin.le (.fin 0) = false ∧ a.perfMax.le (.fin 0) = false ∧
      a.perfMin.gt a.perfMax = false) ∧
    (∀ a ∈ p.agents, ∀ lo hi : ℚ, a.perfMin = .fin lo → a.perfMax = .fin hi → 0 < lo ∧ lo ≤ hi) ∧
    ∀ t ∈ p.tasks, 0 ≤ t.durMin ∧ t.durMin ≤ t.durMax := by
  have hl := (load_faithful h).2
  have ha : ∀ a ∈ p.agents, a.perfMin.le (.fin 0) = false ∧ a.perfMax.le (.fin 0) = false ∧
      a.perfMin.gt a.perfMax = false := by
    intro a ha
    obtain ⟨i, hi, rfl⟩ := List.mem_iff_getElem.1 ha
    obtain ⟨e, he⟩ := agent_of hl (List.getElem?_eq_getElem hi)
    have := hl.agents_loaded i e _ he (List.getElem?_eq_getElem hi)
    exact ⟨this.positive.1, this.positive.2, this.ordered⟩
  refine ⟨ha, ?_, ?_⟩
  · intro a ham lo hi hlo hhi
    obtain ⟨h1, -, h3⟩ := ha a ham
    rw [hlo] at h1 h3
    rw [hhi] at h3
    simp only [XFloat.le, XFloat.gt, decide_eq_false_iff_not, not_le, not_lt] at h1 h3
    exact ⟨h1, h3⟩
  · intro t ht
    obtain ⟨i, hi, rfl⟩ := List.mem_iff_getElem.1 ht
    obtain ⟨q, hq⟩ := task_of hl (List.getElem?_eq_getElem hi)
    obtain ⟨lo, up, -, hle, h1, h2⟩ :=
      (hl.tasks_loaded i q _ hq (List.getElem?_eq_getElem hi)).duration
    rw [h1, h2]
    omega

/-- A task that takes no time. -/
def Sample.instant : Yaml := obj [
  ("agents", obj [("Jack", .null)]),
  ("tasks", .seq [obj [("name", str "nothing"), ("duration", str "0s")]])]

/-- C06 fails: a duration of zero seconds is accepted. -/
theorem zero_duration_accepted : ∃ p, load number instant = ok p ∧ ∃ t ∈ p.tasks, t.durMin = 0 := by
  refine ⟨{ agents := [{ id := 0, name := "Jack" }], tasks := [{ name := "nothing" }] }, ?_, _,
    List.mem_singleton.2 rfl, rfl⟩
  rw [Load.load_eval 20 _ _ (by decide)]
  decide +kernel

/-- An agent whose performance is not a number. -/
def Sample.unmeasured : Yaml := obj [
  ("agents", obj [("Jack", obj [("performance", str "nan")])]),
  ("tasks", .seq [obj [("name", str "nothing"), ("duration", str "1s")]])]

/-- C06 fails: a performance that is not a number is accepted. -/
theorem nan_performance_accepted :
    ∃ p, load number unmeasured = ok p ∧ ∃ a ∈ p.agents, a.perfMin = .nan := by
  refine ⟨{ agents := [{ id := 0, name := "Jack", perfMin := .nan, perfMax := .nan }],
            tasks := [{ name := "nothing", durMin := 1, durMax := 1 }] }, ?_, _, List.mem_singleton.2 rfl, rfl⟩
  rw [Load.load_eval 20 _ _ (by decide)]
  decide +kernel

/-! ## C07: task ids -/

/-- C07. Tasks of a loaded project have different ids unless they have none; an id that is written twice, at any
depth, is rejected. -/
theorem task_ids_unique :
    (∀ p, load rf root = ok p → ∀ (i j : Nat) (t u : Task), p.tasks[i]? = some t →
      p.tasks[j]? = some u → t.id = u.id → t.id ≠ "" → i = j) ∧
    (∀ id, load rf root = throws (.duplicateTaskDefinition id) →
      ∃ (i j : Nat) (q r : List Nat × Yaml), i < j ∧ (tasks root)[i]? = some q ∧
        (tasks root)[j]? = some r ∧ Field q.2 "id" (.scalar id) ∧ Field r.2 "id" (.scalar id)) ∧
    (∀ id, (∃ (i j : Nat) (q r : List Nat × Yaml), i < j ∧ (tasks root)[i]? = some q ∧
        (tasks root)[j]? = some r ∧ Field q.2 "id" (.scalar id) ∧ Field r.2 "id" (.scalar id)) →
      (∀ p, load rf root ≠ ok p) ∧
      (¬ Degenerate root → (∀ e, Cause rf root e → e = .duplicateTaskDefinition id) →
        load rf root = throws (.duplicateTaskDefinition id))) := by
  refine ⟨fun p h => (load_faithful h).2.task_ids, fun id h => load_error_true h,
    fun id hc => ⟨?_, ?_⟩⟩
  · intro p h
    exact load_ok_clean h (.duplicateTaskDefinition id) hc
  · intro hd hK
    obtain ⟨e, he, rfl⟩ := load_reports_kind hd (e := .duplicateTaskDefinition id) hc hK
    exact he

/-! ## C08: assignment -/

/-- C08. A loaded task with an agent has no groups, and the agent at the stored index is the one named; a task without
one names none. A task that uses two ways of assignment is rejected. -/
theorem assignment_exclusive :
    (∀ p, load rf root = ok p → ∀ (i : Nat) (q : List Nat × Yaml) (t : Task),
      (tasks root)[i]? = some q → p.tasks[i]? = some t →
      (∀ k, t.agentId = some k → t.groupIds = [] ∧
        ∃ a, p.agents[k]? = some a ∧ Field q.2 "agent" (.scalar a.name)) ∧
      (t.agentId = none → ¬ ∃ v, Field q.2 "agent" v)) ∧
    (∀ name, load rf root = throws (.invalidTaskAssignment name) →
      ∃ q ∈ tasks root, Field q.2 "name" (.scalar name) ∧
        ∃ a b v w, a ∈ ["agent", "group", "groups"] ∧ b ∈ ["agent", "group", "groups"] ∧ a ≠ b ∧
          Field q.2 a v ∧ Field q.2 b w) ∧
    ((∃ q ∈ tasks root, ∃ a b v w, a ∈ ["agent", "group", "groups"] ∧
        b ∈ ["agent", "group", "groups"] ∧ a ≠ b ∧ Field q.2 a v ∧ Field q.2 b w) →
      (∀ p, load rf root ≠ ok p) ∧
      (IsConfiguration root → ¬ Degenerate root →
        (∀ e, Cause rf root e → ∃ name, e = .invalidTaskAssignment name) →
        ∃ name, load rf root = throws (.invalidTaskAssignment name))) := by
  refine ⟨?_, ?_, fun hc => ⟨?_, ?_⟩⟩
  · intro p h i q t hq ht
    have hl := (load_faithful h).2
    have ht' := hl.tasks_loaded i q t hq ht
    refine ⟨?_, ht'.no_agent⟩
    intro k hk
    obtain ⟨s, a, h1, h2, rfl⟩ := ht'.agent k hk
    refine ⟨?_, a, h2, h1⟩
    obtain ⟨h3, h4⟩ := ht'.one_way ⟨_, h1⟩
    cases hg : t.groupIds with
    | nil => rfl
    | cons x xs =>
      obtain ⟨g, -, hg' | ⟨l, hg', -⟩⟩ := ht'.groups.sound x (by rw [hg]; simp)
      · exact absurd ⟨_, hg'⟩ h3
      · exact absurd ⟨_, hg'⟩ h4
  · intro name h
    obtain ⟨q, hq, hn, hc⟩ := load_error_true h
    refine ⟨q, hq, hn, ?_⟩
    rcases hc with ⟨v, w, h1, h2⟩ | ⟨v, w, h1, h2⟩ | ⟨v, w, h1, h2⟩
    · exact ⟨"group", "groups", v, w, by simp, by simp, by decide, h1, h2⟩
    · exact ⟨"group", "agent", v, w, by simp, by simp, by decide, h1, h2⟩
    · exact ⟨"groups", "agent", v, w, by simp, by simp, by decide, h1, h2⟩
  · rintro p h
    exact two_ways_cause (load_faithful h).1 hc fun name => load_ok_clean h _
  · intro hr hd hK
    by_contra hn
    refine two_ways_cause (rf := rf) hr hc fun name hca => ?_
    obtain ⟨e, he, name', rfl⟩ := load_reports_kind hd hca hK
    exact hn ⟨name', he⟩

/-! ## C09: the schema -/

/-- C09. The schema check accepts exactly the documents of the documented shape. -/
theorem schema_exact (root : Yaml) :
    validateConfiguration root = .ok () ↔ IsConfiguration root :=
  validateConfiguration_ok root

/-- C09. A document of another shape is answered with a schema error, and only such a document. -/
theorem schema_error_iff : (∃ m, load rf root = throws (.schema m)) ↔ ¬ IsConfiguration root := by
  constructor
  · rintro ⟨m, h⟩
    exact load_error_true h
  · intro h
    unfold load
    cases hv : validateConfiguration root with
    | ok u => exact absurd ((validateConfiguration_ok root).1 hv) h
    | error e => exact ⟨e, rfl⟩

/-- The example has the documented shape, four tasks deep and all. -/
theorem plan_shape : IsConfiguration plan := (schema_exact plan).1 (by decide +kernel)

/-- A misspelt attribute inside a subtask is found. -/
theorem misspelt_rejected : ¬ IsConfiguration (obj [
    ("agents", obj [("Jack", .null)]),
    ("tasks", .seq [obj [("name", str "a"), ("duration", str "1s"), ("subtasks", .seq [
      obj [("name", str "b"), ("duration", str "1s"), ("dependson", str "a")]])]])]) := by
  rw [← schema_exact]
  decide +kernel

/-! ## C10: somebody can do it -/

/-- C10 in part. In a loaded project a task that names an agent, or requires exactly one group, or any task if some agent
has no groups, can be done by somebody. What is missing: tasks with several groups, or none, when every agent
has groups (`ungrouped_task_accepted`, `split_groups_accepted`). -/
theorem assignable_partial (h : load rf root = ok p) {t : Task} (ht : t ∈ p.tasks)
    (hc : t.agentId ≠ none ∨ t.groupIds.length = 1 ∨ ∃ a ∈ p.agents, a.groupIds = []) :
    ∃ a ∈ p.agents, Eligible a t := by
  have hl := (load_faithful h).2
  obtain ⟨i, hi, rfl⟩ := List.mem_iff_getElem.1 ht
  obtain ⟨q, hq⟩ := task_of hl (List.getElem?_eq_getElem hi)
  have ht' := hl.tasks_loaded i q _ hq (List.getElem?_eq_getElem hi)
  cases hag : p.tasks[i].agentId with
  | some k =>
    obtain ⟨s, a, -, h2, -⟩ := ht'.agent k hag
    refine ⟨a, List.mem_of_getElem? h2, Or.inl ?_⟩
    rw [hag, hl.agent_ids k a h2]
  | none =>
    rcases hc with hc | hc | ⟨a, ha, hu⟩
    · exact absurd hag hc
    · obtain ⟨g, hg⟩ := List.length_eq_one_iff.1 hc
      obtain ⟨name, hn, hn'⟩ := ht'.groups.sound g (by rw [hg]; simp)
      obtain ⟨e, he, hes⟩ := hl.suitable q (List.mem_of_getElem? hq) name hn'
      obtain ⟨j, hj, rfl⟩ := List.mem_iff_getElem.1 he
      have hj' : j < p.agents.length := by rw [hl.agents_length]; exact hj
      have ha := hl.agents_loaded j _ _ (List.getElem?_eq_getElem hj) (List.getElem?_eq_getElem hj')
      refine ⟨_, List.getElem_mem hj', Or.inr ⟨hag, ?_⟩⟩
      rcases hes with hes | hes
      · right
        refine ⟨by rw [hg]; simp, ?_⟩
        intro x hx
        rw [hg, List.mem_singleton] at hx
        subst hx
        obtain ⟨y, hy, hy'⟩ := ha.groups.complete name hes
        have hx' : x < p.groups.length := (List.getElem?_eq_some_iff.1 hn).1
        have := (List.getElem?_inj hx' hl.groups_nodup).1 (hn.trans hy'.symm)
        rwa [this]
      · left
        cases hgs : p.agents[j].groupIds with
        | nil => rfl
        | cons x xs =>
          obtain ⟨g', -, hg'⟩ := ha.groups.sound x (by rw [hgs]; simp)
          exact absurd hg' (hes g')
    · exact ⟨a, ha, Or.inr ⟨hag, Or.inl hu⟩⟩

/-- A task without groups, and only agents with groups. -/
def Sample.ungrouped : Yaml := obj [
  ("agents", obj [("Bob", obj [("groups", .seq [str "A"])])]),
  ("tasks", .seq [obj [("name", str "walk"), ("duration", str "1h")]])]

/-- C10 fails: the project is accepted although nobody may do the task. -/
theorem ungrouped_task_accepted :
    ∃ p, load number ungrouped = ok p ∧ ∃ t ∈ p.tasks, ∀ a ∈ p.agents, ¬ Eligible a t := by
  refine ⟨{ groups := ["A"], agents := [{ id := 0, name := "Bob", groupIds := [0] }],
            tasks := [{ name := "walk", durMin := 3600, durMax := 3600 }] }, ?_, _, List.mem_singleton.2 rfl, ?_⟩
  · rw [Load.load_eval 20 _ _ (by decide)]
    decide +kernel
  · intro a ha
    rw [List.mem_singleton.1 ha]
    simp [Eligible]

/-- A task that needs two groups that different agents have. -/
def Sample.splitGroups : Yaml := obj [
  ("agents", obj [("Bob", obj [("groups", .seq [str "A"])]), ("Ann", obj [("groups", .seq [str "B"])])]),
  ("tasks", .seq [obj [("name", str "walk"), ("duration", str "1h"), ("groups", .seq [str "A", str "B"])]])]

/-- C10 fails: accepted although nobody has both groups. -/
theorem split_groups_accepted :
    ∃ p, load number splitGroups = ok p ∧ ∃ t ∈ p.tasks, ∀ a ∈ p.agents, ¬ Eligible a t := by
  refine ⟨{ groups := ["A", "B"],
            agents := [{ id := 0, name := "Bob", groupIds := [0] },
              { id := 1, name := "Ann", groupIds := [1] }],
            tasks := [{ name := "walk", groupIds := [0, 1], durMin := 3600, durMax := 3600 }] }, ?_, _,
    List.mem_singleton.2 rfl, ?_⟩
  · rw [Load.load_eval 20 _ _ (by decide)]
    decide +kernel
  · intro a ha
    simp only [List.mem_cons, List.not_mem_nil, or_false] at ha
    rcases ha with rfl | rfl <;> simp [Eligible]

/-! ## C12: limits -/

/-- C12. No more tasks, agents or groups than indices; every stored index points to something; a document that is
too large is not returned. -/
theorem index_limits :
    (∀ p, load rf root = ok p →
      p.tasks.length ≤ 127 ∧ p.agents.length ≤ 128 ∧ p.groups.length ≤ 128 ∧
      (∀ t ∈ p.tasks, (∀ d ∈ t.dependencies, d < p.tasks.length) ∧
        (∀ g ∈ t.groupIds, g < p.groups.length) ∧ ∀ k, t.agentId = some k → k < p.agents.length) ∧
      ∀ a ∈ p.agents, a.id < p.agents.length ∧ ∀ g ∈ a.groupIds, g < p.groups.length) ∧
    (127 < (tasks root).length ∨ 128 < (agents root).length ∨
      (∃ gs : List String, gs.Nodup ∧ 128 < gs.length ∧ ∀ g ∈ gs, Mentioned root g) →
      (∀ p, load rf root ≠ ok p) ∧ (¬ Degenerate root → ∃ e, load rf root = throws e)) := by
  refine ⟨?_, ?_⟩
  · intro p h
    have hl := (load_faithful h).2
    obtain ⟨-, -, hga, hgt⟩ := groups_written h
    refine ⟨hl.tasks_limit, hl.agents_limit, hl.groups_limit, ?_, ?_⟩
    · intro t ht
      obtain ⟨i, hi, rfl⟩ := List.mem_iff_getElem.1 ht
      obtain ⟨q, hq⟩ := task_of hl (List.getElem?_eq_getElem hi)
      refine ⟨(dependencies_declared h (List.getElem?_eq_getElem hi)).2.1,
        (hgt i q _ hq (List.getElem?_eq_getElem hi)).2.1, ?_⟩
      intro k hk
      obtain ⟨s, a, -, h2, -⟩ := (hl.tasks_loaded i q _ hq (List.getElem?_eq_getElem hi)).agent k hk
      exact (List.getElem?_eq_some_iff.1 h2).1
    · intro a ha
      obtain ⟨i, hi, rfl⟩ := List.mem_iff_getElem.1 ha
      obtain ⟨e, he⟩ := agent_of hl (List.getElem?_eq_getElem hi)
      refine ⟨?_, (hga i e _ he (List.getElem?_eq_getElem hi)).2.1⟩
      rw [hl.agent_ids i _ (List.getElem?_eq_getElem hi)]
      exact hi
  · intro hc
    have hca : Cause rf root .range := by
      rcases hc with hc | hc | hc
      · exact Or.inr (Or.inl hc)
      · exact Or.inl hc
      · exact Or.inr (Or.inr hc)
    refine ⟨fun p h => load_ok_clean h .range hca, fun hd => ?_⟩
    obtain ⟨e, he, -⟩ := load_reports hd hca
    exact ⟨e, he⟩

/-! ## C13: no violated preconditions -/

/-- C13 in part. Loading returns or raises an exception for every document without the degenerate texts. What is
missing are those: see the witnesses below. -/
theorem load_safe_partial (hd : ¬ Degenerate root) :
    (∃ p, load rf root = ok p) ∨ ∃ e, load rf root = throws e := by
  have := load_sat rf root
  cases hl : load rf root with
  | ok p => exact Or.inl ⟨p, rfl⟩
  | throws e => exact Or.inr ⟨e, rfl⟩
  | ub s =>
    rw [hl] at this
    exact absurd this hd

/-- C13. A degenerate text is never accepted: without another defect the document violates a precondition. -/
theorem load_unsafe (hd : Degenerate root) (h : ∀ e, ¬ Cause rf root e) : ∃ s, load rf root = ub s := by
  have := load_sat rf root
  cases hl : load rf root with
  | ok p => exact absurd hd (load_not_degenerate hl)
  | throws e =>
    rw [hl] at this
    exact absurd this (h e)
  | ub s => exact ⟨s, rfl⟩

/-- C13. All exceptions are `ValidationError`s, except for too large a project. -/
theorem load_errors {e : Err} (h : load rf root = throws e) :
    e.isValidationError = true ∨ e = .range := by
  have := load_error_true h
  cases e <;> first | exact Or.inl rfl | exact Or.inr rfl | exact absurd this id

/-- C13 fails: an agent with an empty name, a task in a group with an empty name, an empty list of dependencies
and a number beyond the range of `int` all have the documented shape and violate a precondition. -/
theorem degenerate_unsafe :
    (∃ root : Yaml, IsConfiguration root ∧ (∃ e ∈ agents root, e.1 = .scalar "") ∧
      ∃ s, load number root = ub s) ∧
    (∃ root : Yaml, IsConfiguration root ∧ Mentioned root "" ∧ ∃ s, load number root = ub s) ∧
    (∃ root : Yaml, IsConfiguration root ∧ (∃ q ∈ tasks root, Field q.2 "depends_on" (.seq [])) ∧
      ∃ s, load number root = ub s) ∧
    (∃ root : Yaml, IsConfiguration root ∧
      (∃ q ∈ tasks root, Field q.2 "duration" (.scalar "9999999999s")) ∧
      ∃ s, load number root = ub s) := by
  refine ⟨⟨obj [("agents", obj [("", .null)]),
      ("tasks", .seq [obj [("name", str "a"), ("duration", str "1s")]])], ?_, ?_, ?_⟩,
    ⟨obj [("agents", obj [("Jack", .null)]),
      ("tasks", .seq [obj [("name", str "a"), ("duration", str "1s"), ("group", str "")]])], ?_, ?_, ?_⟩,
    ⟨obj [("agents", obj [("Jack", .null)]),
      ("tasks", .seq [obj [("name", str "a"), ("duration", str "1s"), ("depends_on", .seq [])]])], ?_, ?_, ?_⟩,
    ⟨obj [("agents", obj [("Jack", .null)]),
      ("tasks", .seq [obj [("name", str "a"), ("duration", str "9999999999s")]])], ?_, ?_, ?_⟩⟩
  · rw [← schema_exact]
    decide +kernel
  · exact ⟨(.scalar "", .null), by simp [agents, obj, Yaml.get, Yaml.lookup], rfl⟩
  · refine ⟨"parse_agent: name not empty", ?_⟩
    rw [Load.load_eval 20 _ _ (by decide)]
    decide +kernel
  · rw [← schema_exact]
    decide +kernel
  · refine Or.inr ⟨([0], obj [("name", str "a"), ("duration", str "1s"), ("group", str "")]), ?_, Or.inl ?_⟩
    · simp [tasks, obj, Yaml.get, Yaml.lookup, listAt, tasksAt_eq, subs]
    · exact ⟨_, rfl, by simp [str]⟩
  · refine ⟨"parse_task_group: group not empty", ?_⟩
    rw [Load.load_eval 20 _ _ (by decide)]
    decide +kernel
  · rw [← schema_exact]
    decide +kernel
  · refine ⟨([0], obj [("name", str "a"), ("duration", str "1s"), ("depends_on", .seq [])]), ?_, ?_⟩
    · simp [tasks, obj, Yaml.get, Yaml.lookup, listAt, tasksAt_eq, subs]
    · exact ⟨_, rfl, by simp [str]⟩
  · refine ⟨"parse_dependencies: dependencies not empty", ?_⟩
    rw [Load.load_eval 20 _ _ (by decide)]
    decide +kernel
  · rw [← schema_exact]
    decide +kernel
  · refine ⟨([0], obj [("name", str "a"), ("duration", str "9999999999s")]), ?_, ?_⟩
    · simp [tasks, obj, Yaml.get, Yaml.lookup, listAt, tasksAt_eq, subs]
    · exact ⟨_, rfl, by simp [str]⟩
  · refine ⟨"atoi: out of range", ?_⟩
    rw [Load.load_eval 20 _ _ (by decide)]
    decide +kernel

/-! ## From the document to the scheduler -/

/-- A loaded project whose durations are not zero and have bounds whose sum fits 64 bits, whose performances are finite and whose tasks somebody can
do is sound. These are exactly the gaps shown above: everything else a scheduler needs is ensured by the loader. -/
theorem loaded_sound (h : load rf root = ok p) (hz : ∀ t ∈ p.tasks, t.durMin ≠ 0 ∧ t.durMin + t.durMax < 2 ^ 63)
    (hf : ∀ a ∈ p.agents, ∃ lo hi : ℚ, a.perfMin = .fin lo ∧ a.perfMax = .fin hi)
    (ha : ∀ t ∈ p.tasks, ∃ a ∈ p.agents, Eligible a t) : p.Sound := by
  have hl := (load_faithful h).2
  obtain ⟨-, hb2, hb3⟩ := bounds_partial h
  obtain ⟨-, -, hga, hgt⟩ := groups_written h
  refine ⟨hl.agents_ne, hl.tasks_ne, hl.agent_ids, ?_, ?_, ?_, ?_, hl.deps_sorted, ?_,
    cycles_rejected.1 p h, ha⟩
  · intro a ham
    obtain ⟨i, hi, rfl⟩ := List.mem_iff_getElem.1 ham
    obtain ⟨e, he⟩ := agent_of hl (List.getElem?_eq_getElem hi)
    exact (hga i e _ he (List.getElem?_eq_getElem hi)).1
  · intro t htm
    obtain ⟨i, hi, rfl⟩ := List.mem_iff_getElem.1 htm
    obtain ⟨q, hq⟩ := task_of hl (List.getElem?_eq_getElem hi)
    exact (hgt i q _ hq (List.getElem?_eq_getElem hi)).1
  · intro a ham
    obtain ⟨lo, hi, h1, h2⟩ := hf a ham
    exact ⟨lo, hi, h1, h2, hb2 a ham lo hi h1 h2⟩
  · intro t htm
    obtain ⟨h1, h2⟩ := hb3 t htm
    have := hz t htm
    exact ⟨by omega, h2, this.2⟩
  · intro t htm
    obtain ⟨i, hi, rfl⟩ := List.mem_iff_getElem.1 htm
    exact (dependencies_declared h (List.getElem?_eq_getElem hi)).2.1

/-- The example is sound, so the theorems on schedules and optimization apply to it. -/
theorem plan_sound : project.Sound := by
  refine loaded_sound plan_loads (by decide) ?_ ?_
  · intro a ha
    simp only [project, List.mem_cons, List.not_mem_nil, or_false] at ha
    rcases ha with rfl | rfl <;> exact ⟨_, _, rfl, rfl⟩
  · intro t ht
    simp only [project, List.mem_cons, List.not_mem_nil, or_false] at ht
    rcases ht with rfl | rfl | rfl | rfl <;> simp [project, Eligible]

end Angonoka.Props
