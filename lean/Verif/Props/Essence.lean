import Verif.Proof.Bare
import Verif.Spec.Essence
import Verif.Props.Notation
import Verif.Props.Names
import Verif.Props.Documented

/-!
# C119: what matters in a document
-/

set_option linter.unusedSectionVars false

namespace Angonoka.Props
open Outcome Stun Cli Doc Load

section
variable {rf : String → Option XFloat} {root root' : Yaml} {p p' : Project}

theorem isAgent_agents (h : IsConfiguration root) : ∀ w ∈ agents root, IsAgent w.2 := by
  intro w hw
  unfold agents at hw
  split at hw
  · rename_i es hg
    obtain ⟨_, e, ha⟩ := h.2.1 _ ((Validation.get_iff h.1 _ _).1 hg)
    cases e
    exact ha w hw
  · cases hw

theorem performance_det {n : Yaml} {lo hi lo' hi' : XFloat} (hn : IsAgent n) (h : Performance rf n lo hi) (h' : Performance rf n lo' hi')
    (hp : lo.le (.fin 0) = false ∧ hi.le (.fin 0) = false) (ho : lo.gt hi = false) : lo' = lo ∧ hi' = hi := by
  have e := (performance_field (a := { id := 0, name := "" }) hn h' ⟨rfl, rfl⟩).symm.trans (performance_field hn h ⟨rfl, rfl⟩)
  unfold performanceBounds at e
  simp only [hp.1, hp.2, ho] at e
  split at e
  · cases e
  split at e
  · cases e
  split at e
  · cases e
  · have := ok.inj e
    injection this with _ _ _ h1 h2
    exact ⟨h1, h2⟩

theorem duration_det {n : Yaml} {lo hi lo' hi' : Nat} (hn : IsTask n) (h : Duration n lo hi) (h' : Duration n lo' hi') (ho : lo ≤ hi) :
    lo' = lo ∧ hi' = hi := by
  have e := (task_duration hn h' { name := "" }).symm.trans (task_duration hn h _)
  unfold durationBounds at e
  rw [if_neg (c := (hi : Int) < lo) (by omega)] at e
  split at e
  · cases e
  · have := ok.inj e
    injection this with _ _ h1 h2
    exact ⟨by omega, by omega⟩

/-- The projects agree apart from who may do what. -/
theorem essence_bare (h : SameEssence rf root root') (hl : load rf root = ok p) (hl' : load rf root' = ok p') : p'.bare = p.bare := by
  obtain ⟨hc, hf⟩ := load_faithful hl
  obtain ⟨hc', hf'⟩ := load_faithful hl'
  have ea : p'.agents.map Agent.bare = p.agents.map Agent.bare := by
    refine List.ext_getElem ?_ fun i h1 h2 => ?_
    · rw [List.length_map, List.length_map, hf.agents_length, hf'.agents_length, h.agents.length_eq]
    · rw [List.length_map] at h1 h2
      rw [List.getElem_map, List.getElem_map]
      have b1 : i < (agents root).length := by rw [← hf.agents_length]; exact h2
      have b2 : i < (agents root').length := by rw [← hf'.agents_length]; exact h1
      obtain ⟨hn, lo, hi, q1, q2⟩ := (List.forall₂_iff_get.1 h.agents).2 i b1 b2
      simp only [List.get_eq_getElem] at hn q1 q2
      have A := hf.agents_loaded i _ _ (List.getElem?_eq_getElem b1) (List.getElem?_eq_getElem h2)
      have A' := hf'.agents_loaded i _ _ (List.getElem?_eq_getElem b2) (List.getElem?_eq_getElem h1)
      obtain ⟨r1, r2⟩ := performance_det (isAgent_agents hc _ (List.getElem_mem b1)) A.performance q1 A.positive A.ordered
      obtain ⟨r1', r2'⟩ := performance_det (isAgent_agents hc' _ (List.getElem_mem b2)) A'.performance q2 A'.positive A'.ordered
      have i1 := hf.agent_ids i _ (List.getElem?_eq_getElem h2)
      have i2 := hf'.agent_ids i _ (List.getElem?_eq_getElem h1)
      have nm : p'.agents[i].name = p.agents[i].name := by
        have := A'.name.symm.trans (hn.trans A.name)
        injection this
      unfold Agent.bare
      rw [Agent.mk.injEq]
      exact ⟨i2.trans i1.symm, nm, rfl, r1'.symm.trans r1, r2'.symm.trans r2⟩
  have et : p'.tasks.map Task.bare = p.tasks.map Task.bare := by
    refine List.ext_getElem ?_ fun i h1 h2 => ?_
    · rw [List.length_map, List.length_map, hf.tasks_length, hf'.tasks_length, h.tasks.length_eq]
    · rw [List.length_map] at h1 h2
      rw [List.getElem_map, List.getElem_map]
      have b1 : i < (tasks root).length := by rw [← hf.tasks_length]; exact h2
      have b2 : i < (tasks root').length := by rw [← hf'.tasks_length]; exact h1
      obtain ⟨⟨s, n1, n2⟩, lo, hi, q1, q2⟩ := (List.forall₂_iff_get.1 h.tasks).2 i b1 b2
      simp only [List.get_eq_getElem] at n1 n2 q1 q2
      have g1 := List.getElem?_eq_getElem h2
      have g2 := List.getElem?_eq_getElem h1
      have T := hf.tasks_loaded i _ _ (List.getElem?_eq_getElem b1) g1
      have T' := hf'.tasks_loaded i _ _ (List.getElem?_eq_getElem b2) g2
      have t1 := isTask_tasks hc _ (List.getElem_mem b1)
      have t2 := isTask_tasks hc' _ (List.getElem_mem b2)
      obtain ⟨l1, l2, d1, d2, d3, d4⟩ := T.duration
      obtain ⟨l1', l2', d1', d2', d3', d4'⟩ := T'.duration
      obtain ⟨rfl, rfl⟩ := duration_det t1 d1 q1 d2
      obtain ⟨rfl, rfl⟩ := duration_det t2 d1' q2 d2'
      have m1 : p.tasks[i].name = s := by
        have := field_unique t1.keys' T.name n1
        injection this
      have m2 : p'.tasks[i].name = s := by
        have := field_unique t2.keys' T'.name n2
        injection this
      have dp : p'.tasks[i].dependencies = p.tasks[i].dependencies := by
        refine List.Pairwise.eq_of_mem_iff (r := (· < ·)) (hf'.deps_sorted _ (List.getElem_mem h1)) (hf.deps_sorted _ (List.getElem_mem h2)) fun d => ?_
        rw [hf'.deps i _ g2, hf.deps i _ g1]
        exact h.depends i d
      unfold Task.bare
      rw [Task.mk.injEq]
      exact ⟨m2.trans m1.symm, rfl, rfl, rfl, dp, d3'.trans d3.symm, d4'.trans d4.symm⟩
  unfold Project.bare
  rw [ea, et]

/-- The same agents can work on each task. -/
theorem essence_eligible (h : SameEssence rf root root') (hl : load rf root = ok p) (hl' : load rf root' = ok p') :
    p'.tasks.map (fun t => eligible t 0 p'.agents) = p.tasks.map fun t => eligible t 0 p.agents := by
  have hf := (load_faithful hl).2
  have hf' := (load_faithful hl').2
  refine List.ext_getElem ?_ fun k h1 h2 => ?_
  · rw [List.length_map, List.length_map, hf.tasks_length, hf'.tasks_length, h.tasks.length_eq]
  · rw [List.length_map] at h1 h2
    rw [List.getElem_map, List.getElem_map]
    have b1 : k < (tasks root).length := by rw [← hf.tasks_length]; exact h2
    have b2 : k < (tasks root').length := by rw [← hf'.tasks_length]; exact h1
    refine List.Pairwise.eq_of_mem_iff (r := (· < ·)) (eligible_sorted _ _ _) (eligible_sorted _ _ _) fun i => ?_
    rw [mem_eligible, mem_eligible]
    have hlen : p'.agents.length = p.agents.length := by rw [hf.agents_length, hf'.agents_length, h.agents.length_eq]
    have key : ∀ j (a1 : j < p'.agents.length) (a2 : j < p.agents.length),
        (canWorkOn p'.agents[j] p'.tasks[k] = true ↔ canWorkOn p.agents[j] p.tasks[k] = true) := by
      intro j a1 a2
      have c1 : j < (agents root).length := by rw [← hf.agents_length]; exact a2
      have c2 : j < (agents root').length := by rw [← hf'.agents_length]; exact a1
      rw [eligible_document hl' (List.getElem?_eq_getElem c2) (List.getElem?_eq_getElem a1) (List.getElem?_eq_getElem b2) (List.getElem?_eq_getElem h1),
        eligible_document hl (List.getElem?_eq_getElem c1) (List.getElem?_eq_getElem a2) (List.getElem?_eq_getElem b1) (List.getElem?_eq_getElem h2)]
      exact h.may j k _ _ _ _ (List.getElem?_eq_getElem c1) (List.getElem?_eq_getElem c2) (List.getElem?_eq_getElem b1) (List.getElem?_eq_getElem b2)
    constructor
    · rintro ⟨j, a, rfl, ha, hw⟩
      obtain ⟨a1, rfl⟩ := List.getElem?_eq_some_iff.1 ha
      exact ⟨j, _, rfl, List.getElem?_eq_getElem (hlen ▸ a1), (key j a1 _).1 hw⟩
    · rintro ⟨j, a, rfl, ha, hw⟩
      obtain ⟨a2, rfl⟩ := List.getElem?_eq_some_iff.1 ha
      exact ⟨j, _, rfl, List.getElem?_eq_getElem (hlen ▸ a2), (key j _ a2).2 hw⟩

/-- For documents that load, this is all that is needed. -/
theorem essence_of_projects (hl : load rf root = ok p) (hl' : load rf root' = ok p') (hb : p'.bare = p.bare)
    (he : p'.tasks.map (fun t => eligible t 0 p'.agents) = p.tasks.map fun t => eligible t 0 p.agents) : SameEssence rf root root' := by
  have hf := (load_faithful hl).2
  have hf' := (load_faithful hl').2
  obtain ⟨-, ha, ht⟩ := Project.mk.inj hb
  have la : p'.agents.length = p.agents.length := by rw [← List.length_map Agent.bare, ha, List.length_map]
  have lt : p'.tasks.length = p.tasks.length := by rw [← List.length_map Task.bare, ht, List.length_map]
  have task : ∀ k (h1 : k < p'.tasks.length) (h2 : k < p.tasks.length), p'.tasks[k].bare = p.tasks[k].bare := by
    intro k h1 h2
    have : (p'.tasks.map Task.bare)[k]? = (p.tasks.map Task.bare)[k]? := by rw [ht]
    rw [List.getElem?_map, List.getElem?_map, List.getElem?_eq_getElem h1, List.getElem?_eq_getElem h2] at this
    exact Option.some.inj this
  refine ⟨?_, ?_, fun i d => ?_, ?_⟩
  · refine List.forall₂_iff_get.2 ⟨by rw [← hf.agents_length, ← hf'.agents_length, la], fun i b1 b2 => ?_⟩
    have h2 : i < p.agents.length := by rw [hf.agents_length]; exact b1
    have h1 : i < p'.agents.length := by rw [hf'.agents_length]; exact b2
    have A := hf.agents_loaded i _ _ (List.getElem?_eq_getElem b1) (List.getElem?_eq_getElem h2)
    have A' := hf'.agents_loaded i _ _ (List.getElem?_eq_getElem b2) (List.getElem?_eq_getElem h1)
    have e : (p'.agents.map Agent.bare)[i]? = (p.agents.map Agent.bare)[i]? := by rw [ha]
    rw [List.getElem?_map, List.getElem?_map, List.getElem?_eq_getElem h1, List.getElem?_eq_getElem h2] at e
    have e := Agent.mk.inj (Option.some.inj e)
    obtain ⟨-, e1, -, e2, e3⟩ := e
    refine ⟨by simp only [List.get_eq_getElem]; rw [A.name, A'.name, e1], _, _, A.performance, ?_⟩
    have P := A'.performance
    rw [e2, e3] at P
    exact P
  · refine List.forall₂_iff_get.2 ⟨by rw [← hf.tasks_length, ← hf'.tasks_length, lt], fun i b1 b2 => ?_⟩
    have h2 : i < p.tasks.length := by rw [hf.tasks_length]; exact b1
    have h1 : i < p'.tasks.length := by rw [hf'.tasks_length]; exact b2
    have T := hf.tasks_loaded i _ _ (List.getElem?_eq_getElem b1) (List.getElem?_eq_getElem h2)
    have T' := hf'.tasks_loaded i _ _ (List.getElem?_eq_getElem b2) (List.getElem?_eq_getElem h1)
    obtain ⟨e1, -, -, -, -, e2, e3⟩ := Task.mk.inj (task i h1 h2)
    have N := T'.name
    rw [e1] at N
    obtain ⟨lo, hi, d1, -, d3, d4⟩ := T.duration
    obtain ⟨lo', hi', d1', -, d3', d4'⟩ := T'.duration
    obtain rfl : lo' = lo := by omega
    obtain rfl : hi' = hi := by omega
    exact ⟨⟨_, T.name, N⟩, _, _, d1, d1'⟩
  · by_cases h2 : i < p.tasks.length
    · have h1 : i < p'.tasks.length := by omega
      rw [← hf.deps i _ (List.getElem?_eq_getElem h2), ← hf'.deps i _ (List.getElem?_eq_getElem h1)]
      obtain ⟨-, -, -, -, e, -⟩ := Task.mk.inj (task i h1 h2)
      rw [e]
    · constructor
      · rintro ⟨_, _, h1, -⟩
        have := (List.getElem?_eq_some_iff.1 h1).1
        rw [← hf'.tasks_length] at this
        omega
      · rintro ⟨_, _, h1, -⟩
        have := (List.getElem?_eq_some_iff.1 h1).1
        rw [← hf.tasks_length] at this
        omega
  · intro i k w w' q q' hw hw' hq hq'
    have b1 : i < p.agents.length := by rw [hf.agents_length]; exact (List.getElem?_eq_some_iff.1 hw).1
    have b2 : i < p'.agents.length := by rw [hf'.agents_length]; exact (List.getElem?_eq_some_iff.1 hw').1
    have c1 : k < p.tasks.length := by rw [hf.tasks_length]; exact (List.getElem?_eq_some_iff.1 hq).1
    have c2 : k < p'.tasks.length := by rw [hf'.tasks_length]; exact (List.getElem?_eq_some_iff.1 hq').1
    rw [← eligible_document hl' hw' (List.getElem?_eq_getElem b2) hq' (List.getElem?_eq_getElem c2),
      ← eligible_document hl hw (List.getElem?_eq_getElem b1) hq (List.getElem?_eq_getElem c1)]
    have e : (p'.tasks.map fun t => eligible t 0 p'.agents)[k]? = (p.tasks.map fun t => eligible t 0 p.agents)[k]? := by rw [he]
    rw [List.getElem?_map, List.getElem?_map, List.getElem?_eq_getElem c2, List.getElem?_eq_getElem c1] at e
    have e : eligible p'.tasks[k] 0 p'.agents = eligible p.tasks[k] 0 p.agents := Option.some.inj e
    have m1 : ∀ {r : Project} (h : i < r.agents.length) (t : Task), i ∈ eligible t 0 r.agents ↔ canWorkOn r.agents[i] t = true := by
      intro r h t
      rw [mem_eligible]
      constructor
      · rintro ⟨j, a, hj, ha, hc⟩
        obtain rfl : j = i := by omega
        obtain ⟨_, rfl⟩ := List.getElem?_eq_some_iff.1 ha
        exact hc
      · exact fun hc => ⟨i, _, by omega, List.getElem?_eq_getElem h, hc⟩
    rw [← m1 b2, ← m1 b1, e]

end

section
variable {K : Type} [_root_.Field K] [LinearOrder K] [IsStrictOrderedRing K] [FloorRing K]
variable {E : FloatEnv K} {m : Machine K} {c : Command} {o : Cli.Options K} {root root' : Yaml} {p p' : Project}

theorem schedule_essence (h : p'.bare = p.bare) (he : toScheduleParams E p' = toScheduleParams E p) :
    jsonSchedule E m p' o = jsonSchedule E m p o := by
  obtain ⟨-, ha, ht⟩ := Project.mk.inj h
  have h1 : p'.agents.isEmpty = p.agents.isEmpty := by rw [← List.isEmpty_map (f := Agent.bare), ha, List.isEmpty_map]
  have h2 : p'.tasks.isEmpty = p.tasks.isEmpty := by rw [← List.isEmpty_map (f := Task.bare), ht, List.isEmpty_map]
  have hj : ∀ l mk, Timetable.toJson E p' l mk = Timetable.toJson E p l mk := fun l mk => by
    rw [← Timetable.toJson_bare, h, Timetable.toJson_bare]
  unfold jsonSchedule Predict.schedule
  simp only [h1, h2, he, hj]

theorem prediction_essence (h : p'.bare = p.bare) (he : toScheduleParams E p' = toScheduleParams E p) :
    runPrediction E m p' o = runPrediction E m p o := by
  obtain ⟨-, ha, ht⟩ := Project.mk.inj h
  have h1 : p'.agents.isEmpty = p.agents.isEmpty := by rw [← List.isEmpty_map (f := Agent.bare), ha, List.isEmpty_map]
  have h2 : p'.tasks.isEmpty = p.tasks.isEmpty := by rw [← List.isEmpty_map (f := Task.bare), ht, List.isEmpty_map]
  have hj : ∀ l mk, Timetable.toJson E p' l mk = Timetable.toJson E p l mk := fun l mk => by
    rw [← Timetable.toJson_bare, h, Timetable.toJson_bare]
  have hh : ∀ b l mk more fuel zs, histogram E p' b l mk more fuel zs = histogram E p b l mk more fuel zs := fun b l mk more fuel zs => by
    rw [← histogram_bare, h, histogram_bare]
  unfold runPrediction Predict.predict
  simp only [h1, h2, he, hj, hh]

/-- C119. If two documents that load agree about agents, performances, tasks, durations, dependencies, and who may do what, the program does exactly the same with both:
prints the same, writes the same file, ends in the same way. This holds for both commands, all options, all random numbers, and any arithmetic, single precision in
particular. -/
theorem only_essence_matters (hs : m.source = .doc root) (h : SameEssence m.readFloat root root') (hl : load m.readFloat root = ok p)
    (hl' : load m.readFloat root' = ok p') : body E { m with source := .doc root' } c o = body E m c o := by
  have hb := essence_bare h hl hl'
  have he : toScheduleParams E p' = toScheduleParams E p := params_bare hb (essence_eligible h hl hl')
  have hc : compute E { m with source := .doc root' } c o = compute E m c o := by
    unfold compute parseConfig
    dsimp only
    rw [hs]
    dsimp only
    rw [hl, hl']
    simp only [Io.bind_assoc', Io.pure_bind']
    cases c with
    | schedule => simp only [← schedule_essence hb he]; rfl
    | predict => simp only [← prediction_essence hb he]; rfl
  rw [body_eq, body_eq, hc]
  rfl

end

/-! ### An example -/

namespace Essential
open Sample

/-- A house with a roof, in terms of trades -/
def nested : Yaml := obj [
  ("agents", obj [("Bob", obj [("groups", .seq [str "carpenter"])]), ("Jack", obj [("performance", str "2")])]),
  ("tasks", .seq [
    obj [("name", str "build"), ("duration", str "3h"), ("group", str "carpenter"),
      ("subtasks", .seq [obj [("name", str "roof"), ("duration", str "1h"), ("agent", str "Bob")]])],
    obj [("name", str "paint"), ("duration", str "45s"), ("agent", str "Jack")]])]

/-- The same house in terms of skills, without subtasks. Nobody is named for painting, but only Jack may do what requires no group. -/
def flat : Yaml := obj [
  ("agents", obj [("Bob", obj [("groups", .seq [str "tools", str "wood"])]), ("Jack", obj [("performance", str "2")])]),
  ("tasks", .seq [
    obj [("name", str "build"), ("duration", str "180m"), ("groups", .seq [str "wood", str "tools"]), ("depends_on", .seq [str "r"])],
    obj [("name", str "roof"), ("id", str "r"), ("duration", str "60m"), ("agent", str "Bob")],
    obj [("name", str "paint"), ("duration", str "45s")]])]

/-- What the loader makes of it -/
def nestedProject : Project where
  agents := [{ name := "Bob", id := 0, groupIds := [0], perfMin := .fin 1, perfMax := .fin 1 },
    { name := "Jack", id := 1, groupIds := [], perfMin := .fin 2, perfMax := .fin 2 }]
  groups := ["carpenter"]
  tasks := [{ name := "build", durMin := 10800, durMax := 10800, groupIds := [0], dependencies := [1] },
    { name := "roof", durMin := 3600, durMax := 3600, agentId := some 0 },
    { name := "paint", durMin := 45, durMax := 45, agentId := some 1 }]

/-- What the loader makes of the other -/
def flatProject : Project where
  agents := [{ name := "Bob", id := 0, groupIds := [0, 1], perfMin := .fin 1, perfMax := .fin 1 },
    { name := "Jack", id := 1, groupIds := [], perfMin := .fin 2, perfMax := .fin 2 }]
  groups := ["tools", "wood"]
  tasks := [{ name := "build", durMin := 10800, durMax := 10800, groupIds := [0, 1], dependencies := [1] },
    { name := "roof", id := "r", durMin := 3600, durMax := 3600, agentId := some 0 },
    { name := "paint", durMin := 45, durMax := 45 }]

theorem nested_loads : load number nested = ok nestedProject := by
  rw [Load.load_eval 20 _ _ (by decide)]
  decide +kernel

theorem flat_loads : load number flat = ok flatProject := by
  rw [Load.load_eval 20 _ _ (by decide)]
  decide +kernel

/-- The two agree in all that matters. -/
theorem agree : SameEssence number nested flat :=
  essence_of_projects nested_loads flat_loads (by decide +kernel) (by decide +kernel)

end Essential

/-- `only_essence_matters` is about cases like this one. -/
example {K : Type} [_root_.Field K] [LinearOrder K] [IsStrictOrderedRing K] [FloorRing K] {E : FloatEnv K} {m : Machine K} {c : Command}
    {o : Cli.Options K} (hr : m.readFloat = Sample.number) (hs : m.source = .doc Essential.nested) :
    body E { m with source := .doc Essential.flat } c o = body E m c o :=
  only_essence_matters hs (hr ▸ Essential.agree) (hr ▸ Essential.nested_loads) (hr ▸ Essential.flat_loads)

/-- The projects themselves differ. -/
example : Essential.flatProject ≠ Essential.nestedProject := by decide +kernel

end Angonoka.Props
