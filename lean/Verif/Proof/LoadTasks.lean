import Verif.Model.Tasks
import Verif.Proof.Duration
import Verif.Proof.LoadAgents
import Verif.Proof.Paths

/-!
# Loading of a single task: functional correctness
-/

namespace Angonoka.Load
open Angonoka Outcome Doc Validation

theorem _root_.Angonoka.Doc.IsTask.keys' {n : Yaml} (h : IsTask n) :
    HasKeys ["group", "groups", "agent", "name", "id", "depends_on", "duration", "subtasks"]
      ["name", "duration"] n := by
  cases h
  assumption

theorem _root_.Angonoka.Doc.IsTask.get {n : Yaml} (h : IsTask n) (key : String) (v : Yaml) :
    n.get key = some v ↔ Field n key v := get_iff h.keys' key v

theorem _root_.Angonoka.Doc.IsTask.get_none {n : Yaml} (h : IsTask n) {key : String} :
    n.get key = none ↔ ¬ ∃ v, Field n key v := by
  rw [Option.eq_none_iff_forall_ne_some, not_exists]
  exact forall_congr' fun v => not_congr (h.get key v)

theorem _root_.Angonoka.Doc.IsTask.unique {n : Yaml} (h : IsTask n) {key : String} {v w : Yaml}
    (hv : Field n key v) (hw : Field n key w) : v = w := field_unique h.keys' hv hw

/-! ## Durations -/

theorem readDuration_sat {rf : ReadFloat} {root : Yaml} {q : List Nat × Yaml}
    (hq : q ∈ tasks root) (name : String) (hn : Field q.2 "name" (.scalar name)) (s : String)
    (hs : InDuration q.2 s) :
    Sat (readDuration name (some (.scalar s)))
      (fun v => ∃ k : Nat, v = (k : Int) ∧ DurationText.Means s k) (Cause rf root)
      (Degenerate root) := by
  obtain ⟨h1, h2, h3⟩ := parseDuration_spec s
  unfold readDuration
  simp only [Option.map_some, Option.getD_some, Yaml.text]
  cases hp : parseDuration s with
  | ok v => exact ⟨v, rfl, (h1 v).1 hp⟩
  | throws e =>
    obtain ⟨rfl, hw⟩ := h2 e hp
    exact ⟨q, hq, hn, hs, hw⟩
  | ub m => exact Or.inr (Or.inr (Or.inr ⟨q, hq, s, hs, h3 m hp⟩))

theorem parseTaskDuration_sat {rf : ReadFloat} {root : Yaml} {q : List Nat × Yaml}
    (hq : q ∈ tasks root) {n : Yaml} (hf : Field q.2 "duration" n) (hs : IsRange n) (t : Task)
    (hn : Field q.2 "name" (.scalar t.name)) :
    Sat (parseTaskDuration n t)
      (fun u => ∃ lo hi : Nat, u = { t with durMin := (lo : Int), durMax := (hi : Int) } ∧
        Duration q.2 lo hi ∧ lo ≤ hi)
      (Cause rf root) (Degenerate root) := by
  unfold parseTaskDuration readDurations
  rcases hs with ⟨s, rfl⟩ | ⟨hkeys, hmin, hmax⟩
  · rw [if_pos (by rfl), bind_assoc]
    refine Sat.bind (readDuration_sat hq t.name hn s (Or.inl hf)) ?_
    rintro x ⟨k, rfl, hk⟩
    simp only [pure_eq, ok_bind, lt_irrefl, if_false]
    exact ⟨k, k, rfl, Or.inl ⟨s, hf, hk, rfl⟩, le_refl _⟩
  · obtain ⟨va, ga⟩ := get_required hkeys (key := "min") (by simp)
    obtain ⟨vb, gb⟩ := get_required hkeys (key := "max") (by simp)
    have fa := (get_iff hkeys _ _).1 ga
    have fb := (get_iff hkeys _ _).1 gb
    obtain ⟨sa, rfl⟩ := hmin va fa
    obtain ⟨sb, rfl⟩ := hmax vb fb
    have hns : ¬ n.isScalar = true := by
      rcases hkeys with ⟨rfl, -⟩ | ⟨es, names, rfl, -⟩ <;> simp [Yaml.isScalar]
    rw [if_neg hns, ga, gb, bind_assoc]
    refine Sat.bind (readDuration_sat hq t.name hn sa (Or.inr ⟨n, hf, Or.inl fa⟩)) ?_
    rintro x ⟨k, rfl, hk⟩
    rw [bind_assoc]
    refine Sat.bind (readDuration_sat hq t.name hn sb (Or.inr ⟨n, hf, Or.inr fb⟩)) ?_
    rintro y ⟨l, rfl, hl⟩
    simp only [pure_eq, ok_bind]
    have hd : Duration q.2 k l := Or.inr ⟨n, sa, sb, hf, fa, fb, hk, hl⟩
    by_cases hlt : (l : Int) < (k : Int)
    · rw [if_pos hlt]
      exact ⟨q, hq, hn, k, l, hd, by omega⟩
    · rw [if_neg hlt]
      exact ⟨k, l, rfl, hd, by omega⟩

/-! ## Ids -/

/-- The id of a task, if it has one, is a nonempty text that no earlier task has. -/
theorem parseIdField_sat {rf : ReadFloat} {root : Yaml} {pre post : List (List Nat × Yaml)}
    {q : List Nat × Yaml} (hall : tasks root = pre ++ q :: post) (hs : IsTask q.2)
    {ts : List Task} (hlen : ts.length = pre.length)
    (hids : ∀ (i : Nat) (r : List Nat × Yaml) (u : Task), pre[i]? = some r → ts[i]? = some u →
      u.id ≠ "" → Field r.2 "id" (.scalar u.id))
    (t : Task) (ht : t.id = "") (hn : Field q.2 "name" (.scalar t.name)) {U : Prop} :
    Sat (parseIdField q.2 ts t)
      (fun u => ∃ s, u = { t with id := s } ∧
        ((s ≠ "" ∧ Field q.2 "id" (.scalar s)) ∨ (s = "" ∧ ¬ ∃ v, Field q.2 "id" v)) ∧
        (s ≠ "" → ∀ v ∈ ts, v.id ≠ s))
      (Cause rf root) U := by
  have hq : q ∈ tasks root := by rw [hall]; simp
  unfold parseIdField
  cases hget : q.2.get "id" with
  | none =>
    refine ⟨"", ?_, Or.inr ⟨rfl, hs.get_none.1 hget⟩, by simp⟩
    cases t
    dsimp only at ht
    subst ht
    rfl
  | some v =>
    have hf := (hs.get _ _).1 hget
    obtain ⟨s, rfl⟩ : IsText v := by
      cases hs with
      | mk _ _ _ _ _ h => exact h v hf
    unfold parseTaskId
    by_cases he : (Yaml.scalar s).text.isEmpty = true
    · refine (?_ : Sat (if (Yaml.scalar s).text.isEmpty = true then _ else _) _ _ _)
      rw [if_pos he]
      have : s = "" := by simpa [Yaml.text] using he
      subst this
      exact Or.inr (Or.inr ⟨q, hq, Or.inr (Or.inr ⟨t.name, hn, Or.inl ⟨rfl, hf⟩⟩)⟩)
    · refine (?_ : Sat (if (Yaml.scalar s).text.isEmpty = true then _ else _) _ _ _)
      rw [if_neg he]
      dsimp only [Yaml.text] at he ⊢
      have hne : s ≠ "" := by simpa using he
      unfold checkTaskDuplicates
      rw [bind_assoc]
      refine Sat.assert (by simpa using hne) ?_
      refine Sat.bind (Q := fun _ => ∀ v ∈ ts, v.id ≠ s) ?_ fun _ hdup => ?_
      · by_cases hany : (ts ++ [t]).any (fun t => t.id == s) = true
        · rw [if_pos hany]
          rw [List.any_eq_true] at hany
          obtain ⟨u, hu, hus⟩ := hany
          have hus : u.id = s := by simpa using hus
          rcases List.mem_append.1 hu with hu | hu
          · obtain ⟨i, hi, rfl⟩ := List.mem_iff_getElem.1 hu
            have hi' : i < pre.length := by omega
            refine ⟨i, pre.length, pre[i], q, hi', ?_, ?_, ?_, hf⟩
            · rw [hall, List.getElem?_append_left hi', List.getElem?_eq_getElem hi']
            · rw [hall, List.getElem?_append_right (le_refl _)]
              simp
            · have := hids i pre[i] ts[i] (List.getElem?_eq_getElem hi')
                (List.getElem?_eq_getElem hi) (by rw [hus]; exact hne)
              rwa [hus] at this
          · rw [List.mem_singleton.1 hu, ht] at hus
            exact absurd hus.symm hne
        · rw [if_neg hany]
          intro v hv hvs
          exact hany (List.any_eq_true.2 ⟨v, by simp [hv], by simpa using hvs⟩)
      · exact ⟨s, rfl, Or.inl ⟨hne, hf⟩, fun _ => hdup⟩

/-! ## Groups -/

theorem universal_exists {rf : ReadFloat} {root : Yaml} {p : Project}
    (hp : AgentsInv rf root (agents root) p) (h : p.agents.any isUniversal = true) :
    ∃ e ∈ agents root, ∀ g, ¬ AgentGroup e g := by
  rw [List.any_eq_true] at h
  obtain ⟨a, ha, hu⟩ := h
  obtain ⟨i, hi', rfl⟩ := List.mem_iff_getElem.1 ha
  have hi : i < (agents root).length := by rw [← hp.length]; exact hi'
  have hl := hp.loaded i _ _ (List.getElem?_eq_getElem hi) (List.getElem?_eq_getElem hi')
  refine ⟨_, List.getElem_mem hi, fun g hg => ?_⟩
  obtain ⟨j, hj, -⟩ := hl.groups.complete g hg
  unfold isUniversal at hu
  rw [List.isEmpty_iff.1 hu] at hj
  cases hj

theorem universal_iff {rf : ReadFloat} {root : Yaml} {p : Project}
    (hp : AgentsInv rf root (agents root) p) (h : p.agents.any isUniversal = false) :
    ∀ e ∈ agents root, ∃ g, AgentGroup e g := by
  intro e he
  obtain ⟨i, hi, rfl⟩ := List.mem_iff_getElem.1 he
  have hi' : i < p.agents.length := by rw [hp.length]; exact hi
  have hl := hp.loaded i _ _ (List.getElem?_eq_getElem hi) (List.getElem?_eq_getElem hi')
  rw [List.any_eq_false] at h
  have hu := h p.agents[i] (List.getElem_mem hi')
  unfold isUniversal at hu
  cases hg : p.agents[i].groupIds with
  | nil => rw [hg] at hu; exact absurd rfl hu
  | cons x xs =>
    obtain ⟨g, -, hg'⟩ := hl.groups.sound x (by rw [hg]; simp)
    exact ⟨g, hg'⟩

theorem checkSuitable_sat {rf : ReadFloat} {root : Yaml} {p : Project}
    (hp : AgentsInv rf root (agents root) p) (hne : p.agents ≠ []) {g : String}
    (hg : ∃ q ∈ tasks root, TaskGroup q.2 g) {inserted : Bool}
    (hfresh : inserted = true → ∀ e ∈ agents root, ¬ AgentGroup e g) {U : Prop} :
    Sat (checkSuitable p.agents g inserted) (fun _ => inserted = true → Suitable root g)
      (Cause rf root) U := by
  unfold checkSuitable
  cases inserted with
  | false => exact fun h => absurd h (by decide)
  | true =>
    rw [if_pos rfl]
    refine Sat.assert (by simpa using hne) ?_
    cases hu : p.agents.any isUniversal with
    | true =>
      intro _
      obtain ⟨e, he, h⟩ := universal_exists hp hu
      exact ⟨e, he, Or.inr h⟩
    | false =>
      exact ⟨hg, fun e he => ⟨hfresh rfl e he, universal_iff hp hu e he⟩⟩

theorem parseTaskGroup_sat {rf : ReadFloat} {root : Yaml} {p : Project}
    (hp : AgentsInv rf root (agents root) p) (hne : p.agents ≠ []) {q : List Nat × Yaml}
    (hq : q ∈ tasks root) (x : Yaml) (hx : TaskGroup q.2 x.text) {groups : List String}
    (hg : Table (Mentioned root) groups)
    (hag : ∀ e ∈ agents root, ∀ g, AgentGroup e g → g ∈ groups)
    (hsu : ∀ g ∈ groups, Suitable root g) (t : Task) {S : String → Prop}
    (hn : Names groups t.groupIds S) :
    Sat (parseTaskGroup p.agents x t groups)
      (fun r => groups <+: r.2 ∧ (Table (Mentioned root) r.2 ∧ ∀ g ∈ r.2, Suitable root g) ∧
        (∃ ids, r.1 = { t with groupIds := ids } ∧ Names r.2 ids (fun g => g = x.text ∨ S g)) ∧
        ∀ g, g ∈ r.2 ↔ g ∈ groups ∨ g = x.text)
      (Cause rf root) (Degenerate root) := by
  have hM : Mentioned root x.text := Or.inr ⟨q, hq, hx⟩
  unfold parseTaskGroup
  dsimp only
  refine Sat.bind (Sat.expects ?_) fun _ _ => ?_
  · intro h
    have : x.text = "" := by simpa using h
    rw [this] at hM
    exact Or.inr (Or.inl hM)
  refine Sat.bind (findOrInsertGroup_sat (M := Mentioned root) (fun h => Or.inr (Or.inr h)) hg
    x.text hM (fun h => Or.inr (Or.inl (h ▸ hM)))) ?_
  rintro ⟨groups', gid, inserted⟩ ⟨h1, h2, h3, h4, h5⟩
  dsimp only at h1 h2 h3 h4 h5 ⊢
  refine Sat.bind (checkSuitable_sat hp hne ⟨q, hq, hx⟩ ?_) fun _ hnew => ?_
  · intro hi e he hge
    exact h5.1 hi (hag e he _ hge)
  · have hsu' : ∀ g ∈ groups', Suitable root g := by
      intro g hg'
      rcases (h4 g).1 hg' with h | rfl
      · exact hsu g h
      · by_cases hm : x.text ∈ groups
        · exact hsu _ hm
        · exact hnew (h5.2 hm)
    exact ⟨h1, ⟨h2, hsu'⟩, ⟨_, rfl, (hn.mono h1).insert h3⟩, h4⟩

theorem parseTaskGroups_sat {rf : ReadFloat} {root : Yaml} {p : Project}
    (hp : AgentsInv rf root (agents root) p) (hne : p.agents ≠ []) {q : List Nat × Yaml}
    (hq : q ∈ tasks root) (l : List Yaml) (hx : ∀ x ∈ l, TaskGroup q.2 x.text)
    {groups : List String} (hg : Table (Mentioned root) groups)
    (hag : ∀ e ∈ agents root, ∀ g, AgentGroup e g → g ∈ groups)
    (hsu : ∀ g ∈ groups, Suitable root g) (t : Task) {S : String → Prop}
    (hn : Names groups t.groupIds S) :
    Sat (parseTaskGroups p.agents l t groups)
      (fun r => groups <+: r.2 ∧ (Table (Mentioned root) r.2 ∧ ∀ g ∈ r.2, Suitable root g) ∧
        (∃ ids, r.1 = { t with groupIds := ids } ∧
          Names r.2 ids (fun g => S g ∨ ∃ x ∈ l, x.text = g)) ∧
        ∀ g, g ∈ r.2 ↔ g ∈ groups ∨ ∃ x ∈ l, x.text = g)
      (Cause rf root) (Degenerate root) := by
  induction l generalizing groups t S with
  | nil => exact ⟨List.prefix_refl _, ⟨hg, hsu⟩, ⟨_, rfl, hn.congr (by simp)⟩, by simp⟩
  | cons y rest ih =>
    simp only [parseTaskGroups]
    refine Sat.bind (parseTaskGroup_sat hp hne hq y (hx y (by simp)) hg hag hsu t hn) ?_
    rintro ⟨t', groups'⟩ ⟨h1, ⟨h2, h2'⟩, ⟨ids, e, h3⟩, h4⟩
    dsimp only at h1 h2 h2' h3 h4 e ⊢
    subst e
    refine (ih (fun x hx' => hx x (by simp [hx'])) h2
      (fun e he g hge => (h4 g).2 (Or.inl (hag e he g hge))) h2' _ h3).post ?_
    rintro ⟨t'', groups''⟩ ⟨a1, a2, ⟨ids', e', a3⟩, a4⟩
    refine ⟨h1.trans a1, a2, ⟨ids', e', a3.congr ?_⟩, ?_⟩
    · intro g
      simp only [List.mem_cons, exists_eq_or_imp]
      constructor
      · rintro ((rfl | h) | h)
        · exact Or.inr (Or.inl rfl)
        · exact Or.inl h
        · exact Or.inr (Or.inr h)
      · rintro (h | rfl | h)
        · exact Or.inl (Or.inr h)
        · exact Or.inl (Or.inl rfl)
        · exact Or.inr h
    · intro g
      dsimp only at a4 ⊢
      rw [a4, h4]
      simp only [List.mem_cons, exists_eq_or_imp]
      constructor
      · rintro ((h | rfl) | h)
        · exact Or.inl h
        · exact Or.inr (Or.inl rfl)
        · exact Or.inr (Or.inr h)
      · rintro (h | rfl | h)
        · exact Or.inl (Or.inl h)
        · exact Or.inl (Or.inr rfl)
        · exact Or.inr h

/-! ## Assignment -/

theorem parseTaskAgent_sat {rf : ReadFloat} {root : Yaml} {p : Project}
    (hp : AgentsInv rf root (agents root) p) (hne : p.agents ≠ []) {q : List Nat × Yaml}
    (hq : q ∈ tasks root) {s : String} (hf : Field q.2 "agent" (.scalar s)) (t : Task) {U : Prop} :
    Sat (parseTaskAgent (.scalar s) t p.agents)
      (fun u => ∃ i a, u = { t with agentId := some i } ∧ p.agents[i]? = some a ∧ a.name = s)
      (Cause rf root) U := by
  unfold parseTaskAgent
  refine Sat.assert (by simpa using hne) ?_
  refine Sat.assert (by rfl) ?_
  dsimp only [Yaml.text]
  by_cases he : s.isEmpty = true
  · rw [if_pos he]
    have : s = "" := by simpa using he
    subst this
    exact Or.inr (Or.inr ⟨q, hq, Or.inr (Or.inl ⟨rfl, hf⟩)⟩)
  · rw [if_neg he]
    unfold findAgentIndexByName
    rw [bind_assoc]
    refine Sat.assert (by simpa using hne) ?_
    rw [bind_assoc]
    refine Sat.assert (by simpa using he) ?_
    cases hfind : p.agents.find? (fun a => a.name == s) with
    | none =>
      dsimp only
      refine Sat.throws ⟨⟨q, hq, hf⟩, ?_⟩
      intro e he' hes
      obtain ⟨i, hi, rfl⟩ := List.mem_iff_getElem.1 he'
      have hi' : i < p.agents.length := by rw [hp.length]; exact hi
      have hl := hp.loaded i _ _ (List.getElem?_eq_getElem hi) (List.getElem?_eq_getElem hi')
      rw [List.find?_eq_none] at hfind
      have := hfind p.agents[i] (List.getElem_mem hi')
      rw [hl.name] at hes
      injection hes with hes
      exact this (by simpa using hes)
    | some a =>
      have hm := List.mem_of_find?_eq_some hfind
      have hs := List.find?_some hfind
      obtain ⟨i, hi, rfl⟩ := List.mem_iff_getElem.1 hm
      have hid := hp.ids i _ (List.getElem?_eq_getElem hi)
      refine ⟨i, p.agents[i], ?_, List.getElem?_eq_getElem hi, by simpa using hs⟩
      rw [hid]

theorem countDefined_le {a b c : Option Yaml} (h : ¬ countDefined [a, b, c] > 1) :
    (a = none ∧ b = none) ∨ (a = none ∧ c = none) ∨ (b = none ∧ c = none) := by
  cases a <;> cases b <;> cases c <;> simp_all [countDefined]

theorem countDefined_gt {a b c : Option Yaml} (h : countDefined [a, b, c] > 1) :
    (∃ x y, a = some x ∧ b = some y) ∨ (∃ x y, a = some x ∧ c = some y) ∨
      ∃ x y, b = some x ∧ c = some y := by
  cases a <;> cases b <;> cases c <;> simp_all [countDefined]

theorem parseGroupsAndAgents_sat {rf : ReadFloat} {root : Yaml} {p : Project}
    (hp : AgentsInv rf root (agents root) p) (hne : p.agents ≠ []) {q : List Nat × Yaml}
    (hq : q ∈ tasks root) (hs : IsTask q.2) {groups : List String}
    (hg : Table (Mentioned root) groups)
    (hag : ∀ e ∈ agents root, ∀ g, AgentGroup e g → g ∈ groups)
    (hsu : ∀ g ∈ groups, Suitable root g) (t : Task)
    (hname : t.name ≠ "") (hn : Field q.2 "name" (.scalar t.name)) (h1 : t.groupIds = [])
    (h2 : t.agentId = none) :
    Sat (parseGroupsAndAgents q.2 p.agents t groups)
      (fun r => groups <+: r.2 ∧ (Table (Mentioned root) r.2 ∧ ∀ g ∈ r.2, Suitable root g) ∧
        (∃ ids ag, r.1 = { t with groupIds := ids, agentId := ag } ∧ Names r.2 ids (TaskGroup q.2) ∧
          (∀ i, ag = some i → ∃ s a, Field q.2 "agent" (.scalar s) ∧ p.agents[i]? = some a ∧
            a.name = s) ∧ (ag = none → ¬ ∃ v, Field q.2 "agent" v)) ∧
        (∀ g, g ∈ r.2 ↔ g ∈ groups ∨ TaskGroup q.2 g) ∧
        ((∃ v, Field q.2 "agent" v) → (¬ ∃ v, Field q.2 "group" v) ∧ ¬ ∃ v, Field q.2 "groups" v) ∧
        ((∃ v, Field q.2 "group" v) → ¬ ∃ v, Field q.2 "groups" v))
      (Cause rf root) (Degenerate root) := by
  unfold parseGroupsAndAgents
  refine Sat.assert (by simpa using hname) ?_
  have hteq : ∀ ids, ({ t with groupIds := ids } : Task) = { t with groupIds := ids, agentId := none } := by
    intro ids
    cases t
    dsimp only at h2
    subst h2
    rfl
  by_cases hc : countDefined [q.2.get "group", q.2.get "groups", q.2.get "agent"] > 1
  · rw [if_pos hc]
    refine Sat.throws ⟨q, hq, hn, ?_⟩
    rcases countDefined_gt hc with ⟨x, y, a, b⟩ | ⟨x, y, a, b⟩ | ⟨x, y, a, b⟩
    · exact Or.inl ⟨x, y, (hs.get _ _).1 a, (hs.get _ _).1 b⟩
    · exact Or.inr (Or.inl ⟨x, y, (hs.get _ _).1 a, (hs.get _ _).1 b⟩)
    · exact Or.inr (Or.inr ⟨x, y, (hs.get _ _).1 a, (hs.get _ _).1 b⟩)
  · rw [if_neg hc]
    have hle := countDefined_le hc
    cases hgrp : q.2.get "group" with
    | some v =>
      rw [hgrp] at hle
      simp only [reduceCtorEq, false_and, false_or] at hle
      have hf := (hs.get _ _).1 hgrp
      have hng := hs.get_none.1 hle.1
      have hna := hs.get_none.1 hle.2
      obtain ⟨s, rfl⟩ : IsText v := by
        cases hs with
        | mk _ h => exact h v hf
      have hiff : ∀ g, TaskGroup q.2 g ↔ g = s := by
        intro g
        constructor
        · rintro (h | ⟨l, h, -⟩)
          · have := hs.unique hf h
            injection this with this
            exact this.symm
          · exact absurd ⟨_, h⟩ hng
        · rintro rfl
          exact Or.inl hf
      dsimp only
      refine (parseTaskGroup_sat hp hne hq (.scalar s) (Or.inl hf) hg hag hsu t
        (S := fun _ => False) (by rw [h1]; exact Names.empty _)).post ?_
      rintro ⟨t', groups'⟩ ⟨a1, a2, ⟨ids, e, a3⟩, a4⟩
      dsimp only [Yaml.text] at a1 a2 a3 a4 e
      subst e
      refine ⟨a1, a2, ⟨ids, none, hteq ids, a3.congr ?_, by simp, fun _ => hna⟩, ?_, ?_, fun _ => hng⟩
      · intro g
        rw [hiff]
        simp
      · intro g
        rw [hiff]
        exact a4 g
      · intro h
        exact absurd h hna
    | none =>
      have hng := hs.get_none.1 hgrp
      dsimp only
      cases hgrps : q.2.get "groups" with
      | some v =>
        rw [hgrps] at hle
        simp only [reduceCtorEq, false_and, and_false, false_or, or_false] at hle
        have hf := (hs.get _ _).1 hgrps
        have hna := hs.get_none.1 hle.2
        obtain ⟨l, rfl, hl⟩ : IsTexts v := by
          cases hs with
          | mk _ _ h => exact h v hf
        have hiff : ∀ g, TaskGroup q.2 g ↔ ∃ x ∈ l, x.text = g := by
          intro g
          constructor
          · rintro (h | ⟨l', h, hm⟩)
            · exact absurd ⟨_, h⟩ hng
            · have := hs.unique hf h
              injection this with this
              subst this
              exact ⟨_, hm, rfl⟩
          · rintro ⟨x, hx, rfl⟩
            obtain ⟨s, rfl⟩ := hl x hx
            exact Or.inr ⟨l, hf, hx⟩
        dsimp only [Yaml.items]
        refine (parseTaskGroups_sat hp hne hq l (fun x hx => (hiff _).2 ⟨x, hx, rfl⟩) hg hag hsu t
          (S := fun _ => False) (by rw [h1]; exact Names.empty _)).post ?_
        rintro ⟨t', groups'⟩ ⟨a1, a2, ⟨ids, e, a3⟩, a4⟩
        dsimp only at a1 a2 a3 a4 e
        subst e
        refine ⟨a1, a2, ⟨ids, none, hteq ids, a3.congr ?_, by simp, fun _ => hna⟩, ?_, ?_, ?_⟩
        · intro g
          rw [hiff]
          simp
        · intro g
          rw [hiff]
          exact a4 g
        · intro h
          exact absurd h hna
        · intro h
          exact absurd h hng
      | none =>
        have hngs := hs.get_none.1 hgrps
        have hno : ∀ g, ¬ TaskGroup q.2 g := by
          rintro g (h | ⟨l, h, -⟩)
          · exact hng ⟨_, h⟩
          · exact hngs ⟨_, h⟩
        have hnames : Names groups t.groupIds (TaskGroup q.2) := by
          rw [h1]
          exact (Names.empty _).congr (by simpa using hno)
        have hmem : ∀ g, g ∈ groups ↔ g ∈ groups ∨ TaskGroup q.2 g := by
          intro g
          simp [hno g]
        dsimp only
        cases ha : q.2.get "agent" with
        | none =>
          have hna := hs.get_none.1 ha
          refine ⟨List.prefix_refl _, ⟨hg, hsu⟩, ⟨t.groupIds, none, ?_, hnames, by simp, fun _ => hna⟩, hmem,
            fun h => absurd h hna, fun h => absurd h hng⟩
          exact hteq _
        | some v =>
          have hf := (hs.get _ _).1 ha
          obtain ⟨s, rfl⟩ : IsText v := by
            cases hs with
            | mk _ _ _ h => exact h v hf
          dsimp only
          refine Sat.bind (parseTaskAgent_sat hp hne hq hf t) ?_
          rintro u ⟨i, a, rfl, b1, b2⟩
          refine ⟨List.prefix_refl _, ⟨hg, hsu⟩, ⟨t.groupIds, some i, rfl, hnames, ?_, by simp⟩, hmem,
            fun _ => ⟨hng, hngs⟩, fun h => absurd h hng⟩
          intro j hj
          injection hj with hj
          subst hj
          exact ⟨s, a, hf, b1, b2⟩

/-! ## Dependencies -/

theorem parseDependenciesLoop_sat {rf : ReadFloat} {root : Yaml} {q : List Nat × Yaml}
    (hq : q ∈ tasks root) (t : Task) (hn : Field q.2 "name" (.scalar t.name)) (l : List Yaml)
    (hl : ∀ x ∈ l, DependsOnId q.2 x.text)
    {U : Prop} :
    Sat (parseDependenciesLoop t l) (fun ids => ids = l.map Yaml.text ∧ "" ∉ ids) (Cause rf root) U := by
  induction l with
  | nil => exact ⟨rfl, by simp⟩
  | cons x rest ih =>
    simp only [parseDependenciesLoop, validateTaskId]
    by_cases he : x.text.isEmpty = true
    · rw [if_pos he]
      refine Sat.throws (Or.inr (Or.inr ⟨q, hq, Or.inr (Or.inr ⟨t.name, hn, Or.inr ⟨rfl, ?_⟩⟩)⟩))
      have : x.text = "" := by simpa using he
      rw [← this]
      exact hl x (by simp)
    · rw [if_neg he, ok_bind]
      refine Sat.bind (ih fun y hy => hl y (by simp [hy])) ?_
      rintro ids ⟨rfl, h⟩
      refine ⟨rfl, ?_⟩
      rw [List.mem_cons, not_or]
      refine ⟨?_, h⟩
      intro e
      exact he (by simp [← e])

/-- The texts of the dependencies. -/
theorem parseDependsOnField_sat {rf : ReadFloat} {root : Yaml} {q : List Nat × Yaml}
    (hq : q ∈ tasks root) (hs : IsTask q.2) (t : Task) (hn : Field q.2 "name" (.scalar t.name)) :
    Sat (parseDependsOnField q.2 t) (fun ids => ((∀ s, s ∈ ids ↔ DependsOnId q.2 s) ∧ "" ∉ ids) ∧ ¬ Field q.2 "depends_on" (.seq []))
      (Cause rf root) (Degenerate root) := by
  unfold parseDependsOnField
  cases hget : q.2.get "depends_on" with
  | none =>
    have hno := hs.get_none.1 hget
    refine ⟨⟨fun s => ⟨by simp, ?_⟩, by simp⟩, fun h => hno ⟨_, h⟩⟩
    rintro (h | ⟨l, h, -⟩)
    · exact absurd ⟨_, h⟩ hno
    · exact absurd ⟨_, h⟩ hno
  | some v =>
    have hf := (hs.get _ _).1 hget
    have hv : IsText v ∨ IsTexts v := by
      cases hs with
      | mk _ _ _ _ _ _ h => exact h v hf
    dsimp only [parseDependencies]
    rcases hv with ⟨s, rfl⟩ | ⟨l, rfl, hl⟩
    · refine Sat.assert (by rfl) ?_
      have hiff : ∀ x, x ∈ [s] ↔ DependsOnId q.2 x := by
        intro x
        rw [List.mem_singleton]
        constructor
        · rintro rfl
          exact Or.inl hf
        · rintro (h | ⟨l, h, -⟩)
          · have := hs.unique hf h
            injection this with this
            exact this.symm
          · have := hs.unique hf h
            cases this
      unfold dependencyIds
      rw [if_neg (by simp [Yaml.isSequence])]
      dsimp only [validateTaskId, Yaml.text]
      by_cases he : s.isEmpty = true
      · rw [if_pos he]
        have : s = "" := by simpa using he
        subst this
        exact Or.inr (Or.inr ⟨q, hq, Or.inr (Or.inr ⟨t.name, hn, Or.inr ⟨rfl, Or.inl hf⟩⟩)⟩)
      · rw [if_neg he, ok_bind, pure_eq, ok_bind]
        refine Sat.assert (by rfl) ?_
        refine ⟨⟨hiff, ?_⟩, fun h => by cases hs.unique hf h⟩
        rw [List.mem_singleton]
        intro e
        exact he (by simp [← e])
    · refine Sat.assert (by rfl) ?_
      have hiff : ∀ x, x ∈ l.map Yaml.text ↔ DependsOnId q.2 x := by
        intro x
        rw [List.mem_map]
        constructor
        · rintro ⟨y, hy, rfl⟩
          obtain ⟨s, rfl⟩ := hl y hy
          exact Or.inr ⟨l, hf, hy⟩
        · rintro (h | ⟨l', h, hm⟩)
          · have := hs.unique hf h
            cases this
          · have := hs.unique hf h
            injection this with this
            subst this
            exact ⟨_, hm, rfl⟩
      unfold dependencyIds
      rw [if_pos (by rfl)]
      dsimp only [Yaml.items]
      refine Sat.bind (parseDependenciesLoop_sat hq t hn l
        fun x hx => (hiff _).1 (List.mem_map.2 ⟨x, hx, rfl⟩)) ?_
      rintro ids ⟨rfl, hne⟩
      refine Sat.bind (Sat.expects ?_) fun _ hl0 => ⟨⟨hiff, hne⟩, fun h => by
        cases hs.unique hf h
        simp at hl0⟩
      intro h
      have : l = [] := by simpa using h
      subst this
      exact Or.inr (Or.inr (Or.inl ⟨q, hq, hf⟩))

/-! ## One task -/

/-- The state of the loader after the tasks in `pre`: everything but the subtasks' links, of which only
those to tasks below `limit` are there. -/
structure TasksInv (rf : ReadFloat) (root : Yaml) (p : Project)
    (pre : List (List Nat × Yaml)) (limit : Nat) (st : TasksState) : Prop where
  table : Table (Mentioned root) st.groups
  groups : ∀ g, g ∈ st.groups ↔ (∃ e ∈ agents root, AgentGroup e g) ∨ ∃ q ∈ pre, TaskGroup q.2 g
  suitable : ∀ g ∈ st.groups, Suitable root g
  grown : p.groups <+: st.groups
  length : st.tasks.length = pre.length
  dlength : st.deps.length = pre.length
  loaded : ∀ (i : Nat) (q : List Nat × Yaml) (t : Task), pre[i]? = some q →
    st.tasks[i]? = some t → TaskLoaded p.agents st.groups q.2 t
  texts : ∀ (i : Nat) (q : List Nat × Yaml) (ids : List String), pre[i]? = some q →
    st.deps[i]? = some ids → (∀ s, s ∈ ids ↔ DependsOnId q.2 s) ∧ "" ∉ ids
  ids : ∀ (i j : Nat) (t u : Task), st.tasks[i]? = some t → st.tasks[j]? = some u →
    t.id = u.id → t.id ≠ "" → i = j
  sorted : ∀ (i : Nat) (t : Task), st.tasks[i]? = some t → IndexSet.Sorted t.dependencies
  deps : ∀ (i : Nat) (t : Task), st.tasks[i]? = some t → ∀ d, d ∈ t.dependencies ↔
    d < limit ∧ Child root i d

theorem _root_.Angonoka.Doc.TaskLoaded.mono {ags : List Agent} {t t' : List String} {n : Yaml} {a : Task}
    (h : TaskLoaded ags t n a) (hp : t <+: t') : TaskLoaded ags t' n a :=
  ⟨h.name, h.named, h.id, h.duration, Names.mono h.groups hp, h.agent, h.no_agent, h.one_way,
    h.one_group, h.listed⟩

theorem snoc_cases {α : Type} {l : List α} {x y : α} {i : Nat} (h : (l ++ [x])[i]? = some y) :
    (i < l.length ∧ l[i]? = some y) ∨ (i = l.length ∧ y = x) := by
  rw [List.getElem?_append] at h
  split at h
  · rename_i hi
    exact Or.inl ⟨hi, h⟩
  · rename_i hi
    have : i = l.length := by
      by_contra hc
      rw [List.getElem?_eq_none (by simp; omega)] at h
      cases h
    subst this
    simp at h
    exact Or.inr ⟨rfl, h.symm⟩

/-- The part of `parse_task` before the subtasks. -/
theorem parseTaskHead_sat {rf : ReadFloat} {root : Yaml} {p : Project}
    (hp : AgentsInv rf root (agents root) p) (hne : p.agents ≠ [])
    {pre post : List (List Nat × Yaml)} {q : List Nat × Yaml}
    (hall : tasks root = pre ++ q :: post) (hs : IsTask q.2) {st : TasksState}
    (hst : TasksInv rf root p pre (pre.length + 1) st) :
    Sat (parseTaskHead q.2 p.agents st)
      (TasksInv rf root p (pre ++ [q]) (pre.length + 1)) (Cause rf root)
      (Degenerate root) := by
  have hq : q ∈ tasks root := by rw [hall]; simp
  have hkeys := hs.keys'
  obtain ⟨vn, gn⟩ := get_required hkeys (key := "name") (by simp)
  obtain ⟨vd, gd⟩ := get_required hkeys (key := "duration") (by simp)
  have fn := (hs.get _ _).1 gn
  have fd := (hs.get _ _).1 gd
  obtain ⟨name, rfl⟩ : IsText vn := by
    cases hs with
    | mk _ _ _ _ h => exact h vn fn
  have hrange : IsRange vd := by
    cases hs with
    | mk _ _ _ _ _ _ _ h => exact h vd fd
  have hnull : (!q.2.isNull) = true := by
    obtain ⟨es, h, -⟩ := fn
    rw [h]
    rfl
  unfold parseTaskHead
  refine Sat.assert hnull ?_
  refine Sat.assert (by rw [hst.length, hst.dlength]; simp) ?_
  rw [gn, gd]
  dsimp only [Option.map_some, Option.getD_some, Yaml.text]
  by_cases he : name.isEmpty = true
  · rw [if_pos he]
    have : name = "" := by simpa using he
    subst this
    exact Or.inr (Or.inr ⟨q, hq, Or.inl ⟨rfl, fn⟩⟩)
  rw [if_neg he]
  have hname : name ≠ "" := by simpa using he
  refine Sat.bind (parseIdField_sat hall hs hst.length ?_ _ rfl fn) ?_
  · intro i r u hr hu hid
    rcases (hst.loaded i r u hr hu).id with h | h
    · exact h.2
    · exact absurd h.1 hid
  rintro t1 ⟨id, rfl, hid, hdup⟩
  refine Sat.bind (parseTaskDuration_sat hq fd hrange _ fn) ?_
  rintro t2 ⟨lo, up, rfl, hdur, hle⟩
  refine Sat.bind (parseGroupsAndAgents_sat hp hne hq hs hst.table
    (fun e he g hg => (hst.groups g).2 (Or.inl ⟨e, he, hg⟩)) hst.suitable _ hname fn rfl rfl) ?_
  rintro ⟨t3, groups'⟩ ⟨g1, ⟨g2, g2'⟩, ⟨gids, ag, e3, g3, g4, g5⟩, g6, g7, g8⟩
  dsimp only at g1 g2 g2' e3 g3 g6 ⊢
  subst e3
  refine Sat.bind (parseDependsOnField_sat hq hs _ fn) ?_
  rintro ids ⟨⟨hids, hids0⟩, hlisted⟩
  refine ⟨g2, ?_, g2', hst.grown.trans g1, by simp [hst.length], by simp [hst.dlength], ?_, ?_, ?_, ?_, ?_⟩
  · intro g
    dsimp only
    rw [g6, hst.groups]
    simp only [List.mem_append, List.mem_singleton]
    constructor
    · rintro ((h | ⟨r, h1, h2⟩) | h)
      · exact Or.inl h
      · exact Or.inr ⟨r, Or.inl h1, h2⟩
      · exact Or.inr ⟨q, Or.inr rfl, h⟩
    · rintro (h | ⟨r, h1 | rfl, h2⟩)
      · exact Or.inl (Or.inl h)
      · exact Or.inl (Or.inr ⟨r, h1, h2⟩)
      · exact Or.inr h2
  · intro i r t hr ht
    have hlen := hst.length
    rcases snoc_cases hr with ⟨hi, hr⟩ | ⟨hi, rfl⟩
    · rcases snoc_cases ht with ⟨-, ht⟩ | ⟨hi', -⟩
      · exact (hst.loaded i r t hr ht).mono g1
      · omega
    · rcases snoc_cases ht with ⟨hi', -⟩ | ⟨-, rfl⟩
      · omega
      · exact ⟨fn, hname, hid, ⟨lo, up, hdur, hle, rfl, rfl⟩, g3, g4, g5, g7, g8, hlisted⟩
  · intro i r l hr hl
    have hlen := hst.dlength
    rcases snoc_cases hr with ⟨hi, hr⟩ | ⟨hi, rfl⟩
    · rcases snoc_cases hl with ⟨-, hl⟩ | ⟨hi', -⟩
      · exact hst.texts i r l hr hl
      · omega
    · rcases snoc_cases hl with ⟨hi', -⟩ | ⟨-, rfl⟩
      · omega
      · exact ⟨hids, hids0⟩
  · intro i j t u ht hu htu hne'
    rcases snoc_cases ht with ⟨hi, ht⟩ | ⟨hi, rfl⟩ <;> rcases snoc_cases hu with ⟨hj, hu⟩ | ⟨hj, rfl⟩
    · exact hst.ids i j t u ht hu htu hne'
    · exact absurd htu (hdup (fun h => hne' (htu.trans h)) t (List.mem_of_getElem? ht))
    · exact absurd htu.symm (hdup hne' u (List.mem_of_getElem? hu))
    · omega
  · intro i t ht
    rcases snoc_cases ht with ⟨-, ht⟩ | ⟨-, rfl⟩
    · exact hst.sorted i t ht
    · exact List.Pairwise.nil
  · intro i t ht d
    rcases snoc_cases ht with ⟨-, ht⟩ | ⟨hi, rfl⟩
    · exact hst.deps i t ht d
    · constructor
      · intro h
        cases h
      · rintro ⟨h1, h2⟩
        have := child_lt h2
        rw [hst.length] at hi
        omega

end Angonoka.Load
