import Mathlib.Data.List.Nodup
import Verif.Model.Agents
import Verif.Proof.Hoare
import Verif.Proof.Params
import Verif.Proof.Schema
import Verif.Spec.Loading

/-!
# Loading of agents: functional correctness
-/

namespace Angonoka.Load
open Angonoka Outcome Doc Validation

/-! ## Group tables -/

theorem findIdx_some {α : Type} [BEq α] [LawfulBEq α] {x : α} {l : List α} {i : Nat}
    (h : findIdx x l = some i) : l[i]? = some x ∧ ∀ j < i, l[j]? ≠ some x := by
  induction l generalizing i with
  | nil => cases h
  | cons y ys ih =>
    simp only [findIdx] at h
    split at h
    · rename_i hy
      injection h with h
      subst h
      exact ⟨by simpa using hy, fun j hj => by omega⟩
    · rename_i hy
      rw [Option.map_eq_some_iff] at h
      obtain ⟨k, hk, rfl⟩ := h
      obtain ⟨h1, h2⟩ := ih hk
      refine ⟨by simpa using h1, fun j hj => ?_⟩
      cases j with
      | zero =>
        intro e
        simp only [List.getElem?_cons_zero, Option.some.injEq] at e
        subst e
        exact hy (by simp)
      | succ j => simpa using h2 j (by omega)

theorem findIdx_none {α : Type} [BEq α] [LawfulBEq α] {x : α} {l : List α}
    (h : findIdx x l = none) : x ∉ l := by
  induction l with
  | nil => simp
  | cons y ys ih =>
    simp only [findIdx] at h
    split at h
    · cases h
    · rename_i hy
      rw [Option.map_eq_none_iff] at h
      simp only [List.mem_cons, not_or]
      refine ⟨?_, ih h⟩
      rintro rfl
      exact hy (by simp)

/-- Invariant of the group table: no duplicates, all names satisfy `M`, at most 128, none is empty. -/
structure Table (M : String → Prop) (groups : List String) : Prop where
  nodup : groups.Nodup
  mentioned : ∀ g ∈ groups, M g
  limit : groups.length ≤ 128
  named : "" ∉ groups

/-- More names than indices. -/
def TooMany (M : String → Prop) : Prop :=
  ∃ gs : List String, gs.Nodup ∧ 128 < gs.length ∧ ∀ g ∈ gs, M g

theorem _root_.Angonoka.Doc.Names.mono {t t' : List String} {ids : IndexSet} {S : String → Prop} (h : Names t ids S)
    (hp : t <+: t') : Names t' ids S := by
  have hg : ∀ (i : Nat) (g : String), t[i]? = some g → t'[i]? = some g := by
    intro i g hi
    obtain ⟨r, rfl⟩ := hp
    rw [List.getElem?_append_left (by
      by_contra hc
      rw [List.getElem?_eq_none (by omega)] at hi
      cases hi)]
    exact hi
  refine ⟨h.sorted, fun i hi => ?_, fun g hg' => ?_⟩
  · obtain ⟨g, h1, h2⟩ := h.sound i hi
    exact ⟨g, hg i g h1, h2⟩
  · obtain ⟨i, h1, h2⟩ := h.complete g hg'
    exact ⟨i, h1, hg i g h2⟩

theorem _root_.Angonoka.Doc.Names.congr {t : List String} {ids : IndexSet} {S S' : String → Prop} (h : Names t ids S)
    (hs : ∀ g, S g ↔ S' g) : Names t ids S' := by
  have : S = S' := by
    funext g
    exact propext (hs g)
  rwa [← this]

theorem _root_.Angonoka.Doc.Names.empty (t : List String) : Names t [] (fun _ => False) :=
  ⟨List.Pairwise.nil, by simp, by simp⟩

theorem mem_insert (x y : Nat) (s : IndexSet) : y ∈ IndexSet.insert x s ↔ y = x ∨ y ∈ s := by
  induction s with
  | nil => simp [IndexSet.insert]
  | cons z zs ih =>
    simp only [IndexSet.insert]
    split_ifs with h1 h2
    · simp
    · subst h2
      simp
    · simp only [List.mem_cons, ih]
      tauto

theorem sorted_insert (x : Nat) (s : IndexSet) (h : IndexSet.Sorted s) :
    IndexSet.Sorted (IndexSet.insert x s) := by
  unfold IndexSet.Sorted at *
  induction s with
  | nil => simp [IndexSet.insert]
  | cons z zs ih =>
    rw [List.pairwise_cons] at h
    simp only [IndexSet.insert]
    split_ifs with h1 h2
    · rw [List.pairwise_cons, List.pairwise_cons]
      refine ⟨?_, h.1, h.2⟩
      intro y hy
      rcases List.mem_cons.1 hy with rfl | hy
      · exact h1
      · exact h1.trans (h.1 y hy)
    · rw [List.pairwise_cons]
      exact h
    · rw [List.pairwise_cons]
      refine ⟨?_, ih h.2⟩
      intro y hy
      rw [mem_insert] at hy
      rcases hy with rfl | hy
      · omega
      · exact h.1 y hy

theorem _root_.Angonoka.Doc.Names.insert {t : List String} {ids : IndexSet} {S : String → Prop} (h : Names t ids S)
    {i : Nat} {g : String} (hi : t[i]? = some g) :
    Names t (IndexSet.insert i ids) (fun x => x = g ∨ S x) := by
  refine ⟨sorted_insert i ids h.sorted, fun j hj => ?_, fun x hx => ?_⟩
  · rcases (mem_insert i j ids).1 hj with rfl | hj
    · exact ⟨g, hi, Or.inl rfl⟩
    · obtain ⟨g', h1, h2⟩ := h.sound j hj
      exact ⟨g', h1, Or.inr h2⟩
  · rcases hx with rfl | hx
    · exact ⟨i, (mem_insert i i ids).2 (Or.inl rfl), hi⟩
    · obtain ⟨j, h1, h2⟩ := h.complete x hx
      exact ⟨j, (mem_insert i j ids).2 (Or.inr h1), h2⟩

/-- `find_or_insert_group`: the table only grows at the end, the index is that of the name, and the flag
says whether the name is new. -/
theorem findOrInsertGroup_sat {M : String → Prop} {T : Err → Prop} {U : Prop}
    (hT : TooMany M → T .range) {groups : List String} (hg : Table M groups) (g : String)
    (hM : M g) (hU : g = "" → U) :
    Sat (findOrInsertGroup groups g)
      (fun r => groups <+: r.1 ∧ Table M r.1 ∧ r.1[r.2.1]? = some g ∧
        (∀ x, x ∈ r.1 ↔ x ∈ groups ∨ x = g) ∧ (r.2.2 = true ↔ g ∉ groups)) T U := by
  unfold findOrInsertGroup
  refine Sat.bind (Sat.expects (by simpa using hU)) fun _ hnamed => ?_
  have toBig : ∀ i, toInt8 i = if i ≤ 127 then .ok i else .throws .range := fun _ => rfl
  split
  · rename_i i hi
    obtain ⟨h1, -⟩ := findIdx_some hi
    have hmem : g ∈ groups := List.mem_of_getElem? h1
    have hlt : i < groups.length := by
      by_contra hc
      rw [List.getElem?_eq_none (by omega)] at h1
      cases h1
    have := hg.limit
    rw [toBig, if_pos (by omega)]
    refine ⟨List.prefix_refl _, hg, h1, fun x => ⟨Or.inl, ?_⟩, by simpa using hmem⟩
    rintro (h | rfl)
    · exact h
    · exact hmem
  · rename_i hn
    have hnm := findIdx_none hn
    have hnodup : (groups ++ [g]).Nodup := by
      rw [List.nodup_append]
      refine ⟨hg.nodup, by simp, ?_⟩
      intro a ha b hb
      simp only [List.mem_singleton] at hb
      subst hb
      rintro rfl
      exact hnm ha
    have hment : ∀ x ∈ groups ++ [g], M x := by
      intro x hx
      rcases List.mem_append.1 hx with hx | hx
      · exact hg.mentioned x hx
      · rw [List.mem_singleton.1 hx]
        exact hM
    dsimp only
    rw [toBig]
    simp only [List.length_append, List.length_singleton, Nat.add_sub_cancel]
    split
    · rename_i hle
      refine ⟨List.prefix_append _ _, ⟨hnodup, hment, by simp; omega, ?_⟩, by simp, ?_, by simpa using hnm⟩
      · simp only [List.mem_append, List.mem_singleton, not_or]
        refine ⟨hg.named, ?_⟩
        rintro rfl
        simp at hnamed
      intro x
      simp
    · rename_i hgt
      exact hT ⟨groups ++ [g], hnodup, by simp; omega, hment⟩

/-- `parse_agent_groups` -/
theorem parseAgentGroups_sat {M : String → Prop} {T : Err → Prop} {U : Prop}
    (hT : TooMany M → T .range) (l : List Yaml) (hM : ∀ x ∈ l, M x.text)
    (hU : (∃ x ∈ l, x.text = "") → U) {groups : List String} (hg : Table M groups)
    {gids : IndexSet} {S : String → Prop} (hn : Names groups gids S) :
    Sat (parseAgentGroups l gids groups)
      (fun r => groups <+: r.2 ∧ Table M r.2 ∧ Names r.2 r.1 (fun g => S g ∨ ∃ x ∈ l, x.text = g) ∧
        ∀ g, g ∈ r.2 ↔ g ∈ groups ∨ ∃ x ∈ l, x.text = g) T U := by
  induction l generalizing groups gids S with
  | nil =>
    refine ⟨List.prefix_refl _, hg, hn.congr (by simp), by simp⟩
  | cons y rest ih =>
    simp only [parseAgentGroups]
    refine Sat.bind (findOrInsertGroup_sat hT hg y.text (hM y (by simp))
      (fun h => hU ⟨y, by simp, h⟩)) ?_
    rintro ⟨groups', gid, isNew⟩ ⟨h1, h2, h3, h4, -⟩
    dsimp only at h1 h2 h3 h4 ⊢
    refine (ih (fun x hx => hM x (by simp [hx])) (fun ⟨x, hx, e⟩ => hU ⟨x, by simp [hx], e⟩) h2
      ((hn.mono h1).insert h3)).post ?_
    rintro ⟨ids', groups''⟩ ⟨a1, a2, a3, a4⟩
    refine ⟨h1.trans a1, a2, a3.congr ?_, ?_⟩
    · intro g
      simp only [List.mem_cons, exists_eq_or_imp]
      constructor
      · rintro ((rfl | h) | h)
        · exact Or.inr (Or.inl rfl)
        · exact Or.inl h
        · exact Or.inr (Or.inr h)
      · rintro (h | rfl | h)
        · exact Or.inl (Or.inr h)
        · exact Or.inl (Or.inl rfl)
        · exact Or.inr h
    · intro g
      dsimp only at a4 ⊢
      rw [a4, h4]
      simp only [List.mem_cons, exists_eq_or_imp]
      constructor
      · rintro ((h | rfl) | h)
        · exact Or.inl h
        · exact Or.inr (Or.inl rfl)
        · exact Or.inr (Or.inr h)
      · rintro (h | rfl | h)
        · exact Or.inl (Or.inl h)
        · exact Or.inl (Or.inr rfl)
        · exact Or.inr h

/-! ## Performance -/

theorem field_unique {al rq : List String} {n : Yaml} (h : HasKeys al rq n) {key : String}
    {v w : Yaml} (hv : Field n key v) (hw : Field n key w) : v = w := by
  have h1 := (get_iff h key v).2 hv
  have h2 := (get_iff h key w).2 hw
  rw [h1] at h2
  cases h2
  rfl

theorem readPerformance_sat {rf : ReadFloat} {T : Err → Prop} {U : Prop} (who s : String)
    (h1 : rf s = none → T (.invalidAgentPerformance who))
    (h2 : ∀ x, rf s = some x → x.le (.fin 0) = true → T (.negativePerformance who)) :
    Sat (readPerformance rf who (some (.scalar s)))
      (fun x => rf s = some x ∧ x.le (.fin 0) = false) T U := by
  unfold readPerformance validatePerformance
  dsimp only
  cases hr : rf s with
  | none => exact h1 hr
  | some x =>
    dsimp only
    cases hx : x.le (.fin 0) with
    | true => exact h2 x hr hx
    | false => exact ⟨rfl, hx⟩

theorem parseAgentPerformance_sat {rf : ReadFloat} {root : Yaml} {U : Prop}
    {k v n : Yaml} (hmem : (k, v) ∈ agents root) (hk : k = .scalar k.text)
    (hf : Field v "performance" n) (hs : IsRange n) (a : Agent) (ha : a.name = k.text) :
    Sat (parseAgentPerformance rf n a)
      (fun b => ∃ lo hi, b = { a with perfMin := lo, perfMax := hi } ∧
        Performance rf v lo hi ∧ (lo.le (.fin 0) = false ∧ hi.le (.fin 0) = false) ∧
        lo.gt hi = false)
      (Cause rf root) U := by
  have hk' : (k, v).1 = Yaml.scalar a.name := by rw [ha]; exact hk
  have rd : ∀ s, InPerformance v s → Sat (readPerformance rf a.name (some (.scalar s)))
      (fun x => rf s = some x ∧ x.le (.fin 0) = false) (Cause rf root) U := fun s hs =>
    readPerformance_sat a.name s (fun h => ⟨(k, v), hmem, hk', s, hs, h⟩)
      (fun x h1 h2 => ⟨(k, v), hmem, hk', s, x, hs, h1, h2⟩)
  unfold parseAgentPerformance readPerformances
  rcases hs with ⟨s, rfl⟩ | ⟨hkeys, hmin, hmax⟩
  · rw [if_pos (by rfl), bind_assoc]
    refine Sat.bind (rd s (Or.inl hf)) fun x ⟨hx1, hx2⟩ => ?_
    simp only [pure_eq, ok_bind]
    have hgt : x.gt x = false := by cases x <;> simp [XFloat.gt]
    rw [hgt]
    exact ⟨x, x, rfl, Or.inr (Or.inl ⟨s, hf, hx1, rfl⟩), ⟨hx2, hx2⟩, hgt⟩
  · obtain ⟨va, ga⟩ := get_required hkeys (key := "min") (by simp)
    obtain ⟨vb, gb⟩ := get_required hkeys (key := "max") (by simp)
    have fa := (get_iff hkeys _ _).1 ga
    have fb := (get_iff hkeys _ _).1 gb
    obtain ⟨sa, rfl⟩ := hmin va fa
    obtain ⟨sb, rfl⟩ := hmax vb fb
    have hns : ¬ n.isScalar = true := by
      rcases hkeys with ⟨rfl, -⟩ | ⟨es, names, rfl, -⟩ <;> simp [Yaml.isScalar]
    rw [if_neg hns, ga, gb]
    rw [bind_assoc]
    refine Sat.bind (rd sa (Or.inr ⟨n, hf, Or.inl fa⟩)) fun x ⟨hx1, hx2⟩ => ?_
    rw [bind_assoc]
    refine Sat.bind (rd sb (Or.inr ⟨n, hf, Or.inr fb⟩)) fun y ⟨hy1, hy2⟩ => ?_
    simp only [pure_eq, ok_bind]
    cases hgt : x.gt y with
    | true => exact ⟨(k, v), hmem, hk', n, sa, sb, x, y, hf, fa, fb, hx1, hy1, hgt⟩
    | false => exact ⟨x, y, rfl, Or.inr (Or.inr ⟨n, sa, sb, hf, fa, fb, hx1, hy1⟩), ⟨hx2, hy2⟩, hgt⟩

/-! ## Agents -/

/-- The state of the loader after the agents in `done`. -/
structure AgentsInv (rf : ReadFloat) (root : Yaml) (done : List (Yaml × Yaml)) (p : Project) :
    Prop where
  table : Table (Mentioned root) p.groups
  length : p.agents.length = done.length
  limit : p.agents.length ≤ 128
  ids : ∀ (i : Nat) (a : Agent), p.agents[i]? = some a → a.id = i
  loaded : ∀ (i : Nat) (e : Yaml × Yaml) (a : Agent), done[i]? = some e → p.agents[i]? = some a →
    AgentLoaded rf p.groups e a
  names : (p.agents.map Agent.name).Nodup
  /-- the table has exactly the groups of these agents -/
  groups : ∀ g, g ∈ p.groups ↔ ∃ e ∈ done, AgentGroup e g
  tasks : p.tasks = []

theorem agentGroup_get {e : Yaml × Yaml} (h : IsAgent e.2) (g : String) :
    AgentGroup e g ↔ ∃ v, e.2.get "groups" = some v ∧ ∃ x ∈ v.items, x.text = g := by
  unfold AgentGroup
  constructor
  · rintro ⟨l, hf, hm⟩
    exact ⟨_, (get_iff h.1 _ _).2 hf, _, hm, rfl⟩
  · rintro ⟨v, hv, x, hx, rfl⟩
    have hf := (get_iff h.1 _ _).1 hv
    obtain ⟨l, rfl, hl⟩ := h.2.2 v hf
    obtain ⟨s, rfl⟩ := hl x hx
    exact ⟨l, hf, hx⟩

theorem _root_.Angonoka.Doc.AgentLoaded.mono {rf : ReadFloat} {t t' : List String} {e : Yaml × Yaml} {a : Agent}
    (h : AgentLoaded rf t e a) (hp : t <+: t') : AgentLoaded rf t' e a :=
  ⟨h.name, h.named, Names.mono h.groups hp, h.performance, h.positive, h.ordered⟩

/-- The groups of one agent. -/
theorem parseGroupsField_sat {rf : ReadFloat} {root : Yaml} {e : Yaml × Yaml}
    (hmem : e ∈ agents root) (hs : IsAgent e.2) {groups : List String}
    (hg : Table (Mentioned root) groups) (a : Agent) (ha : a.groupIds = []) :
    Sat (parseGroupsField e.2 a groups)
      (fun r => groups <+: r.2 ∧ Table (Mentioned root) r.2 ∧
        (∃ ids, r.1 = { a with groupIds := ids } ∧ Names r.2 ids (AgentGroup e)) ∧
        ∀ g, g ∈ r.2 ↔ g ∈ groups ∨ AgentGroup e g)
      (Cause rf root) (Degenerate root) := by
  unfold parseGroupsField
  cases hget : e.2.get "groups" with
  | none =>
    have hno : ∀ g, ¬ AgentGroup e g := by
      intro g h
      rw [agentGroup_get hs] at h
      obtain ⟨v, hv, -⟩ := h
      rw [hget] at hv
      cases hv
    refine ⟨List.prefix_refl _, hg, ⟨[], ?_, ?_⟩, ?_⟩
    · cases a
      dsimp only at ha
      subst ha
      rfl
    · exact Names.congr (Names.empty _) (by simpa using hno)
    · intro g
      simp [hno g]
  | some v =>
    dsimp only
    have hiff : ∀ g, AgentGroup e g ↔ ∃ x ∈ v.items, x.text = g := by
      intro g
      rw [agentGroup_get hs, hget]
      simp
    refine Sat.bind (parseAgentGroups_sat (M := Mentioned root) (S := fun _ => False)
      (fun h => Or.inr (Or.inr h)) v.items
      (fun x hx => Or.inl ⟨e, hmem, (hiff _).2 ⟨x, hx, rfl⟩⟩) ?_ hg ?_) ?_
    · rintro ⟨x, hx, h⟩
      exact Or.inr (Or.inl (Or.inl ⟨e, hmem, (hiff _).2 ⟨x, hx, h⟩⟩))
    · rw [ha]
      exact Names.empty _
    · rintro ⟨ids, groups'⟩ ⟨h1, h2, h3, h4⟩
      refine ⟨h1, h2, ⟨ids, rfl, Names.congr h3 ?_⟩, ?_⟩
      · intro g
        rw [hiff]
        simp
      · intro g
        rw [hiff]
        exact h4 g

theorem parsePerformanceField_sat {rf : ReadFloat} {root : Yaml} {e : Yaml × Yaml} {U : Prop}
    (hmem : e ∈ agents root) (hs : IsAgent e.2) (hk : e.1 = .scalar e.1.text) (a : Agent)
    (ha : a.name = e.1.text) (h1 : a.perfMin = .fin 1) (h2 : a.perfMax = .fin 1) :
    Sat (parsePerformanceField rf e.2 a)
      (fun b => ∃ lo hi, b = { a with perfMin := lo, perfMax := hi } ∧
        Performance rf e.2 lo hi ∧ (lo.le (.fin 0) = false ∧ hi.le (.fin 0) = false) ∧
        lo.gt hi = false)
      (Cause rf root) U := by
  obtain ⟨k, v⟩ := e
  unfold parsePerformanceField
  cases hget : v.get "performance" with
  | none =>
    refine ⟨.fin 1, .fin 1, ?_, Or.inl ⟨?_, rfl, rfl⟩, by decide, by decide⟩
    · cases a
      dsimp only at h1 h2
      subst h1 h2
      rfl
    · rintro ⟨w, hw⟩
      rw [(get_iff hs.1 _ _).2 hw] at hget
      cases hget
  | some n =>
    have hf := (get_iff hs.1 _ _).1 hget
    exact parseAgentPerformance_sat hmem hk hf (hs.2.1 n hf) a ha

/-- One agent. -/
theorem parseAgent_sat {rf : ReadFloat} {root : Yaml} {done rest : List (Yaml × Yaml)}
    {e : Yaml × Yaml} (hall : agents root = done ++ e :: rest) (hs : IsAgent e.2) {p : Project}
    (hp : AgentsInv rf root done p) :
    Sat (parseAgent rf e.1 e.2 p) (AgentsInv rf root (done ++ [e])) (Cause rf root)
      (Degenerate root) := by
  have hmem : e ∈ agents root := by rw [hall]; simp
  unfold parseAgent
  dsimp only
  refine Sat.bind (Sat.expects ?_) fun _ hne => ?_
  · intro h
    exact Or.inl ⟨e, hmem, by simpa using h⟩
  have hne' : e.1.text ≠ "" := by simpa using hne
  have hk : e.1 = .scalar e.1.text := by
    cases h : e.1 with
    | scalar s => rfl
    | _ => rw [h] at hne'; exact absurd rfl hne'
  unfold checkAgentDuplicates
  rw [bind_assoc]
  refine Sat.assert hne ?_
  refine Sat.bind (Q := fun _ => ∀ a ∈ p.agents, a.name ≠ e.1.text) ?_ fun _ hdup => ?_
  · split
    · rename_i h
      rw [List.any_eq_true] at h
      obtain ⟨a, ha, hn⟩ := h
      have hn : a.name = e.1.text := by simpa using hn
      obtain ⟨i, hi, rfl⟩ := List.mem_iff_getElem.1 ha
      have hi' : i < done.length := by rw [← hp.length]; exact hi
      have hl := hp.loaded i done[i] p.agents[i] (List.getElem?_eq_getElem hi')
        (List.getElem?_eq_getElem hi)
      refine ⟨i, done.length, done[i], e, hi', ?_, ?_, ?_, hk⟩
      · rw [hall, List.getElem?_append_left hi', List.getElem?_eq_getElem hi']
      · rw [hall, List.getElem?_append_right (le_refl _)]
        simp
      · rw [hl.name, hn]
    · rename_i h
      intro a ha hn
      exact h (List.any_eq_true.2 ⟨a, ha, by simpa using hn⟩)
  refine Sat.bind (Q := fun i => i = p.agents.length ∧ p.agents.length ≤ 127) ?_ ?_
  · unfold toInt8
    split
    · rename_i h
      exact ⟨rfl, h⟩
    · rename_i h
      refine Or.inl ?_
      rw [hall, List.length_append, List.length_cons, ← hp.length]
      omega
  rintro id ⟨rfl, hlim⟩
  refine Sat.bind (parseGroupsField_sat (rf := rf) hmem hs hp.table
    { id := p.agents.length, name := e.1.text } rfl) ?_
  rintro ⟨a1, groups'⟩ ⟨g1, g2, ⟨ids, e1, g3⟩, g4⟩
  dsimp only at g1 g2 g3 g4 e1 ⊢
  subst e1
  refine Sat.bind (parsePerformanceField_sat hmem hs hk _ rfl rfl rfl) ?_
  rintro a2 ⟨lo, hi, rfl, q1, q2, q3⟩
  refine ⟨g2, ?_, ?_, ?_, ?_, ?_, ?_, hp.tasks⟩
  · simp [hp.length]
  · simp; omega
  · intro i a ha
    rw [List.getElem?_append] at ha
    split at ha
    · exact hp.ids i a ha
    · rename_i hge
      have : i = p.agents.length := by
        by_contra hc
        rw [List.getElem?_eq_none (by simp; omega)] at ha
        cases ha
      subst this
      simp at ha
      subst ha
      rfl
  · intro i e' a he' ha
    have hlen := hp.length
    rw [List.getElem?_append] at he' ha
    by_cases hi : i < p.agents.length
    · rw [if_pos (by omega)] at he'
      rw [if_pos hi] at ha
      exact (hp.loaded i e' a he' ha).mono g1
    · rw [if_neg (by omega)] at he'
      rw [if_neg hi] at ha
      have : i = p.agents.length := by
        by_contra hc
        rw [List.getElem?_eq_none (by simp; omega)] at ha
        cases ha
      subst this
      rw [hlen] at he'
      simp at he' ha
      subst he' ha
      exact ⟨hk, hne', g3, q1, q2, q3⟩
  · rw [List.map_append, List.nodup_append]
    refine ⟨hp.names, by simp, ?_⟩
    intro a ha b hb
    simp only [List.map_cons, List.map_nil, List.mem_singleton] at hb
    subst hb
    obtain ⟨x, hx, rfl⟩ := List.mem_map.1 ha
    exact hdup x hx
  · intro g
    dsimp only
    rw [g4, hp.groups]
    simp only [List.mem_append, List.mem_singleton]
    constructor
    · rintro (⟨e', h1, h2⟩ | h)
      · exact ⟨e', Or.inl h1, h2⟩
      · exact ⟨e, Or.inr rfl, h⟩
    · rintro ⟨e', h1 | rfl, h2⟩
      · exact Or.inl ⟨e', h1, h2⟩
      · exact Or.inr h2

theorem parseAgentsLoop_sat {rf : ReadFloat} {root : Yaml} (rest : List (Yaml × Yaml))
    {done : List (Yaml × Yaml)} (hall : agents root = done ++ rest) (hs : ∀ e ∈ rest, IsAgent e.2)
    {p : Project} (hp : AgentsInv rf root done p) :
    Sat (parseAgentsLoop rf rest p) (AgentsInv rf root (agents root)) (Cause rf root)
      (Degenerate root) := by
  induction rest generalizing done p with
  | nil =>
    rw [List.append_nil] at hall
    rw [hall]
    exact hp
  | cons e rest ih =>
    simp only [parseAgentsLoop]
    refine Sat.bind (parseAgent_sat hall (hs e (by simp)) hp) fun p' hp' => ?_
    exact ih (by simpa using hall) (fun e he => hs e (by simp [he])) hp'

/-- `parse_agents` -/
theorem parseAgents_sat {rf : ReadFloat} {root : Yaml} (hr : IsConfiguration root) :
    Sat (parseAgents rf ((root.get "agents").getD .null) {})
      (fun p => AgentsInv rf root (agents root) p ∧ p.agents ≠ []) (Cause rf root)
      (Degenerate root) := by
  obtain ⟨v, hv⟩ := get_required hr.1 (key := "agents") (by simp)
  obtain ⟨es, rfl, hes⟩ := hr.2.1 v ((get_iff hr.1 _ _).1 hv)
  have hag : agents root = es := by
    unfold agents
    rw [hv]
  unfold parseAgents
  rw [hv]
  refine Sat.assert (by rfl) ?_
  rw [Option.getD_some]
  by_cases h : (Yaml.map es).size = 0
  · rw [if_pos h]
    refine Sat.throws (Or.inl ?_)
    rw [hag]
    exact ⟨rfl, List.eq_nil_of_length_eq_zero h⟩
  · rw [if_neg h]
    have h0 : AgentsInv rf root [] {} :=
      ⟨⟨List.nodup_nil, by simp, by simp, by simp⟩, rfl, by simp, by simp, by simp, by simp, by simp, rfl⟩
    refine Sat.bind (parseAgentsLoop_sat es (done := []) (by simpa using hag) hes h0) fun p hp => ?_
    have hne : p.agents ≠ [] := by
      intro e
      have := hp.length
      rw [e, hag] at this
      exact h this.symm
    refine Sat.assert (by simpa using hne) ?_
    exact ⟨hp, hne⟩

end Angonoka.Load
