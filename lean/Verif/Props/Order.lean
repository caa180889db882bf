import Verif.Proof.Order
import Verif.Props.Bounds
import Verif.Props.LoadingExamples

/-!
# C109: the order of the document does not matter
-/

set_option linter.unusedSectionVars false

namespace Angonoka.Props
open Outcome Stun Cli CommandLine Doc

variable {K : Type} [_root_.Field K] [LinearOrder K] [IsStrictOrderedRing K]
variable {E : FloatEnv K} {rf : String → Option XFloat} {root root' : Yaml} {p p' : Project}

/-! ### Tasks and agents -/

theorem task_moved (h : Reordered root root') (hc : IsConfiguration root) {q : List Nat × Yaml} (hq : q ∈ tasks root) :
    ∃ q' ∈ tasks root', Reordered q.2 q'.2 := by
  obtain ⟨g, hg⟩ := tasks_match h hc
  obtain ⟨i, hi⟩ := List.mem_iff_getElem?.1 hq
  obtain ⟨q', h1, h2⟩ := hg.task i q hi
  exact ⟨q', List.mem_of_getElem? h1, h2⟩

theorem agent_moved (h : Reordered root root') (hc : IsConfiguration root) {e : Yaml × Yaml} (he : e ∈ agents root) :
    ∃ f ∈ agents root', SameEntry e f := (agents_along h hc).some he

theorem mentioned_moved (h : Reordered root root') (hc : IsConfiguration root) {g : String} (hg : Mentioned root g) : Mentioned root' g := by
  rcases hg with ⟨e, he, hg⟩ | ⟨q, hq, hg⟩
  · obtain ⟨f, hf, hs⟩ := agent_moved h hc he
    exact Or.inl ⟨f, hf, hs.agentGroup hg⟩
  · obtain ⟨q', hq', hr⟩ := task_moved h hc hq
    exact Or.inr ⟨q', hq', hr.taskGroup hg⟩

theorem agents_index (h : Reordered root root') (hc : IsConfiguration root) :
    ∃ f : Nat → Nat, Function.Bijective f ∧ (∀ i, i < (agents root).length ↔ f i < (agents root').length) ∧
      ∀ (i : Nat) w, (agents root)[i]? = some w → ∃ w', (agents root')[f i]? = some w' ∧ SameEntry w w' := by
  obtain ⟨f, hf, hrel⟩ := agents_along h hc
  refine ⟨f, hf, fun i => ?_, fun i w hw => ?_⟩
  · have := hrel i
    generalize h1 : (agents root)[i]? = a at this
    generalize h2 : (agents root')[f i]? = b at this
    cases this with
    | none => 
      rw [List.getElem?_eq_none_iff] at h1 h2
      omega
    | some _ => exact ⟨fun _ => (List.getElem?_eq_some_iff.1 h2).1, fun _ => (List.getElem?_eq_some_iff.1 h1).1⟩
  · have := hrel i
    rw [hw] at this
    generalize h2 : (agents root')[f i]? = b at this
    cases this with
    | some h => exact ⟨_, rfl, h⟩

theorem agents_length (h : Reordered root root') (hc : IsConfiguration root) : (agents root).length ≤ (agents root').length := by
  obtain ⟨f, hf, hlt, _⟩ := agents_index h hc
  have := Finset.card_le_card_of_injOn (s := Finset.range (agents root).length) (t := Finset.range (agents root').length) f
    (fun i hi => by simpa using (hlt i).1 (by simpa using hi)) (fun i _ j _ e => hf.1 e)
  simpa using this

/-! ### Defects -/

/-- Two tasks with a property in common -/
theorem two_tasks (h : Reordered root root') (hc : IsConfiguration root) {P : Yaml → Prop} (hP : ∀ m n, Reordered m n → P m → P n)
    (hd : ∃ (i j : Nat) (q r : List Nat × Yaml), i < j ∧ (tasks root)[i]? = some q ∧ (tasks root)[j]? = some r ∧ P q.2 ∧ P r.2) :
    ∃ (i j : Nat) (q r : List Nat × Yaml), i < j ∧ (tasks root')[i]? = some q ∧ (tasks root')[j]? = some r ∧ P q.2 ∧ P r.2 := by
  obtain ⟨i, j, q, r, hij, h1, h2, h3, h4⟩ := hd
  obtain ⟨g, hg⟩ := tasks_match h hc
  obtain ⟨q', g1, g2⟩ := hg.task i q h1
  obtain ⟨r', g3, g4⟩ := hg.task j r h2
  have hne : g i ≠ g j := fun e => by
    have := hg.inj i (List.getElem?_eq_some_iff.1 h1).1 j (List.getElem?_eq_some_iff.1 h2).1 e
    omega
  rcases Nat.lt_or_gt_of_ne hne with hlt | hlt
  · exact ⟨_, _, q', r', hlt, g1, g3, hP _ _ g2 h3, hP _ _ g4 h4⟩
  · exact ⟨_, _, r', q', hlt, g3, g1, hP _ _ g4 h4, hP _ _ g2 h3⟩

theorem cause_moved (h : Reordered root root') (hc : IsConfiguration root) {e : Err} (hd : Cause rf root e) : Cause rf root' e := by
  have hc' := h.isConfiguration hc
  cases e with
  | schema => exact absurd hc hd
  | cantBeEmpty what =>
    rcases hd with ⟨h1, h2⟩ | ⟨h1, h2⟩ | ⟨q, hq, hd⟩
    · have := agents_length h.symm hc'
      rw [h2] at this
      exact Or.inl ⟨h1, List.length_eq_zero_iff.1 (by simpa using this)⟩
    · obtain ⟨g, hg⟩ := tasks_match h hc
      have := hg.length
      rw [h2] at this
      exact Or.inr (Or.inl ⟨h1, List.length_eq_zero_iff.1 this.symm⟩)
    · obtain ⟨q', hq', hr⟩ := task_moved h hc hq
      refine Or.inr (Or.inr ⟨q', hq', ?_⟩)
      rcases hd with ⟨h1, h2⟩ | ⟨h1, h2⟩ | ⟨name, hn, ⟨h1, h2⟩ | ⟨h1, h2⟩⟩
      · exact Or.inl ⟨h1, hr.scalarField h2⟩
      · exact Or.inr (Or.inl ⟨h1, hr.scalarField h2⟩)
      · exact Or.inr (Or.inr ⟨name, hr.scalarField hn, Or.inl ⟨h1, hr.scalarField h2⟩⟩)
      · exact Or.inr (Or.inr ⟨name, hr.scalarField hn, Or.inr ⟨h1, hr.dependsOnId h2⟩⟩)
  | duplicateAgentDefinition who =>
    obtain ⟨i, j, e, f, hij, h1, h2, h3, h4⟩ := hd
    obtain ⟨f', hf, _, hag⟩ := agents_index h hc
    obtain ⟨e', g1, g2⟩ := hag i e h1
    obtain ⟨r', g3, g4⟩ := hag j f h2
    have hne : f' i ≠ f' j := fun e => by
      have := hf.1 e
      omega
    rcases Nat.lt_or_gt_of_ne hne with hlt | hlt
    · exact ⟨_, _, e', r', hlt, g1, g3, g2.1.symm.trans h3, g4.1.symm.trans h4⟩
    · exact ⟨_, _, r', e', hlt, g3, g1, g4.1.symm.trans h4, g2.1.symm.trans h3⟩
  | invalidAgentPerformance who =>
    obtain ⟨e, he, h1, s, h2, h3⟩ := hd
    obtain ⟨f, hf, hs⟩ := agent_moved h hc he
    exact ⟨f, hf, hs.1.symm.trans h1, s, hs.2.inPerformance h2, h3⟩
  | negativePerformance who =>
    obtain ⟨e, he, h1, s, x, h2, h3⟩ := hd
    obtain ⟨f, hf, hs⟩ := agent_moved h hc he
    exact ⟨f, hf, hs.1.symm.trans h1, s, x, hs.2.inPerformance h2, h3⟩
  | agentPerformanceMinMax who =>
    obtain ⟨e, he, h1, v, a, b, x, y, h2, h3, h4, h5⟩ := hd
    obtain ⟨f, hf, hs⟩ := agent_moved h hc he
    obtain ⟨w, hw, hr⟩ := hs.2.field h2
    exact ⟨f, hf, hs.1.symm.trans h1, w, a, b, x, y, hw, hr.scalarField h3, hr.scalarField h4, h5⟩
  | duplicateTaskDefinition id => exact two_tasks h hc (fun m n hr hf => hr.scalarField hf) hd
  | invalidDuration task text =>
    obtain ⟨q, hq, h1, h2, h3⟩ := hd
    obtain ⟨q', hq', hr⟩ := task_moved h hc hq
    exact ⟨q', hq', hr.scalarField h1, hr.inDuration h2, h3⟩
  | taskDurationMinMax task =>
    obtain ⟨q, hq, h1, lo, hi, h2, h3⟩ := hd
    obtain ⟨q', hq', hr⟩ := task_moved h hc hq
    exact ⟨q', hq', hr.scalarField h1, lo, hi, hr.duration h2, h3⟩
  | invalidTaskAssignment task =>
    obtain ⟨q, hq, h1, h2⟩ := hd
    obtain ⟨q', hq', hr⟩ := task_moved h hc hq
    have two : ∀ {k l : String}, (∃ v w, Field q.2 k v ∧ Field q.2 l w) → ∃ v w, Field q'.2 k v ∧ Field q'.2 l w := by
      rintro k l ⟨v, w, hv, hw⟩
      obtain ⟨v', hv', _⟩ := hr.field hv
      obtain ⟨w', hw', _⟩ := hr.field hw
      exact ⟨v', w', hv', hw'⟩
    exact ⟨q', hq', hr.scalarField h1, h2.imp two (Or.imp two two)⟩
  | noSuitableAgent g =>
    obtain ⟨⟨q, hq, h1⟩, h2⟩ := hd
    obtain ⟨q', hq', hr⟩ := task_moved h hc hq
    refine ⟨⟨q', hq', hr.taskGroup h1⟩, fun f hf => ?_⟩
    obtain ⟨e, he, hs⟩ := agent_moved h.symm hc' hf
    obtain ⟨h3, g', hg'⟩ := h2 e he
    exact ⟨fun hg => h3 (hs.agentGroup hg), g', (sameEntry_symm _ _ hs).agentGroup hg'⟩
  | agentNotFound name =>
    obtain ⟨⟨q, hq, h1⟩, h2⟩ := hd
    obtain ⟨q', hq', hr⟩ := task_moved h hc hq
    refine ⟨⟨q', hq', hr.scalarField h1⟩, fun f hf e => ?_⟩
    obtain ⟨w, he, hs⟩ := agent_moved h.symm hc' hf
    exact h2 w he (hs.1.symm.trans e)
  | taskNotFound id =>
    obtain ⟨⟨q, hq, h1⟩, h2⟩ := hd
    obtain ⟨q', hq', hr⟩ := task_moved h hc hq
    refine ⟨⟨q', hq', hr.dependsOnId h1⟩, fun r hr' hf => ?_⟩
    obtain ⟨w, he, hs⟩ := task_moved h.symm hc' hr'
    exact h2 w he (hs.scalarField hf)
  | dependencyCycle =>
    obtain ⟨i, hi⟩ := hd
    obtain ⟨g, hg⟩ := tasks_match h hc
    have lt : ∀ i d, DependsOn root i d → i < (tasks root).length ∧ d < (tasks root).length := by
      rintro i d ⟨_, _, h1, h2, _⟩
      exact ⟨(List.getElem?_eq_some_iff.1 h1).1, (List.getElem?_eq_some_iff.1 h2).1⟩
    refine ⟨g i, hi.lift g fun a b hab => ?_⟩
    obtain ⟨ha, hb⟩ := lt a b hab
    exact (hg.deps a ha b hb).2 hab
  | range =>
    rcases hd with hd | hd | ⟨gs, h1, h2, h3⟩
    · have := agents_length h hc
      exact Or.inl (by omega)
    · obtain ⟨g, hg⟩ := tasks_match h hc
      have := hg.length
      exact Or.inr (Or.inl (by omega))
    · exact Or.inr (Or.inr ⟨gs, h1, h2, fun g hg => mentioned_moved h hc (h3 g hg)⟩)
  | duration _ => exact hd
  | yaml => exact hd
  | narrowing => exact hd
  | system => exact hd
  | encoding => exact hd

theorem degenerate_moved (h : Reordered root root') (hc : IsConfiguration root) (hd : Degenerate root) : Degenerate root' := by
  rcases hd with ⟨e, he, h1⟩ | hm | ⟨q, hq, h1⟩ | ⟨q, hq, s, h1, h2⟩
  · obtain ⟨f, hf, hs⟩ := agent_moved h hc he
    exact Or.inl ⟨f, hf, hs.1 ▸ h1⟩
  · exact Or.inr (Or.inl (mentioned_moved h hc hm))
  · obtain ⟨q', hq', hr⟩ := task_moved h hc hq
    obtain ⟨l, hl, π, hπ, hrel⟩ := hr.seqField h1
    have : l = [] := by
      by_contra hne
      obtain ⟨i, hi⟩ := hπ.2 0
      have := hrel i
      rw [hi, List.getElem?_eq_getElem (List.length_pos_iff.2 hne), List.getElem?_nil] at this
      cases this
    exact Or.inr (Or.inr (Or.inl ⟨q', hq', this ▸ hl⟩))
  · obtain ⟨q', hq', hr⟩ := task_moved h hc hq
    exact Or.inr (Or.inr (Or.inr ⟨q', hq', s, hr.inDuration h1, h2⟩))

/-- C109, errors. A document in another order has the documented shape if the first has, and then it has the same defects. -/
theorem order_defects (h : Reordered root root') :
    (IsConfiguration root ↔ IsConfiguration root') ∧ (IsConfiguration root → ∀ e, Cause rf root e ↔ Cause rf root' e) :=
  ⟨⟨h.isConfiguration, h.symm.isConfiguration⟩, fun hc _ => ⟨cause_moved h hc, cause_moved h.symm (h.isConfiguration hc)⟩⟩

/-- C109, loading. A document in another order loads if and only if the first does. -/
theorem order_loads (h : Reordered root root') : (∃ p, load rf root = ok p) ↔ ∃ p, load rf root' = ok p := by
  by_cases hc : IsConfiguration root
  · have hc' := h.isConfiguration hc
    rw [load_iff, load_iff]
    exact and_congr (not_congr ⟨degenerate_moved h hc, degenerate_moved h.symm hc'⟩)
      (forall_congr' fun e => not_congr ((order_defects h).2 hc e))
  · obtain ⟨_, h1⟩ := schema_error_iff (rf := rf) |>.2 hc
    obtain ⟨_, h2⟩ := schema_error_iff (rf := rf) |>.2 fun hc' => hc (h.symm.isConfiguration hc')
    rw [h1, h2]
    simp

/-! ### Plans -/

/-- Two documents that differ in the order ease each other: one can be done like the other. -/
theorem order_eases (h : Reordered root root') (hc : IsConfiguration root) : ∃ f g, Eases rf root root' f g := by
  have hc' := h.isConfiguration hc
  obtain ⟨f, hf, _, hag⟩ := agents_index h hc
  obtain ⟨g, hg⟩ := tasks_match h.symm hc'
  refine ⟨f, g, fun i _ j _ e => hf.1 e, hg.inj, fun k q' hq' => ?_, fun k d hd => ?_⟩
  · obtain ⟨q, hq, hr⟩ := hg.task k q' hq'
    refine ⟨q, hq, fun i w hw hmay => ?_⟩
    obtain ⟨w', hw', hs⟩ := hag i w hw
    exact ⟨w', hw', hs.mayDo hr.symm hmay, fun x hx => ⟨x, le_rfl, hs.takes hr.symm hx⟩⟩
  · obtain ⟨_, _, h1, h2, _⟩ := id hd
    exact (hg.deps k (List.getElem?_eq_some_iff.1 h1).1 d (List.getElem?_eq_some_iff.1 h2).1).2 hd

/-- C109, plans. For every plan of a document there is one of the document in another order, with the same times: tasks and agents have other numbers. -/
theorem order_plans (h : Reordered root root') (hc : IsConfiguration root) :
    ∃ f g : Nat → Nat, Function.Bijective f ∧
      (∀ (i : Nat) w, (agents root)[i]? = some w → ∃ w', (agents root')[f i]? = some w' ∧ w'.1 = w.1) ∧
      (∀ (k : Nat) q', (tasks root')[k]? = some q' → ∃ q, (tasks root)[g k]? = some q ∧
        ∀ s, Field q.2 "name" (.scalar s) → Field q'.2 "name" (.scalar s)) ∧
      (∀ j < (tasks root).length, ∃ k < (tasks root').length, g k = j) ∧
      ∀ (agent : Nat → Nat) (start finish : Nat → K), Doc.Plan rf root agent start finish →
        Doc.Plan rf root' (f ∘ agent ∘ g) (start ∘ g) (finish ∘ g) := by
  have hc' := h.isConfiguration hc
  obtain ⟨f, hf, _, hag⟩ := agents_index h hc
  obtain ⟨g, hg⟩ := tasks_match h.symm hc'
  refine ⟨f, g, hf, fun i w hw => ?_, fun k q' hq' => ?_, hg.onto, fun agent start finish hp => ⟨fun k q' hq' => ?_, fun k d hd => ?_, ?_⟩⟩
  · obtain ⟨w', hw', hs⟩ := hag i w hw
    exact ⟨w', hw', hs.1.symm⟩
  · obtain ⟨q, hq, hr⟩ := hg.task k q' hq'
    exact ⟨q, hq, fun s => hr.symm.scalarField⟩
  · obtain ⟨q, hq, hr⟩ := hg.task k q' hq'
    obtain ⟨h0, w, x, hw, hmay, hx, hfin⟩ := hp.time _ q hq
    obtain ⟨w', hw', hs⟩ := hag _ w hw
    exact ⟨h0, w', x, hw', hs.mayDo hr.symm hmay, hs.takes hr.symm hx, hfin⟩
  · obtain ⟨_, _, h1, h2, _⟩ := id hd
    exact hp.deps _ _ ((hg.deps k (List.getElem?_eq_some_iff.1 h1).1 d (List.getElem?_eq_some_iff.1 h2).1).2 hd)
  · intro k hk l hl hkl ha
    have lt : ∀ k < (tasks root').length, g k < (tasks root).length := fun k hk => by
      obtain ⟨_, h1, _⟩ := hg.task k _ (List.getElem?_eq_getElem hk)
      exact (List.getElem?_eq_some_iff.1 h1).1
    exact hp.alone _ (lt k hk) _ (lt l hl) (fun e => hkl (hg.inj k hk l hl e)) (hf.1 ha)

theorem order_schedulable (h : Reordered root root') (hc : IsConfiguration root) {a b : ℚ} (hs : Schedulable rf root a b) :
    Schedulable rf root' a b := by
  have hc' := h.isConfiguration hc
  refine ⟨fun q hq => ?_, fun q hq lo hi hd => ?_, fun w hw x y hp => ?_, ?_, fun ds hds w hw slow y hp => ?_⟩
  · obtain ⟨q', hq', hr⟩ := task_moved h.symm hc' hq
    obtain ⟨w, hw, hm⟩ := hs.somebody q' hq'
    obtain ⟨w', hw', hs'⟩ := agent_moved h hc hw
    exact ⟨w', hw', hs'.mayDo hr.symm hm⟩
  · obtain ⟨q', hq', hr⟩ := task_moved h.symm hc' hq
    exact hs.durations q' hq' lo hi (hr.duration hd)
  · obtain ⟨w', hw', hs'⟩ := agent_moved h.symm hc' hw
    exact hs.finite w' hw' x y (hs'.2.performance hp)
  · obtain ⟨q, hq, hl⟩ := hs.longer
    obtain ⟨q', hq', hr⟩ := task_moved h hc hq
    refine ⟨q', hq', fun lo hi hd w hw x fast hp => ?_⟩
    obtain ⟨w', hw', hs'⟩ := agent_moved h.symm hc' hw
    exact hl lo hi (hr.symm.duration hd) w' hw' x fast (hs'.2.performance hp)
  · obtain ⟨w', hw', hs'⟩ := agent_moved h.symm hc' hw
    obtain ⟨g, hg⟩ := tasks_match h hc
    have hlt : ∀ i < (tasks root).length, g i < (tasks root').length := fun k hk => by
      obtain ⟨_, h1, _⟩ := hg.task k _ (List.getElem?_eq_getElem hk)
      exact (List.getElem?_eq_some_iff.1 h1).1
    have hlen := hds.length_eq
    have := hs.shorter ((List.range (tasks root).length).map fun i => ds.getD (g i) 0) ?_ w' hw' slow y (hs'.2.performance hp)
    · convert this using 2
      have hperm : ((List.range (tasks root).length).map g).Perm (List.range ds.length) := by
        refine List.perm_of_nodup_nodup_toFinset_eq ?_ List.nodup_range ?_
        · rw [List.nodup_map_iff_inj_on List.nodup_range]
          exact fun i hi j hj e => hg.inj i (List.mem_range.1 hi) j (List.mem_range.1 hj) e
        · ext j
          rw [List.mem_toFinset, List.mem_toFinset, List.mem_map, List.mem_range]
          constructor
          · rintro ⟨i, hi, rfl⟩
            rw [← hlen]
            exact hlt i (List.mem_range.1 hi)
          · intro hj
            obtain ⟨i, hi, e⟩ := hg.onto j (hlen ▸ hj)
            exact ⟨i, List.mem_range.2 hi, e⟩
      have := (hperm.map fun i => ds.getD i 0).sum_eq
      rw [List.map_map] at this
      rw [show (fun i => ds.getD (g i) 0) = (fun i => ds.getD i 0) ∘ g from rfl, this]
      congr 1
      refine List.ext_getElem (by simp) fun i h1 h2 => ?_
      simp [List.getD_eq_getElem?_getD, h1]
    · rw [List.forall₂_iff_get]
      refine ⟨by simp, fun i h1 h2 => ?_⟩
      obtain ⟨q', h3, hr⟩ := hg.task i _ (List.getElem?_eq_getElem h1)
      have hj : g i < ds.length := hlen ▸ hlt i h1
      obtain ⟨lo, hi, h4, h5⟩ := hds.get (hlt i h1) hj
      obtain ⟨_, h6⟩ := List.getElem?_eq_some_iff.1 h3
      refine ⟨lo, hi, hr.symm.duration ?_, ?_⟩
      · rw [← h6]
        simpa using h4
      · simpa [List.getD_eq_getElem?_getD, hj] using h5

/-! ### The command -/

section
variable [FloorRing K] {read : ReadReal} {isFile : String → Bool} {terminal : Bool} {a : Arguments} {o : Cli.Options K} {m : Machine K}

/-- The makespan in the file is the only one. -/
theorem writes_unique {file : String} {mk mk' : Int} (h : WritesMakespan E m o file mk) (h' : WritesMakespan E m o file mk') : mk = mk' := by
  obtain ⟨N, es, h1⟩ := h
  obtain ⟨N', es', h1'⟩ := h'
  obtain ⟨_, pre, post, _, e1⟩ := h1 (max N N') (le_max_left _ _)
  obtain ⟨_, pre', post', h2, e2⟩ := h1' (max N N') (le_max_right _ _)
  have hin : Effect.file file (.obj [("makespan", .int mk), ("tasks", .arr (es.map TaskEntry.object))])
      ∈ pre' ++ [Effect.file file (.obj [("makespan", .int mk'), ("tasks", .arr (es'.map TaskEntry.object))])] ++ post' := by
    rw [← e2, e1]
    simp
  rcases List.mem_append.1 hin with hin | hin
  · rcases List.mem_append.1 hin with hin | hin
    · exact absurd trivial (h2 _ (List.mem_append_left _ hin))
    · simp only [List.mem_singleton, Effect.file.injEq, Json.obj.injEq, List.cons.injEq, Prod.mk.injEq, Json.int.injEq] at hin
      exact hin.2.1.2
  · exact absurd trivial (h2 _ (List.mem_append_right _ hin))

/-- C109. The order of the document does not matter. The command `schedule` for exact arithmetic, under the conditions of C91, and a document in another order. There is a makespan that the program can write for either document, and with no random numbers does it write a smaller one for either of them. -/
theorem order_does_not_matter (hE : E.IsExact) (hsig : SignsAgree read) (hnof : isFile "" = false)
    (h : parse E read isFile terminal .schedule a = .accepted o)
    (hz : ∀ t, a.restartPeriod = some t → ¬ LeadingZero t)
    (hb : ∀ t q, a.betaScale = some t → read t = some (.fin q) → ModerateBeta E q)
    (hout : a.output ≠ some "") (hl : load m.readFloat root = ok p)
    (hs : Schedulable m.readFloat root 1 (2 ^ 31)) (hw : CanWrite m o) (ht : 0 < m.threads) (hidle : 8255 ≤ o.opt.maxIdleIters)
    (hr : Reordered root root') :
    ∃ mk : Int, ∀ r, r = root ∨ r = root' →
      (∃ draws, WritesMakespan E { m with source := .doc r, draws := draws } o (a.output.getD "schedule.json") mk) ∧
      ∀ draws n, WritesMakespan E { m with source := .doc r, draws := draws } o (a.output.getD "schedule.json") n → mk ≤ n := by
  have hc : IsConfiguration root := by
    by_contra hc
    obtain ⟨_, e⟩ := schema_error_iff (rf := m.readFloat) |>.2 hc
    rw [hl] at e
    cases e
  have hc' := hr.isConfiguration hc
  obtain ⟨p', hl'⟩ := (order_loads hr).1 ⟨p, hl⟩
  have hs' := order_schedulable hr hc hs
  have key : ∀ {r r' : Yaml} {q q' : Project}, Reordered r r' → IsConfiguration r → load m.readFloat r = ok q → load m.readFloat r' = ok q' →
      Schedulable m.readFloat r 1 (2 ^ 31) → Schedulable m.readFloat r' 1 (2 ^ 31) →
      ∀ draws n, WritesMakespan E { m with source := .doc r, draws := draws } o (a.output.getD "schedule.json") n →
        ∃ (draws' : Nat → Nat → Nat → Draws K) (n' : Int), n' ≤ n ∧
          WritesMakespan E { m with source := .doc r', draws := draws' } o (a.output.getD "schedule.json") n' := by
    intro r r' q q' hrr hcr hlr hlr' hsr hsr' draws n hn
    obtain ⟨f, g, he⟩ := order_eases (rf := m.readFloat) hrr hcr
    obtain ⟨mk, h1, draws', mk', h2, h3⟩ := more_help_never_hurts (m := { m with source := .doc r, draws := draws }) hE hsig hnof h hz hb hout rfl
      hlr hsr hw ht hidle hlr' hsr' he
    exact ⟨draws', mk', writes_unique h1 hn ▸ h2, h3⟩
  have best : ∀ {r : Yaml} {q : Project}, IsConfiguration r → load m.readFloat r = ok q → Schedulable m.readFloat r 1 (2 ^ 31) →
      ∃ draws mk, WritesMakespan E { m with source := .doc r, draws := draws } o (a.output.getD "schedule.json") mk ∧
        ∀ draws n, WritesMakespan E { m with source := .doc r, draws := draws } o (a.output.getD "schedule.json") n → mk ≤ n := by
    intro r q hcr hlr hsr
    obtain ⟨draws, _, N', mk', _, es', V', _, _, _, g1, _, g2, g3⟩ :=
      document_best_schedule (m := { m with source := .doc r }) hE hsig hnof h hz hb hout rfl hlr hsr hw ht hidle
    refine ⟨draws, mk', ⟨N', es', g3⟩, fun draws' n hn => ?_⟩
    obtain ⟨N, mk, es, V, h1, ⟨agent, start, finish, hplan, hV⟩, _, _, _, h2⟩ :=
      document_makespan_bounds (m := { m with source := .doc r, draws := draws' }) hE hsig hnof h hz hb hout rfl hlr hsr hw ht
    have e := writes_unique (m := { m with source := .doc r, draws := draws' }) ⟨N, es, h2⟩ hn
    subst e
    have hVV := g2 agent start finish V hplan hV
    have : (mk' : K) < (mk + 1 : Int) := by
      push_cast
      exact g1.1.trans_lt (hVV.trans_lt h1.2)
    have : mk' < mk + 1 := by exact_mod_cast this
    omega
  obtain ⟨draws, mk, h1, h2⟩ := best hc hl hs
  obtain ⟨draws', mk', h1', h2'⟩ := best hc' hl' hs'
  obtain ⟨_, n, hn, hn'⟩ := key hr hc hl hl' hs hs' draws mk h1
  obtain ⟨_, n', hm, hm'⟩ := key hr.symm hc' hl' hl hs' hs draws' mk' h1'
  have e : mk = mk' := le_antisymm ((h2 _ _ hm').trans hm) ((h2' _ _ hn').trans hn)
  subst e
  refine ⟨mk, ?_⟩
  rintro r (rfl | rfl)
  · exact ⟨⟨draws, h1⟩, h2⟩
  · exact ⟨⟨draws', h1'⟩, h2'⟩

end

/-! ### Examples -/

namespace Sample
open Angonoka.Props.Sample

/-- `plan` in another order: the tasks before the agents, Jack before Bob, the paint before the building, the roof before the walls; Bob's performance before Bob's
groups, of which B comes first. -/
def shuffled : Yaml := obj [
  ("tasks", .seq [
    obj [("name", str "paint"), ("duration", str "45s"), ("depends_on", .seq [str "b"])],
    obj [("name", str "build"), ("id", str "b"), ("duration", str "2h"), ("group", str "B"),
      ("subtasks", .seq [
        obj [("name", str "roof"), ("duration", obj [("min", str "10 minutes"), ("max", str "1h")]),
          ("groups", .seq [str "B", str "C"])],
        obj [("name", str "walls"), ("duration", str "1h and 30m"), ("agent", str "Jack")]])]]),
  ("agents", obj [
    ("Jack", .null),
    ("Bob", obj [("performance", obj [("min", str "0.5"), ("max", str "2")]), ("groups", .seq [str "B", str "A"])])])]

theorem shuffled_reordered : Reordered plan shuffled := by
  unfold Reordered plan shuffled obj
  simp only [List.map_cons, List.map_nil]
  refine .head (.entries [] _ _ []) ?_
  refine .head (.inEntry [] _ _ (.elements [] _ _ [])) ?_
  refine .head (.inEntry [] _ _ (.inElement [_] [] (.inEntry [_, _, _, _] _ [] (.elements [] _ _ [])))) ?_
  refine .head (.inEntry [_] _ [] (.entries [] _ _ [])) ?_
  refine .head (.inEntry [_] _ [] (.inEntry [_] _ [] (.entries [] _ _ []))) ?_
  refine .head (.inEntry [_] _ [] (.inEntry [_] _ [] (.inEntry [_] _ [] (.elements [] _ _ [])))) ?_
  exact .refl

end Sample

/-- C109 for the example: the program can write the same for `plan` and for `shuffled`, and writes nothing better for either. -/
example : ∃ o mk, parse FloatEnv.rat exampleRead (fun f => f == "plan.yml") true .schedule { input := "plan.yml" } = .accepted o ∧
    ∀ r, r = Sample.plan ∨ r = Sample.shuffled →
      (∃ draws, WritesMakespan FloatEnv.rat { exampleMachine draws with source := .doc r } o "schedule.json" mk) ∧
      ∀ draws n, WritesMakespan FloatEnv.rat { exampleMachine draws with source := .doc r } o "schedule.json" n → mk ≤ n := by
  obtain ⟨o, hpar, hidle⟩ := plan_accepted
  obtain ⟨mk, h⟩ := order_does_not_matter (m := exampleMachine fun _ _ _ => ⟨0, 0, 0, 0⟩) (fun _ => rfl) exampleRead_signs (by decide)
    hpar (by simp) (by simp) (by simp) Sample.plan_loads
    (sound_schedulable Sample.plan_loads plan_sound plan_moderate) example_canWrite (by exact (by decide : 0 < 4)) (by rw [hidle]; decide)
    Sample.shuffled_reordered
  exact ⟨o, mk, hpar, h⟩

end Angonoka.Props
