import Verif.Props.Teams

/-!
# C118: One agent, or enough of them
-/

namespace Angonoka.Props
open Angonoka Outcome Stun Doc Cli CommandLine

variable {K : Type} [_root_.Field K] [LinearOrder K] [IsStrictOrderedRing K] [FloorRing K]
  {E : FloatEnv K} {p : Project} {root : Yaml} {rf : String → Option XFloat}

/-- How long an agent takes for a task is unambiguous. -/
theorem takes_one (hl : load rf root = ok p) {k : Nat} {q : List Nat × Yaml} {w : Yaml × Yaml} {x y : ℚ} (hq : (tasks root)[k]? = some q)
    (hw : w ∈ agents root) (hx : Takes rf w q.2 x) (hy : Takes rf w q.2 y) : x = y := by
  obtain ⟨lo, hi, slow, fast, hd, hp, rfl⟩ := hx
  obtain ⟨lo', hi', slow', fast', hd', hp', rfl⟩ := hy
  have hld := (load_faithful hl).2
  obtain ⟨hdv, hpv⟩ := document_values hl
  obtain ⟨i, hi₀⟩ := List.mem_iff_getElem?.1 hw
  have hlt : i < p.agents.length := hld.agents_length ▸ (List.getElem?_eq_some_iff.1 hi₀).1
  have htk := List.getElem?_eq_getElem (hld.tasks_length ▸ (List.getElem?_eq_some_iff.1 hq).1 : k < p.tasks.length)
  have t1 := hdv k _ _ lo hi hq htk hd
  have t2 := hdv k _ _ lo' hi' hq htk hd'
  have t3 := hpv i w _ _ _ hi₀ (List.getElem?_eq_getElem hlt) hp
  have t4 := hpv i w _ _ _ hi₀ (List.getElem?_eq_getElem hlt) hp'
  have e1 : (lo : Int) = lo' := t1.1.symm.trans t2.1
  have e2 : (hi : Int) = hi' := t1.2.symm.trans t2.2
  have e3 : XFloat.fin slow = XFloat.fin slow' := t3.1.symm.trans t4.1
  have e4 : XFloat.fin fast = XFloat.fin fast' := t3.2.symm.trans t4.2
  cases e3
  cases e4
  obtain rfl : lo = lo' := by exact_mod_cast e1
  obtain rfl : hi = hi' := by exact_mod_cast e2
  rfl

/-- For every task there is a longest chain that ends with it. -/
theorem longest_chain (hl : load rf root = ok p) (x : Nat → ℚ) {k : Nat} (hk : k < (tasks root).length) :
    ∃ c : List Nat, IsTaskChain root (c ++ [k]) ∧ ∀ c', IsTaskChain root (c' ++ [k]) → ((c' ++ [k]).map x).sum ≤ ((c ++ [k]).map x).sum := by
  classical
  have hacyc := (load_faithful hl).2.acyclic
  have wf : WellFounded fun d k : Fin (tasks root).length => Relation.TransGen (DependsOn root) k.1 d.1 := by
    have : IsTrans _ fun d k : Fin (tasks root).length => Relation.TransGen (DependsOn root) k.1 d.1 := ⟨fun _ _ _ h1 h2 => h2.trans h1⟩
    have : Std.Irrefl fun d k : Fin (tasks root).length => Relation.TransGen (DependsOn root) k.1 d.1 := ⟨fun a => hacyc _⟩
    exact Finite.wellFounded_of_trans_of_irrefl _
  have key : ∀ k : Fin (tasks root).length,
      ∃ c : List Nat, IsTaskChain root (c ++ [k.1]) ∧ ∀ c', IsTaskChain root (c' ++ [k.1]) → ((c' ++ [k.1]).map x).sum ≤ ((c ++ [k.1]).map x).sum := by
    intro k
    induction k using wf.induction with
    | _ k ih =>
      -- the best chains that end with a dependency
      have hex : ∀ d : Fin (tasks root).length, ∃ c : List Nat, DependsOn root k.1 d.1 → IsTaskChain root (c ++ [d.1]) ∧
          ∀ c', IsTaskChain root (c' ++ [d.1]) → ((c' ++ [d.1]).map x).sum ≤ ((c ++ [d.1]).map x).sum := by
        intro d
        by_cases hd : DependsOn root k.1 d.1
        · obtain ⟨c, hc⟩ := ih d (.single hd)
          exact ⟨c, fun _ => hc⟩
        · exact ⟨[], fun h => absurd h hd⟩
      choose best hbest using hex
      let cands : Finset (List Nat) := insert [] ((Finset.univ.filter fun d : Fin (tasks root).length => DependsOn root k.1 d.1).image fun d => best d ++ [d.1])
      obtain ⟨c, hc, hmax⟩ := Finset.exists_max_image cands (fun c => ((c ++ [k.1]).map x).sum) ⟨[], Finset.mem_insert_self _ _⟩
      refine ⟨c, ?_, fun c' hc' => ?_⟩
      · rcases Finset.mem_insert.1 hc with rfl | hc
        · exact ⟨by simp, by simp⟩
        · obtain ⟨d, hd, rfl⟩ := Finset.mem_image.1 hc
          have hd := (Finset.mem_filter.1 hd).2
          obtain ⟨⟨b1, b2⟩, -⟩ := hbest d hd
          refine ⟨?_, ?_⟩
          · intro j hj
            rcases List.mem_append.1 hj with hj | hj
            · exact b1 j hj
            · simp only [List.mem_singleton] at hj
              exact hj ▸ k.2
          · refine List.isChain_append.2 ⟨b2, by simp, ?_⟩
            simpa using hd
      · rcases List.eq_nil_or_concat c' with rfl | ⟨c'', d, rfl⟩
        · exact hmax [] (Finset.mem_insert_self _ _)
        · simp only [List.concat_eq_append] at hc' ⊢
          obtain ⟨h1, h2⟩ := hc'
          obtain ⟨h3, -, h4⟩ := List.isChain_append.1 h2
          have hd : DependsOn root k.1 d := by simpa using h4
          have hdn : d < (tasks root).length := h1 d (by simp)
          have hc'' : IsTaskChain root (c'' ++ [d]) := ⟨fun j hj => h1 j (List.mem_append_left _ hj), h3⟩
          have h5 := (hbest ⟨d, hdn⟩ hd).2 _ hc''
          have h6 := hmax (best ⟨d, hdn⟩ ++ [d]) (Finset.mem_insert_of_mem (Finset.mem_image.2 ⟨⟨d, hdn⟩, by simpa using hd, rfl⟩))
          refine le_trans ?_ h6
          rw [List.map_append, List.sum_append, List.map_append (l₁ := best ⟨d, hdn⟩ ++ [d]), List.sum_append]
          exact add_le_add_left h5 _
  exact key ⟨k, hk⟩

/-- With an agent of its own for each task, one that may do it and needs `x k` seconds for it, there is a plan that takes as long as its longest chain. -/
theorem own_agents_plan (hl : load rf root = ok p) {own : Nat → Nat} {x : Nat → ℚ}
    (hinj : ∀ k < (tasks root).length, ∀ l < (tasks root).length, own k = own l → k = l)
    (hown : ∀ (k : Nat) q, (tasks root)[k]? = some q → ∃ w, (agents root)[own k]? = some w ∧ MayDo w q.2 ∧ Takes rf w q.2 (x k)) :
    ∃ (start finish : Nat → K) (chain : List Nat), Doc.Plan rf root own start finish ∧ IsTaskChain root chain ∧
      ∀ k < (tasks root).length, finish k ≤ (((chain.map x).sum : ℚ) : K) := by
  classical
  have hex : ∀ k, ∃ c : List Nat, k < (tasks root).length → IsTaskChain root (c ++ [k]) ∧
      ∀ c', IsTaskChain root (c' ++ [k]) → ((c' ++ [k]).map x).sum ≤ ((c ++ [k]).map x).sum := by
    intro k
    by_cases hk : k < (tasks root).length
    · obtain ⟨c, hc⟩ := longest_chain hl x hk
      exact ⟨c, fun _ => hc⟩
    · exact ⟨[], fun h => absurd h hk⟩
  choose c hc using hex
  have hne : (Finset.range (tasks root).length).Nonempty := by
    have h1 := (load_faithful hl).2.tasks_length
    have h2 := (load_faithful hl).2.tasks_ne
    rw [Finset.nonempty_range_iff, ← h1]
    exact fun h => h2 (List.length_eq_zero_iff.1 h)
  obtain ⟨t, ht, hmax⟩ := Finset.exists_max_image _ (fun k => ((c k ++ [k]).map x).sum) hne
  refine ⟨fun k => (((c k).map x).sum : ℚ), fun k => (((c k ++ [k]).map x).sum : ℚ), c t ++ [t], ⟨?_, ?_, ?_⟩, (hc t (Finset.mem_range.1 ht)).1, ?_⟩
  · intro k q hq
    have hk := (List.getElem?_eq_some_iff.1 hq).1
    obtain ⟨w, hw, hm, hx⟩ := hown k q hq
    refine ⟨?_, w, x k, hw, hm, hx, ?_⟩
    · have h1 := (hc k hk).2 [] ⟨by simpa using hk, by simp⟩
      simp only [List.nil_append, List.map_append, List.sum_append, List.map_cons, List.map_nil, List.sum_cons, List.sum_nil, add_zero] at h1
      have : (0 : ℚ) ≤ ((c k).map x).sum := by linarith
      exact_mod_cast this
    · simp
  · intro k d hd
    obtain ⟨qk, qd, hk, hd', -⟩ := id hd
    have hk := (List.getElem?_eq_some_iff.1 hk).1
    have hd' := (List.getElem?_eq_some_iff.1 hd').1
    obtain ⟨⟨c1, c2⟩, -⟩ := hc d hd'
    have h1 := (hc k hk).2 (c d ++ [d]) ⟨by
      intro j hj
      rcases List.mem_append.1 hj with hj | hj
      · exact c1 j hj
      · simp only [List.mem_singleton] at hj
        exact hj ▸ hk, List.isChain_append.2 ⟨c2, by simp, by simpa using hd⟩⟩
    rw [List.map_append, List.sum_append, List.map_append (l₁ := c k), List.sum_append] at h1
    have : ((c d ++ [d]).map x).sum ≤ ((c k).map x).sum := le_of_add_le_add_right h1
    exact_mod_cast this
  · intro k hk l hl' hne e
    exact absurd (hinj k hk l hl' e) hne
  · intro k hk
    exact Rat.cast_le.2 (hmax k (Finset.mem_range.2 hk))

variable {m : Machine K} {o : Cli.Options K} {read : ReadReal} {isFile : String → Bool} {terminal : Bool} {a : Arguments}

/-- C118, enough agents. The command `schedule` for exact arithmetic, under the conditions of C91. If there is an agent of its own for every task, and nobody
who may do the task is faster, then the least makespan that the program can write is the length of the critical path: of a longest chain of tasks, each of which depends
on the one before it. -/
theorem enough_agents (hE : E.IsExact) (hsig : SignsAgree read) (hnof : isFile "" = false)
    (h : parse E read isFile terminal .schedule a = .accepted o)
    (hz : ∀ t, a.restartPeriod = some t → ¬ LeadingZero t)
    (hb : ∀ t q, a.betaScale = some t → read t = some (.fin q) → ModerateBeta E q)
    (hout : a.output ≠ some "") (hl : load m.readFloat root = ok p)
    (hs : Schedulable m.readFloat root 1 (2 ^ 31)) (hw : CanWrite m o) (ht : 0 < m.threads) (hidle : 8255 ≤ o.opt.maxIdleIters)
    {own : Nat → Nat} {x : Nat → ℚ}
    (hinj : ∀ k < (tasks root).length, ∀ l < (tasks root).length, own k = own l → k = l)
    (hown : ∀ (k : Nat) q, (tasks root)[k]? = some q → ∃ w, (agents root)[own k]? = some w ∧ MayDo w q.2 ∧ Takes m.readFloat w q.2 (x k))
    (hfast : ∀ (k : Nat) q w y, (tasks root)[k]? = some q → w ∈ agents root → MayDo w q.2 → Takes m.readFloat w q.2 y → x k ≤ y) :
    ∃ (chain : List Nat) (mk : Int), IsTaskChain root chain ∧ (∀ chain', IsTaskChain root chain' → (chain'.map x).sum ≤ (chain.map x).sum) ∧
      IsWholePart mk (((chain.map x).sum : ℚ) : K) ∧
      (∃ draws, WritesMakespan E { m with source := .doc root, draws := draws } o (a.output.getD "schedule.json") mk) ∧
      ∀ draws n, WritesMakespan E { m with source := .doc root, draws := draws } o (a.output.getD "schedule.json") n → mk ≤ n := by
  obtain ⟨mk, V, a1, ⟨agent, start, finish, a2, a3⟩, a4, a5, a6⟩ := least_written hE hsig hnof h hz hb hout hl hs hw ht hidle
  obtain ⟨start', finish', chain, b1, b2, b3⟩ := own_agents_plan (K := K) hl hinj hown
  have h0 : 0 ≤ V := by
    have h1 := (load_faithful hl).2.tasks_length
    have h2 := (load_faithful hl).2.tasks_ne
    have hn : 0 < (tasks root).length := by
      rw [← h1]
      exact List.length_pos_iff.2 h2
    obtain ⟨c0, w, y, hw', -, hy, e⟩ := a2.time 0 _ (List.getElem?_eq_getElem hn)
    have hy0 : (0 : K) ≤ (y : K) := by exact_mod_cast takes_nonneg hl (List.mem_of_getElem? hw') hy
    have := a3 0 hn
    rw [e] at this
    linarith
  have hle : ∀ chain', IsTaskChain root chain' → (((chain'.map x).sum : ℚ) : K) ≤ V := fun chain' hc =>
    plan_chain a2 a3 h0 hc.1 hc.2 fun k _ q w y hq hw' hm hy => hfast k q w y hq hw' hm hy
  have hV : V = (((chain.map x).sum : ℚ) : K) := le_antisymm (a4 _ _ _ _ b1 b3) (hle chain b2)
  refine ⟨chain, mk, b2, fun chain' hc => ?_, hV ▸ a1, a5, a6⟩
  have := hle chain' hc
  rw [hV] at this
  exact_mod_cast this

/-- With one agent, the two bounds of C95 are equal. -/
theorem one_agent_end {rf : String → Option XFloat} (hl : load rf root = ok p) {w : Yaml × Yaml} (hone : agents root = [w]) {slow fast : ℚ}
    (hperf : Performance rf w.2 (.fin slow) (.fin fast)) {ds : List Nat} (hds : List.Forall₂ IsMean (tasks root) ds) {V : K}
    (hwork : ∀ (ds : List Nat) (ps : List ℚ), List.Forall₂ IsMean (tasks root) ds →
      List.Forall₂ (fun w v => ∃ slow fast : ℚ, Performance rf w.2 (.fin slow) (.fin fast) ∧ v = (slow + fast) / 2) (agents root) ps →
      (ds.sum : K) ≤ V * ((ps.sum : ℚ) : K))
    (hall : ∀ xs : List ℚ, List.Forall₂ (fun q v => ∀ w x, w ∈ agents root → MayDo w q.2 → Takes rf w q.2 x → x ≤ v) (tasks root) xs →
      V ≤ ((xs.sum : ℚ) : K)) : V = (ds.sum : K) / (((slow + fast) / 2 : ℚ) : K) := by
  have hpos : 0 < (slow + fast) / 2 := by
    have hld := (load_faithful hl).2
    have hi : (agents root)[0]? = some w := by rw [hone]; rfl
    have hlt : 0 < p.agents.length := by rw [hld.agents_length, hone]; simp
    have ha : p.agents[0]? = some p.agents[0] := List.getElem?_eq_getElem hlt
    obtain ⟨e1, e2⟩ := (document_values hl).2 0 w _ _ _ hi ha hperf
    obtain ⟨p1, p2⟩ := (hld.agents_loaded 0 w _ hi ha).positive
    rw [e1] at p1
    rw [e2] at p2
    have h1 : 0 < slow := by simpa [XFloat.le] using p1
    have h2 : 0 < fast := by simpa [XFloat.le] using p2
    positivity
  have hpos' : (0 : K) < (((slow + fast) / 2 : ℚ) : K) := by exact_mod_cast hpos
  have c1 := hwork ds [(slow + fast) / 2] hds (by rw [hone]; exact .cons ⟨slow, fast, hperf, rfl⟩ .nil)
  have c2 := hall (ds.map fun d : Nat => (d : ℚ) / ((slow + fast) / 2)) (by
    rw [List.forall₂_map_right_iff, List.forall₂_iff_get]
    refine ⟨hds.length_eq, fun i hi hi' w' x hw' _ hx => ?_⟩
    rw [hone, List.mem_singleton] at hw'
    subst hw'
    obtain ⟨lo, hi₂, hd₂, e⟩ := hds.get hi hi'
    refine (takes_one hl (List.getElem?_eq_getElem hi) (by rw [hone]; exact List.mem_singleton_self _) hx ⟨lo, hi₂, slow, fast, hd₂, hperf, rfl⟩).trans ?_ |>.le
    simp only [List.get_eq_getElem] at e ⊢
    rw [e])
  refine le_antisymm ?_ ?_
  · refine c2.trans (le_of_eq ?_)
    have hsum : ∀ (l : List Nat) (c : ℚ), (l.map fun d : Nat => (d : ℚ) / c).sum = (l.sum : ℚ) / c := by
      intro l c
      induction l with
      | nil => simp
      | cons d l ih => simp [ih, add_div]
    rw [hsum, Rat.cast_div, Rat.cast_natCast]
  · rw [div_le_iff₀ hpos']
    simpa using c1

/-- C118, one agent. The command `schedule` for exact arithmetic, under the conditions of C74. If there is only one agent, then whatever the random numbers are,
the makespan is the sum of all durations, divided by the agent's performance and rounded down. -/
theorem one_agent (hE : E.IsExact) (hsig : SignsAgree read) (hnof : isFile "" = false)
    (h : parse E read isFile terminal .schedule a = .accepted o)
    (hz : ∀ t, a.restartPeriod = some t → ¬ LeadingZero t)
    (hb : ∀ t q, a.betaScale = some t → read t = some (.fin q) → ModerateBeta E q)
    (hout : a.output ≠ some "") (hd : m.source = .doc root) (hl : load m.readFloat root = ok p)
    (hs : Schedulable m.readFloat root 1 (2 ^ 31)) (hw : CanWrite m o) (ht : 0 < m.threads)
    {w : Yaml × Yaml} (hone : agents root = [w]) {slow fast : ℚ} (hperf : Performance m.readFloat w.2 (.fin slow) (.fin fast))
    {ds : List Nat} (hds : List.Forall₂ IsMean (tasks root) ds) :
    ∃ mk : Int, IsWholePart mk ((ds.sum : K) / (((slow + fast) / 2 : ℚ) : K)) ∧ WritesMakespan E m o (a.output.getD "schedule.json") mk := by
  obtain ⟨N, mk, es, V, h1, ⟨agent, start, finish, hplan, hV⟩, _, hwork, hall, h2⟩ :=
    document_makespan_bounds hE hsig hnof h hz hb hout hd hl hs hw ht
  have e := one_agent_end hl hone hperf hds hwork hall
  exact ⟨mk, e ▸ h1, N, es, h2⟩

/-! ### Examples -/

namespace Crew
open Sample

theorem mean {q : List Nat × Yaml} (s : String) {d : Nat} (h1 : Doc.Field q.2 "duration" (.scalar s)) (h2 : parseDuration s = ok d) : IsMean q d :=
  ⟨d, d, .inl ⟨s, h1, ((duration_language_partial s).1 d).1 h2, rfl⟩, by omega⟩

theorem takes {w : Yaml × Yaml} {n : Yaml} (s : String) {d : Nat} {x : ℚ} (h0 : ¬ ∃ v, Doc.Field w.2 "performance" v) (h1 : Doc.Field n "duration" (.scalar s))
    (h2 : parseDuration s = ok d) (h3 : x = d) : Takes number w n x :=
  ⟨d, d, 1, 1, .inl ⟨s, h1, ((duration_language_partial s).1 d).1 h2, rfl⟩, .inl ⟨h0, rfl, rfl⟩, by
    have : (d + d) / 2 = d := by omega
    rw [this, h3]
    norm_num⟩

/-- C118 for Ann, who works alone: three hours, whatever the random numbers are -/
example : ∃ o : Cli.Options ℚ, ∀ draws, WritesMakespan FloatEnv.rat { exampleMachine draws with source := .doc wood } o "schedule.json" 10800 := by
  obtain ⟨o, hpar, hidle⟩ := plan_accepted
  refine ⟨o, fun draws => ?_⟩
  obtain ⟨mk, h1, h2⟩ := one_agent (m := { exampleMachine draws with source := .doc wood }) (root := wood) (w := ann) (slow := 1) (fast := 1)
    (ds := [7200, 3600])
    (fun _ => rfl) exampleRead_signs (by decide) hpar (by simp) (by simp) (by simp) rfl wood_loads
    (sound_schedulable wood_loads wood_fine.1 wood_fine.2)
    (example_canWrite (draws := draws)) (by exact (by decide : 0 < 4)) rfl
    (.inl ⟨by simp [Doc.Field, ann, Sample.obj, Sample.str], rfl, rfl⟩) (by
      rw [wood_tasks]
      refine .cons (mean "2h" ?_ ?_) (.cons (mean "1h" ?_ ?_) .nil)
      · simp [Doc.Field, frame, Sample.obj, Sample.str]
      · decide +kernel
      · simp [Doc.Field, roof, Sample.obj, Sample.str]
      · decide +kernel)
  have e := Int.floor_eq_iff.2 h1
  norm_num at e
  rw [e]
  exact h2

def cook : Yaml := obj [("name", str "cook"), ("id", str "c"), ("duration", str "1h")]
def eat : Yaml := obj [("name", str "eat"), ("duration", str "2h"), ("depends_on", str "c")]
def sing : Yaml := obj [("name", str "sing"), ("duration", str "90m")]

/-- As many equal agents as tasks -/
def party : Yaml := obj [("agents", .map [(str "Ann", .null), (str "Bob", .null), (str "Eve", .null)]), ("tasks", .seq [cook, eat, sing])]

def partyProject : Project where
  agents := [{ name := "Ann", id := 0 }, { name := "Bob", id := 1 }, { name := "Eve", id := 2 }]
  groups := []
  tasks := [{ name := "cook", id := "c", durMin := 3600, durMax := 3600 }, { name := "eat", durMin := 7200, durMax := 7200, dependencies := [0] },
    { name := "sing", durMin := 5400, durMax := 5400 }]

theorem party_loads : load number party = ok partyProject := by
  rw [Load.load_eval 20 _ _ (by decide)]
  decide +kernel

theorem party_tasks : tasks party = [([0], cook), ([1], eat), ([2], sing)] := by
  simp [party, cook, eat, sing, tasks, Sample.obj, Sample.str, Yaml.get, Yaml.lookup, listAt, tasksAt]

theorem party_fine : partyProject.Sound ∧ partyProject.Moderate := by
  refine ⟨loaded_sound party_loads (by simp [partyProject]) ?_ ?_, ⟨⟨_, List.mem_cons_self, ?_⟩, ?_⟩⟩
  · intro a ha
    simp only [partyProject, List.mem_cons, List.not_mem_nil, or_false] at ha
    rcases ha with rfl | rfl | rfl <;> exact ⟨_, _, rfl, rfl⟩
  · intro t ht
    simp only [partyProject, List.mem_cons, List.not_mem_nil, or_false] at ht
    rcases ht with rfl | rfl | rfl <;> simp [partyProject, Eligible]
  all_goals
    intro a ha q hq
    simp only [partyProject, List.mem_cons, List.not_mem_nil, or_false] at ha
    rcases ha with rfl | rfl | rfl <;> (cases hq; simp [partyProject, Task.meanDuration]; try norm_num)

/-- How long the tasks of the party take -/
def partyTime (k : Nat) : ℚ := if k = 0 then 3600 else if k = 1 then 7200 else 5400

theorem party_takes : ∀ (k : Nat) q, (tasks party)[k]? = some q → ∀ w ∈ agents party, MayDo w q.2 ∧ ∀ y, Takes number w q.2 y ↔ y = partyTime k := by
  have hag : ∀ w ∈ agents party, w.2 = .null := by
    intro w hw
    have hw : w ∈ [(str "Ann", Yaml.null), (str "Bob", Yaml.null), (str "Eve", Yaml.null)] := hw
    simp only [List.mem_cons, List.not_mem_nil, or_false] at hw
    rcases hw with rfl | rfl | rfl <;> rfl
  have hno : ∀ w ∈ agents party, ¬ ∃ v, Doc.Field w.2 "performance" v := by
    intro w hw
    rw [hag w hw]
    simp [Doc.Field]
  intro k q hq w hw
  have hmay : ∀ n : Yaml, (¬ ∃ v, Doc.Field n "agent" v) → MayDo w n := by
    intro n hn
    refine .inr ⟨hn, .inl fun g hg => ?_⟩
    simp [AgentGroup, hag w hw, Doc.Field] at hg
  have hk : ∀ {s : String} {d : Nat}, Doc.Field q.2 "duration" (.scalar s) → parseDuration s = ok d → partyTime k = d →
      ∀ y, Takes number w q.2 y ↔ y = partyTime k := by
    intro s d h1 h2 h3 y
    have ht : Takes number w q.2 (partyTime k) := takes s (hno w hw) h1 h2 h3
    exact ⟨fun hy => takes_one party_loads hq hw hy ht, fun e => e ▸ ht⟩
  have hq' := hq
  rw [party_tasks] at hq'
  match k, hq' with
  | 0, hq' =>
    cases hq'
    exact ⟨hmay _ (by simp [Doc.Field, cook, Sample.obj, Sample.str]),
      hk (s := "1h") (by simp [Doc.Field, cook, Sample.obj, Sample.str]) (d := 3600) (by decide +kernel) (by norm_num [partyTime])⟩
  | 1, hq' =>
    cases hq'
    exact ⟨hmay _ (by simp [Doc.Field, eat, Sample.obj, Sample.str]),
      hk (s := "2h") (by simp [Doc.Field, eat, Sample.obj, Sample.str]) (d := 7200) (by decide +kernel) (by norm_num [partyTime])⟩
  | 2, hq' =>
    cases hq'
    exact ⟨hmay _ (by simp [Doc.Field, sing, Sample.obj, Sample.str]),
      hk (s := "90m") (by simp [Doc.Field, sing, Sample.obj, Sample.str]) (d := 5400) (by decide +kernel) (by norm_num [partyTime])⟩

/-- C118 for the party: all the conditions are met. -/
example : ∃ (o : Cli.Options ℚ) (chain : List Nat) (mk : Int), IsTaskChain party chain ∧
    (∀ chain', IsTaskChain party chain' → (chain'.map partyTime).sum ≤ (chain.map partyTime).sum) ∧
    IsWholePart mk (((chain.map partyTime).sum : ℚ) : ℚ) ∧
    (∃ draws, WritesMakespan FloatEnv.rat { exampleMachine draws with source := .doc party } o "schedule.json" mk) ∧
    ∀ draws n, WritesMakespan FloatEnv.rat { exampleMachine draws with source := .doc party } o "schedule.json" n → mk ≤ n := by
  obtain ⟨o, hpar, hidle⟩ := plan_accepted
  have hlen : (tasks party).length = 3 := by rw [party_tasks]; rfl
  obtain ⟨chain, mk, h⟩ := enough_agents (m := exampleMachine (fun _ _ _ => ⟨0, 0, 0, 0⟩)) (root := party) (own := id) (x := partyTime)
    (fun _ => rfl) exampleRead_signs (by decide) hpar (by simp) (by simp) (by simp) party_loads
    (sound_schedulable party_loads party_fine.1 party_fine.2)
    (example_canWrite (draws := fun _ _ _ => ⟨0, 0, 0, 0⟩)) (by exact (by decide : 0 < 4)) (by rw [hidle]; decide)
    (fun _ _ _ _ e => e)
    (fun k q hq => by
      have hk : k < (agents party).length := by
        have := (List.getElem?_eq_some_iff.1 hq).1
        rw [hlen] at this
        exact this
      obtain ⟨h1, h2⟩ := party_takes k q hq _ (List.getElem_mem hk)
      exact ⟨_, List.getElem?_eq_getElem hk, h1, (h2 _).2 rfl⟩)
    (fun k q w y hq hw _ hy => (((party_takes k q hq w hw).2 y).1 hy).ge)
  exact ⟨o, chain, mk, h⟩

end Crew

end Angonoka.Props
