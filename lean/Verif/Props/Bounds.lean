import Mathlib.Algebra.BigOperators.Field
import Mathlib.Algebra.Order.BigOperators.Group.Finset
import Verif.Props.Best

/-!
# How long a project takes at least and at most
-/

set_option linter.unusedSectionVars false

namespace Angonoka.Props
open Outcome Stun Cli CommandLine Doc

variable {K : Type} [_root_.Field K] [LinearOrder K] [IsStrictOrderedRing K]
variable {E : FloatEnv K} {rf : String → Option XFloat} {root root' : Yaml} {p p' : Project} {sp : ScheduleParams K}
variable {agent : Nat → Nat} {start finish : Nat → K} {V : K}

/-! ### Plans -/

/-- Tasks that are done one at a time, between 0 and `V`, take at most `V` together. -/
theorem alone_sum {time : Nat → K} (S : Finset Nat) : ∀ {V : K}, 0 ≤ V → (∀ k ∈ S, 0 ≤ start k) → (∀ k ∈ S, 0 < time k) →
    (∀ k ∈ S, start k + time k ≤ V) →
    (∀ k ∈ S, ∀ l ∈ S, k ≠ l → start k + time k ≤ start l ∨ start l + time l ≤ start k) → ∑ k ∈ S, time k ≤ V := by
  induction hn : S.card generalizing S with
  | zero =>
    intro V h0 _ _ _ _
    rw [Finset.card_eq_zero.1 hn]
    simpa using h0
  | succ n ih =>
    intro V h0 hs ht hV ha
    obtain ⟨u, hu, hmax⟩ := S.exists_max_image start (Finset.card_pos.1 (by omega))
    have hle : ∑ k ∈ S.erase u, time k ≤ start u := by
      refine ih (S.erase u) (by rw [Finset.card_erase_of_mem hu, hn]; rfl) (hs u hu) (fun k hk => hs k (Finset.mem_of_mem_erase hk))
        (fun k hk => ht k (Finset.mem_of_mem_erase hk)) ?_ (fun k hk l hl => ha k (Finset.mem_of_mem_erase hk) l (Finset.mem_of_mem_erase hl))
      intro k hk
      obtain ⟨hne, hk⟩ := Finset.mem_erase.1 hk
      refine (ha k hk u hu hne).resolve_right fun h => ?_
      have := hmax k hk
      have := ht u hu
      linarith
    rw [← Finset.sum_erase_add _ _ hu]
    have := hV u hu
    linarith

theorem sum_getD {α : Type} [AddCommMonoid α] (l : List α) : l.sum = ∑ k ∈ Finset.range l.length, l.getD k 0 := by
  induction l with
  | nil => rfl
  | cons x l ih =>
    rw [List.sum_cons, List.length_cons, Finset.sum_range_succ', ih, add_comm]
    rfl

/-- C95, the critical path. A plan of the document takes at least as long as a chain of tasks, each of which depends on the one before it, if nobody
who may do the `k`th task needs less than `fast k` seconds for it. -/
theorem plan_chain (h : Doc.Plan rf root agent start finish) (hV : ∀ k < (tasks root).length, finish k ≤ V) (h0 : 0 ≤ V)
    {chain : List Nat} (hlt : ∀ k ∈ chain, k < (tasks root).length) (hc : chain.IsChain fun d k => DependsOn root k d) {fast : Nat → ℚ}
    (hfast : ∀ k ∈ chain, ∀ q w x, (tasks root)[k]? = some q → w ∈ agents root → MayDo w q.2 → Takes rf w q.2 x → fast k ≤ x) :
    (((chain.map fast).sum : ℚ) : K) ≤ V := by
  have key : ∀ (l : List Nat) (c : K), c ≤ V → (∀ k ∈ l, k ∈ chain) → (l.IsChain fun d k => DependsOn root k d) →
      (∀ k, l.head? = some k → c ≤ start k) → c + (((l.map fast).sum : ℚ) : K) ≤ V := by
    intro l
    induction l with
    | nil => intro c hcV _ _ _; simpa using hcV
    | cons k l ih =>
      intro c _ hm hch hs
      have hk := hm k List.mem_cons_self
      have hq := List.getElem?_eq_getElem (hlt k hk)
      obtain ⟨_, w, x, hw, hmay, hx, hfin⟩ := h.time k _ hq
      have h1 : ((fast k : ℚ) : K) ≤ (x : K) := by
        exact_mod_cast hfast k hk _ w x hq (List.mem_of_getElem? hw) hmay hx
      have h2 := hs k rfl
      have h3 := ih (finish k) (hV k (hlt k hk)) (fun j hj => hm j (List.mem_cons_of_mem _ hj)) hch.tail (by
        intro j hj
        cases l with
        | nil => cases hj
        | cons b l =>
          cases hj
          exact h.deps _ _ (List.isChain_cons_cons.1 hch).1)
      rw [List.map_cons, List.sum_cons, Rat.cast_add]
      linarith
  have := key chain 0 h0 (fun _ h => h) hc (fun k hk => by
    have hk := List.mem_of_mem_head? hk
    exact (h.time k _ (List.getElem?_eq_getElem (hlt k hk))).1)
  simpa using this

/-- The mean of a task's duration, in whole seconds -/
def IsMean (q : List Nat × Yaml) (d : Nat) : Prop := ∃ lo hi, Duration q.2 lo hi ∧ d = (lo + hi) / 2

/-- C95, the work. A plan of the document takes at least as long as all agents together need for all tasks, working all the time: the sum of the durations,
divided by the sum of the performances. -/
theorem plan_work (hload : load rf root = ok p) (hp : p.Sound) (h : Doc.Plan rf root agent start finish)
    (hV : ∀ k < (tasks root).length, finish k ≤ V) (h0 : 0 ≤ V) {ds : List Nat} (hds : List.Forall₂ IsMean (tasks root) ds)
    {ps : List ℚ} (hps : List.Forall₂ (fun w v => ∃ slow fast : ℚ, Performance rf w.2 (.fin slow) (.fin fast) ∧ v = (slow + fast) / 2)
      (agents root) ps) : ((ds.sum : Nat) : K) ≤ V * ((ps.sum : ℚ) : K) := by
  have hl := (load_faithful hload).2
  obtain ⟨hdv, hpv⟩ := document_values hload
  set n := (tasks root).length with hn
  -- the time a task takes in the plan
  have htime : ∀ k < n, agent k < (agents root).length ∧ 0 ≤ start k ∧ 0 < ps.getD (agent k) 0 ∧ 0 < ds.getD k 0 ∧
      finish k = start k + (ds.getD k 0 : K) / ((ps.getD (agent k) 0 : ℚ) : K) := by
    intro k hk
    have hq := List.getElem?_eq_getElem hk
    obtain ⟨hs, w, x, hw, _, ⟨lo, hi, slow, fast, hd, hpf, rfl⟩, hfin⟩ := h.time k _ hq
    have ha := (List.getElem?_eq_some_iff.1 hw).1
    have hk' : k < ds.length := hds.length_eq ▸ hk
    have ha' : agent k < ps.length := hps.length_eq ▸ ha
    obtain ⟨lo', hi', hd', e1⟩ := hds.get hk hk'
    obtain ⟨slow', fast', hpf', e2⟩ := hps.get ha ha'
    have ht := List.getElem?_eq_getElem (hl.tasks_length ▸ hk : k < p.tasks.length)
    have hag := List.getElem?_eq_getElem (hl.agents_length ▸ ha : agent k < p.agents.length)
    have t1 := hdv k _ _ lo hi hq ht hd
    have t2 := hdv k _ _ lo' hi' hq ht (by simpa using hd')
    have t3 := hpv _ w _ _ _ hw hag hpf
    have hwe : (agents root)[agent k] = w := by
      rw [List.getElem?_eq_getElem ha] at hw
      injection hw
    have t4 := hpv _ w _ _ _ hw hag (by rw [← hwe]; simpa using hpf')
    have elo : lo' = lo := by exact_mod_cast t2.1.symm.trans t1.1
    have ehi : hi' = hi := by exact_mod_cast t2.2.symm.trans t1.2
    have eslow : slow' = slow := by
      have := t4.1.symm.trans t3.1
      injection this
    have efast : fast' = fast := by
      have := t4.2.symm.trans t3.2
      injection this
    subst elo ehi eslow efast
    have hdk : ds.getD k 0 = (lo' + hi') / 2 := by
      rw [List.getD_eq_getElem?_getD, List.getElem?_eq_getElem hk']
      simpa using e1
    have hpk : ps.getD (agent k) 0 = (slow' + fast') / 2 := by
      rw [List.getD_eq_getElem?_getD, List.getElem?_eq_getElem ha']
      simpa using e2
    obtain ⟨s, f, hpo⟩ := hp.performance _ (List.mem_of_getElem? hag)
    have es : s = slow' := by
      have := hpo.1.symm.trans t3.1
      injection this
    have ef : f = fast' := by
      have := hpo.2.1.symm.trans t3.2
      injection this
    subst es ef
    have hdo := hp.durations _ (List.mem_of_getElem? ht)
    have hdo1 := hdo.1
    have hdo2 := hdo.2.1
    rw [t1.1, t1.2] at hdo2
    rw [t1.1] at hdo1
    refine ⟨ha, hs, ?_, ?_, ?_⟩
    · rw [hpk]
      have := hpo.2.2.1
      have := hpo.2.2.2
      linarith
    · rw [hdk]
      omega
    · rw [hdk, hpk, hfin]
      norm_cast
  have hpay : ∀ j < (agents root).length,
      ∑ k ∈ Finset.range n with agent k = j, (ds.getD k 0 : K) ≤ V * ((ps.getD j 0 : ℚ) : K) := by
    intro j hj
    by_cases hne : (Finset.range n).filter (fun k => agent k = j) = ∅
    · rw [hne, Finset.sum_empty]
      obtain ⟨s, f, hpf, e⟩ := hps.get hj (hps.length_eq ▸ hj)
      have hag := List.getElem?_eq_getElem (hl.agents_length ▸ hj : j < p.agents.length)
      have t := hpv j _ _ _ _ (List.getElem?_eq_getElem hj) hag (by simpa using hpf)
      obtain ⟨lo, hi, hpo⟩ := hp.performance _ (List.mem_of_getElem? hag)
      have e1 := hpo.1.symm.trans t.1
      have e2 := hpo.2.1.symm.trans t.2
      injection e1 with e1
      injection e2 with e2
      subst e1 e2
      refine mul_nonneg h0 ?_
      rw [List.getD_eq_getElem?_getD, List.getElem?_eq_getElem (hps.length_eq ▸ hj)]
      have e : ps[j]'(hps.length_eq ▸ hj) = (lo + hi) / 2 := by simpa using e
      have := hpo.2.2.1
      have := hpo.2.2.2
      rw [Option.getD_some, e]
      have : (0 : ℚ) ≤ (lo + hi) / 2 := by linarith
      exact_mod_cast this
    · obtain ⟨u, hu⟩ := Finset.nonempty_iff_ne_empty.2 hne
      obtain ⟨hun, huj⟩ := Finset.mem_filter.1 hu
      have hpos := (htime u (Finset.mem_range.1 hun)).2.2.1
      rw [huj] at hpos
      have hpos' : (0 : K) < ((ps.getD j 0 : ℚ) : K) := by exact_mod_cast hpos
      have := alone_sum (start := start) (time := fun k => (ds.getD k 0 : K) / ((ps.getD j 0 : ℚ) : K))
        ((Finset.range n).filter fun k => agent k = j) h0 ?_ ?_ ?_ ?_
      · rw [← Finset.sum_div, div_le_iff₀ hpos'] at this
        exact this
      all_goals
        intro k hk
        obtain ⟨hkn, hkj⟩ := Finset.mem_filter.1 hk
        have hkn := Finset.mem_range.1 hkn
        obtain ⟨_, g1, _, g2, g3⟩ := htime k hkn
        rw [hkj] at g3
      · exact g1
      · exact div_pos (by exact_mod_cast g2) hpos'
      · rw [← g3]
        exact hV k hkn
      · intro l hl hkl
        obtain ⟨hln, hlj⟩ := Finset.mem_filter.1 hl
        have hln := Finset.mem_range.1 hln
        obtain ⟨_, _, _, _, g4⟩ := htime l hln
        rw [hlj] at g4
        rw [← g3, ← g4]
        exact h.alone k hkn l hln hkl (hkj.trans hlj.symm)
  rw [sum_getD ds, sum_getD ps, ← hds.length_eq, ← hps.length_eq, Nat.cast_sum, Rat.cast_sum, Finset.mul_sum,
    ← Finset.sum_fiberwise_of_maps_to (g := agent) (t := Finset.range (agents root).length)
      (fun k hk => Finset.mem_range.2 (htime k (Finset.mem_range.1 hk)).1)]
  exact Finset.sum_le_sum fun j hj => hpay j (Finset.mem_range.1 hj)

/-- The end of the earliest execution of a schedule is at most the sum of the times of all tasks, each done by the slowest agent that may do it. -/
theorem written_le_sum (hE : E.IsExact) (hl : load rf root = ok p) (hp : p.Sound) (hsp : toScheduleParams E p = ok sp) {s : List Item}
    (h1 : ValidSchedule sp s) (h4 : Earliest E (p.secondsParams E sp) s start finish) (h5 : IsEnd s finish V)
    (hag : ∀ it ∈ s, it.agent = agent it.task) (hplan : Doc.Plan rf root agent start finish) (xs : List ℚ)
    (hxs : List.Forall₂ (fun q v => ∀ w x, w ∈ agents root → MayDo w q.2 → Takes rf w q.2 x → x ≤ v) (tasks root) xs) :
    V ≤ ((xs.sum : ℚ) : K) := by
  obtain ⟨hws, hc⟩ := secondsParams_wellFormed (E := E) hp (fun _ _ _ _ => hE _) hsp
  have hvs := secondsParams_valid hc h1
  have hpl := (plan_document hE hl hp hsp).1 hplan
  have hlen := (load_faithful hl).2.tasks_length
  have hcount := (params_faithful hp.agent_groups hp.task_groups hsp).1
  have hn : sp.taskCount = (tasks root).length := hcount.trans hlen
  obtain ⟨st, fi, hex, hend, _, _⟩ := makespanValue_spec (E := E) hws hvs
  have hle : V ≤ makespanValue E (p.secondsParams E sp) (p.secondsParams E sp).agentCount s := by
    obtain ⟨it, hit, hV'⟩ := h5.2
    rw [← hV']
    exact ((h4.2 st fi hex it hit).2).trans (hend.1 it hit)
  refine hle.trans ((makespanValue_le_sum E hws hvs).trans ?_)
  rw [hE.sum_eq]
  have hmap : s.map ((p.secondsParams E sp).itemTime E)
      = (s.map Item.task).map fun k => (p.secondsParams E sp).itemTime E ⟨k, agent k⟩ := by
    rw [List.map_map]
    refine List.map_congr_left fun it hit => ?_
    rw [Function.comp_apply, ← hag it hit]
  rw [hmap, (h1.complete.map _).sum_eq, sum_getD, sum_getD xs, Rat.cast_sum, List.length_map, List.length_range, hn, ← hxs.length_eq]
  refine Finset.sum_le_sum fun k hk => ?_
  have hk := Finset.mem_range.1 hk
  have hq := List.getElem?_eq_getElem hk
  obtain ⟨_, w, x, hw, hmay, hx, hfin⟩ := hplan.time k _ hq
  have ht := hpl.time k (by rw [ScheduleParams.taskCount, Project.secondsParams, List.length_map, hlen]; exact hk)
  rw [hfin, FloatEnv.add, hE] at ht
  have hx' := hxs.get hk (hxs.length_eq ▸ hk) w x (List.mem_of_getElem? hw) (by simpa using hmay) (by simpa using hx)
  rw [List.getD_eq_getElem?_getD, List.getElem?_map, List.getElem?_range hk, List.getD_eq_getElem?_getD,
    List.getElem?_eq_getElem (hxs.length_eq ▸ hk)]
  simp only [Option.map_some, Option.getD_some]
  rw [← add_left_cancel ht]
  exact_mod_cast hx'

/-! ### The file -/

section
variable [FloorRing K] {read : ReadReal} {isFile : String → Bool} {terminal : Bool} {a : Arguments} {o : Cli.Options K} {m : Machine K}

/-- C95. The command `schedule` for exact arithmetic, under the conditions of C74. Whatever the random numbers are, the makespan in the file is the whole part of a time
`V`, at which a plan of the document ends, and which is
* at least the length of every chain of tasks that depend on each other, each done by the fastest agent that may do it,
* at least the sum of all durations, divided by the sum of all performances,
* at most the sum of the times of all tasks, each done by the slowest agent that may do it. -/
theorem document_makespan_bounds (hE : E.IsExact) (hsig : SignsAgree read) (hnof : isFile "" = false)
    (h : parse E read isFile terminal .schedule a = .accepted o)
    (hz : ∀ t, a.restartPeriod = some t → ¬ LeadingZero t)
    (hb : ∀ t q, a.betaScale = some t → read t = some (.fin q) → ModerateBeta E q)
    (hout : a.output ≠ some "") (hd : m.source = .doc root) (hl : load m.readFloat root = ok p)
    (hs : Schedulable m.readFloat root 1 (2 ^ 31)) (hw : CanWrite m o) (ht : 0 < m.threads) :
    ∃ (N : Nat) (mk : Int) (es : List TaskEntry) (V : K), IsWholePart mk V ∧
      (∃ agent start finish, Doc.Plan m.readFloat root agent start finish ∧ ∀ k < (tasks root).length, finish k ≤ V) ∧
      (∀ (chain : List Nat) (fast : Nat → ℚ), (∀ k ∈ chain, k < (tasks root).length) →
        (chain.IsChain fun d k => DependsOn root k d) →
        (∀ k ∈ chain, ∀ q w x, (tasks root)[k]? = some q → w ∈ agents root → MayDo w q.2 → Takes m.readFloat w q.2 x → fast k ≤ x) →
        (((chain.map fast).sum : ℚ) : K) ≤ V) ∧
      (∀ (ds : List Nat) (ps : List ℚ), List.Forall₂ IsMean (tasks root) ds →
        List.Forall₂ (fun w v => ∃ slow fast : ℚ, Performance m.readFloat w.2 (.fin slow) (.fin fast) ∧ v = (slow + fast) / 2) (agents root) ps →
        (ds.sum : K) ≤ V * ((ps.sum : ℚ) : K)) ∧
      (∀ xs : List ℚ, List.Forall₂ (fun q v => ∀ w x, w ∈ agents root → MayDo w q.2 → Takes m.readFloat w q.2 x → x ≤ v) (tasks root) xs →
        V ≤ ((xs.sum : ℚ) : K)) ∧
      ∀ fuel, N ≤ fuel → status (body E { m with fuel := fuel } .schedule o).flow = .exit 0 ∧
        ∃ pre post : List (Effect K), (∀ e ∈ pre ++ post, ¬ e.IsFile) ∧
          (body E { m with fuel := fuel } .schedule o).effects = pre ++ [.file (a.output.getD "schedule.json")
            (.obj [("makespan", .int mk), ("tasks", .arr (es.map TaskEntry.object))])] ++ post := by
  obtain ⟨hp, hmod⟩ := schedulable_sound hl hs
  have hfl : p.FloatsIn E := fun _ _ _ _ => hE _
  obtain ⟨sp, hsp, hwf⟩ := params_wellFormed (E := E) hp hfl
  obtain ⟨ho, hf', hout'⟩ := accepted_options_partial (Or.inl hE) hsig hnof h hz hb hout hwf
  obtain ⟨N, s, mk, es, start, finish, V, h1, _, _, h4, h5, h6, h7⟩ := schedule_command hE hf' hout' hd hl hp hmod hw ht hsp ho
  obtain ⟨agent, hag, hplan, hV⟩ := written_plan hE hl hp hsp h1 h4 h5
  have h0 : 0 ≤ V := by
    obtain ⟨it, hit, h1'⟩ := (moderate_executions hE hp hmod hsp h1).2 start finish h4.1
    exact zero_le_one.trans (h1'.trans (h5.1 it hit))
  refine ⟨N, mk, es, V, h6, ⟨agent, start, finish, hplan, hV⟩, fun chain fast hlt hc hfast => plan_chain hplan hV h0 hlt hc hfast,
    fun ds ps hds hps => plan_work hl hp hplan hV h0 hds hps, ?_, ?_⟩
  · exact written_le_sum hE hl hp hsp h1 h4 h5 hag hplan
  · have : o.output = a.output.getD "schedule.json" := by
      obtain ⟨_, _, _, _, _, _, _, _, _, _, _, _, _, _, _, rfl⟩ := parse_accepted h
      rfl
    rwa [this] at h7

end

/-! ### More help -/

/-- C96, plans. If a document asks for less or has more agents (`Doc.Eases`), each plan of the other document gives one of this document, in which no task ends later. -/
theorem eased_plan {f g : Nat → Nat} (he : Eases rf root root' f g) (h : Doc.Plan rf root agent start finish) :
    ∃ agent' start' finish', Doc.Plan rf root' agent' start' finish' ∧ ∀ k < (tasks root').length, finish' k ≤ finish (g k) := by
  have key : ∀ k : Nat, ∃ z : K, ∀ q', (tasks root')[k]? = some q' → g k < (tasks root).length ∧ agent (g k) < (agents root).length ∧
      start (g k) + z ≤ finish (g k) ∧ ∃ w' x', (agents root')[f (agent (g k))]? = some w' ∧ MayDo w' q'.2 ∧ Takes rf w' q'.2 x' ∧ z = x' := by
    intro k
    cases hq' : (tasks root')[k]? with
    | none => exact ⟨0, fun _ h => by cases h⟩
    | some q' =>
      obtain ⟨q, hq, hag⟩ := he.tasks k q' hq'
      obtain ⟨_, w, x, hw, hmay, hx, hfin⟩ := h.time (g k) q hq
      obtain ⟨w', hw', hmay', htk⟩ := hag _ w hw hmay
      obtain ⟨x', hle, hx'⟩ := htk x hx
      refine ⟨x', fun q'' e => ?_⟩
      cases e
      refine ⟨(List.getElem?_eq_some_iff.1 hq).1, (List.getElem?_eq_some_iff.1 hw).1, ?_, w', x', hw', hmay', hx', rfl⟩
      rw [hfin]
      have : (x' : K) ≤ x := by exact_mod_cast hle
      linarith
  choose z hz using key
  refine ⟨fun k => f (agent (g k)), fun k => start (g k), fun k => start (g k) + z k, ⟨?_, ?_, ?_⟩,
    fun k hk => (hz k _ (List.getElem?_eq_getElem hk)).2.2.1⟩
  · intro k q' hq'
    obtain ⟨q, hq, _⟩ := he.tasks k q' hq'
    obtain ⟨_, _, _, w', x', h1, h2, h3, h4⟩ := hz k q' hq'
    exact ⟨(h.time _ q hq).1, w', x', h1, h2, h3, by rw [h4]⟩
  · intro k d hd
    obtain ⟨_, _, _, hd', _⟩ := id hd
    exact (hz d _ hd').2.2.1.trans (h.deps _ _ (he.deps k d hd))
  · intro k hk l hl hkl ha
    obtain ⟨a1, a2, a3, _⟩ := hz k _ (List.getElem?_eq_getElem hk)
    obtain ⟨b1, b2, b3, _⟩ := hz l _ (List.getElem?_eq_getElem hl)
    rcases h.alone _ a1 _ b1 (fun e => hkl (he.tasks_apart k hk l hl e)) (he.agents_apart _ a2 _ b2 ha) with h' | h'
    · exact Or.inl (a3.trans h')
    · exact Or.inr (b3.trans h')

section
variable [FloorRing K] {read : ReadReal} {isFile : String → Bool} {terminal : Bool} {a : Arguments} {o : Cli.Options K} {m : Machine K}

/-- With the random numbers of the machine, and enough time, the command `schedule` exits successfully and has written the output file once, with the makespan `mk`. -/
def WritesMakespan (E : FloatEnv K) (m : Machine K) (o : Cli.Options K) (file : String) (mk : Int) : Prop :=
  ∃ (N : Nat) (es : List TaskEntry), ∀ fuel, N ≤ fuel → status (body E { m with fuel := fuel } .schedule o).flow = .exit 0 ∧
    ∃ pre post : List (Effect K), (∀ e ∈ pre ++ post, ¬ e.IsFile) ∧
      (body E { m with fuel := fuel } .schedule o).effects = pre ++ [.file file
        (.obj [("makespan", .int mk), ("tasks", .arr (es.map TaskEntry.object))])] ++ post

/-- C96. More help never hurts. The command `schedule` for exact arithmetic, under the conditions of C91, and two documents of which the second asks for less or has
more agents. Whatever makespan the program writes for the first document, there are random numbers with which it writes no greater one for the second. -/
theorem more_help_never_hurts (hE : E.IsExact) (hsig : SignsAgree read) (hnof : isFile "" = false)
    (h : parse E read isFile terminal .schedule a = .accepted o)
    (hz : ∀ t, a.restartPeriod = some t → ¬ LeadingZero t)
    (hb : ∀ t q, a.betaScale = some t → read t = some (.fin q) → ModerateBeta E q)
    (hout : a.output ≠ some "") (hd : m.source = .doc root) (hl : load m.readFloat root = ok p)
    (hs : Schedulable m.readFloat root 1 (2 ^ 31)) (hw : CanWrite m o) (ht : 0 < m.threads) (hidle : 8255 ≤ o.opt.maxIdleIters)
    (hl' : load m.readFloat root' = ok p') (hs' : Schedulable m.readFloat root' 1 (2 ^ 31)) {f g : Nat → Nat}
    (he : Eases m.readFloat root root' f g) :
    ∃ mk : Int, WritesMakespan E m o (a.output.getD "schedule.json") mk ∧ ∃ (draws : Nat → Nat → Nat → Draws K) (mk' : Int), mk' ≤ mk ∧
      WritesMakespan E { m with source := .doc root', draws := draws } o (a.output.getD "schedule.json") mk' := by
  obtain ⟨N, mk, es, V, h1, ⟨agent, start, finish, hplan, hV⟩, _, _, _, h2⟩ :=
    document_makespan_bounds hE hsig hnof h hz hb hout hd hl hs hw ht
  obtain ⟨draws, _, N', mk', _, es', V', _, _, _, g1, _, g2, g3⟩ :=
    document_best_schedule (m := { m with source := .doc root' }) hE hsig hnof h hz hb hout rfl hl' hs' hw ht hidle
  obtain ⟨agent', start', finish', hplan', hle⟩ := eased_plan he hplan
  refine ⟨mk, ⟨N, es, h2⟩, draws, mk', ?_, N', es', g3⟩
  have hVV : V' ≤ V := g2 agent' start' finish' V hplan' fun k hk => by
    obtain ⟨q, hq, _⟩ := he.tasks k _ (List.getElem?_eq_getElem hk)
    exact (hle k hk).trans (hV _ (List.getElem?_eq_some_iff.1 hq).1)
  have : (mk' : K) < (mk + 1 : Int) := by
    push_cast
    exact g1.1.trans_lt (hVV.trans_lt h1.2)
  have : mk' < mk + 1 := by exact_mod_cast this
  omega

end

/-- Whether one document eases another, seen from what is loaded -/
theorem eases_of_loaded (hl : load rf root = ok p) (hl' : load rf root' = ok p') {f g : Nat → Nat}
    (hf : ∀ i < p.agents.length, ∀ j < p.agents.length, f i = f j → i = j) (hg : ∀ k < p'.tasks.length, ∀ l < p'.tasks.length, g k = g l → k = l)
    (htasks : ∀ k (hk : k < p'.tasks.length), ∃ hk' : g k < p.tasks.length, p'.tasks[k].durMin + p'.tasks[k].durMax ≤
      p.tasks[g k].durMin + p.tasks[g k].durMax ∧ (∀ d ∈ p'.tasks[k].dependencies, g d ∈ p.tasks[g k].dependencies) ∧
      ∀ i (hi : i < p.agents.length), canWorkOn p.agents[i] p.tasks[g k] = true →
        ∃ hi' : f i < p'.agents.length, canWorkOn p'.agents[f i] p'.tasks[k] = true)
    (hagents : ∀ i (hi : i < p.agents.length) slow fast, p.agents[i].perfMin = .fin slow → p.agents[i].perfMax = .fin fast →
      0 < slow + fast ∧ ∀ hi' : f i < p'.agents.length, ∃ slow' fast', p'.agents[f i].perfMin = .fin slow' ∧ p'.agents[f i].perfMax = .fin fast' ∧
        slow + fast ≤ slow' + fast') :
    Eases rf root root' f g := by
  have a := (load_faithful hl).2
  have a' := (load_faithful hl').2
  obtain ⟨hdv, hpv⟩ := document_values hl
  refine ⟨a.agents_length ▸ hf, a'.tasks_length ▸ hg, ?_, ?_⟩
  · intro k q' hq'
    have hk : k < p'.tasks.length := a'.tasks_length ▸ (List.getElem?_eq_some_iff.1 hq').1
    obtain ⟨hk', hdur, _, hwork⟩ := htasks k hk
    obtain ⟨q, hq⟩ := task_of a (List.getElem?_eq_getElem hk')
    refine ⟨q, hq, fun i w hw hmay => ?_⟩
    have hi : i < p.agents.length := a.agents_length ▸ (List.getElem?_eq_some_iff.1 hw).1
    obtain ⟨hi', hcan⟩ := hwork i hi
      ((eligible_document hl hw (List.getElem?_eq_getElem hi) hq (List.getElem?_eq_getElem hk')).2 hmay)
    obtain ⟨w', hw'⟩ := agent_of a' (List.getElem?_eq_getElem hi')
    refine ⟨w', hw', (eligible_document hl' hw' (List.getElem?_eq_getElem hi') hq' (List.getElem?_eq_getElem hk)).1 hcan, ?_⟩
    rintro x ⟨lo, hi₀, slow, fast, hd, hpf, rfl⟩
    obtain ⟨e1, e2⟩ := hdv (g k) q _ lo hi₀ hq (List.getElem?_eq_getElem hk') hd
    obtain ⟨e3, e4⟩ := hpv i w _ _ _ hw (List.getElem?_eq_getElem hi) hpf
    obtain ⟨hpos, hag⟩ := hagents i hi slow fast e3 e4
    obtain ⟨slow', fast', e5, e6, hle⟩ := hag hi'
    obtain ⟨lo', hi₁, hd', _, e7, e8⟩ := (a'.tasks_loaded k q' _ hq' (List.getElem?_eq_getElem hk)).duration
    have hpf' := (a'.agents_loaded _ w' _ hw' (List.getElem?_eq_getElem hi')).performance
    rw [e5, e6] at hpf'
    refine ⟨_, ?_, lo', hi₁, slow', fast', hd', hpf', rfl⟩
    rw [e1, e2, e7, e8] at hdur
    have hnum : (lo' + hi₁) / 2 ≤ (lo + hi₀) / 2 := by omega
    have hnum' : (((lo' + hi₁) / 2 : Nat) : ℚ) ≤ ((lo + hi₀) / 2 : Nat) := by exact_mod_cast hnum
    exact div_le_div₀ (by positivity) hnum' (by linarith) (by linarith)
  · intro k d hd
    obtain ⟨_, _, hq', _, _⟩ := id hd
    have hk : k < p'.tasks.length := a'.tasks_length ▸ (List.getElem?_eq_some_iff.1 hq').1
    obtain ⟨hk', _, hdep, _⟩ := htasks k hk
    have := hdep d ((a'.deps k _ (List.getElem?_eq_getElem hk) d).2 hd)
    exact (a.deps (g k) _ (List.getElem?_eq_getElem hk') _).1 this

/-! ### Examples -/

/-- The time an agent is expected to need, seen from what is loaded -/
theorem takes_loaded (hl : load rf root = ok p) {i k : Nat} {w : Yaml × Yaml} {q : List Nat × Yaml} {a : Agent} {t : Task}
    (hw : (agents root)[i]? = some w) (ha : p.agents[i]? = some a) (hq : (tasks root)[k]? = some q) (ht : p.tasks[k]? = some t) {x : ℚ}
    (hx : Takes rf w q.2 x) : ∃ slow fast, a.perfMin = .fin slow ∧ a.perfMax = .fin fast ∧
      x = ((t.durMin + t.durMax).toNat / 2 : Nat) / ((slow + fast) / 2) := by
  obtain ⟨hdv, hpv⟩ := document_values hl
  obtain ⟨lo, hi, slow, fast, hd, hpf, rfl⟩ := hx
  obtain ⟨e1, e2⟩ := hdv k q t lo hi hq ht hd
  obtain ⟨e3, e4⟩ := hpv i w a _ _ hw ha hpf
  refine ⟨slow, fast, e3, e4, ?_⟩
  rw [e1, e2]
  norm_cast

/-- The default options for the file `plan.yml` are accepted. -/
theorem plan_accepted : ∃ o, parse FloatEnv.rat exampleRead (fun f => f == "plan.yml") true .schedule { input := "plan.yml" } = .accepted o ∧
    o.opt.maxIdleIters = 100000 :=
  ⟨_, options_as_given (E := FloatEnv.rat) (isFile := fun f => f == "plan.yml") (terminal := true) (c := .schedule)
    (a := { input := "plan.yml" }) exampleRead_naturals (by decide) (batch := 10000) (idle := 100000) (window := 100) (period := 256)
    (Or.inl ⟨rfl, rfl⟩) (Or.inl ⟨rfl, rfl⟩) (Or.inl ⟨rfl, rfl⟩) (Or.inl ⟨rfl, rfl⟩)
    (Or.inl ⟨rfl, rfl⟩) (Or.inl ⟨rfl, rfl⟩) (Or.inl ⟨rfl, rfl⟩), rfl⟩

/-- C95 for the example: Jack needs 5400 seconds for the walls, then Bob 5760 for the rest of the building, and then Jack 45 for the paint. So no timetable takes
less than 11205 seconds. -/
example (draws : Nat → Nat → Nat → Draws ℚ) : ∃ o mk,
    parse FloatEnv.rat exampleRead (fun f => f == "plan.yml") true .schedule { input := "plan.yml" } = .accepted o ∧
      WritesMakespan FloatEnv.rat (exampleMachine draws) o "schedule.json" mk ∧ 11205 ≤ mk := by
  obtain ⟨o, hpar, _⟩ := plan_accepted
  obtain ⟨N, mk, es, V, h1, _, h2, _, _, h3⟩ := document_makespan_bounds (m := exampleMachine draws) (fun _ => rfl) exampleRead_signs (by decide)
    hpar (by simp) (by simp) (by simp) rfl Sample.plan_loads
    (sound_schedulable Sample.plan_loads plan_sound plan_moderate) example_canWrite (by exact (by decide : 0 < 4))
  have hl := (load_faithful Sample.plan_loads).2
  have hlen : (tasks Sample.plan).length = 4 := hl.tasks_length.symm
  refine ⟨o, mk, hpar, ⟨N, es, h3⟩, ?_⟩
  have hc := h2 [1, 0, 3] (fun k => [5760, 5400, 0, 45].getD k 0) (by rw [hlen]; decide) ?_ ?_
  · have : (11205 : ℚ) ≤ V := by
      refine le_trans ?_ hc
      decide +kernel
    have : ((11205 : Int) : ℚ) < (mk + 1 : Int) := by
      push_cast
      exact this.trans_lt h1.2
    have : (11205 : Int) < mk + 1 := by exact_mod_cast this
    omega
  · have d1 : DependsOn Sample.plan 0 1 := (hl.deps 0 _ rfl 1).1 (by decide)
    have d2 : DependsOn Sample.plan 3 0 := (hl.deps 3 _ rfl 0).1 (by decide)
    simp [d1, d2]
  · intro k hk q w x hq hw hmay hx
    obtain ⟨i, hi⟩ := List.mem_iff_getElem?.1 hw
    have hi' : i < Sample.project.agents.length := hl.agents_length.symm ▸ (List.getElem?_eq_some_iff.1 hi).1
    have hk' : k < Sample.project.tasks.length := hl.tasks_length.symm ▸ (List.getElem?_eq_some_iff.1 hq).1
    obtain ⟨_, ha⟩ : ∃ a, Sample.project.agents[i]? = some a := ⟨_, List.getElem?_eq_getElem hi'⟩
    obtain ⟨_, ht⟩ : ∃ t, Sample.project.tasks[k]? = some t := ⟨_, List.getElem?_eq_getElem hk'⟩
    have hcan := (eligible_document Sample.plan_loads hi ha hq ht).2 hmay
    obtain ⟨slow, fast, e1, e2, rfl⟩ := takes_loaded Sample.plan_loads hi ha hq ht hx
    clear hx hmay
    have hi2 : i < 2 := (List.getElem?_eq_some_iff.1 ha).1
    simp only [List.mem_cons, List.not_mem_nil, or_false] at hk
    rcases hk with rfl | rfl | rfl <;> interval_cases i
    all_goals
      cases ha
      cases ht
      first
      | exact absurd hcan (by decide)
      | cases e1
        cases e2
        decide +kernel

namespace Sample

/-- `plan` with another agent, a faster Bob, a shorter roof, and paint that need not wait -/
def helped : Yaml := obj [
  ("agents", obj [
    ("Ann", .null),
    ("Bob", obj [("groups", .seq [str "A", str "B"]), ("performance", str "2")]),
    ("Jack", .null)]),
  ("tasks", .seq [
    obj [("name", str "build"), ("id", str "b"), ("duration", str "2h"), ("group", str "B"),
      ("subtasks", .seq [
        obj [("name", str "walls"), ("duration", str "1h and 30m"), ("agent", str "Jack")],
        obj [("name", str "roof"), ("duration", str "10 minutes"), ("groups", .seq [str "B", str "C"])]])],
    obj [("name", str "paint"), ("duration", str "45s")]])]

def helpedProject : Project where
  groups := ["A", "B", "C"]
  agents := [
    { id := 0, name := "Ann" },
    { id := 1, name := "Bob", groupIds := [0, 1], perfMin := .fin 2, perfMax := .fin 2 },
    { id := 2, name := "Jack" }]
  tasks := [
    { name := "build", id := "b", groupIds := [1], dependencies := [1, 2], durMin := 7200, durMax := 7200 },
    { name := "walls", agentId := some 2, durMin := 5400, durMax := 5400 },
    { name := "roof", groupIds := [1, 2], durMin := 600, durMax := 600 },
    { name := "paint", dependencies := [], durMin := 45, durMax := 45 }]

theorem helped_loads : load number helped = ok helpedProject := by
  rw [Load.load_eval 20 _ _ (by decide)]
  decide +kernel

theorem helped_sound : helpedProject.Sound := by
  refine loaded_sound helped_loads (by decide) ?_ ?_
  · intro a ha
    simp only [helpedProject, List.mem_cons, List.not_mem_nil, or_false] at ha
    rcases ha with rfl | rfl | rfl <;> exact ⟨_, _, rfl, rfl⟩
  · intro t ht
    simp only [helpedProject, List.mem_cons, List.not_mem_nil, or_false] at ht
    rcases ht with rfl | rfl | rfl | rfl <;> simp [helpedProject, Eligible]

theorem helped_moderate : helpedProject.Moderate where
  longer := by
    refine ⟨_, List.mem_cons_self, ?_⟩
    intro a ha q hq
    simp only [helpedProject, List.mem_cons, List.not_mem_nil, or_false] at ha
    rcases ha with rfl | rfl | rfl <;> (cases hq; decide +kernel)
  shorter := by
    intro a ha q hq
    simp only [helpedProject, List.mem_cons, List.not_mem_nil, or_false] at ha
    rcases ha with rfl | rfl | rfl <;> (cases hq; decide +kernel)

theorem helped_eases : Eases number plan helped (· + 1) id := by
  refine eases_of_loaded plan_loads helped_loads (fun i _ j _ h => by simpa using h) (fun _ _ _ _ h => h) ?_ ?_
  · decide
  · intro i hi
    have hi : i < 2 := hi
    intro slow fast h1 h2
    interval_cases i
    all_goals
      cases h1
      cases h2
      exact ⟨by decide +kernel, fun _ => ⟨_, _, rfl, rfl, by decide +kernel⟩⟩

end Sample

/-- C96 for the example: whatever the program writes for `plan`, it can write no more for `helped`. -/
example (draws : Nat → Nat → Nat → Draws ℚ) : ∃ o mk,
    parse FloatEnv.rat exampleRead (fun f => f == "plan.yml") true .schedule { input := "plan.yml" } = .accepted o ∧
      WritesMakespan FloatEnv.rat (exampleMachine draws) o "schedule.json" mk ∧ ∃ draws' mk', mk' ≤ mk ∧
        WritesMakespan FloatEnv.rat { exampleMachine draws with source := .doc Sample.helped, draws := draws' } o "schedule.json" mk' := by
  obtain ⟨o, hpar, hidle⟩ := plan_accepted
  obtain ⟨mk, h1, draws', mk', h2, h3⟩ := more_help_never_hurts (m := exampleMachine draws) (fun _ => rfl) exampleRead_signs (by decide)
    hpar (by simp) (by simp) (by simp) rfl Sample.plan_loads
    (sound_schedulable Sample.plan_loads plan_sound plan_moderate) example_canWrite (by exact (by decide : 0 < 4)) (by rw [hidle]; decide)
    Sample.helped_loads (sound_schedulable Sample.helped_loads Sample.helped_sound Sample.helped_moderate) Sample.helped_eases
  exact ⟨o, mk, hpar, h1, draws', mk', h2, h3⟩

end Angonoka.Props
