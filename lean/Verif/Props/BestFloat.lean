import Verif.Spec.BestEnd
import Verif.Props.BoundsFloat
import Verif.Props.Extremes

/-!
# What `schedule` can write in single precision

C109, C115 to C118 in single precision: the least time a document needs, and that the program can reach it up to rounding.
-/

set_option linter.unusedSectionVars false

namespace Angonoka.Props
open Outcome Stun Cli CommandLine Doc

variable {K : Type} [_root_.Field K] [LinearOrder K] [IsStrictOrderedRing K] [FloorRing K] {E : FloatEnv K}
variable {rf : String → Option XFloat} {root root' part₁ part₂ : Yaml} {p p' p₁ p₂ : Project}

/-! ### The least time -/

/-- There is a least time. -/
theorem best_end (hE : E.IsExact) (hl : load rf root = ok p) (hp : p.Sound) : ∃ V : K, IsBestEnd rf root V := by
  obtain ⟨sp, hsp, _⟩ := params_wellFormed (E := E) hp (fun _ _ _ _ => hE _)
  obtain ⟨hws, hc⟩ := secondsParams_wellFormed hp (fun _ _ _ _ => hE _) hsp
  obtain ⟨b, hb, hmin⟩ := best_exists (E := E) hws
  obtain ⟨st, fi, hex, hend, _, hleast⟩ := makespanValue_spec (E := E) hws hb
  have hv : ValidSchedule sp b := ⟨hc ▸ hb.complete, hb.ordered, hb.eligible⟩
  have hlen := (load_faithful hl).2.tasks_length
  obtain ⟨agent, _, hplan, hV⟩ := written_plan hE hl hp hsp hv ⟨hex, hleast⟩ hend
  refine ⟨_, ⟨agent, st, fi, hplan, hV⟩, fun agent' start' finish' W hplan' hW => ?_⟩
  have hpl := (plan_document hE hl hp hsp).1 hplan'
  refine best_bounds_plans hws (fun t w ht hw => ?_) hpl (fun t ht => plan_positive hE hp hsp hpl ht) fun t ht => hW t ?_
  · rw [(isMakespan_iff hws ht).1 hw]
    exact hmin t ht
  · rw [← hlen]
    simpa [ScheduleParams.taskCount, Project.secondsParams] using ht

/-- Only one time is least. -/
theorem IsBestEnd_unique {V W : K} (h : IsBestEnd rf root V) (h' : IsBestEnd rf root W) : V = W := by
  obtain ⟨_, _, _, a1, a2⟩ := h.reached
  obtain ⟨_, _, _, b1, b2⟩ := h'.reached
  exact le_antisymm (h.least _ _ _ _ b1 b2) (h'.least _ _ _ _ a1 a2)

/-- Less to do, or more to do it with, needs no more time. -/
theorem eased_end {f g : Nat → Nat} (he : Eases rf root root' f g) {V W : K} (h : IsBestEnd rf root V) (h' : IsBestEnd rf root' W) : W ≤ V := by
  obtain ⟨_, _, _, a1, a2⟩ := h.reached
  obtain ⟨_, _, _, b1, b2⟩ := eased_plan he a1
  refine h'.least _ _ _ _ b1 fun k hk => (b2 k hk).trans (a2 _ ?_)
  obtain ⟨_, hq, _⟩ := he.tasks k _ (List.getElem?_eq_getElem hk)
  exact (List.getElem?_eq_some_iff.1 hq).1

/-- The order of the document does not matter. -/
theorem order_end (hr : Reordered root root') (hc : IsConfiguration root) {V : K} (h : IsBestEnd rf root V) : IsBestEnd rf root' V := by
  have back : ∀ {r r' : Yaml}, Reordered r r' → IsConfiguration r → ∀ (agent : Nat → Nat) (start finish : Nat → K) (W : K),
      Doc.Plan rf r agent start finish → (∀ k < (tasks r).length, finish k ≤ W) →
      ∃ (agent' : Nat → Nat) (start' finish' : Nat → K), Doc.Plan rf r' agent' start' finish' ∧ ∀ k < (tasks r').length, finish' k ≤ W := by
    intro r r' hrr hcr agent start finish W hp hW
    obtain ⟨f, g, _, _, h2, _, h4⟩ := order_plans (K := K) (rf := rf) hrr hcr
    refine ⟨_, _, _, h4 _ _ _ hp, fun k hk => hW _ ?_⟩
    obtain ⟨_, hq, _⟩ := h2 k _ (List.getElem?_eq_getElem hk)
    exact (List.getElem?_eq_some_iff.1 hq).1
  obtain ⟨agent, start, finish, a1, a2⟩ := h.reached
  refine ⟨back hr hc _ _ _ _ a1 a2, fun agent' start' finish' W hp hW => ?_⟩
  obtain ⟨_, _, _, b1, b2⟩ := back hr.symm (hr.isConfiguration hc) _ _ _ _ hp hW
  exact h.least _ _ _ _ b1 b2

/-- Dependencies that follow from others do not matter. -/
theorem implied_end (hl : load rf root = ok p) (hl' : load rf root' = ok p') (hc : SameConstraints root root') {V : K} (h : IsBestEnd rf root V) :
    IsBestEnd rf root' V := by
  have hlen := hc.tasks.length_eq
  obtain ⟨agent, start, finish, a1, a2⟩ := h.reached
  exact ⟨⟨_, _, _, (implied_plans hl hl' hc).2 a1, by rw [← hlen]; exact a2⟩,
    fun _ _ _ W hp hW => h.least _ _ _ W ((implied_plans hl hl' hc).1 hp) (by rw [hlen]; exact hW)⟩

/-- `c` times as fast agents need the `c`-th part of the time. -/
theorem pace_end (hE : E.IsExact) {c : ℚ} (hc : 0 < c) (hl : load rf root = ok p) (hl' : load rf root' = ok (faster c p)) (hp : p.Sound) {V : K}
    (h : IsBestEnd rf root V) : IsBestEnd rf root' (V / c) := by
  have hc' : (0 : K) < (c : K) := by exact_mod_cast hc
  have hlen : (tasks root').length = (tasks root).length := by
    rw [← (load_faithful hl).2.tasks_length, ← (load_faithful hl').2.tasks_length]
    rfl
  obtain ⟨agent, start, finish, a1, a2⟩ := h.reached
  refine ⟨⟨_, _, _, (plans_faster hE hc hl hl' hp).1 a1, fun k hk => (div_le_div_iff_of_pos_right hc').2 (a2 k (hlen ▸ hk))⟩,
    fun agent' start' finish' W hplan hW => ?_⟩
  have hx : ∀ x : K, x * (c : K) / (c : K) = x := fun x => mul_div_cancel_right₀ x hc'.ne'
  rw [div_le_iff₀ hc']
  have hpl : Doc.Plan rf root agent' (fun i => start' i * (c : K)) fun i => finish' i * (c : K) := by
    rw [plans_faster hE hc hl hl' hp]
    simpa only [hx] using hplan
  exact h.least _ _ _ _ hpl fun i hi => mul_le_mul_of_nonneg_right (hW i (hlen.symm ▸ hi)) hc'.le

/-- Two teams need as much time as the one that needs more. -/
theorem teams_end {f₁ g₁ f₂ g₂ : Nat → Nat} (hteams : TwoTeams rf root part₁ part₂ f₁ g₁ f₂ g₂) {V₁ V₂ : K} (h₁ : IsBestEnd rf part₁ V₁)
    (h₂ : IsBestEnd rf part₂ V₂) : IsBestEnd rf root (max V₁ V₂) := by
  obtain ⟨agent₁, start₁, finish₁, b2, b3⟩ := h₁.reached
  obtain ⟨agent₂, start₂, finish₂, c2, c3⟩ := h₂.reached
  obtain ⟨agent', start', finish', d1, d2, d3⟩ := teams_plan hteams b2 c2
  refine ⟨⟨_, _, _, d1, fun n hn => ?_⟩, fun agent start finish W hp hW => ?_⟩
  · rcases hteams.tasks n hn with ⟨k, hk, rfl⟩ | ⟨k, hk, rfl⟩
    · rw [(d2 k hk).2.2]
      exact (b3 k hk).trans (le_max_left _ _)
    · rw [(d3 k hk).2.2]
      exact (c3 k hk).trans (le_max_right _ _)
  · have part : ∀ {part : Yaml} {f g : Nat → Nat} {U : K}, PartOf rf root part f g → IsBestEnd rf part U → U ≤ W := by
      intro part f g U hpart hU
      obtain ⟨_, d⟩ := part_plan hpart hp
      refine hU.least _ _ _ _ d fun k hk => ?_
      obtain ⟨_, hq, -⟩ := hpart.tasks k _ (List.getElem?_eq_getElem hk)
      exact hW _ (List.getElem?_eq_some_iff.1 hq).1
    exact max_le (part hteams.first h₁) (part hteams.second h₂)

/-- With enough agents a longest chain is all that is needed. -/
theorem enough_end (hl : load rf root = ok p) {own : Nat → Nat} {x : Nat → ℚ}
    (hinj : ∀ k < (tasks root).length, ∀ l < (tasks root).length, own k = own l → k = l)
    (hown : ∀ (k : Nat) q, (tasks root)[k]? = some q → ∃ w, (agents root)[own k]? = some w ∧ MayDo w q.2 ∧ Takes rf w q.2 (x k))
    (hfast : ∀ (k : Nat) q w y, (tasks root)[k]? = some q → w ∈ agents root → MayDo w q.2 → Takes rf w q.2 y → x k ≤ y) :
    ∃ chain : List Nat, IsTaskChain root chain ∧ (∀ chain', IsTaskChain root chain' → (chain'.map x).sum ≤ (chain.map x).sum) ∧
      IsBestEnd rf root (((chain.map x).sum : ℚ) : K) := by
  obtain ⟨start', finish', chain, b1, b2, b3⟩ := own_agents_plan (K := K) hl hinj hown
  have hle : ∀ (agent : Nat → Nat) (start finish : Nat → K) (W : K), Doc.Plan rf root agent start finish → (∀ k < (tasks root).length, finish k ≤ W) →
      ∀ chain', IsTaskChain root chain' → (((chain'.map x).sum : ℚ) : K) ≤ W := by
    intro agent start finish W hp hW chain' hc
    have h0 : 0 ≤ W := by
      have h1 := (load_faithful hl).2.tasks_length
      have h2 := (load_faithful hl).2.tasks_ne
      have hn : 0 < (tasks root).length := by
        rw [← h1]
        exact List.length_pos_iff.2 h2
      obtain ⟨c0, w, y, hw', -, hy, e⟩ := hp.time 0 _ (List.getElem?_eq_getElem hn)
      have hy0 : (0 : K) ≤ (y : K) := by exact_mod_cast takes_nonneg hl (List.mem_of_getElem? hw') hy
      have := hW 0 hn
      rw [e] at this
      linarith
    exact plan_chain hp hW h0 hc.1 hc.2 fun k _ q w y hq hw' hm hy => hfast k q w y hq hw' hm hy
  refine ⟨chain, b2, fun chain' hc => ?_, ⟨_, _, _, b1, b3⟩, fun agent start finish W hp hW => hle _ _ _ _ hp hW chain b2⟩
  have := hle _ _ _ _ b1 b3 chain' hc
  exact_mod_cast this

/-! ### The program -/

variable {m : Machine K} {o : Cli.Options K} {read : ReadReal} {isFile : String → Bool} {terminal : Bool} {a : Arguments}

/-- For the document `root` the command `schedule` can write the time `V` up to 0.0061 % and a second, and whatever the random numbers are, it writes no less than that. -/
def WritesAbout (E : FloatEnv K) (m : Machine K) (o : Cli.Options K) (file : String) (root : Yaml) (V : K) : Prop :=
  (∃ draws mk, WritesMakespan E { m with source := .doc root, draws := draws } o file mk ∧ CloseTo mk V) ∧
  ∀ draws n, WritesMakespan E { m with source := .doc root, draws := draws } o file n → V - (V / 2 ^ 14 + 1) ≤ n

/-- What is supposed of the command line -/
structure FloatCommand (E : FloatEnv K) (m : Machine K) (o : Cli.Options K) (read : ReadReal) (isFile : String → Bool) (terminal : Bool) (a : Arguments) : Prop where
  float : E.IsFloat
  signs : SignsAgree read
  noFile : isFile "" = false
  accepted : parse E read isFile terminal .schedule a = .accepted o
  period : ∀ t, a.restartPeriod = some t → ¬ LeadingZero t
  beta : ∀ t q, a.betaScale = some t → read t = some (.fin q) → ModerateBeta E q
  output : a.output ≠ some ""
  reads : ∀ s (q : ℚ), m.readFloat s = some (.fin q) → E.rnd (q : K) = q
  canWrite : CanWrite m o
  threads : 0 < m.threads
  idle : 8255 ≤ o.opt.maxIdleIters

/-- C98, whatever the document needs. In single precision, under the conditions of C75 and with a limit of idle iterations of at least 8255, the least that the program
writes is the least time the document needs, up to rounding. -/
theorem writes_about (hcmd : FloatCommand E m o read isFile terminal a) (hl : load m.readFloat root = ok p)
    (hs : Schedulable m.readFloat root 2 (2 ^ 30)) (hr : Doc.InRange m.readFloat root) {V : K} (hV : IsBestEnd m.readFloat root V) :
    WritesAbout E m o (a.output.getD "schedule.json") root V := by
  obtain ⟨hE, hsig, hnof, h, hz, hb, hout, hread, hw, ht, hidle⟩ := hcmd
  have low : ∀ draws n, WritesMakespan E { m with source := .doc root, draws := draws } o (a.output.getD "schedule.json") n →
      V - (V / 2 ^ 14 + 1) ≤ n := by
    intro draws n hn
    obtain ⟨mk, V', h1, h2, _, agent, start, finish, h3, h4⟩ := document_plan_float (m := { m with source := .doc root, draws := draws }) hE hsig hnof h hz hb hout
      rfl hl hread hs hr hw ht
    obtain rfl := writes_unique (m := { m with source := .doc root, draws := draws }) h1 hn
    have hVV := hV.least _ _ _ _ h3 h4
    have := (abs_le.1 h2).1
    have h14 : V' / 2 ^ 14 - V / 2 ^ 14 ≤ V' - V := by
      rw [← sub_div]
      exact div_le_self (by linarith) (by norm_num)
    linarith
  refine ⟨?_, low⟩
  obtain ⟨hp, hmod⟩ := schedulable_sound hl hs
  obtain ⟨sp, hsp, hwf⟩ := params_wellFormed (E := E) hp (floatsIn_of_document hl hread)
  obtain ⟨ho, _, _⟩ := accepted_options_partial (Or.inr hE) hsig hnof h hz hb hout hwf
  have hcount := (params_faithful hp.agent_groups hp.task_groups hsp).1
  have hle : sp.taskCount * (sp.taskCount + 3) / 2 ≤ o.opt.maxIdleIters := by
    have h127 : sp.taskCount ≤ 127 := hcount ▸ (index_limits.1 p hl).1
    have : sp.taskCount * (sp.taskCount + 3) ≤ 127 * (127 + 3) := Nat.mul_le_mul h127 (by omega)
    omega
  obtain ⟨o₀, _, hnew, _⟩ := Optimizer.new_ok ho ht
  obtain ⟨draws, _, hbest⟩ := best_draws ho hnew hle
  obtain ⟨N, mk, _, es, _, _, _, _, _, _, g2, g3⟩ := document_near_best_of (m := { m with source := .doc root }) hE hsig hnof h hz hb hout rfl hl hread hs hr hw ht
    (draws := draws) fun {sp' o₁} hsp' hnew' => by
      rw [hsp] at hsp'
      cases hsp'
      rw [hnew] at hnew'
      cases hnew'
      exact hbest
  have hmk : WritesMakespan E { m with source := .doc root, draws := draws } o (a.output.getD "schedule.json") mk := ⟨N, es, g3⟩
  refine ⟨draws, mk, hmk, abs_le.2 ⟨?_, ?_⟩⟩
  · have := low _ _ hmk
    linarith
  · obtain ⟨_, _, _, a1, a2⟩ := hV.reached
    have := g2 _ _ _ _ a1 a2
    linarith

theorem order_inRange (h : Reordered root root') (hc : IsConfiguration root) (hr : Doc.InRange rf root) : Doc.InRange rf root' := by
  have hc' := h.isConfiguration hc
  refine ⟨(agents_length h.symm hc').trans hr.agents, fun q hq lo hi hd => ?_, fun w hw x y hp => ?_⟩
  · obtain ⟨q', hq', hrr⟩ := task_moved h.symm hc' hq
    exact hr.durations q' hq' lo hi (hrr.duration hd)
  · obtain ⟨w', hw', hs'⟩ := agent_moved h.symm hc' hw
    exact hr.performance w' hw' x y (hs'.2.performance hp)

theorem same_inRange (h : SameConstraints root root') (hr : Doc.InRange rf root) : Doc.InRange rf root' := by
  refine ⟨by rw [h.agents]; exact hr.agents, fun q' hq' lo hi hd => ?_, by rw [h.agents]; exact hr.performance⟩
  obtain ⟨k, hk⟩ := List.mem_iff_getElem?.1 hq'
  obtain ⟨q, hq, hn⟩ := same_task (same_symm h) hk
  exact hr.durations q (List.mem_of_getElem? hq) lo hi ((same_duration hn lo hi).1 hd)

/-- C109 in single precision. There is a time, the least any plan of either document takes, that the program can write for both up to rounding, and with no random
numbers does it write less. -/
theorem order_float (hcmd : FloatCommand E m o read isFile terminal a) (hl : load m.readFloat root = ok p)
    (hs : Schedulable m.readFloat root 2 (2 ^ 30)) (hr : Doc.InRange m.readFloat root)
    (ho : Reordered root root') :
    ∃ V : K, ∀ r, r = root ∨ r = root' → IsBestEnd m.readFloat r V ∧ WritesAbout E m o (a.output.getD "schedule.json") r V := by
  have hc : IsConfiguration root := by
    by_contra hc
    obtain ⟨_, e⟩ := schema_error_iff (rf := m.readFloat) |>.2 hc
    rw [hl] at e
    cases e
  obtain ⟨p', hl'⟩ := (order_loads ho).1 ⟨p, hl⟩
  obtain ⟨V, hV⟩ := best_end (unrounded_exact E) hl (schedulable_sound hl hs).1
  have hV' := order_end ho hc hV
  refine ⟨V, ?_⟩
  rintro r (rfl | rfl)
  · exact ⟨hV, writes_about hcmd hl hs hr hV⟩
  · exact ⟨hV', writes_about hcmd hl' (order_schedulable ho hc hs) (order_inRange ho hc hr) hV'⟩

/-- C116 in single precision -/
theorem implied_float (hcmd : FloatCommand E m o read isFile terminal a) (hl : load m.readFloat root = ok p) (hl' : load m.readFloat root' = ok p')
    (hs : Schedulable m.readFloat root 2 (2 ^ 30)) (hr : Doc.InRange m.readFloat root)
    (hc : SameConstraints root root') :
    ∃ V : K, ∀ r, r = root ∨ r = root' → IsBestEnd m.readFloat r V ∧ WritesAbout E m o (a.output.getD "schedule.json") r V := by
  obtain ⟨V, hV⟩ := best_end (unrounded_exact E) hl (schedulable_sound hl hs).1
  have hV' := implied_end hl hl' hc hV
  refine ⟨V, ?_⟩
  rintro r (rfl | rfl)
  · exact ⟨hV, writes_about hcmd hl hs hr hV⟩
  · exact ⟨hV', writes_about hcmd hl' (same_schedulable hc hs) (same_inRange hc hr) hV'⟩

/-- C96 in single precision: with less to do, or more to do it with, the least time any plan takes is no longer, and the program can write it up to 0.0061 % and a second. -/
theorem help_float (hcmd : FloatCommand E m o read isFile terminal a) (hl : load m.readFloat root = ok p) (hl' : load m.readFloat root' = ok p')
    (hs : Schedulable m.readFloat root 2 (2 ^ 30)) (hs' : Schedulable m.readFloat root' 2 (2 ^ 30))
    (hr : Doc.InRange m.readFloat root) (hr' : Doc.InRange m.readFloat root') {f g : Nat → Nat} (he : Eases m.readFloat root root' f g) :
    ∃ V V' : K, V' ≤ V ∧ IsBestEnd m.readFloat root V ∧ IsBestEnd m.readFloat root' V' ∧
      WritesAbout E m o (a.output.getD "schedule.json") root V ∧ WritesAbout E m o (a.output.getD "schedule.json") root' V' := by
  obtain ⟨V, hV⟩ := best_end (unrounded_exact E) hl (schedulable_sound hl hs).1
  obtain ⟨V', hV'⟩ := best_end (unrounded_exact E) hl' (schedulable_sound hl' hs').1
  exact ⟨V, V', eased_end he hV hV', hV, hV', writes_about hcmd hl hs hr hV, writes_about hcmd hl' hs' hr' hV'⟩

/-- C115 in single precision, for every factor -/
theorem pace_float (hcmd : FloatCommand E m o read isFile terminal a) (hl : load m.readFloat root = ok p) {c : ℚ} (hc : 0 < c)
    (hl' : load m.readFloat root' = ok (faster c p)) (hs : Schedulable m.readFloat root 2 (2 ^ 30)) (hs' : Schedulable m.readFloat root' 2 (2 ^ 30))
    (hr : Doc.InRange m.readFloat root) (hr' : Doc.InRange m.readFloat root') :
    ∃ V : K, IsBestEnd m.readFloat root V ∧ IsBestEnd m.readFloat root' (V / c) ∧
      WritesAbout E m o (a.output.getD "schedule.json") root V ∧ WritesAbout E m o (a.output.getD "schedule.json") root' (V / c) := by
  have hp := (schedulable_sound hl hs).1
  obtain ⟨V, hV⟩ := best_end (unrounded_exact E) hl hp
  have hV' := pace_end (unrounded_exact E) hc hl hl' hp hV
  exact ⟨V, hV, hV', writes_about hcmd hl hs hr hV, writes_about hcmd hl' hs' hr' hV'⟩

/-- C117 in single precision -/
theorem teams_float (hcmd : FloatCommand E m o read isFile terminal a) (hl : load m.readFloat root = ok p) (hl₁ : load m.readFloat part₁ = ok p₁)
    (hl₂ : load m.readFloat part₂ = ok p₂) (hs : Schedulable m.readFloat root 2 (2 ^ 30)) (hs₁ : Schedulable m.readFloat part₁ 2 (2 ^ 30))
    (hs₂ : Schedulable m.readFloat part₂ 2 (2 ^ 30)) (hr : Doc.InRange m.readFloat root) (hr₁ : Doc.InRange m.readFloat part₁)
    (hr₂ : Doc.InRange m.readFloat part₂) {f₁ g₁ f₂ g₂ : Nat → Nat} (hteams : TwoTeams m.readFloat root part₁ part₂ f₁ g₁ f₂ g₂) :
    ∃ V₁ V₂ : K, ∀ r V, (r = part₁ ∧ V = V₁ ∨ r = part₂ ∧ V = V₂ ∨ r = root ∧ V = max V₁ V₂) →
      IsBestEnd m.readFloat r V ∧ WritesAbout E m o (a.output.getD "schedule.json") r V := by
  obtain ⟨V₁, h₁⟩ := best_end (unrounded_exact E) hl₁ (schedulable_sound hl₁ hs₁).1
  obtain ⟨V₂, h₂⟩ := best_end (unrounded_exact E) hl₂ (schedulable_sound hl₂ hs₂).1
  have h := teams_end hteams h₁ h₂
  refine ⟨V₁, V₂, ?_⟩
  rintro r V (⟨rfl, rfl⟩ | ⟨rfl, rfl⟩ | ⟨rfl, rfl⟩)
  · exact ⟨h₁, writes_about hcmd hl₁ hs₁ hr₁ h₁⟩
  · exact ⟨h₂, writes_about hcmd hl₂ hs₂ hr₂ h₂⟩
  · exact ⟨h, writes_about hcmd hl hs hr h⟩

/-- C118 in single precision, enough agents -/
theorem enough_agents_float (hcmd : FloatCommand E m o read isFile terminal a) (hl : load m.readFloat root = ok p)
    (hs : Schedulable m.readFloat root 2 (2 ^ 30)) (hr : Doc.InRange m.readFloat root) {own : Nat → Nat} {x : Nat → ℚ}
    (hinj : ∀ k < (tasks root).length, ∀ l < (tasks root).length, own k = own l → k = l)
    (hown : ∀ (k : Nat) q, (tasks root)[k]? = some q → ∃ w, (agents root)[own k]? = some w ∧ MayDo w q.2 ∧ Takes m.readFloat w q.2 (x k))
    (hfast : ∀ (k : Nat) q w y, (tasks root)[k]? = some q → w ∈ agents root → MayDo w q.2 → Takes m.readFloat w q.2 y → x k ≤ y) :
    ∃ chain : List Nat, IsTaskChain root chain ∧ (∀ chain', IsTaskChain root chain' → (chain'.map x).sum ≤ (chain.map x).sum) ∧
      WritesAbout E m o (a.output.getD "schedule.json") root (((chain.map x).sum : ℚ) : K) := by
  obtain ⟨chain, h1, h2, h3⟩ := enough_end (K := K) hl hinj hown hfast
  exact ⟨chain, h1, h2, writes_about hcmd hl hs hr h3⟩

/-- C118 in single precision, one agent. Whatever the random numbers are, the makespan is the sum of all durations, divided by the agent's performance, up to 0.0061 % and a second. -/
theorem one_agent_float (hE : E.IsFloat) (hsig : SignsAgree read)
    (hnof : isFile "" = false) (h : parse E read isFile terminal .schedule a = .accepted o)
    (hz : ∀ t, a.restartPeriod = some t → ¬ LeadingZero t)
    (hb : ∀ t q, a.betaScale = some t → read t = some (.fin q) → ModerateBeta E q)
    (hout : a.output ≠ some "") (hd : m.source = .doc root) (hl : load m.readFloat root = ok p)
    (hread : ∀ s (q : ℚ), m.readFloat s = some (.fin q) → E.rnd (q : K) = q)
    (hs : Schedulable m.readFloat root 2 (2 ^ 30)) (hr : Doc.InRange m.readFloat root)
    (hw : CanWrite m o) (ht : 0 < m.threads)
    {w : Yaml × Yaml} (hone : agents root = [w]) {slow fast : ℚ} (hperf : Performance m.readFloat w.2 (.fin slow) (.fin fast))
    {ds : List Nat} (hds : List.Forall₂ IsMean (tasks root) ds) :
    ∃ mk : Int, CloseTo mk ((ds.sum : K) / (((slow + fast) / 2 : ℚ) : K)) ∧ WritesMakespan E m o (a.output.getD "schedule.json") mk := by
  obtain ⟨mk, V, h1, h2, _, _, hwork, hall⟩ := document_makespan_bounds_float hE hsig hnof h hz hb hout hd hl hread hs hr hw ht
  exact ⟨mk, one_agent_end hl hone hperf hds hwork hall ▸ h2, h1⟩

/-! ### Examples -/

/-- The loaded project tells whether there are extreme numbers. -/
theorem document_inRange (hl : load rf root = ok p) (hr : p.InRange) : Doc.InRange rf root := by
  obtain ⟨hdv, hpv⟩ := document_values hl
  have hl := (load_faithful hl).2
  refine ⟨by rw [← hl.agents_length]; exact hr.agents, ?_, ?_⟩
  · intro q hq lo hi hd
    obtain ⟨k, hk, rfl⟩ := List.mem_iff_getElem.1 hq
    have hk' : k < p.tasks.length := by rw [hl.tasks_length]; exact hk
    have := (hdv k _ _ lo hi (List.getElem?_eq_getElem hk) (List.getElem?_eq_getElem hk') hd).2
    have h2 := hr.durations _ (List.getElem_mem hk')
    rw [this] at h2
    exact_mod_cast h2
  · intro w hw x y hpf v hv
    obtain ⟨k, hk, rfl⟩ := List.mem_iff_getElem.1 hw
    have hk' : k < p.agents.length := by rw [hl.agents_length]; exact hk
    obtain ⟨h1, h2⟩ := hpv k _ _ x y (List.getElem?_eq_getElem hk) (List.getElem?_eq_getElem hk') hpf
    exact hr.performance _ (List.getElem_mem hk') v (by rw [h1, h2]; exact hv)

/-- `angonoka schedule plan.yml` -/
theorem example_command : ∃ o, FloatCommand ratFloat (exampleMachine fun _ _ _ => ⟨0, 0, 0, 0⟩) o exampleRead (fun f => f == "plan.yml") true { input := "plan.yml" } := by
  have hpar := options_as_given (E := ratFloat) (isFile := fun f => f == "plan.yml") (terminal := true) (c := .schedule)
    (a := { input := "plan.yml" }) exampleRead_naturals (by decide) (batch := 10000) (idle := 100000) (window := 100) (period := 256)
    (Or.inl ⟨rfl, rfl⟩) (Or.inl ⟨rfl, rfl⟩) (Or.inl ⟨rfl, rfl⟩) (Or.inl ⟨rfl, rfl⟩)
    (Or.inl ⟨rfl, rfl⟩) (Or.inl ⟨rfl, rfl⟩) (Or.inl ⟨rfl, rfl⟩)
  exact ⟨_, ratFloat_isFloat, exampleRead_signs, by decide, hpar, by simp, by simp, by simp, sample_reads_floats _, example_canWrite, by exact (by decide : 0 < 4),
    by change 8255 ≤ 100000; decide⟩

/-- C109 in single precision for the example -/
example : ∃ (o : Cli.Options ℚ) (V : ℚ), ∀ r, r = Sample.plan ∨ r = Sample.shuffled →
    WritesAbout ratFloat (exampleMachine fun _ _ _ => ⟨0, 0, 0, 0⟩) o "schedule.json" r V := by
  obtain ⟨o, h⟩ := example_command
  obtain ⟨V, hV⟩ := order_float h Sample.plan_loads plan_schedulable plan_document_inRange Sample.shuffled_reordered
  exact ⟨o, V, fun r hr => (hV r hr).2⟩

/-- C116 in single precision for the example -/
example : ∃ (o : Cli.Options ℚ) (V : ℚ), ∀ r, r = Site.short ∨ r = Site.long →
    WritesAbout ratFloat (exampleMachine fun _ _ _ => ⟨0, 0, 0, 0⟩) o "schedule.json" r V := by
  obtain ⟨o, h⟩ := example_command
  have hrange : (Site.project [2] [1]).InRange := ⟨by decide, by decide, by decide, by
    intro a ha q hq
    simp only [Site.project, List.mem_cons, List.not_mem_nil, or_false] at ha
    rcases ha with rfl | rfl <;> rcases hq with hq | hq <;> cases hq <;> norm_num⟩
  have htakes : (Site.project [2] [1]).TakesBetween 2 (2 ^ 30) := by
    refine ⟨⟨_, List.mem_cons_self, ?_⟩, ?_⟩ <;>
    · intro a ha q hq
      simp only [Site.project, List.mem_cons, List.not_mem_nil, or_false] at ha
      rcases ha with rfl | rfl <;> (cases hq; decide +kernel)
  obtain ⟨V, hV⟩ := implied_float h Site.short_loads Site.long_loads (sound_schedulable Site.short_loads (Site.fine Site.short_loads).1 htakes)
    (document_inRange Site.short_loads hrange) Site.same_documents
  exact ⟨o, V, fun r hr => (hV r hr).2⟩

/-- C96 in single precision for the example -/
example : ∃ (o : Cli.Options ℚ) (V V' : ℚ), V' ≤ V ∧
    WritesAbout ratFloat (exampleMachine fun _ _ _ => ⟨0, 0, 0, 0⟩) o "schedule.json" Sample.plan V ∧
    WritesAbout ratFloat (exampleMachine fun _ _ _ => ⟨0, 0, 0, 0⟩) o "schedule.json" Sample.helped V' := by
  obtain ⟨o, h⟩ := example_command
  have hrange : Sample.helpedProject.InRange := ⟨by decide, by decide, by decide, by
    intro a ha q hq
    simp only [Sample.helpedProject, List.mem_cons, List.not_mem_nil, or_false] at ha
    rcases ha with rfl | rfl | rfl <;> rcases hq with hq | hq <;> cases hq <;> norm_num⟩
  have htakes : Sample.helpedProject.TakesBetween 2 (2 ^ 30) := by
    refine ⟨⟨_, List.mem_cons_self, ?_⟩, ?_⟩ <;>
    · intro a ha q hq
      simp only [Sample.helpedProject, List.mem_cons, List.not_mem_nil, or_false] at ha
      rcases ha with rfl | rfl | rfl <;> (cases hq; decide +kernel)
  obtain ⟨V, V', h1, _, _, h2, h3⟩ := help_float h Sample.plan_loads Sample.helped_loads plan_schedulable
    (sound_schedulable Sample.helped_loads Sample.helped_sound htakes) plan_document_inRange (document_inRange Sample.helped_loads hrange) Sample.helped_eases
  exact ⟨o, V, V', h1, h2, h3⟩

/-- C117 and C118 in single precision for the example: the carpenter alone, the electrician alone, and the house -/
example : ∃ (o : Cli.Options ℚ) (V₁ V₂ : ℚ), ∀ r V, (r = Crew.wood ∧ V = V₁ ∨ r = Crew.power ∧ V = V₂ ∨ r = Crew.house ∧ V = max V₁ V₂) →
    WritesAbout ratFloat (exampleMachine fun _ _ _ => ⟨0, 0, 0, 0⟩) o "schedule.json" r V := by
  obtain ⟨o, h⟩ := example_command
  have r0 : Crew.houseProject.InRange := ⟨by decide, by decide, by decide, by
    intro a ha q hq
    simp only [Crew.houseProject, List.mem_cons, List.not_mem_nil, or_false] at ha
    rcases ha with rfl | rfl <;> rcases hq with hq | hq <;> cases hq <;> norm_num⟩
  have r1 : Crew.woodProject.InRange := ⟨by decide, by decide, by decide, by
    intro a ha q hq
    simp only [Crew.woodProject, List.mem_cons, List.not_mem_nil, or_false] at ha
    rcases ha with rfl; rcases hq with hq | hq <;> cases hq <;> norm_num⟩
  have r2 : Crew.powerProject.InRange := ⟨by decide, by decide, by decide, by
    intro a ha q hq
    simp only [Crew.powerProject, List.mem_cons, List.not_mem_nil, or_false] at ha
    rcases ha with rfl; rcases hq with hq | hq <;> cases hq <;> norm_num⟩
  have t0 : Crew.houseProject.TakesBetween 2 (2 ^ 30) := by
    refine ⟨⟨_, List.mem_cons_self, ?_⟩, ?_⟩ <;>
    · intro a ha q hq
      simp only [Crew.houseProject, List.mem_cons, List.not_mem_nil, or_false] at ha
      rcases ha with rfl | rfl <;> (cases hq; decide +kernel)
  have t1 : Crew.woodProject.TakesBetween 2 (2 ^ 30) := by
    refine ⟨⟨_, List.mem_cons_self, ?_⟩, ?_⟩ <;>
    · intro a ha q hq
      simp only [Crew.woodProject, List.mem_cons, List.not_mem_nil, or_false] at ha
      rcases ha with rfl; (cases hq; decide +kernel)
  have t2 : Crew.powerProject.TakesBetween 2 (2 ^ 30) := by
    refine ⟨⟨_, List.mem_cons_self, ?_⟩, ?_⟩ <;>
    · intro a ha q hq
      simp only [Crew.powerProject, List.mem_cons, List.not_mem_nil, or_false] at ha
      rcases ha with rfl; (cases hq; decide +kernel)
  obtain ⟨V₁, V₂, hV⟩ := teams_float h Crew.house_loads Crew.wood_loads Crew.power_loads (sound_schedulable Crew.house_loads Crew.house_fine.1 t0)
    (sound_schedulable Crew.wood_loads Crew.wood_fine.1 t1) (sound_schedulable Crew.power_loads Crew.power_fine.1 t2)
    (document_inRange Crew.house_loads r0) (document_inRange Crew.wood_loads r1) (document_inRange Crew.power_loads r2) Crew.crew
  exact ⟨o, V₁, V₂, fun r V hr => (hV r V hr).2⟩

/-- C118 in single precision for the carpenter, who works alone: three hours, up to a second -/
example (draws : Nat → Nat → Nat → Draws ℚ) : ∃ (o : Cli.Options ℚ) (mk : Int), |(mk : ℚ) - 10800| ≤ 10800 / 2 ^ 14 + 1 ∧
    WritesMakespan ratFloat { exampleMachine draws with source := .doc Crew.wood } o "schedule.json" mk := by
  have hpar := options_as_given (E := ratFloat) (isFile := fun f => f == "plan.yml") (terminal := true) (c := .schedule)
    (a := { input := "plan.yml" }) exampleRead_naturals (by decide) (batch := 10000) (idle := 100000) (window := 100) (period := 256)
    (Or.inl ⟨rfl, rfl⟩) (Or.inl ⟨rfl, rfl⟩) (Or.inl ⟨rfl, rfl⟩) (Or.inl ⟨rfl, rfl⟩)
    (Or.inl ⟨rfl, rfl⟩) (Or.inl ⟨rfl, rfl⟩) (Or.inl ⟨rfl, rfl⟩)
  have r1 : Crew.woodProject.InRange := ⟨by decide, by decide, by decide, by
    intro a ha q hq
    simp only [Crew.woodProject, List.mem_cons, List.not_mem_nil, or_false] at ha
    rcases ha with rfl; rcases hq with hq | hq <;> cases hq <;> norm_num⟩
  have t1 : Crew.woodProject.TakesBetween 2 (2 ^ 30) := by
    refine ⟨⟨_, List.mem_cons_self, ?_⟩, ?_⟩ <;>
    · intro a ha q hq
      simp only [Crew.woodProject, List.mem_cons, List.not_mem_nil, or_false] at ha
      rcases ha with rfl; (cases hq; decide +kernel)
  obtain ⟨mk, h1, h2⟩ := one_agent_float (m := { exampleMachine draws with source := .doc Crew.wood }) (root := Crew.wood) (w := Crew.ann) (slow := 1) (fast := 1)
    (ds := [7200, 3600]) ratFloat_isFloat exampleRead_signs (by decide) hpar (by simp) (by simp) (by simp) rfl Crew.wood_loads (sample_reads_floats draws)
    (sound_schedulable Crew.wood_loads Crew.wood_fine.1 t1) (document_inRange Crew.wood_loads r1)
    (example_canWrite (draws := draws)) (by exact (by decide : 0 < 4)) rfl
    (.inl ⟨by simp [Doc.Field, Crew.ann, Sample.obj, Sample.str], rfl, rfl⟩) (by
      rw [Crew.wood_tasks]
      refine .cons (Crew.mean "2h" ?_ ?_) (.cons (Crew.mean "1h" ?_ ?_) .nil)
      · simp [Doc.Field, Crew.frame, Sample.obj, Sample.str]
      · decide +kernel
      · simp [Doc.Field, Crew.roof, Sample.obj, Sample.str]
      · decide +kernel)
  refine ⟨_, mk, ?_, h2⟩
  unfold CloseTo at h1
  norm_num at h1 ⊢
  exact h1

/-- C118 in single precision for the party -/
example : ∃ (o : Cli.Options ℚ) (chain : List Nat), IsTaskChain Crew.party chain ∧
    (∀ chain', IsTaskChain Crew.party chain' → (chain'.map Crew.partyTime).sum ≤ (chain.map Crew.partyTime).sum) ∧
    WritesAbout ratFloat (exampleMachine fun _ _ _ => ⟨0, 0, 0, 0⟩) o "schedule.json" Crew.party (((chain.map Crew.partyTime).sum : ℚ) : ℚ) := by
  obtain ⟨o, h⟩ := example_command
  have r1 : Crew.partyProject.InRange := ⟨by decide, by decide, by decide, by
    intro a ha q hq
    simp only [Crew.partyProject, List.mem_cons, List.not_mem_nil, or_false] at ha
    rcases ha with rfl | rfl | rfl <;> rcases hq with hq | hq <;> cases hq <;> norm_num⟩
  have t1 : Crew.partyProject.TakesBetween 2 (2 ^ 30) := by
    refine ⟨⟨_, List.mem_cons_self, ?_⟩, ?_⟩ <;>
    · intro a ha q hq
      simp only [Crew.partyProject, List.mem_cons, List.not_mem_nil, or_false] at ha
      rcases ha with rfl | rfl | rfl <;> (cases hq; decide +kernel)
  have hlen : (tasks Crew.party).length = 3 := by rw [Crew.party_tasks]; rfl
  obtain ⟨chain, hc⟩ := enough_agents_float (own := id) (x := Crew.partyTime) h Crew.party_loads (sound_schedulable Crew.party_loads Crew.party_fine.1 t1)
    (document_inRange Crew.party_loads r1) (fun _ _ _ _ e => e)
    (fun k q hq => by
      have hk : k < (agents Crew.party).length := by
        have := (List.getElem?_eq_some_iff.1 hq).1
        rw [hlen] at this
        exact this
      obtain ⟨h1, h2⟩ := Crew.party_takes k q hq _ (List.getElem_mem hk)
      exact ⟨_, List.getElem?_eq_getElem hk, h1, (h2 _).2 rfl⟩)
    (fun k q w y hq hw _ hy => (((Crew.party_takes k q hq w hw).2 y).1 hy).ge)
  exact ⟨o, chain, hc⟩

/-- C115 in single precision for the example, with everybody twice as fast -/
example : ∃ (o : Cli.Options ℚ) (V : ℚ),
    WritesAbout ratFloat { exampleMachine (fun _ _ _ => ⟨0, 0, 0, 0⟩) with readFloat := Sample.digit } o "schedule.json" Sample.plan V ∧
    WritesAbout ratFloat { exampleMachine (fun _ _ _ => ⟨0, 0, 0, 0⟩) with readFloat := Sample.digit } o "schedule.json" Sample.fastPlan (V / 2) := by
  obtain ⟨o, h⟩ := example_command
  have hread : ∀ s (q : ℚ), Sample.digit s = some (.fin q) → ratFloat.rnd (q : ℚ) = q := by
    intro s q hq
    unfold Sample.digit at hq
    split at hq
    · cases hq
      decide +kernel
    · split at hq
      · cases hq
        decide +kernel
      · exact sample_reads_floats (fun _ _ _ => ⟨0, 0, 0, 0⟩) s q hq
  have h' : FloatCommand ratFloat { exampleMachine (fun _ _ _ => ⟨0, 0, 0, 0⟩) with readFloat := Sample.digit } o exampleRead (fun f => f == "plan.yml") true
      { input := "plan.yml" } := by
    obtain ⟨h1, h2, h3, h4, h5, h6, h7, _, h9, h10, h11⟩ := h
    exact ⟨h1, h2, h3, h4, h5, h6, h7, hread, h9, h10, h11⟩
  have r1 : (faster (2 : Nat) Sample.project).InRange := ⟨by decide, by decide, by decide, by
    intro a ha q hq
    simp only [Sample.project, faster, List.map_cons, List.map_nil, List.mem_cons, List.not_mem_nil, or_false] at ha
    rcases ha with rfl | rfl <;> rcases hq with hq | hq <;> cases hq <;> norm_num⟩
  have t1 : (faster (2 : Nat) Sample.project).TakesBetween 2 (2 ^ 30) := by
    refine ⟨⟨_, List.mem_cons_self, ?_⟩, ?_⟩ <;>
    · intro a ha q hq
      simp only [Sample.project, faster, List.map_cons, List.map_nil, List.mem_cons, List.not_mem_nil, or_false] at ha
      rcases ha with rfl | rfl <;> (cases hq; decide +kernel)
  obtain ⟨V, _, _, h1, h2⟩ := pace_float (root' := Sample.fastPlan) h' Sample.plan_read (c := (2 : Nat)) (by norm_num) Sample.fastPlan_loads
    (sound_schedulable Sample.plan_read plan_sound plan_takes) (sound_schedulable Sample.fastPlan_loads (faster_sound (by norm_num) plan_sound) t1)
    (document_inRange Sample.plan_read plan_inRange) (document_inRange Sample.fastPlan_loads r1)
  exact ⟨o, V, h1, by simpa using h2⟩

end Angonoka.Props
