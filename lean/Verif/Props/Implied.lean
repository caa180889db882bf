import Verif.Proof.Implied
import Verif.Props.Pace

/-!
# C116: dependencies that follow from others
-/

set_option linter.unusedSectionVars false

namespace Angonoka.Props
open Outcome Stun Cli Doc CommandLine

section
variable {K : Type} [_root_.Field K] [LinearOrder K] [IsStrictOrderedRing K] [FloorRing K]
  {E : FloatEnv K} {p p' : ScheduleParams K} {s : List Item}

/-! ### Schedules and the search for one -/

/-- C116, schedules: the valid schedules are the same, and estimators return the same makespan for each, with any rounding. -/
theorem implied_schedules (hw : WellFormed p) (hw' : WellFormed p') (h : p.SameConstraints p') :
    (ValidSchedule p' s ↔ ValidSchedule p s) ∧ (ValidSchedule p s → ∀ {m m' : Makespan K}, EstimatorFor E p m → EstimatorFor E p' m' →
      ∃ v n n', m.call E s = ok (v, n) ∧ m'.call E s = ok (v, n')) := by
  refine ⟨⟨h.symm.valid, h.valid⟩, fun hs m m' hm hm' => ?_⟩
  obtain ⟨n, h1, -⟩ := call_valid (E := E) hw hm.shape hs
  obtain ⟨n', h2, -⟩ := call_valid (E := E) hw' hm'.shape (h.valid hs)
  rw [h.value hw hw' hs] at h2
  exact ⟨_, n, n', h1, h2⟩

variable {t t' : Tunneling K} {m m' n : Makespan K} {temp temp' : Temperature K} {d : Draws K}

theorem estimator_exists (hw : WellFormed p) : ∃ m : Makespan K, EstimatorFor E p m := by
  have h1 : p.agentPerformance ≠ [] := by
    obtain ⟨a, ha⟩ := List.exists_mem_of_ne_nil _ (hw.avail_ne 0 hw.tasks_pos)
    have := hw.avail_lt 0 hw.tasks_pos a ha
    intro h
    simp [ScheduleParams.agentCount, h] at this
  have h2 : p.taskDuration ≠ [] := by
    intro h
    have := hw.tasks_pos
    simp [ScheduleParams.taskCount, h] at this
  refine ⟨_, .new (m := { params := p, taskDone := List.replicate p.taskDuration.length 0, workDone := List.replicate p.agentPerformance.length 0 }) ?_⟩
  unfold Makespan.new
  rw [expects_true (by simpa using h1), ok_bind, expects_true (by simpa using h2), ok_bind]
  rfl

/-- C116, a reset of the search to a valid schedule has the same result. -/
theorem implied_reset (hw : WellFormed p) (hw' : WellFormed p') (h : p.SameConstraints p') (hg : 0 ≤ t.gamma) (hs : ValidSchedule p s)
    (hm : EstimatorFor E p m) (hm' : EstimatorFor E p' m') (hr : tunnelingReset E m t s = ok (n, t')) :
    ∃ n', tunnelingReset E m' t s = ok (n', t') := by
  obtain ⟨m₁, t₁, h1, -, hi, -⟩ := tunnelingReset_ok (E := E) hw hg hm.shape hs
  rw [hr] at h1
  cases h1
  unfold tunnelingReset initEnergies at *
  obtain ⟨_, a1, hr⟩ := bind_eq_ok.1 hr
  obtain ⟨t₁, a2, hr⟩ := bind_eq_ok.1 hr
  obtain ⟨t₂, a3, hr⟩ := bind_eq_ok.1 hr
  obtain ⟨_, a4, hr⟩ := bind_eq_ok.1 hr
  obtain ⟨⟨e, k⟩, a5, hr⟩ := bind_eq_ok.1 hr
  dsimp only at hr
  obtain ⟨v, a6, hr⟩ := bind_eq_ok.1 hr
  obtain ⟨_, a7, hr⟩ := bind_eq_ok.1 hr
  obtain ⟨_, a8, hr⟩ := bind_eq_ok.1 hr
  obtain ⟨_, a9, hr⟩ := bind_eq_ok.1 hr
  have e1 : _ = t' := congrArg Prod.snd (ok.inj hr)
  have hv : ValidSchedule p t₂.currentSchedule := by
    have := hi.curValid
    rw [← e1] at this
    exact this
  obtain ⟨v', _, n', c1, c2⟩ := (implied_schedules (E := E) hw hw' h).2 hv hm hm'
  rw [a5] at c1
  obtain ⟨rfl, -⟩ := Prod.mk.inj (ok.inj c1)
  rw [a1, ok_bind, a2, ok_bind, a3, ok_bind, a4, ok_bind, c2, ok_bind]
  dsimp only
  rw [a6, ok_bind, a7, ok_bind, a8, ok_bind, a9, ok_bind]
  exact ⟨n', congrArg (fun x => ok (n', x)) e1⟩

/-- C116, the search: from the same state and with the same random numbers, it goes on to the same state. -/
theorem implied_update (hw : WellFormed p) (hw' : WellFormed p') (h : p.SameConstraints p') (ht : TunnelingFor E p t)
    (hm : EstimatorFor E p m) (hm' : EstimatorFor E p' m') (hu : tunnelingUpdate E p d m temp t = ok (n, temp', t')) :
    ∃ n', tunnelingUpdate E p' d m' temp t = ok (n', temp', t') :=
  h.update hw hw' (ht.inv hw) hm.shape hm'.shape hu

theorem implied_tunneling (hw : WellFormed p) (hw' : WellFormed p') (h : p.SameConstraints p') (ht : TunnelingFor E p t) : TunnelingFor E p' t := by
  obtain ⟨k, hk⟩ := estimator_exists (E := E) hw'
  induction ht with
  | @new m m' gamma s t hm hg hs hn =>
    unfold Tunneling.new at hn
    obtain ⟨_, a1, hn⟩ := bind_eq_ok.1 hn
    obtain ⟨n', h1⟩ := implied_reset hw hw' h (t := Tunneling.blank gamma) hg hs hm hk hn
    refine .new hk hg (h.valid hs) (m' := n') ?_
    unfold Tunneling.new
    rw [a1, ok_bind, h1]
  | update ht he hu ih =>
    obtain ⟨n', h1⟩ := implied_update hw hw' h ht he.estimator hk hu
    exact .update ih ⟨hk, he.temperature⟩ h1
  | reset ht hm hs hr ih =>
    obtain ⟨n', h1⟩ := implied_reset hw hw' h (ht.inv hw).gamma0 hs hm hk hr
    exact .reset ih hk (h.valid hs) h1
  | copy _ hc ih => exact .copy ih hc
  | setGamma _ hg ih => exact .setGamma ih hg

/-- C116, the search: the same states can be reached, and the same sequences of schedules are tried on the way from one state to another. -/
theorem implied_search (hw : WellFormed p) (hw' : WellFormed p') (h : p.SameConstraints p') :
    (TunnelingFor E p' t ↔ TunnelingFor E p t) ∧
    ∀ {l : List (List Item)}, TunnelingFor E p t → (Updates E p' t l t' ↔ Updates E p t l t') := by
  refine ⟨⟨implied_tunneling hw' hw h.symm, implied_tunneling hw hw' h⟩, fun {l} ht => ?_⟩
  have one : ∀ {q q' : ScheduleParams K}, WellFormed q → WellFormed q' → q.SameConstraints q' → ∀ {t t' : Tunneling K}, TunnelingFor E q t →
      Updates E q t l t' → Updates E q' t l t' := by
    intro q q' hw hw' h t t' ht hu
    obtain ⟨k, hk⟩ := estimator_exists (E := E) hw'
    induction hu with
    | nil => exact .nil
    | cons he hs hu _ ih =>
      obtain ⟨n', h1⟩ := implied_update hw hw' h ht he.estimator hk hu
      refine .cons ⟨hk, he.temperature⟩ ?_ h1 (ih (.update ht he hu))
      rw [h.mutate hw hw' (ht.inv hw).curValid]
      exact hs
  exact ⟨one hw' hw h.symm (implied_tunneling hw hw' h ht), one hw hw' h ht⟩

end

/-! ### Projects -/

section
variable {K : Type} [_root_.Field K] [LinearOrder K] [IsStrictOrderedRing K] [FloorRing K]
  {E : FloatEnv K} {p p' : Project} {sp sp' : ScheduleParams K} {s : List Item}

theorem same_map {α : Type} {f : Task → α} (hf : ∀ t ds, f { t with dependencies := ds } = f t) {l l' : List Task}
    (h : List.Forall₂ (fun t t' => t' = { t with dependencies := t'.dependencies }) l l') : l'.map f = l.map f := by
  induction h with
  | nil => rfl
  | @cons t t' l l' e _ ih =>
    rw [List.map_cons, List.map_cons, ih, e, hf]

theorem same_eligible (t : Task) (ds : IndexSet) (i : Nat) (l : List Agent) : eligible { t with dependencies := ds } i l = eligible t i l := by
  induction l generalizing i with
  | nil => rfl
  | cons a l ih =>
    rw [eligible, eligible, ih]
    rfl

theorem needs_iff (hp : p.Sound) (hsp : toScheduleParams E p = ok sp) (i d : Nat) : sp.Needs i d ↔ p.DependsOn i d := by
  obtain ⟨g1, -, -, -, g5, -⟩ := params_faithful hp.agent_groups hp.task_groups hsp
  constructor
  · rintro ⟨h1, h2⟩
    rw [g1] at h1
    have ht : p.tasks[i]? = some p.tasks[i] := List.getElem?_eq_getElem h1
    rw [(g5 i _ ht).2.2] at h2
    exact ⟨_, ht, h2⟩
  · rintro ⟨t, ht, h2⟩
    refine ⟨?_, ?_⟩
    · rw [g1]
      exact (List.getElem?_eq_some_iff.1 ht).1
    · rw [(g5 i t ht).2.2]
      exact h2

/-- The parameters for the optimizer of projects that differ only in which dependencies are listed differ only in that. -/
theorem implied_params (hp : p.Sound) (hp' : p'.Sound) (h : p.SameConstraints p') (hsp : toScheduleParams E p = ok sp)
    (hsp' : toScheduleParams E p' = ok sp') : sp.SameConstraints sp' := by
  obtain ⟨-, -, -, h1, h2, -, h3, h4⟩ := toScheduleParams_ok hsp
  obtain ⟨-, -, -, h1', h2', -, h3', h4'⟩ := toScheduleParams_ok hsp'
  have hm : p'.tasks.map (fun t => E.ofInt t.meanDuration) = p.tasks.map fun t => E.ofInt t.meanDuration :=
    same_map (fun _ _ => rfl) h.tasks
  have he : p'.tasks.map (fun t => eligible t 0 p'.agents) = p.tasks.map fun t => eligible t 0 p.agents := by
    rw [h.agents]
    exact same_map (fun t ds => same_eligible t ds 0 _) h.tasks
  refine ⟨?_, ?_, ?_, ?_⟩
  · rw [h.agents, h1] at h1'
    exact (ok.inj h1').symm
  · rw [h4', h4, h3', h3, hm, h.agents]
  · rw [h2', h2, he]
  · have e : sp.Needs = p.DependsOn := by funext i d; exact propext (needs_iff hp hsp i d)
    have e' : sp'.Needs = p'.DependsOn := by funext i d; exact propext (needs_iff hp' hsp' i d)
    rw [e, e']
    exact h.deps

/-- C116, a simulation: with the same schedule and random numbers it takes the same time and uses the same random numbers, with any rounding. -/
theorem implied_simulation (hp : p.Sound) (hp' : p'.Sound) (hf : p.FloatsIn E) (h : p.SameConstraints p') (hsp : toScheduleParams E p = ok sp)
    (hs : ValidSchedule sp s) {sim sim' : Simulation K} (hsim : SimulationFor E p sim) (hsim' : SimulationFor E p' sim') {zs rest : List K} {v : Int}
    {t : Simulation K} (hc : sim.call E s zs = ok (some (v, rest, t))) : ∃ t', sim'.call E s zs = ok (some (v, rest, t')) := by
  have hf' : p'.FloatsIn E := by
    intro a ha
    rw [h.agents] at ha
    exact hf a ha
  obtain ⟨sp₀, hsp₀, hw⟩ := params_wellFormed (E := E) hp hf
  obtain rfl : sp₀ = sp := ok.inj (hsp₀.symm.trans hsp)
  obtain ⟨sp', hsp', hw'⟩ := params_wellFormed (E := E) hp' hf'
  have hsc := implied_params hp hp' h hsp hsp'
  have hs' := hsc.valid hs
  obtain ⟨bs, -, hb⟩ := performanceBounds_ok (K := K) hp.performance
  obtain ⟨perf, dur, mid, h1, h2, rfl⟩ := call_samples hp hf hsp hs hb hsim hc
  obtain ⟨g1, g2, -⟩ := params_faithful hp.agent_groups hp.task_groups hsp
  obtain ⟨g1', g2', -, -, g5, -⟩ := params_faithful hp'.agent_groups hp'.task_groups hsp'
  obtain ⟨bs', hb', hall⟩ := simCall_ok (E := E) (sp := sp') (s := s) hsim'.shape hp'.performance
    hp'.durations (fun i t hi => (g5 i t hi).2.2) hp'.deps_lt (hs'.length.trans g1')
    (fun it hit => by
      have := hs'.fits hw' hit
      rw [g1', g2'] at this
      exact ⟨this.task_n, this.agent_m⟩)
  have ebs : bs = bs' := by
    have hb2 : p'.performanceBounds bs := by
      unfold Project.performanceBounds at hb ⊢
      rw [h.agents]
      exact hb
    exact bounds_unique hb2 hb'
  subst ebs
  have h2' : Samples E (p'.durationBounds E) dur mid rest := by
    have e : p'.durationBounds E = p.durationBounds E := by
      unfold Project.durationBounds
      exact same_map (fun _ _ => rfl) h.tasks
    rw [e]
    exact h2
  rcases hall zs with hn | ⟨perf', dur', zs', rest', sim2, s1, s2, hcall⟩
  · exact absurd h2' (hn.2 _ _ _ _ h1)
  obtain ⟨rfl, rfl⟩ := Samples.unique h1 s1
  obtain ⟨rfl, rfl⟩ := Samples.unique h2' s2
  refine ⟨sim2, hcall.trans ?_⟩
  have hperf := h1.pos fun b hb1 => (performanceBounds_positive hb hb1).1
  have hdur := h2.pos fun b hb1 => (durationBounds_positive hp hb1).1
  have hpl : perf.length = p.agents.length := h1.length.trans hb.length_eq.symm
  have hdl : dur.length = p.tasks.length := h2.length.trans (by simp [Project.durationBounds])
  have hw1 := sampled_wellFormed hw (hpl.trans g2.symm) (hdl.trans g1.symm) hperf hdur
  have hw2 := sampled_wellFormed hw' (perf := perf) (dur := dur) (by rw [hsc.agentCount]; exact hpl.trans g2.symm)
    (by rw [hsc.taskCount]; exact hdl.trans g1.symm) hperf hdur
  have hsc' : (sp₀.sampled perf dur).SameConstraints (sp'.sampled perf dur) := by
    have e1 : (sp₀.sampled perf dur).Needs = sp₀.Needs := by
      funext i d
      unfold ScheduleParams.Needs ScheduleParams.taskCount
      change (i < dur.length ∧ _) = _
      rw [hdl, ← g1]
      rfl
    have e2 : (sp'.sampled perf dur).Needs = sp'.Needs := by
      funext i d
      unfold ScheduleParams.Needs ScheduleParams.taskCount
      change (i < dur.length ∧ _) = _
      rw [hdl, ← g1, ← hsc.taskCount]
      rfl
    refine ⟨rfl, rfl, hsc.avail, ?_⟩
    rw [e1, e2]
    exact hsc.deps
  have hval := hsc'.value (E := E) hw1 hw2 (sampled_valid hs (hdl.trans g1.symm))
  have e1 : (sp₀.sampled perf dur).agentCount = p.agents.length := hpl
  have e2 : (sp'.sampled perf dur).agentCount = p'.agents.length := by rw [h.agents]; exact hpl
  rw [e1, e2] at hval
  rw [hval]

end

/-! ### Documents -/

section
variable {K : Type} [_root_.Field K] [LinearOrder K] [IsStrictOrderedRing K] [FloorRing K]
  {E : FloatEnv K} {p p' : Project} {rf : String → Option XFloat} {root root' : Yaml}

theorem same_symm (h : Doc.SameConstraints root root') : Doc.SameConstraints root' root :=
  ⟨h.agents.symm, (h.tasks.imp fun _ _ h key v h1 h2 => (h key v h1 h2).symm).flip, fun i d => (h.deps i d).symm⟩

section
variable {n n' : Yaml} (hn : ∀ key v, key ≠ "depends_on" → key ≠ "subtasks" → (Field n key v ↔ Field n' key v))
include hn

theorem same_group (g : String) : TaskGroup n g ↔ TaskGroup n' g := by
  unfold TaskGroup
  simp only [hn "group" _ (by decide) (by decide), hn "groups" _ (by decide) (by decide)]

theorem same_mayDo (w : Yaml × Yaml) : MayDo w n ↔ MayDo w n' := by
  unfold MayDo
  simp only [hn "agent" _ (by decide) (by decide), same_group hn]

theorem same_duration (lo hi : Nat) : Doc.Duration n lo hi ↔ Doc.Duration n' lo hi := by
  unfold Doc.Duration
  simp only [hn "duration" _ (by decide) (by decide)]

theorem same_takes (w : Yaml × Yaml) (x : ℚ) : Takes rf w n x ↔ Takes rf w n' x := by
  unfold Takes
  simp only [same_duration hn]

end

theorem same_task (h : Doc.SameConstraints root root') {k : Nat} {q : List Nat × Yaml} (hq : (tasks root)[k]? = some q) :
    ∃ q', (tasks root')[k]? = some q' ∧ ∀ key v, key ≠ "depends_on" → key ≠ "subtasks" → (Field q.2 key v ↔ Field q'.2 key v) := by
  obtain ⟨hk, rfl⟩ := List.getElem?_eq_some_iff.1 hq
  have hk' : k < (tasks root').length := by rw [← h.tasks.length_eq]; exact hk
  refine ⟨(tasks root')[k], List.getElem?_eq_getElem hk', ?_⟩
  have := List.Forall₂.get h.tasks hk hk'
  simpa using this

theorem same_plan (h : Doc.SameConstraints root root') {agent : Nat → Nat} {start finish : Nat → K}
    (hpl : Doc.Plan rf root agent start finish) (hpos : ∀ (k : Nat) q w x, (tasks root)[k]? = some q → w ∈ agents root → Takes rf w q.2 x → 0 ≤ x) :
    Doc.Plan rf root' agent start finish := by
  have hle : ∀ (k : Nat) q, (tasks root)[k]? = some q → start k ≤ finish k := by
    intro k q hq
    obtain ⟨-, w, x, hw, -, hx, e⟩ := hpl.time k q hq
    rw [e]
    have h0 : (0 : K) ≤ (x : K) := by exact_mod_cast hpos k q w x hq (List.mem_of_getElem? hw) hx
    linarith
  refine ⟨?_, ?_, ?_⟩
  · intro k q' hq'
    obtain ⟨q, hq, hn⟩ := same_task (same_symm h) hq'
    obtain ⟨h0, w, x, hw, hm, hx, e⟩ := hpl.time k q hq
    exact ⟨h0, w, x, by rw [h.agents]; exact hw, (same_mayDo hn w).2 hm, (same_takes hn w x).2 hx, e⟩
  · intro k d hd
    have ht := (h.deps k d).1 (.single hd)
    clear hd
    induction ht using Relation.TransGen.head_induction_on with
    | single hn => exact hpl.deps _ _ hn
    | @head k c hn _ ih =>
      obtain ⟨-, q, -, hq, -⟩ := id hn
      exact ih.trans ((hle c q hq).trans (hpl.deps _ _ hn))
  · rw [← h.tasks.length_eq]
    exact hpl.alone

theorem same_schedulable (h : Doc.SameConstraints root root') {a b : ℚ} (hs : Schedulable rf root a b) : Schedulable rf root' a b := by
  have task : ∀ {q'}, q' ∈ tasks root' → ∃ q ∈ tasks root, ∀ key v, key ≠ "depends_on" → key ≠ "subtasks" → (Field q'.2 key v ↔ Field q.2 key v) := by
    intro q' hq'
    obtain ⟨k, hk⟩ := List.mem_iff_getElem?.1 hq'
    obtain ⟨q, hq, hn⟩ := same_task (same_symm h) hk
    exact ⟨q, List.mem_of_getElem? hq, hn⟩
  refine ⟨?_, ?_, ?_, ?_, ?_⟩
  · intro q' hq'
    obtain ⟨q, hq, hn⟩ := task hq'
    obtain ⟨w, hw, hm⟩ := hs.somebody q hq
    exact ⟨w, by rw [h.agents]; exact hw, (same_mayDo hn w).2 hm⟩
  · intro q' hq' lo hi hd
    obtain ⟨q, hq, hn⟩ := task hq'
    exact hs.durations q hq lo hi ((same_duration hn lo hi).1 hd)
  · rw [h.agents]
    exact hs.finite
  · obtain ⟨q, hq, hl⟩ := hs.longer
    obtain ⟨k, hk⟩ := List.mem_iff_getElem?.1 hq
    obtain ⟨q', hq', hn⟩ := same_task h hk
    refine ⟨q', List.mem_of_getElem? hq', fun lo hi hd => ?_⟩
    rw [h.agents]
    exact hl lo hi ((same_duration hn lo hi).2 hd)
  · intro ds hds
    rw [h.agents]
    refine hs.shorter ds ?_
    have h1 := h.tasks
    revert h1 hds
    generalize tasks root = l
    generalize tasks root' = l'
    intro hds h1
    induction h1 generalizing ds with
    | nil => exact hds
    | cons hn _ ih =>
      cases hds with
      | cons hd hds =>
        obtain ⟨lo, hi, hd, rfl⟩ := hd
        exact .cons ⟨lo, hi, (same_duration hn lo hi).2 hd, rfl⟩ (ih _ hds)

theorem takes_nonneg (hl : load rf root = ok p) {q : List Nat × Yaml} {w : Yaml × Yaml} {x : ℚ} (hw : w ∈ agents root) (hx : Takes rf w q.2 x) : 0 ≤ x := by
  obtain ⟨lo, hi, slow, fast, -, hp, rfl⟩ := hx
  obtain ⟨i, hi'⟩ := List.mem_iff_getElem?.1 hw
  have hld := (load_faithful hl).2
  have hlt : i < p.agents.length := by
    rw [hld.agents_length]
    exact (List.getElem?_eq_some_iff.1 hi').1
  have ha : p.agents[i]? = some p.agents[i] := List.getElem?_eq_getElem hlt
  obtain ⟨e1, e2⟩ := (document_values hl).2 i w _ _ _ hi' ha hp
  obtain ⟨p1, p2⟩ := (hld.agents_loaded i w _ hi' ha).positive
  rw [e1] at p1
  rw [e2] at p2
  have h1 : 0 < slow := by simpa [XFloat.le] using p1
  have h2 : 0 < fast := by simpa [XFloat.le] using p2
  positivity

/-- C116, plans: a plan of the one document is a plan of the other. -/
theorem implied_plans (hl : load rf root = ok p) (hl' : load rf root' = ok p') (h : Doc.SameConstraints root root')
    {agent : Nat → Nat} {start finish : Nat → K} : Doc.Plan rf root' agent start finish ↔ Doc.Plan rf root agent start finish :=
  ⟨fun hp => same_plan (same_symm h) hp fun _ _ _ _ _ hw hx => takes_nonneg hl' hw hx,
    fun hp => same_plan h hp fun _ _ _ _ _ hw hx => takes_nonneg hl hw hx⟩

variable {m : Machine K} {o : Cli.Options K} {read : ReadReal} {isFile : String → Bool} {terminal : Bool} {a : Arguments}

/-- C116, the command `schedule` for exact arithmetic, under the conditions of C91, and a document that differs in which dependencies are written. There is a makespan that
the program can write for either document, and with no random numbers does it write a smaller one for either of them. -/
theorem implied_do_not_matter (hE : E.IsExact) (hsig : SignsAgree read) (hnof : isFile "" = false)
    (h : parse E read isFile terminal .schedule a = .accepted o)
    (hz : ∀ t, a.restartPeriod = some t → ¬ LeadingZero t)
    (hb : ∀ t q, a.betaScale = some t → read t = some (.fin q) → ModerateBeta E q)
    (hout : a.output ≠ some "") (hl : load m.readFloat root = ok p) (hl' : load m.readFloat root' = ok p')
    (hs : Schedulable m.readFloat root 1 (2 ^ 31)) (hw : CanWrite m o) (ht : 0 < m.threads) (hidle : 8255 ≤ o.opt.maxIdleIters)
    (hc : Doc.SameConstraints root root') :
    ∃ mk : Int, ∀ r, r = root ∨ r = root' →
      (∃ draws, WritesMakespan E { m with source := .doc r, draws := draws } o (a.output.getD "schedule.json") mk) ∧
      ∀ draws n, WritesMakespan E { m with source := .doc r, draws := draws } o (a.output.getD "schedule.json") n → mk ≤ n := by
  have hs' := same_schedulable hc hs
  obtain ⟨mk, V, a1, ⟨agent, start, finish, a2, a3⟩, a4, a5, a6⟩ := least_written hE hsig hnof h hz hb hout hl hs hw ht hidle
  obtain ⟨mk', V', b1, ⟨agent', start', finish', b2, b3⟩, b4, b5, b6⟩ := least_written hE hsig hnof h hz hb hout hl' hs' hw ht hidle
  have hlen := hc.tasks.length_eq
  have c1 : V' ≤ V := b4 _ _ _ _ ((implied_plans hl hl' hc).2 a2) (by rw [← hlen]; exact a3)
  have c2 : V ≤ V' := a4 _ _ _ _ ((implied_plans hl hl' hc).1 b2) (by rw [hlen]; exact b3)
  obtain rfl : V = V' := le_antisymm c2 c1
  obtain rfl : mk = mk' := (Int.floor_eq_iff.2 a1).symm.trans (Int.floor_eq_iff.2 b1)
  refine ⟨mk, ?_⟩
  rintro r (rfl | rfl)
  · exact ⟨a5, a6⟩
  · exact ⟨b5, b6⟩

end

/-- Tasks depend on each other in the document as in the project. -/
theorem depends_loaded {rf : String → Option XFloat} {r : Yaml} {p : Project} (h : load rf r = ok p) : DependsOn r = p.DependsOn := by
  funext i d
  have hld := (load_faithful h).2
  refine propext ⟨fun hd => ?_, fun ⟨t, ht, hd⟩ => (hld.deps i t ht d).1 hd⟩
  obtain ⟨qi, qd, hi, -⟩ := id hd
  have hlt : i < p.tasks.length := by
    rw [hld.tasks_length]
    exact (List.getElem?_eq_some_iff.1 hi).1
  exact ⟨_, List.getElem?_eq_getElem hlt, (hld.deps i _ (List.getElem?_eq_getElem hlt) d).2 hd⟩

/-! ### Example -/

namespace Site
open Sample

/-- A project, where `depends_on` of two tasks is given -/
def plan (build paint : List Yaml) : Yaml := obj [
  ("agents", obj [("Bob", .null), ("Jack", obj [("performance", str "2")])]),
  ("tasks", .seq [
    obj [("name", str "dig"), ("id", str "d"), ("duration", str "2h")],
    obj [("name", str "build"), ("id", str "b"), ("duration", str "3h"), ("depends_on", .seq build),
      ("subtasks", .seq [obj [("name", str "roof"), ("id", str "r"), ("duration", str "1h"), ("depends_on", str "d")]])],
    obj [("name", str "paint"), ("duration", str "45s"), ("depends_on", .seq paint)]])]

/-- What can be left out is left out: the house needs its roof, and the roof needs the hole -/
def short : Yaml := plan [str "r"] [str "b"]

/-- Everything is written. -/
def long : Yaml := plan [str "d"] [str "r", str "d", str "b"]

/-- The project, except for the dependencies of two tasks -/
def project (build paint : List Nat) : Project where
  agents := [{ name := "Bob", id := 0, groupIds := [], perfMin := .fin 1, perfMax := .fin 1 },
    { name := "Jack", id := 1, groupIds := [], perfMin := .fin 2, perfMax := .fin 2 }]
  groups := []
  tasks := [{ name := "dig", id := "d", durMin := 7200, durMax := 7200, groupIds := [], agentId := none, dependencies := [] },
    { name := "build", id := "b", durMin := 10800, durMax := 10800, groupIds := [], agentId := none, dependencies := build },
    { name := "roof", id := "r", durMin := 3600, durMax := 3600, groupIds := [], agentId := none, dependencies := [0] },
    { name := "paint", id := "", durMin := 45, durMax := 45, groupIds := [], agentId := none, dependencies := paint }]

theorem short_loads : load number short = ok (project [2] [1]) := by
  rw [Load.load_eval 20 _ _ (by decide)]
  decide +kernel

theorem long_loads : load number long = ok (project [0, 2] [0, 1, 2]) := by
  rw [Load.load_eval 20 _ _ (by decide)]
  decide +kernel

theorem fine {build paint : List Nat} {r : Yaml} (h : load number r = ok (project build paint)) :
    (project build paint).Sound ∧ (project build paint).Moderate := by
  refine ⟨loaded_sound h (by simp [project]) ?_ ?_, ⟨⟨_, List.mem_cons_self, ?_⟩, ?_⟩⟩
  · intro a ha
    simp only [project, List.mem_cons, List.not_mem_nil, or_false] at ha
    rcases ha with rfl | rfl <;> exact ⟨_, _, rfl, rfl⟩
  · intro t ht
    simp only [project, List.mem_cons, List.not_mem_nil, or_false] at ht
    rcases ht with rfl | rfl | rfl | rfl <;> simp [project, Eligible]
  all_goals
    intro a ha q hq
    simp only [project, List.mem_cons, List.not_mem_nil, or_false] at ha
    rcases ha with rfl | rfl <;> (cases hq; simp [project, Task.meanDuration]; try norm_num)

/-- A task of one project depends, directly or indirectly, on the same tasks in the other. -/
theorem closure (i d : Nat) : Relation.TransGen (project [0, 2] [0, 1, 2]).DependsOn i d ↔ Relation.TransGen (project [2] [1]).DependsOn i d := by
  have h21 : (project [2] [1]).DependsOn 1 2 := ⟨_, rfl, by decide⟩
  have h20 : (project [2] [1]).DependsOn 2 0 := ⟨_, rfl, by decide⟩
  have h31 : (project [2] [1]).DependsOn 3 1 := ⟨_, rfl, by decide⟩
  have lift : ∀ {r r' : Nat → Nat → Prop}, (∀ i d, r i d → Relation.TransGen r' i d) → ∀ {i d}, Relation.TransGen r i d → Relation.TransGen r' i d := by
    intro r r' h i d hd
    induction hd with
    | single h1 => exact h _ _ h1
    | tail _ h1 ih => exact ih.trans (h _ _ h1)
  constructor
  · refine fun h => lift ?_ h
    rintro i d ⟨t, ht, hd⟩
    match i, ht with
    | 0, ht => cases ht; cases hd
    | 1, ht =>
      cases ht
      simp only [project, List.mem_cons, List.not_mem_nil, or_false] at hd
      rcases hd with rfl | rfl
      · exact .head h21 (.single h20)
      · exact .single h21
    | 2, ht =>
      cases ht
      simp only [project, List.mem_cons, List.not_mem_nil, or_false] at hd
      cases hd
      exact .single h20
    | 3, ht =>
      cases ht
      simp only [project, List.mem_cons, List.not_mem_nil, or_false] at hd
      rcases hd with rfl | rfl | rfl
      · exact .head h31 (.head h21 (.single h20))
      · exact .single h31
      · exact .head h31 (.single h21)
    | i + 4, ht => simp [project] at ht
  · refine fun h => lift ?_ h
    rintro i d ⟨t, ht, hd⟩
    match i, ht with
    | 0, ht => cases ht; cases hd
    | 1, ht => cases ht; cases hd with
      | head => exact .single ⟨_, rfl, by decide⟩
      | tail _ h => cases h
    | 2, ht => cases ht; cases hd with
      | head => exact .single ⟨_, rfl, by decide⟩
      | tail _ h => cases h
    | 3, ht => cases ht; cases hd with
      | head => exact .single ⟨_, rfl, by decide⟩
      | tail _ h => cases h
    | i + 4, ht => simp [project] at ht

/-- The two projects have the same constraints, though not the same dependencies. -/
theorem same_projects : (project [2] [1]).SameConstraints (project [0, 2] [0, 1, 2]) ∧ project [2] [1] ≠ project [0, 2] [0, 1, 2] :=
  ⟨⟨rfl, by simp [project], closure⟩, by decide⟩

/-- The two documents have the same constraints. -/
theorem same_documents : Doc.SameConstraints short long := by
  refine ⟨rfl, ?_, ?_⟩
  · simp [short, long, plan, tasks, Sample.obj, Sample.str, Yaml.get, Yaml.lookup, listAt, tasksAt]
    refine ⟨fun key v h1 h2 => ?_, fun key v h1 h2 => ?_⟩ <;>
      simp [Doc.Field, h1, h2]
  · rw [depends_loaded short_loads, depends_loaded long_loads]
    exact closure

/-- C116 for the example: all the conditions are met. -/
example : ∃ (o : Cli.Options ℚ) (mk : Int), ∀ r, r = short ∨ r = long →
    (∃ draws, WritesMakespan FloatEnv.rat { exampleMachine draws with source := .doc r } o "schedule.json" mk) ∧
    ∀ draws n, WritesMakespan FloatEnv.rat { exampleMachine draws with source := .doc r } o "schedule.json" n → mk ≤ n := by
  obtain ⟨o, hpar, hidle⟩ := plan_accepted
  obtain ⟨mk, h⟩ := implied_do_not_matter (m := exampleMachine (fun _ _ _ => ⟨0, 0, 0, 0⟩)) (root := short) (root' := long)
    (fun _ => rfl) exampleRead_signs (by decide) hpar (by simp) (by simp) (by simp) short_loads long_loads
    (sound_schedulable short_loads (fine short_loads).1 (fine short_loads).2)
    (example_canWrite (draws := fun _ _ _ => ⟨0, 0, 0, 0⟩)) (by exact (by decide : 0 < 4)) (by rw [hidle]; decide) same_documents
  exact ⟨o, mk, h⟩

/-- C116, schedules and simulations, for the example: the conditions are met, by the schedule where Jack roofs. -/
example : ∃ (sp sp' : ScheduleParams ℚ) (s : List Item), (project [2] [1]).Sound ∧ (project [0, 2] [0, 1, 2]).Sound ∧
    toScheduleParams FloatEnv.rat (project [2] [1]) = ok sp ∧ toScheduleParams FloatEnv.rat (project [0, 2] [0, 1, 2]) = ok sp' ∧
    sp.SameConstraints sp' ∧ ValidSchedule sp s ∧ ValidSchedule sp' s := by
  let sp (l : List Nat) (n : List Nat) : ScheduleParams ℚ :=
    { agentPerformance := [1, 2], taskDuration := [320 / 481, 480 / 481, 160 / 481, 2 / 481],
      availableAgents := Vector2D.ofSizes [0, 1, 0, 1, 0, 1, 0, 1] [2, 2, 2, 2],
      dependencies := Vector2D.ofSizes l n, durationMultiplier := 21645 / 2 }
  have h1 : toScheduleParams FloatEnv.rat (project [2] [1]) = ok (sp [2, 0, 1] [0, 1, 1, 1]) := by decide +kernel
  have h2 : toScheduleParams FloatEnv.rat (project [0, 2] [0, 1, 2]) = ok (sp [0, 2, 0, 0, 1, 2] [0, 2, 1, 3]) := by decide +kernel
  have hs : ValidSchedule (sp [2, 0, 1] [0, 1, 1, 1]) [⟨0, 0⟩, ⟨2, 1⟩, ⟨1, 0⟩, ⟨3, 0⟩] := validSchedule_of_check (by decide) (by decide) (by decide)
  have hc := implied_params (fine short_loads).1 (fine long_loads).1 same_projects.1 h1 h2
  exact ⟨_, _, _, (fine short_loads).1, (fine long_loads).1, h1, h2, hc, hs, hc.valid hs⟩

/-- What C116 leaves out: the schedule the search begins with is not the same. Task 0 needs 2 and 3, task 3 needs 1. Once it is also written that 0 needs 1, task 1 comes
first. -/
theorem initial_differs : ∃ sp sp' : ScheduleParams ℚ, sp.SameConstraints sp' ∧
    initialSchedule sp = ok [⟨2, 0⟩, ⟨1, 0⟩, ⟨3, 0⟩, ⟨0, 0⟩] ∧ initialSchedule sp' = ok [⟨1, 0⟩, ⟨2, 0⟩, ⟨3, 0⟩, ⟨0, 0⟩] := by
  let sp (l : List Nat) (n : List Nat) : ScheduleParams ℚ :=
    { agentPerformance := [1], taskDuration := [1 / 4, 1 / 4, 1 / 4, 1 / 4],
      availableAgents := Vector2D.ofSizes [0, 0, 0, 0] [1, 1, 1, 1],
      dependencies := Vector2D.ofSizes l n, durationMultiplier := 4 }
  refine ⟨sp [2, 3, 1] [2, 0, 0, 1], sp [1, 2, 3, 1] [3, 0, 0, 1], ⟨rfl, rfl, rfl, ?_⟩, ?_, ?_⟩
  · have h03 : (sp [2, 3, 1] [2, 0, 0, 1]).Needs 0 3 := by unfold ScheduleParams.Needs; decide +kernel
    have h31 : (sp [2, 3, 1] [2, 0, 0, 1]).Needs 3 1 := by unfold ScheduleParams.Needs; decide +kernel
    have e : ∀ i d, (sp [1, 2, 3, 1] [3, 0, 0, 1]).Needs i d ↔ (sp [2, 3, 1] [2, 0, 0, 1]).Needs i d ∨ i = 0 ∧ d = 1 := by
      have r1 : (sp [1, 2, 3, 1] [3, 0, 0, 1]).dependencies.row 0 = [1, 2, 3] := by decide +kernel
      have r2 : (sp [2, 3, 1] [2, 0, 0, 1]).dependencies.row 0 = [2, 3] := by decide +kernel
      have r3 : (sp [1, 2, 3, 1] [3, 0, 0, 1]).dependencies.row 1 = (sp [2, 3, 1] [2, 0, 0, 1]).dependencies.row 1 := by decide +kernel
      have r4 : (sp [1, 2, 3, 1] [3, 0, 0, 1]).dependencies.row 2 = (sp [2, 3, 1] [2, 0, 0, 1]).dependencies.row 2 := by decide +kernel
      have r5 : (sp [1, 2, 3, 1] [3, 0, 0, 1]).dependencies.row 3 = (sp [2, 3, 1] [2, 0, 0, 1]).dependencies.row 3 := by decide +kernel
      intro i d
      unfold ScheduleParams.Needs ScheduleParams.deps
      match i with
      | 0 => simp [r1, r2, sp, ScheduleParams.taskCount]; tauto
      | 1 => rw [r3]; simp [ScheduleParams.taskCount, sp]
      | 2 => rw [r4]; simp [ScheduleParams.taskCount, sp]
      | 3 => rw [r5]; simp [ScheduleParams.taskCount, sp]
      | i + 4 => simp [ScheduleParams.taskCount, sp]
    intro i d
    constructor
    · intro h
      induction h with
      | single h1 =>
        rcases (e _ _).1 h1 with h1 | ⟨rfl, rfl⟩
        · exact .single h1
        · exact .head h03 (.single h31)
      | tail _ h1 ih =>
        rcases (e _ _).1 h1 with h1 | ⟨rfl, rfl⟩
        · exact ih.tail h1
        · exact (ih.tail h03).tail h31
    · exact fun h => Relation.TransGen.mono (fun i d h => (e i d).2 (.inl h)) i d h
  all_goals
    simp [initialSchedule, initialLoop, pushTask, pushTasks, sp, expects, Vector2D.row, Vector2D.ofSizes, Vector2D.spansOf, List.range, List.range.loop]

end Site

end Angonoka.Props
