import Verif.Spec.Pace
import Verif.Props.Limits
import Verif.Props.Order

/-!
# C115: only relative performance matters
-/

set_option linter.unusedSectionVars false

namespace Angonoka.Props
open Outcome Stun Cli Doc CommandLine

section
variable {K : Type} [_root_.Field K] [LinearOrder K] [IsStrictOrderedRing K] [FloorRing K]
  {E : FloatEnv K} {p : Project} {sp sp' : ScheduleParams K} {s : List Item} {c : ℚ}

theorem faster_ok {a : Agent} {lo hi : ℚ} (hc : 0 < c) (h : a.PerformanceOk lo hi) :
    Agent.PerformanceOk { a with perfMin := times c a.perfMin, perfMax := times c a.perfMax } (c * lo) (c * hi) := by
  obtain ⟨h1, h2, h3, h4⟩ := h
  refine ⟨?_, ?_, mul_pos hc h3, mul_le_mul_of_nonneg_left h4 hc.le⟩
  · dsimp only; rw [h1]; rfl
  · dsimp only; rw [h2]; rfl

theorem faster_sound (hc : 0 < c) (hp : p.Sound) : (faster c p).Sound where
  agents_ne := by simpa [faster] using hp.agents_ne
  tasks_ne := hp.tasks_ne
  ids := by
    intro i a h
    simp only [faster, List.getElem?_map, Option.map_eq_some_iff] at h
    obtain ⟨a, h, rfl⟩ := h
    exact hp.ids i a h
  agent_groups := by
    intro a h
    obtain ⟨a, h', rfl⟩ := List.mem_map.1 h
    exact hp.agent_groups a h'
  task_groups := hp.task_groups
  performance := by
    intro a h
    obtain ⟨a, h', rfl⟩ := List.mem_map.1 h
    obtain ⟨lo, hi, h⟩ := hp.performance a h'
    exact ⟨_, _, faster_ok hc h⟩
  durations := hp.durations
  deps_sorted := hp.deps_sorted
  deps_lt := hp.deps_lt
  acyclic := hp.acyclic
  assignable := by
    intro t ht
    obtain ⟨a, ha, he⟩ := hp.assignable t ht
    exact ⟨_, List.mem_map_of_mem ha, he⟩

theorem faster_eligible (t : Task) (l : List Agent) (i : Nat) :
    eligible t i (l.map fun a => { a with perfMin := times c a.perfMin, perfMax := times c a.perfMax }) = eligible t i l := by
  induction l generalizing i with
  | nil => rfl
  | cons a l ih =>
    rw [List.map_cons, eligible, eligible, ih]
    rfl

/-- The parameters of the faster project -/
theorem faster_params (hE : E.IsExact) (hc : 0 < c) (hp : p.Sound) (hsp : toScheduleParams E p = ok sp)
    (hsp' : toScheduleParams E (faster c p) = ok sp') :
    sp'.dependencies = sp.dependencies ∧ sp'.availableAgents = sp.availableAgents ∧ sp'.taskDuration = sp.taskDuration ∧
    sp'.agentPerformance = sp.agentPerformance.map ((c : K) * ·) := by
  obtain ⟨-, -, -, -, h1, h2, h3, h4⟩ := toScheduleParams_ok hsp
  obtain ⟨-, -, -, -, h1', h2', h3', h4'⟩ := toScheduleParams_ok hsp'
  have hp' := faster_sound hc hp
  obtain ⟨-, g2, -, -, -, g6⟩ := params_faithful hp.agent_groups hp.task_groups hsp
  obtain ⟨-, g2', -, -, -, g6'⟩ := params_faithful hp'.agent_groups hp'.task_groups hsp'
  refine ⟨h2'.trans h2.symm, ?_, ?_, ?_⟩
  · rw [h1', h1]
    simp only [faster, faster_eligible]
  · rw [h4', h4, h3', h3]
    simp [faster]
  · apply List.ext_getElem?
    intro k
    rw [List.getElem?_map]
    cases ha : p.agents[k]? with
    | none =>
      have hk : p.agents.length ≤ k := by simpa using ha
      have e1 : sp.agentPerformance.length = p.agents.length := g2
      have e2 : sp'.agentPerformance.length = p.agents.length := by
        have : sp'.agentPerformance.length = (faster c p).agents.length := g2'
        rw [this]; simp [faster]
      rw [List.getElem?_eq_none (by omega), List.getElem?_eq_none (by omega)]
      rfl
    | some a =>
      obtain ⟨lo, hi, hok, e⟩ := g6 k a ha
      have ha' : (faster c p).agents[k]? = some { a with perfMin := times c a.perfMin, perfMax := times c a.perfMax } := by
        simp [faster, ha]
      obtain ⟨lo', hi', hok', e'⟩ := g6' k _ ha'
      have hok2 := faster_ok hc hok
      obtain rfl : lo' = c * lo := by
        have := hok'.1.symm.trans hok2.1
        injection this
      obtain rfl : hi' = c * hi := by
        have := hok'.2.1.symm.trans hok2.2.1
        injection this
      rw [e, e', hE, hE, hE, hE, Option.map_some]
      congr 1
      push_cast
      ring

theorem getD_times (l : List K) (x : K) (i : Nat) : (l.map (x * ·)).getD i 0 = x * l.getD i 0 := by
  simp only [List.getD_eq_getElem?_getD, List.getElem?_map]
  cases l[i]? <;> simp

/-! ### Plans -/

variable {rf : String → Option XFloat} {root root' : Yaml}

/-- C115, plans: if all agents are `c` times as fast, a plan is one for the first document if and only if it is one for the second with all times
divided by `c`. -/
theorem plans_faster (hE : E.IsExact) (hc : 0 < c) (hl : load rf root = ok p) (hl' : load rf root' = ok (faster c p)) (hp : p.Sound)
    {agent : Nat → Nat} {start finish : Nat → K} :
    Doc.Plan rf root agent start finish ↔ Doc.Plan rf root' agent (fun k => start k / c) fun k => finish k / c := by
  have hp' := faster_sound hc hp
  obtain ⟨sp, hsp, -⟩ := params_wellFormed (E := E) hp (fun _ _ _ _ => hE _)
  obtain ⟨sp', hsp', -⟩ := params_wellFormed (E := E) hp' (fun _ _ _ _ => hE _)
  rw [plan_document hE hl hp hsp, plan_document hE hl' hp' hsp']
  obtain ⟨e1, e2, -, e4⟩ := faster_params hE hc hp hsp hsp'
  have hc' : (0 : K) < (c : K) := by exact_mod_cast hc
  have ht : ((faster c p).secondsParams E sp').taskCount = (p.secondsParams E sp).taskCount := rfl
  have hd : ∀ t, ((faster c p).secondsParams E sp').deps t = (p.secondsParams E sp).deps t := by
    intro t
    change sp'.dependencies.row t = sp.dependencies.row t
    rw [e1]
  have ha : ∀ t, ((faster c p).secondsParams E sp').avail t = (p.secondsParams E sp).avail t := by
    intro t
    change sp'.availableAgents.row t = sp.availableAgents.row t
    rw [e2]
  have hi : ∀ it, ((faster c p).secondsParams E sp').itemTime E it = (p.secondsParams E sp).itemTime E it / c := by
    intro it
    change E.rnd (((faster c p).secondsParams E sp').taskDuration.getD it.task 0 / sp'.agentPerformance.getD it.agent 0)
      = E.rnd ((p.secondsParams E sp).taskDuration.getD it.task 0 / sp.agentPerformance.getD it.agent 0) / c
    rw [hE, hE, e4, getD_times, div_div, mul_comm (c : K)]
    rfl
  have hle : ∀ x y : K, x / c ≤ y / c ↔ x ≤ y := fun x y => div_le_div_iff_of_pos_right hc'
  constructor
  · intro h
    refine ⟨?_, ?_, ?_, ?_, ?_⟩
    · intro t h1; rw [ha]; exact h.eligible t h1
    · intro t h1; exact div_nonneg (h.nonneg t h1) hc'.le
    · intro t h1
      have := h.time t h1
      simp only [FloatEnv.add, hE _] at this ⊢
      rw [this, hi, add_div]
    · intro t h1 d h2
      rw [hd] at h2
      exact (hle _ _).2 (h.deps t h1 d h2)
    · intro t h1 u h2 h3 h4
      rcases h.alone t h1 u h2 h3 h4 with h | h
      · exact Or.inl ((hle _ _).2 h)
      · exact Or.inr ((hle _ _).2 h)
  · intro h
    refine ⟨?_, ?_, ?_, ?_, ?_⟩
    · intro t h1; rw [← ha]; exact h.eligible t h1
    · intro t h1
      have := h.nonneg t h1
      rwa [le_div_iff₀ hc', zero_mul] at this
    · intro t h1
      have := h.time t h1
      simp only [FloatEnv.add, hE _] at this ⊢
      rw [hi, ← add_div] at this
      exact (div_left_inj' hc'.ne').1 this
    · intro t h1 d h2
      rw [← hd] at h2
      exact (hle _ _).1 (h.deps t h1 d h2)
    · intro t h1 u h2 h3 h4
      rcases h.alone t h1 u h2 h3 h4 with h | h
      · exact Or.inl ((hle _ _).1 h)
      · exact Or.inr ((hle _ _).1 h)

/-! ### Simulations -/

theorem runF_faster (hE : E.IsExact) {x : K} (hx : 0 < x) {q q' : ScheduleParams K} (hd : q'.dependencies = q.dependencies)
    (hi : ∀ it, q'.itemTime E it = q.itemTime E it / x) (s : List Item) (f w : Nat → K) :
    runF E q' s (fun i => f i / x) (fun i => w i / x) = (fun i => (runF E q s f w).1 i / x, fun i => (runF E q s f w).2 i / x) := by
  induction s generalizing f w with
  | nil => rfl
  | cons it s ih =>
    have he : endTime E q' (fun i => f i / x) (fun i => w i / x) it = endTime E q f w it / x := by
      unfold endTime startTime depsEnd
      simp only [FloatEnv.add, hE _]
      have h1 : q'.deps it.task = q.deps it.task := by unfold ScheduleParams.deps; rw [hd]
      have h2 : (q.deps it.task).map (fun i => f i / x) = ((q.deps it.task).map f).map (x⁻¹ * ·) := by
        rw [List.map_map]
        exact List.map_congr_left fun i _ => by simp [Function.comp, div_eq_inv_mul]
      rw [h1, h2, maxOf_scale (inv_nonneg.2 hx.le), hi, ← div_eq_inv_mul, max_div_div_right hx.le, add_div]
    have hu : ∀ (g : Nat → K) (i : Nat) (v : K), Function.update (fun i => g i / x) i (v / x) = fun j => Function.update g i v j / x := by
      intro g i v
      funext j
      by_cases h : j = i
      · subst h; simp
      · simp [h]
    rw [runF, runF, he, hu, hu, ih]

theorem makespanValue_faster (hE : E.IsExact) {x : K} (hx : 0 < x) {q q' : ScheduleParams K} (hd : q'.dependencies = q.dependencies)
    (hi : ∀ it, q'.itemTime E it = q.itemTime E it / x) (n : Nat) (s : List Item) : makespanValue E q' n s = makespanValue E q n s / x := by
  have h := runF_faster hE hx hd hi s (fun _ => 0) fun _ => 0
  simp only [zero_div] at h
  unfold makespanValue
  rw [h, div_eq_inv_mul, ← maxOf_scale (inv_nonneg.2 hx.le), List.map_map]
  congr 1
  exact List.map_congr_left fun i _ => by simp [Function.comp, div_eq_inv_mul]

theorem samples_faster (hE : E.IsExact) {x : K} (hx : 0 < x) {bs : List (K × K)} {xs zs rest : List K} (h : Samples E bs xs zs rest) :
    Samples E (bs.map fun b => (x * b.1, x * b.2)) (xs.map (x * ·)) zs rest := by
  have hd : ∀ lo hi z : K, drawn E (x * lo) (x * hi) z = x * drawn E lo hi z := by
    intro lo hi z
    rw [drawn_linear hE, drawn_linear hE]
    ring
  induction h with
  | nil => exact .nil
  | fixed _ ih => exact .fixed ih
  | @drawn lo hi bounds z xs zs rest rejected hne hr hz h ih =>
    rw [List.map_cons, List.map_cons, ← hd]
    refine .drawn rejected ?_ ?_ ?_ ih
    · exact fun h => hne (mul_left_cancel₀ hx.ne' h)
    · intro r h1
      rw [hd]
      exact mul_nonpos_of_nonneg_of_nonpos hx.le (hr r h1)
    · rw [hd]
      exact mul_pos hx hz

theorem faster_bounds (hc : 0 < c) {bs : List (K × K)} (hb : p.performanceBounds bs) :
    (faster c p).performanceBounds (bs.map fun b => ((c : K) * b.1, (c : K) * b.2)) := by
  unfold Project.performanceBounds faster at *
  rw [List.forall₂_map_left_iff, List.forall₂_map_right_iff]
  refine hb.imp fun a b h => ?_
  obtain ⟨lo, hi, hok, rfl⟩ := h
  exact ⟨_, _, faster_ok hc hok, by push_cast; rfl⟩

theorem bounds_unique {bs bs' : List (K × K)} (h : p.performanceBounds bs) (h' : p.performanceBounds bs') : bs = bs' := by
  unfold Project.performanceBounds at *
  revert h h'
  generalize p.agents = l
  intro h h'
  induction h generalizing bs' with
  | nil => cases h'; rfl
  | cons h _ ih =>
    cases h' with
    | cons h' hs' =>
    rw [ih hs']
    obtain ⟨lo, hi, hok, rfl⟩ := h
    obtain ⟨lo', hi', hok', rfl⟩ := h'
    have e1 := hok.1.symm.trans hok'.1
    have e2 := hok.2.1.symm.trans hok'.2.1
    injection e1 with e1
    injection e2 with e2
    rw [e1, e2]

/-- C115, a simulation: if all agents are `k` times as fast, with the same schedule and random numbers it takes the `k`-th part of the time, rounded down
to whole seconds, and uses the same random numbers. -/
theorem simulated_faster (hE : E.IsExact) {k : Nat} (hk : 0 < k) (hp : p.Sound) (hsp : toScheduleParams E p = ok sp) (hs : ValidSchedule sp s)
    {sim sim' : Simulation K} (h : SimulationFor E p sim) (h' : SimulationFor E (faster k p) sim') {zs rest : List K} {v : Int}
    {t : Simulation K} (hc : sim.call E s zs = ok (some (v, rest, t))) : ∃ t', sim'.call E s zs = ok (some (v / k, rest, t')) := by
  have hf : ∀ q : Project, q.FloatsIn E := fun _ _ _ _ _ => hE _
  have hk0 : (0 : ℚ) < (k : ℚ) := by exact_mod_cast hk
  have hk' : (0 : K) < ((k : ℚ) : K) := by exact_mod_cast hk
  have hp' := faster_sound hk0 hp
  obtain ⟨sp', hsp', hw'⟩ := params_wellFormed (E := E) hp' (hf _)
  obtain ⟨e1, e2, e3, e4⟩ := faster_params hE hk0 hp hsp hsp'
  obtain ⟨bs, -, hb⟩ := performanceBounds_ok (K := K) hp.performance
  obtain ⟨perf, dur, mid, h1, h2, rfl⟩ := call_samples hp (hf _) hsp hs hb h hc
  have hs' : ValidSchedule sp' s := by
    refine ⟨?_, ?_, ?_⟩
    · have : sp'.taskCount = sp.taskCount := by unfold ScheduleParams.taskCount; rw [e3]
      rw [this]; exact hs.complete
    · have := hs.ordered
      unfold ScheduleParams.deps at *
      rw [e1]; exact this
    · have := hs.eligible
      unfold ScheduleParams.avail at *
      rw [e2]; exact this
  obtain ⟨g1, g2, -, -, g5, -⟩ := params_faithful hp'.agent_groups hp'.task_groups hsp'
  obtain ⟨bs', hb', hall⟩ := simCall_ok (E := E) (sp := sp') (s := s) h'.shape hp'.performance
    hp'.durations (fun i t hi => (g5 i t hi).2.2) hp'.deps_lt (hs'.length.trans g1)
    (fun it hit => by
      have := hs'.fits hw' hit
      rw [g1, g2] at this
      exact ⟨this.task_n, this.agent_m⟩)
  cases bounds_unique (faster_bounds hk0 hb) hb'
  have h1' := samples_faster hE hk' h1
  have h2' : Samples E ((faster k p).durationBounds E) dur mid rest := h2
  rcases hall zs with hn | ⟨perf', dur', zs', rest', sim2, s1, s2, hcall⟩
  · exact absurd h2' (hn.2 _ _ _ _ h1')
  obtain ⟨rfl, rfl⟩ := Samples.unique h1' s1
  obtain ⟨rfl, rfl⟩ := Samples.unique h2' s2
  refine ⟨sim2, hcall.trans ?_⟩
  have hperf := h1.pos fun b hb1 => (performanceBounds_positive hb hb1).1
  have hdur := h2.pos fun b hb1 => (durationBounds_positive hp hb1).1
  have hpl : perf.length = p.agents.length := h1.length.trans hb.length_eq.symm
  have hdl : dur.length = p.tasks.length := h2.length.trans (by simp [Project.durationBounds])
  obtain ⟨wf, vs, -⟩ := best_case hE hp hsp hs hpl hdl hperf hdur
  have h0 := makespanValue_nonneg (E := E) wf vs
  have hac : (sp.sampled perf dur).agentCount = p.agents.length := hpl
  rw [hac] at h0
  have hlen : (faster k p).agents.length = p.agents.length := by simp [faster]
  have hval : makespanValue E (sp'.sampled (perf.map (((k : ℚ) : K) * ·)) dur) p.agents.length s
      = makespanValue E (sp.sampled perf dur) p.agents.length s / (k : K) := by
    have := makespanValue_faster (E := E) hE hk' (q := sp.sampled perf dur) (q' := sp'.sampled (perf.map (((k : ℚ) : K) * ·)) dur) e1 ?_
      p.agents.length s
    · rw [this]; push_cast; rfl
    · intro it
      change E.rnd (dur.getD it.task 0 / (perf.map (((k : ℚ) : K) * ·)).getD it.agent 0) = E.rnd (dur.getD it.task 0 / perf.getD it.agent 0) / _
      rw [hE, hE, getD_times, div_div, mul_comm ((k : ℚ) : K)]
  rw [hlen, hval, truncate_of_nonneg h0, truncate_of_nonneg (div_nonneg h0 (by exact_mod_cast hk.le)), Int.floor_div_natCast]

/-- C115, any number of simulations one after the other -/
theorem simulations_faster (hE : E.IsExact) {k : Nat} (hk : 0 < k) (hp : p.Sound) (hsp : toScheduleParams E p = ok sp) (hs : ValidSchedule sp s)
    {vs : List Int} {zs rest : List K} (h : Runs E p s vs zs rest) : Runs E (faster k p) s (vs.map (· / (k : Int))) zs rest := by
  have hk0 : (0 : ℚ) < (k : ℚ) := by exact_mod_cast hk
  have hp' := faster_sound hk0 hp
  obtain ⟨sim, hnew⟩ : ∃ sim : Simulation K, Simulation.new (faster k p) = ok sim := by
    unfold Simulation.new Simulation.assignBuffers
    rw [expects_true (by simpa using hp'.agents_ne), ok_bind, expects_true (by simpa using hp'.tasks_ne), ok_bind,
      expects_true (by simpa using hp'.agents_ne), ok_bind, expects_true (by simpa using hp'.tasks_ne), ok_bind]
    exact ⟨_, rfl⟩
  induction h with
  | nil => exact .nil
  | snoc _ hsim hc ih =>
    obtain ⟨t', hc'⟩ := simulated_faster hE hk hp hsp hs hsim (.new hnew) hc
    rw [List.map_append]
    exact .snoc ih (.new hnew) hc'

/-! ### The command -/

variable {m : Machine K} {o : Cli.Options K} {read : ReadReal} {isFile : String → Bool} {terminal : Bool} {a : Arguments}

/-- There is a best plan of a document; its makespan, rounded down, is what the command `schedule` can write, and it never writes less. -/
theorem least_written (hE : E.IsExact) (hsig : SignsAgree read) (hnof : isFile "" = false)
    (h : parse E read isFile terminal .schedule a = .accepted o)
    (hz : ∀ t, a.restartPeriod = some t → ¬ LeadingZero t)
    (hb : ∀ t q, a.betaScale = some t → read t = some (.fin q) → ModerateBeta E q)
    (hout : a.output ≠ some "") {r : Yaml} {q : Project} (hlr : load m.readFloat r = ok q)
    (hsr : Schedulable m.readFloat r 1 (2 ^ 31)) (hw : CanWrite m o) (ht : 0 < m.threads) (hidle : 8255 ≤ o.opt.maxIdleIters) :
    ∃ (mk : Int) (V : K), IsWholePart mk V ∧
      (∃ agent start finish, Doc.Plan m.readFloat r agent start finish ∧ ∀ k < (tasks r).length, finish k ≤ V) ∧
      (∀ agent start finish W, Doc.Plan m.readFloat r agent start finish → (∀ k < (tasks r).length, finish k ≤ W) → V ≤ W) ∧
      (∃ draws, WritesMakespan E { m with source := .doc r, draws := draws } o (a.output.getD "schedule.json") mk) ∧
      ∀ draws n, WritesMakespan E { m with source := .doc r, draws := draws } o (a.output.getD "schedule.json") n → mk ≤ n := by
  obtain ⟨draws, _, N', mk', _, es', V', _, _, _, g1, g4, g2, g3⟩ :=
    document_best_schedule (m := { m with source := .doc r }) hE hsig hnof h hz hb hout rfl hlr hsr hw ht hidle
  refine ⟨mk', V', g1, g4, g2, ⟨draws, N', es', g3⟩, fun draws' n hn => ?_⟩
  obtain ⟨N, mk, es, V, h1, ⟨agent, start, finish, hplan, hV⟩, _, _, _, h2⟩ :=
    document_makespan_bounds (m := { m with source := .doc r, draws := draws' }) hE hsig hnof h hz hb hout rfl hlr hsr hw ht
  have e := writes_unique (m := { m with source := .doc r, draws := draws' }) ⟨N, es, h2⟩ hn
  subst e
  have hVV := g2 agent start finish V hplan hV
  have : (mk' : K) < (mk + 1 : Int) := by
    push_cast
    exact g1.1.trans_lt (hVV.trans_lt h1.2)
  have : mk' < mk + 1 := by exact_mod_cast this
  omega

/-- C115, the command `schedule` for exact arithmetic, under the conditions of C91, and a document in which all agents are `k` times as fast. The least makespan that the
program can write for it is the `k`-th part, rounded down, of the least makespan that it can write for the first. -/
theorem pace_does_not_matter (hE : E.IsExact) (hsig : SignsAgree read) (hnof : isFile "" = false)
    (h : parse E read isFile terminal .schedule a = .accepted o)
    (hz : ∀ t, a.restartPeriod = some t → ¬ LeadingZero t)
    (hb : ∀ t q, a.betaScale = some t → read t = some (.fin q) → ModerateBeta E q)
    (hout : a.output ≠ some "") (hl : load m.readFloat root = ok p)
    (hs : Schedulable m.readFloat root 1 (2 ^ 31)) (hw : CanWrite m o) (ht : 0 < m.threads) (hidle : 8255 ≤ o.opt.maxIdleIters)
    {k : Nat} (hk : 0 < k) (hl' : load m.readFloat root' = ok (faster k p)) (hs' : Schedulable m.readFloat root' 1 (2 ^ 31)) :
    ∃ mk : Int, ∀ r n, (r = root ∧ n = mk ∨ r = root' ∧ n = mk / k) →
      (∃ draws, WritesMakespan E { m with source := .doc r, draws := draws } o (a.output.getD "schedule.json") n) ∧
      ∀ draws n', WritesMakespan E { m with source := .doc r, draws := draws } o (a.output.getD "schedule.json") n' → n ≤ n' := by
  have hk0 : (0 : ℚ) < (k : ℚ) := by exact_mod_cast hk
  have hk' : (0 : K) < ((k : ℚ) : K) := by exact_mod_cast hk
  obtain ⟨hp, -⟩ := schedulable_sound hl hs
  obtain ⟨mk, V, a1, ⟨agent, start, finish, a2, a3⟩, a4, a5, a6⟩ := least_written hE hsig hnof h hz hb hout hl hs hw ht hidle
  obtain ⟨mk', V', b1, ⟨agent', start', finish', b2, b3⟩, b4, b5, b6⟩ := least_written hE hsig hnof h hz hb hout hl' hs' hw ht hidle
  have hlen : (tasks root').length = (tasks root).length := by
    rw [← (load_faithful hl).2.tasks_length, ← (load_faithful hl').2.tasks_length]
    rfl
  have c1 : V' ≤ V / ((k : ℚ) : K) := b4 _ _ _ _ ((plans_faster hE hk0 hl hl' hp).1 a2) fun i hi =>
    (div_le_div_iff_of_pos_right hk').2 (a3 i (hlen ▸ hi))
  have c2 : V ≤ V' * ((k : ℚ) : K) := by
    have hx : ∀ x : K, x * ((k : ℚ) : K) / ((k : ℚ) : K) = x := fun x => mul_div_cancel_right₀ x hk'.ne'
    have hpl : Doc.Plan m.readFloat root agent' (fun i => start' i * ((k : ℚ) : K)) fun i => finish' i * ((k : ℚ) : K) := by
      rw [plans_faster hE hk0 hl hl' hp]
      simpa only [hx] using b2
    exact a4 _ _ _ _ hpl fun i hi => mul_le_mul_of_nonneg_right (b3 i (hlen.symm ▸ hi)) hk'.le
  have hV : V' = V / (k : K) := by
    have c3 : V / ((k : ℚ) : K) ≤ V' := (div_le_iff₀ hk').2 c2
    have := le_antisymm c1 c3
    rw [this]
    push_cast
    rfl
  have e1 : ⌊V⌋ = mk := Int.floor_eq_iff.2 a1
  have e2 : ⌊V'⌋ = mk' := Int.floor_eq_iff.2 b1
  have e3 : mk' = mk / k := by rw [← e2, hV, Int.floor_div_natCast, e1]
  refine ⟨mk, ?_⟩
  rintro r n (⟨rfl, rfl⟩ | ⟨rfl, rfl⟩)
  · exact ⟨a5, a6⟩
  · rw [← e3]; exact ⟨b5, b6⟩

end

/-! ### Examples -/

namespace Sample

/-- A reader that knows more numbers -/
def digit (s : String) : Option XFloat :=
  if s = "1" then some (.fin 1) else if s = "4" then some (.fin 4) else number s

/-- The document `plan` with everybody twice as fast -/
def fastPlan : Yaml := obj [
  ("agents", obj [
    ("Bob", obj [("groups", .seq [str "A", str "B"]), ("performance", obj [("min", str "1"), ("max", str "4")])]),
    ("Jack", obj [("performance", str "2")])]),
  ("tasks", .seq [
    obj [("name", str "build"), ("id", str "b"), ("duration", str "2h"), ("group", str "B"),
      ("subtasks", .seq [
        obj [("name", str "walls"), ("duration", str "90m"), ("agent", str "Jack")],
        obj [("name", str "roof"), ("duration", obj [("min", str "10 minutes"), ("max", str "1h")]),
          ("groups", .seq [str "B", str "C"])]])],
    obj [("name", str "paint"), ("duration", str "45s"), ("depends_on", .seq [str "b"])]])]

theorem plan_read : load digit plan = ok project := by
  rw [Load.load_eval 20 _ _ (by decide)]
  decide +kernel

theorem fastPlan_loads : load digit fastPlan = ok (faster (2 : Nat) project) := by
  rw [Load.load_eval 20 _ _ (by decide)]
  decide +kernel

theorem fast_moderate : (faster (2 : Nat) project).Moderate where
  longer := by
    refine ⟨_, List.mem_cons_self, ?_⟩
    intro a ha q hq
    simp only [project, faster, List.map_cons, List.map_nil, List.mem_cons, List.not_mem_nil, or_false] at ha
    rcases ha with rfl | rfl <;> (cases hq; decide +kernel)
  shorter := by
    intro a ha q hq
    simp only [project, faster, List.map_cons, List.map_nil, List.mem_cons, List.not_mem_nil, or_false] at ha
    rcases ha with rfl | rfl <;> (cases hq; decide +kernel)

end Sample

/-- C115 for the example: all the conditions are met. -/
example : ∃ (o : Cli.Options ℚ) (mk : Int), ∀ r n, (r = Sample.plan ∧ n = mk ∨ r = Sample.fastPlan ∧ n = mk / 2) →
    (∃ draws, WritesMakespan FloatEnv.rat { exampleMachine draws with source := .doc r, readFloat := Sample.digit } o "schedule.json" n) ∧
    ∀ draws n', WritesMakespan FloatEnv.rat { exampleMachine draws with source := .doc r, readFloat := Sample.digit } o "schedule.json" n' → n ≤ n' := by
  obtain ⟨o, hpar, hidle⟩ := plan_accepted
  obtain ⟨mk, h⟩ := pace_does_not_matter (m := { exampleMachine (fun _ _ _ => ⟨0, 0, 0, 0⟩) with readFloat := Sample.digit }) (root' := Sample.fastPlan)
    (k := 2) (fun _ => rfl) exampleRead_signs (by decide) hpar (by simp) (by simp) (by simp) Sample.plan_read
    (sound_schedulable Sample.plan_read plan_sound plan_moderate)
    (example_canWrite (draws := fun _ _ _ => ⟨0, 0, 0, 0⟩)) (by exact (by decide : 0 < 4)) (by rw [hidle]; decide) (by decide)
    Sample.fastPlan_loads (sound_schedulable Sample.fastPlan_loads (faster_sound (by norm_num) plan_sound) Sample.fast_moderate)
  exact ⟨o, mk, h⟩

/-- Two agents, the second uncertain: a run of the example project and of the faster one, with a number that is rejected -/
example : ∃ (sp : ScheduleParams ℚ) (rest : List ℚ), exampleProject.Sound ∧ toScheduleParams FloatEnv.rat exampleProject = ok sp ∧
    ValidSchedule sp examplePlan ∧ Runs FloatEnv.rat exampleProject examplePlan [13] [-5, 0, 2, 7] rest := by
  let sp : ScheduleParams ℚ :=
    { agentPerformance := [2, 1], taskDuration := [3/2, 1/2],
      availableAgents := Vector2D.ofSizes [0, 0, 1] [1, 2],
      dependencies := Vector2D.ofSizes [0] [0, 1], durationMultiplier := 10 }
  have hsp : toScheduleParams FloatEnv.rat exampleProject = ok sp := by decide +kernel
  have hs : ValidSchedule sp examplePlan := validSchedule_of_check (by decide) (by decide) (by decide)
  have hrun : ∃ (sim sim' : Simulation ℚ), Simulation.new exampleProject = ok sim ∧
      sim.call FloatEnv.rat examplePlan [-5, 0, 2, 7] = ok (some (13, [7], sim')) := by
    have hc : ∃ sim : Simulation ℚ, Simulation.new exampleProject = ok sim ∧
        (sim.call FloatEnv.rat examplePlan [-5, 0, 2, 7] >>= fun r => ok (r.map fun r => (r.1, r.2.1))) = ok (some (13, [7])) :=
      ⟨_, rfl, by decide +kernel⟩
    obtain ⟨sim, h1, h2⟩ := hc
    obtain ⟨r, h3, h4⟩ := bind_eq_ok.1 h2
    match r, h3, h4 with
    | none, _, h4 => cases h4
    | some (v, rest, sim'), h3, h4 =>
      cases h4
      exact ⟨sim, sim', h1, h3⟩
  obtain ⟨sim, sim', h1, h2⟩ := hrun
  exact ⟨sp, [7], exampleProject_sound, hsp, hs, .snoc (vs := []) .nil (.new h1) h2⟩

end Angonoka.Props
