import Verif.Spec.Pessimism
import Verif.Props.Limits

/-!
# C114: more pessimistic estimates
-/

set_option linter.unusedSectionVars false

namespace Angonoka.Props
open Outcome Stun

section
variable {K : Type} [Field K] [LinearOrder K] [IsStrictOrderedRing K] [FloorRing K] {E : FloatEnv K}
  {p p' : Project} {sp sp' : ScheduleParams K} {s : List Item}

/-- With random numbers between -2 and 2, no number is rejected and greater bounds lead to greater samples. -/
theorem samples_mono (hE : E.IsExact) {bs : List (K × K)} {xs zs rest : List K} (h : Samples E bs xs zs rest)
    {bs' : List (K × K)} {xs' rest' : List K} (h' : Samples E bs' xs' zs rest')
    (hb : ∀ b ∈ bs, 0 < b.1 ∧ b.1 ≤ b.2) (hb' : ∀ b ∈ bs', 0 < b.1 ∧ b.1 ≤ b.2)
    (hbb : List.Forall₂ (fun b b' => b.1 ≤ b'.1 ∧ b.2 ≤ b'.2 ∧ (b.1 = b.2 ↔ b'.1 = b'.2)) bs bs')
    (hz : ∀ z ∈ zs, |z| ≤ 2) : List.Forall₂ (· ≤ ·) xs xs' ∧ rest' = rest := by
  have pos : ∀ {lo hi z : K}, 0 < lo → lo ≤ hi → |z| ≤ 2 → 0 < drawn E lo hi z := by
    intro lo hi z h1 h2 h3
    obtain ⟨h3, h4⟩ := abs_le.1 h3
    rw [drawn_linear hE]
    have : 0 ≤ (hi - lo) * (z + 2) / 4 := by
      apply div_nonneg _ (by norm_num)
      exact mul_nonneg (by linarith) (by linarith)
    linarith
  have none : ∀ {lo hi : K} {rejected zs : List K}, 0 < lo → lo ≤ hi → (∀ r ∈ rejected, drawn E lo hi r ≤ 0) →
      (∀ z ∈ rejected ++ zs, |z| ≤ 2) → rejected = [] := by
    intro lo hi rejected zs h1 h2 hr hz
    cases rejected with
    | nil => rfl
    | cons r l => exact absurd (pos h1 h2 (hz r (by simp))) (not_lt.2 (hr r (by simp)))
  induction h generalizing bs' xs' with
  | nil =>
    cases hbb
    cases h'
    exact ⟨.nil, rfl⟩
  | @fixed b bounds xs zs rest h ih =>
    obtain ⟨b', hb1⟩ : ∃ b', b' ∈ bs' := by cases hbb; exact ⟨_, List.mem_cons_self⟩
    cases hbb with
    | @cons _ c _ _ hc hbb =>
    cases h' with
    | @fixed c _ _ _ _ h' =>
      obtain ⟨i1, i2⟩ := ih h' (fun b hb1 => hb b (by simp [hb1])) (fun b hb1 => hb' b (by simp [hb1])) hbb hz
      exact ⟨.cons hc.1 i1, i2⟩
    | drawn rejected hne => exact absurd (hc.2.2.1 rfl) hne
  | @drawn lo hi bounds z xs zs rest rejected hne hr hz' h ih =>
    cases hbb with
    | @cons _ c _ bs' hc hbb =>
    have h0 := hb (lo, hi) (by simp)
    have hrej := none h0.1 h0.2 hr hz
    subst hrej
    rw [List.nil_append] at h' hz
    obtain ⟨lo', hi'⟩ := c
    have h1 := hb' (lo', hi') (by simp)
    generalize hl : z :: zs = l at h'
    cases h' with
    | fixed h' => exact absurd (hc.2.2.2 rfl) hne
    | @drawn _ _ _ z' xs' zs' _ rejected' hne' hr' hz'' h' =>
      have hrej := none h1.1 h1.2 hr' (zs := z' :: zs') (by rw [← hl]; exact hz)
      subst hrej
      rw [List.nil_append] at hl
      cases hl
      obtain ⟨i1, i2⟩ := ih h' (fun b hb1 => hb b (by simp [hb1])) (fun b hb1 => hb' b (by simp [hb1])) hbb (fun z hz1 => hz z (by simp [hz1]))
      refine ⟨.cons ?_ i1, i2⟩
      obtain ⟨z1, z2⟩ := abs_le.1 (hz z (by simp))
      rw [drawn_linear hE, drawn_linear hE]
      have e1 : 0 ≤ (lo' - lo) * (2 - z) := mul_nonneg (by linarith [hc.1]) (by linarith)
      have e2 : 0 ≤ (hi' - hi) * (z + 2) := mul_nonneg (by linarith [hc.2.1]) (by linarith)
      linarith

theorem gloomier_eligible {t t' : Task} (ht : t.Gloomier t') {l l' : List Agent} (h : List.Forall₂ Agent.Gloomier l l') (i : Nat) :
    eligible t' i l' = eligible t i l := by
  induction h generalizing i with
  | nil => rfl
  | cons h _ ih =>
    have : ∀ {a a' : Agent}, a.Gloomier a' → canWorkOn a' t' = canWorkOn a t := by
      intro a a' h
      unfold canWorkOn isUniversal
      rw [h.id, h.groups, ht.agent, ht.groups]
    simp only [eligible, this h, ih]

theorem gloomier_graph (h : p.Gloomier p') (hsp : toScheduleParams E p = ok sp) (hsp' : toScheduleParams E p' = ok sp') :
    sp'.dependencies = sp.dependencies ∧ sp'.availableAgents = sp.availableAgents := by
  obtain ⟨-, -, -, -, h1, h2, -⟩ := toScheduleParams_ok hsp
  obtain ⟨-, -, -, -, h1', h2', -⟩ := toScheduleParams_ok hsp'
  have e1 : p'.tasks.map Task.dependencies = p.tasks.map Task.dependencies := by
    have := h.tasks
    revert this
    generalize p.tasks = l
    generalize p'.tasks = l'
    intro this
    induction this with
    | nil => rfl
    | cons h _ ih => simp [h.dependencies, ih]
  have e2 : (p'.tasks.map fun t => eligible t 0 p'.agents) = p.tasks.map fun t => eligible t 0 p.agents := by
    have := h.tasks
    revert this
    generalize p.tasks = l
    generalize p'.tasks = l'
    intro this
    induction this with
    | nil => rfl
    | cons ht _ ih => simp [gloomier_eligible ht h.agents, ih]
  exact ⟨by rw [h2', h2, e1], by rw [h1', h1, e2]⟩

/-- A schedule is as good for the gloomier project -/
theorem gloomier_valid (h : p.Gloomier p') (hp : p.Sound) (hp' : p'.Sound) (hsp : toScheduleParams E p = ok sp)
    (hsp' : toScheduleParams E p' = ok sp') (hs : ValidSchedule sp s) : ValidSchedule sp' s := by
  obtain ⟨e1, e2⟩ := gloomier_graph h hsp hsp'
  obtain ⟨g1, -⟩ := params_faithful hp.agent_groups hp.task_groups hsp
  obtain ⟨g1', -⟩ := params_faithful hp'.agent_groups hp'.task_groups hsp'
  have e3 : sp'.taskCount = sp.taskCount := by rw [g1, g1', h.tasks.length_eq]
  refine ⟨?_, ?_, ?_⟩
  · rw [e3]; exact hs.complete
  · have := hs.ordered
    unfold ScheduleParams.deps at *
    rw [e1]; exact this
  · have := hs.eligible
    unfold ScheduleParams.avail at *
    rw [e2]; exact this

theorem gloomier_performance (h : p.Gloomier p') {bs bs' : List (K × K)} (hb : p.performanceBounds bs) (hb' : p'.performanceBounds bs') :
    List.Forall₂ (fun b b' => b.1 ≤ b'.1 ∧ b.2 ≤ b'.2 ∧ (b.1 = b.2 ↔ b'.1 = b'.2)) bs' bs := by
  have h := h.agents
  unfold Project.performanceBounds at hb hb'
  revert h hb hb'
  generalize p.agents = l
  generalize p'.agents = l'
  intro hb hb' h
  induction h generalizing bs bs' with
  | nil => cases hb; cases hb'; exact .nil
  | cons h _ ih =>
    cases hb with
    | cons hb hbs =>
    cases hb' with
    | cons hb' hbs' =>
    refine .cons ?_ (ih hbs hbs')
    obtain ⟨lo, hi, ok, rfl⟩ := hb
    obtain ⟨lo', hi', ok', rfl⟩ := hb'
    obtain ⟨a, b, c⟩ := h.performance lo hi lo' hi' ok ok'
    dsimp only
    refine ⟨by exact_mod_cast a, by exact_mod_cast b, ?_⟩
    rw [Rat.cast_inj, Rat.cast_inj]
    exact c.symm

theorem gloomier_durations (hE : E.IsExact) (h : p.Gloomier p') :
    List.Forall₂ (fun b b' => b.1 ≤ b'.1 ∧ b.2 ≤ b'.2 ∧ (b.1 = b.2 ↔ b'.1 = b'.2)) (p.durationBounds E) (p'.durationBounds E) := by
  unfold Project.durationBounds
  rw [List.forall₂_map_left_iff, List.forall₂_map_right_iff]
  refine h.tasks.imp fun t t' h => ?_
  simp only [FloatEnv.ofInt, hE _, Int.cast_le, Int.cast_inj]
  exact ⟨h.shortest, h.longest, h.certain⟩

/-- One run: with the same random numbers, the gloomier project does not take less long. -/
theorem gloomier_run (hE : E.IsExact) (h : p.Gloomier p') (hp : p.Sound) (hp' : p'.Sound) (hsp : toScheduleParams E p = ok sp)
    (hs : ValidSchedule sp s) {zs rest rest' : List K} (hz : ∀ z ∈ zs, |z| ≤ 2) {sim sim1 sim' sim1' : Simulation K}
    (hsim : SimulationFor E p sim) (hsim' : SimulationFor E p' sim') {v v' : Int}
    (hc : sim.call E s zs = ok (some (v, rest, sim1))) (hc' : sim'.call E s zs = ok (some (v', rest', sim1'))) :
    v ≤ v' ∧ rest' = rest ∧ ∀ z ∈ rest, |z| ≤ 2 := by
  have hf : p.FloatsIn E := fun _ _ _ _ => hE _
  have hf' : p'.FloatsIn E := fun _ _ _ _ => hE _
  obtain ⟨sp', hsp', -⟩ := params_wellFormed (E := E) hp' hf'
  obtain ⟨bs, _, hb⟩ := performanceBounds_ok (K := K) hp.performance
  obtain ⟨bs', _, hb'⟩ := performanceBounds_ok (K := K) hp'.performance
  have hs' := gloomier_valid h hp hp' hsp hsp' hs
  obtain ⟨perf, dur, mid, a1, a2, rfl⟩ := call_samples hp hf hsp hs hb hsim hc
  obtain ⟨perf', dur', mid', b1, b2, rfl⟩ := call_samples hp' hf' hsp' hs' hb' hsim' hc'
  obtain ⟨w1, z1⟩ := samples_within hE a1 (fun b hb1 => (performanceBounds_positive hb hb1).2) hz
  obtain ⟨w2, z2⟩ := samples_within hE a2 (fun b hb1 => (durationBounds_positive hp hb1).2) z1
  obtain ⟨m1, e1⟩ := samples_mono hE b1 a1 (fun b => performanceBounds_positive hb') (fun b => performanceBounds_positive hb)
    (gloomier_performance h hb hb') hz
  subst e1
  obtain ⟨m2, e2⟩ := samples_mono hE a2 b2 (fun b => durationBounds_positive hp) (fun b => durationBounds_positive hp')
    (gloomier_durations hE h) z1
  subst e2
  refine ⟨?_, rfl, z2⟩
  have hperf := a1.pos fun b hb1 => (performanceBounds_positive hb hb1).1
  have hdur := a2.pos fun b hb1 => (durationBounds_positive hp hb1).1
  have hperf' := b1.pos fun b hb1 => (performanceBounds_positive hb' hb1).1
  have hdur' := b2.pos fun b hb1 => (durationBounds_positive hp' hb1).1
  have hpl : perf.length = p.agents.length := w1.length_eq.symm.trans hb.length_eq.symm
  have hdl : dur.length = p.tasks.length := by
    rw [← w2.length_eq]
    simp [Project.durationBounds]
  obtain ⟨wf, vs, -⟩ := best_case hE hp hsp hs hpl hdl hperf hdur
  obtain ⟨g1, g2⟩ := gloomier_graph h hsp hsp'
  have sl : (sp.sampled perf dur).Slower (sp'.sampled perf' dur') := by
    refine ⟨g1, g2, m2, ?_⟩
    exact m1.flip
  have hpl' : p'.agents.length = p.agents.length := h.agents.length_eq.symm
  rw [hpl']
  have hle := makespanValue_slower (E := E) wf sl hperf' vs p.agents.length
  have h0 := makespanValue_nonneg (E := E) wf vs
  have hac : (sp.sampled perf dur).agentCount = p.agents.length := hpl
  rw [hac] at h0
  rw [truncate_of_nonneg h0, truncate_of_nonneg (h0.trans hle)]
  exact Int.floor_le_floor hle

/-- C114: suppose that every task is expected to take at least as long, every agent to work at most as fast, and the same estimates are
certain. Then for the same schedule and the same random numbers, none of which is more than twice the standard deviation away from zero, each
of the runs takes at least as long, and they use the same random numbers. -/
theorem gloomier_runs_partial (hE : E.IsExact) (h : p.Gloomier p') (hp : p.Sound) (hp' : p'.Sound) (hsp : toScheduleParams E p = ok sp)
    (hs : ValidSchedule sp s) {zs : List K} (hz : ∀ z ∈ zs, |z| ≤ 2) {vs vs' : List Int} {rest rest' : List K}
    (hr : Runs E p s vs zs rest) (hr' : Runs E p' s vs' zs rest') (hn : vs'.length = vs.length) :
    List.Forall₂ (· ≤ ·) vs vs' ∧ rest' = rest := by
  have : List.Forall₂ (· ≤ ·) vs vs' ∧ rest' = rest ∧ ∀ z ∈ rest, |z| ≤ 2 := by
    induction hr generalizing vs' rest' with
    | nil =>
      cases hr' with
      | nil => exact ⟨.nil, rfl, hz⟩
      | snoc => simp at hn
    | @snoc vs v zs mid rest sim sim1 hr hsim hc ih =>
      cases hr' with
      | nil => simp at hn
      | @snoc vs' v' _ mid' rest' sim' sim1' hr' hsim' hc' =>
        obtain ⟨i1, i2, i3⟩ := ih hz hr' (by simpa using hn)
        subst i2
        obtain ⟨j1, j2, j3⟩ := gloomier_run hE h hp hp' hsp hs i3 hsim hsim' hc hc'
        exact ⟨List.rel_append i1 (.cons j1 .nil), j2, j3⟩
  exact ⟨this.1, this.2.1⟩

end

namespace Gloom

/-- One agent and one task of `lo` to `hi` seconds -/
def project (lo hi : Int) : Project where
  agents := [{ id := 0, name := "a" }]
  tasks := [{ name := "t", durMin := lo, durMax := hi }]

theorem project_gloomier {lo hi lo' hi' : Int} (h1 : lo ≤ lo') (h2 : hi ≤ hi') (h3 : lo = hi ↔ lo' = hi') :
    (project lo hi).Gloomier (project lo' hi') where
  agents := by
    refine .cons ⟨rfl, rfl, ?_⟩ .nil
    rintro lo hi lo' hi' ⟨a, b, -⟩ ⟨c, d, -⟩
    cases a; cases b; cases c; cases d
    exact ⟨le_rfl, le_rfl, Iff.rfl⟩
  tasks := .cons ⟨rfl, rfl, rfl, h1, h2, h3⟩ .nil

theorem project_sound {lo hi : Int} (h1 : 0 < lo) (h2 : lo ≤ hi) (h3 : hi < 2 ^ 62) : (project lo hi).Sound where
  agents_ne := by simp [project]
  tasks_ne := by simp [project]
  ids := by
    intro i a h
    match i with
    | 0 => cases h; rfl
  agent_groups := by simp [project, IndexSet.Sorted]
  task_groups := by simp [project, IndexSet.Sorted]
  performance := by
    intro a ha
    cases List.mem_singleton.1 ha
    exact ⟨1, 1, rfl, rfl, by norm_num, le_rfl⟩
  durations := by
    intro t ht
    cases List.mem_singleton.1 ht
    refine ⟨h1, h2, ?_⟩
    dsimp only
    linarith
  deps_sorted := by simp [project, IndexSet.Sorted]
  deps_lt := by simp [project]
  acyclic := by
    have no : ∀ i j, ¬ (project lo hi).DependsOn i j := by
      rintro i j ⟨t, ht, hd⟩
      cases List.mem_singleton.1 (List.mem_of_getElem? ht)
      simp at hd
    intro i hi
    cases hi with
    | single h => exact no _ _ h
    | tail _ h => exact no _ _ h
  assignable := by
    intro t ht
    cases List.mem_singleton.1 ht
    refine ⟨_, List.mem_singleton.2 rfl, ?_⟩
    simp [Eligible]

/-- What one run gives for the random numbers `zs`: its result and how many numbers are left -/
theorem one_run (p : Project) (zs : List ℚ) (v : Int) (n : Nat)
    (h : (do
      let sim : Simulation ℚ ← Simulation.new p
      let r ← sim.call FloatEnv.rat [⟨0, 0⟩] zs
      pure (r.map fun r => (r.1, r.2.1.length))) = ok (some (v, n))) :
    ∃ rest, rest.length = n ∧ Runs FloatEnv.rat p [⟨0, 0⟩] [v] zs rest := by
  obtain ⟨sim, h1, h⟩ := bind_eq_ok.1 h
  obtain ⟨r, h2, h⟩ := bind_eq_ok.1 h
  rcases r with _ | ⟨v', rest, sim'⟩
  · cases h
  · cases h
    exact ⟨rest, rfl, .snoc (vs := []) .nil (.new h1) h2⟩

/-- C114, what is missing: with a random number more than twice the standard deviation away from zero, a longer shortest duration shortens
the run, as does a longer longest duration; and where the first number was rejected before, it may be accepted, which gives a
shorter run and leaves more numbers for the following runs. -/
theorem gloomier_not_longer :
    (∃ rest rest', Runs FloatEnv.rat (project 60 100) [⟨0, 0⟩] [110] [3] rest ∧ Runs FloatEnv.rat (project 90 100) [⟨0, 0⟩] [102] [3] rest') ∧
    (∃ rest rest', Runs FloatEnv.rat (project 60 100) [⟨0, 0⟩] [50] [-3] rest ∧ Runs FloatEnv.rat (project 60 180) [⟨0, 0⟩] [30] [-3] rest') ∧
    ∃ rest rest', rest.length = 0 ∧ rest'.length = 1 ∧
      Runs FloatEnv.rat (project 1 100) [⟨0, 0⟩] [50] [-3, 0] rest ∧ Runs FloatEnv.rat (project 40 100) [⟨0, 0⟩] [25] [-3, 0] rest' := by
  refine ⟨?_, ?_, ?_⟩
  · obtain ⟨r, -, h⟩ := one_run (project 60 100) [3] 110 0 (by decide +kernel)
    obtain ⟨r', -, h'⟩ := one_run (project 90 100) [3] 102 0 (by decide +kernel)
    exact ⟨r, r', h, h'⟩
  · obtain ⟨r, -, h⟩ := one_run (project 60 100) [-3] 50 0 (by decide +kernel)
    obtain ⟨r', -, h'⟩ := one_run (project 60 180) [-3] 30 0 (by decide +kernel)
    exact ⟨r, r', h, h'⟩
  · obtain ⟨r, e, h⟩ := one_run (project 1 100) [-3, 0] 50 0 (by decide +kernel)
    obtain ⟨r', e', h'⟩ := one_run (project 40 100) [-3, 0] 25 1 (by decide +kernel)
    exact ⟨r, r', e, e', h, h'⟩

/-- A task of 60 to 100 seconds, and one of 90 to 180 seconds: for the random number 1 the runs take 90 and 157
seconds. -/
example : ∃ (sp : ScheduleParams ℚ) (rest rest' : List ℚ), (project 60 100).Gloomier (project 90 180) ∧ (project 60 100).Sound ∧
    (project 90 180).Sound ∧ toScheduleParams FloatEnv.rat (project 60 100) = ok sp ∧ ValidSchedule sp [⟨0, 0⟩] ∧
    Runs FloatEnv.rat (project 60 100) [⟨0, 0⟩] [90] [1, -2] rest ∧ Runs FloatEnv.rat (project 90 180) [⟨0, 0⟩] [157] [1, -2] rest' := by
  have hs := project_sound (lo := 60) (hi := 100) (by norm_num) (by norm_num) (by norm_num)
  obtain ⟨sp, hsp, hw⟩ := params_wellFormed (E := FloatEnv.rat) hs (fun _ _ _ _ => rfl)
  obtain ⟨r, -, h⟩ := one_run (project 60 100) [1, -2] 90 1 (by decide +kernel)
  obtain ⟨r', -, h'⟩ := one_run (project 90 180) [1, -2] 157 1 (by decide +kernel)
  refine ⟨sp, r, r', project_gloomier (by norm_num) (by norm_num) (by norm_num), hs,
    project_sound (by norm_num) (by norm_num) (by norm_num), hsp, ?_, h, h'⟩
  obtain ⟨g1, -, -, -, g5, -⟩ := params_faithful hs.agent_groups hs.task_groups hsp
  have g := g5 0 _ rfl
  refine ⟨?_, ?_, ?_⟩
  · rw [g1]; exact .refl _
  · intro pre it post hk d hd
    have hit : it ∈ ([⟨0, 0⟩] : List Item) := by rw [hk]; simp
    cases List.mem_singleton.1 hit
    rw [g.2.2] at hd
    simp at hd
  · intro it hit
    cases List.mem_singleton.1 hit
    exact (g.1 0).2 ⟨_, rfl, by simp [Eligible]⟩

end Gloom
end Angonoka.Props
