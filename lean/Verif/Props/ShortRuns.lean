import Verif.Props.Certain

/-!
# C65: a project on which the stopping rule fails

The makespan of the schedule is one second, as it should be, but many runs of the simulation take less than a second. Their
result is 0, and so are the quantiles.
-/

set_option linter.unusedSectionVars false

namespace Angonoka.Props
open Angonoka Outcome Stun

variable {K : Type} [Field K] [LinearOrder K] [IsStrictOrderedRing K] [FloorRing K]
variable {E : FloatEnv K}

/-- A batch of runs that all draw the same number and give the same result -/
theorem batchLoop_draws {p : Project} {s : List Item} {v w : Int} {z : K} {zs₀ : List K}
    (h : ∀ sim zs, SimulationFor E p sim → ∃ sim', sim.call E s (z :: zs) = ok (some (v, zs, sim')))
    (hv : 0 ≤ v) (hw : 1 ≤ w) {n : Nat} {rest : List K} {op : HistogramOp K} (hi : OpInv E p s w zs₀ op)
    (hz : op.zs = List.replicate n z ++ rest) :
    ∃ op', HistogramOp.batchLoop E s n op = ok (some op') ∧ op'.log = op.log ++ List.replicate n v ∧
      op'.zs = rest ∧ OpInv E p s w zs₀ op' := by
  induction n generalizing op with
  | zero => exact ⟨op, rfl, by simp, by simpa using hz, hi⟩
  | succ n ih =>
    rw [List.replicate_succ, List.cons_append] at hz
    obtain ⟨sim', hc⟩ := h op.sim (List.replicate n z ++ rest) hi.sim
    rw [← hz] at hc
    obtain ⟨hist, hin⟩ := insert_exists hw hi.hist hv
    obtain ⟨op', h1, h2, h3, h4⟩ := ih (hi.step hc hin) rfl
    refine ⟨op', ?_, ?_, h3, h4⟩
    · rw [HistogramOp.batchLoop, hc, ok_bind]
      dsimp only
      rw [hin, ok_bind, h1]
    · rw [h2]
      simp [List.replicate_succ]

/-- One task of one second, done by an agent with a performance between 0.5 and 1.5 -/
def quickProject : Project where
  agents := [{ id := 0, name := "a", perfMin := .fin (1 / 2), perfMax := .fin (3 / 2) }]
  tasks := [{ name := "t", durMin := 1, durMax := 1 }]

theorem quickProject_sound : quickProject.Sound where
  agents_ne := by decide
  tasks_ne := by decide
  ids := by
    intro i a h
    match i, h with
    | 0, h => cases h; rfl
    | i + 1, h => cases h
  agent_groups := by unfold IndexSet.Sorted; decide
  task_groups := by unfold IndexSet.Sorted; decide
  performance := by
    intro a ha
    simp only [quickProject, List.mem_cons, List.not_mem_nil, or_false] at ha
    subst ha
    exact ⟨1 / 2, 3 / 2, rfl, rfl, by norm_num, by norm_num⟩
  durations := by unfold Task.DurationOk; decide
  deps_sorted := by unfold IndexSet.Sorted; decide
  deps_lt := by decide
  acyclic := by
    have h0 : ∀ i d, ¬ quickProject.DependsOn i d := by
      rintro i d ⟨t, ht, hd⟩
      match i, ht with
      | 0, ht => cases ht; cases hd
    intro i hi
    cases hi with
    | single h => exact h0 _ _ h
    | tail _ h => exact h0 _ _ h
  assignable := by
    intro t ht
    simp only [quickProject, List.mem_cons, List.not_mem_nil, or_false] at ht
    subst ht
    simp [quickProject, Eligible]

/-- C65. The negation of "the prediction never violates a contract", for a sound project whose schedule takes a second:
if the performances drawn are one standard deviation above the middle, the second comparison of quantiles
divides 0 by 0. -/
theorem short_runs_fail {q : List Int → List ℚ} (hq : FiveQuantiles q) (hc : ConstantQuantiles q) :
    ∃ (sp : ScheduleParams ℚ) (s : List Item) (v : ℚ),
      toScheduleParams FloatEnv.rat quickProject = ok sp ∧ ValidSchedule sp s ∧
      IsMakespan FloatEnv.rat sp s v ∧ Predict.makespan FloatEnv.rat sp v = ok 1 ∧
      ∀ (binSize : Option Int), (∀ b ∈ binSize, 1 ≤ b) → ∀ (fuel : Nat), 2 ≤ fuel → ∀ zs, ∃ site,
        histogram FloatEnv.rat quickProject binSize s 1 (Stopping.more FloatEnv.rat q) fuel
          (List.replicate 20000 1 ++ zs) = ub site := by
  let sp : ScheduleParams ℚ :=
    { agentPerformance := [1], taskDuration := [1],
      availableAgents := Vector2D.ofSizes [0] [1],
      dependencies := Vector2D.ofSizes [] [0], durationMultiplier := 1 }
  have hsp : toScheduleParams FloatEnv.rat quickProject = ok sp := by decide +kernel
  have hs : ValidSchedule sp [⟨0, 0⟩] := validSchedule_of_check (by decide) (by decide) (by decide)
  refine ⟨sp, [⟨0, 0⟩], 1, hsp, hs, ⟨⟨sp, [0], [0]⟩, ⟨sp, [1], [1]⟩, by decide +kernel, by decide +kernel⟩,
    by decide +kernel, ?_⟩
  intro binSize hb fuel hfuel zs
  have hE : FloatEnv.rat.IsExact := fun _ => rfl
  -- one run
  have hrun : ∀ (sim : Simulation ℚ) (zs : List ℚ), SimulationFor FloatEnv.rat quickProject sim →
      ∃ sim', sim.call FloatEnv.rat [⟨0, 0⟩] (1 :: zs) = ok (some (0, zs, sim')) := by
    intro sim zs hsim
    obtain ⟨sim₀, h0⟩ : ∃ sim₀ : Simulation ℚ, Simulation.new quickProject = ok sim₀ := ⟨_, rfl⟩
    rw [simulation_history_free hsim (.new h0)]
    have h1 : (Simulation.new quickProject >>= fun sim₀ => sim₀.call FloatEnv.rat [⟨0, 0⟩] [1] >>= fun r =>
        ok (r.map fun r => (r.1, r.2.1))) = ok (some ((0 : Int), ([] : List ℚ))) := by decide +kernel
    rw [h0, ok_bind] at h1
    obtain ⟨r, h2, h3⟩ := bind_eq_ok.1 h1
    have h3 := (Outcome.ok.injEq ..).mp h3
    obtain ⟨⟨v, rest, sim'⟩, rfl, h4⟩ := Option.map_eq_some_iff.1 h3
    cases h4
    obtain ⟨used, h5, h6⟩ := simulation_local quickProject_sound (fun _ _ _ _ => rfl) hsp hs (.new h0) h2
    rw [List.append_nil] at h5
    rw [← h5] at h6
    exact h6 zs
  obtain ⟨w, hw, hw1⟩ : ∃ w, parseGranularity binSize 1 = ok w ∧ 1 ≤ w := by
    obtain ⟨r1, r2⟩ := resolution (le_refl (1 : Int))
    cases binSize with
    | none => exact ⟨_, r1, by split_ifs <;> norm_num⟩
    | some b => exact ⟨b, r2 b, hb b rfl⟩
  obtain ⟨sim₀, h0⟩ : ∃ sim₀ : Simulation ℚ, Simulation.new quickProject = ok sim₀ := ⟨_, rfl⟩
  obtain ⟨hist, hh⟩ : ∃ hist, Histogram.new w = ok hist := by
    unfold Histogram.new
    rw [expects_true (by simpa using hw1), ok_bind]
    exact ⟨_, rfl⟩
  have hcall : ∀ x : Outcome (Option Histogram), HistogramOp.call FloatEnv.rat [⟨0, 0⟩] (Stopping.more FloatEnv.rat q) fuel
      { sim := sim₀, hist := hist, zs := List.replicate 20000 1 ++ zs, log := [] } = x →
      histogram FloatEnv.rat quickProject binSize [⟨0, 0⟩] 1 (Stopping.more FloatEnv.rat q) fuel
          (List.replicate 20000 1 ++ zs) = x := by
    intro x hx
    unfold histogram
    rw [expects_true (by decide), ok_bind, expects_true (by decide), ok_bind, expects_true (by decide), ok_bind,
      h0, ok_bind, hw, ok_bind, hh, ok_bind, hx]
  have hz : List.replicate 20000 (1 : ℚ) ++ zs
      = List.replicate HistogramOp.batchSize 1 ++ (List.replicate HistogramOp.batchSize 1 ++ zs) := by
    rw [← List.append_assoc, List.replicate_append_replicate]
    rfl
  have hinit := opInv_init (E := FloatEnv.rat) (s := [⟨0, 0⟩]) (zs := List.replicate 20000 1 ++ zs) h0 hh
  obtain ⟨op1, a1, a2, a3, a4⟩ := batchLoop_draws hrun le_rfl hw1 hinit hz
  obtain ⟨op2, b1, b2, b3, b4⟩ := batchLoop_draws hrun le_rfl hw1 a4 a3
  rw [List.nil_append] at a2
  rw [a2, List.replicate_append_replicate] at b2
  obtain ⟨f, rfl⟩ : ∃ f, fuel = f + 2 := ⟨fuel - 2, by omega⟩
  have hq0 : q (List.replicate 10000 0) = [0, 0, 0, 0, 0] := by
    have := hc 10000 0 (by norm_num)
    rw [this]
    rfl
  have hm1 : Stopping.more FloatEnv.rat q op1.log = ok true := by
    rw [a2, stopping_rule_partial hE hq (k := 1) (by rw [List.length_replicate]; rfl)]
    · rw [Outcome.ok.injEq, decide_eq_true_eq]
      refine averageChange_first le_rfl (by norm_num) ?_
      unfold changeAt
      rw [if_pos rfl, show 10000 * (0 + 1) = 10000 from rfl, show HistogramOp.batchSize = 10000 from rfl,
        take_replicate le_rfl, hq0]
      norm_num [change]
    · intro i h1 h2
      omega
  obtain ⟨site, hm2⟩ : ∃ site, Stopping.more FloatEnv.rat q op2.log = ub site := by
    rw [b2]
    refine stopping_rule_fails hE hq (k := 2) (i := 1) (by rw [List.length_replicate]; rfl) le_rfl (by norm_num) ?_
    rw [show 10000 * 1 = 10000 from rfl, take_replicate (by unfold HistogramOp.batchSize; norm_num), hq0]
    simp
  refine ⟨site, hcall _ ?_⟩
  unfold HistogramOp.call HistogramOp.runBatch
  rw [expects_true (by decide), ok_bind, a1, ok_bind]
  dsimp only
  rw [HistogramOp.loop, hm1, ok_bind, if_pos rfl]
  unfold HistogramOp.runBatch
  rw [expects_true (by decide), ok_bind, b1, ok_bind]
  dsimp only
  rw [HistogramOp.loop, hm2]
  rfl

/-- It applies to the estimator of the examples. -/
example := short_runs_fail exampleQuantiles_five exampleQuantiles_constant

theorem certainPlan_valid : ∃ sp, toScheduleParams FloatEnv.rat Sample.certainProject = ok sp ∧
    ValidSchedule sp [⟨0, 0⟩, ⟨1, 1⟩, ⟨2, 0⟩] := by
  let sp : ScheduleParams ℚ :=
    { agentPerformance := [2, 1], taskDuration := [320 / 241, 160 / 241, 2 / 241],
      availableAgents := Vector2D.ofSizes [0, 1, 0, 1, 0, 1] [2, 2, 2],
      dependencies := Vector2D.ofSizes [0] [0, 0, 1], durationMultiplier := 10845 / 2 }
  exact ⟨sp, by decide +kernel, validSchedule_of_check (by decide) (by decide) (by decide)⟩

/-- `stopping_rule_partial` and `enough_runs` apply: the simulation of `Sample.certainProject` returns. -/
example (zs : List ℚ) : ∃ h, histogram FloatEnv.rat Sample.certainProject none [⟨0, 0⟩, ⟨1, 1⟩, ⟨2, 0⟩] 3645
    (Stopping.more FloatEnv.rat exampleQuantiles) 16 zs = ok (some h) ∧
    ∃ w vs, HistogramOf w vs h ∧ ((changeAt exampleQuantiles vs 0 ≤ 15 / 100) ∨ 160000 ≤ vs.length) := by
  obtain ⟨sp, hsp, hs⟩ := certainPlan_valid
  obtain ⟨v, hv, hcr⟩ := deterministic_runs (fun _ => rfl) certain_sound certain_moderate hsp hs
    (by
      intro a ha
      simp only [Sample.certainProject, List.mem_cons, List.not_mem_nil, or_false] at ha
      rcases ha with rfl | rfl <;> rfl)
    (by
      intro t ht
      simp only [Sample.certainProject, List.mem_cons, List.not_mem_nil, or_false] at ht
      rcases ht with rfl | rfl | rfl <;> rfl)
  obtain ⟨h, hh⟩ := histogram_constant (fun _ => rfl) exampleQuantiles_five exampleQuantiles_constant
    certain_sound hsp hs hcr hv (binSize := none) (by intro b hb; cases hb) (makespan := 3645) (by norm_num)
    (fuel := 16) le_rfl zs
  exact ⟨h, hh, enough_runs (fun _ => rfl) exampleQuantiles_five hh⟩

end Angonoka.Props
