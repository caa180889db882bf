import Verif.Proof.Rounding
import Verif.Props.Json

/-!
# Rounding errors of the schedule parameters
-/

set_option linter.unusedSectionVars false

namespace Angonoka
open Outcome Stun

variable {K : Type} [Field K] [LinearOrder K] [IsStrictOrderedRing K]

theorem accurate_float [FloorRing K] {E : FloatEnv K} (hE : E.IsFloat) : Accurate E (1 + 1 / 2 ^ 23) (1 / 2 ^ 126) := by
  have h126 : (2 : K) ^ (-126 : Int) = 1 / 2 ^ 126 := by
    rw [zpow_neg, one_div]
    norm_cast
  have h24 : (2 : K) ^ (-24 : Int) = 1 / 2 ^ 24 := by
    rw [zpow_neg, one_div]
    norm_cast
  have hpos : (0 : K) < 1 / 2 ^ 126 := by positivity
  refine ⟨by norm_num, hpos, ?_, ?_⟩
  · rw [hE, ← h126, Binary32.round_nonneg_eq (by rw [h126]; exact hpos.le)]
    apply Binary32.roundPos_of_grid
    apply Binary32.grid_pow
    unfold Binary32.unit
    have : Int.log 2 ((2 : K) ^ (-126 : Int)) = -126 := by
      have := Int.log_zpow (R := K) (b := 2) (by norm_num) (-126)
      exact_mod_cast this
    rw [this]
    decide
  · intro x hx
    have hx0 : 0 < x := lt_of_lt_of_le hpos hx
    have := Binary32.round_error (x := x) (by rw [abs_of_pos hx0, h126]; exact hx)
    rw [abs_of_pos hx0, h24, abs_le, ← hE] at this
    constructor <;> norm_num at this ⊢ <;> linarith

/-- Many small factors are a small factor. -/
theorem pow_near_one {u : K} (hu : 0 ≤ u) {k : Nat} (hk : 5 * (k : K) * u ≤ 1) :
    (1 + u) ^ k ≤ 1 + 5 / 4 * k * u := by
  induction k with
  | zero => simp
  | succ k ih =>
    push_cast at hk ⊢
    have hk0 : (0 : K) ≤ k := Nat.cast_nonneg k
    have hku : 0 ≤ (k : K) * u := mul_nonneg hk0 hu
    have h1 := ih (by nlinarith)
    rw [pow_succ]
    calc (1 + u) ^ k * (1 + u) ≤ (1 + 5 / 4 * k * u) * (1 + u) := mul_le_mul_of_nonneg_right h1 (by linarith)
      _ ≤ _ := by
        have : 5 / 4 * (k : K) * u * u ≤ u / 4 := by
          have h2 : 5 * (k : K) * u * u ≤ 1 * u := mul_le_mul_of_nonneg_right (by nlinarith) hu
          linarith
        nlinarith

theorem pow_float_le {k : Nat} (hk : k ≤ 400) : (1 + 1 / 2 ^ 23 : K) ^ k ≤ 1 + 1 / 2 ^ 14 := by
  have hkK : (k : K) ≤ 400 := by exact_mod_cast hk
  refine (pow_near_one (by positivity) ?_).trans ?_ <;> norm_num <;> linarith

theorem Near.within {c r : K} {k : Nat} {x y : K} (h : Near c k x y) (hc : 1 ≤ c) (hr : c ^ k ≤ 1 + r) : Within r x y := by
  have hck : 1 ≤ c ^ k := one_le_pow₀ hc
  have hx := h.left
  have hy := h.right
  unfold Within
  rw [abs_le]
  constructor
  · -- y ≤ c^k x
    have h1 := h.ge
    have h2 : c ^ k * x ≤ (1 + r) * x := mul_le_mul_of_nonneg_right hr hx
    have hr0 : 0 ≤ r := by linarith
    rcases le_total x y with hxy | hxy
    · have : r * x ≤ r * y := mul_le_mul_of_nonneg_left hxy hr0
      nlinarith
    · have := mul_nonneg hr0 hy
      linarith
  · have h1 := h.le
    have h2 : c ^ k * y ≤ (1 + r) * y := mul_le_mul_of_nonneg_right hr hy
    linarith

section
variable {E E₀ : FloatEnv K} {c lo : K}

theorem Accurate.half_le (hE : Accurate E c lo) (hc : c ≤ 2) {x : K} (hx : lo ≤ x) : x / 2 ≤ E.rnd x := by
  have h0 := hE.pos.trans_le hx
  have h1 := (hE.acc x hx).2
  have h2 := E.rnd_nonneg h0.le
  have h3 : c * E.rnd x ≤ 2 * E.rnd x := mul_le_mul_of_nonneg_right hc h2
  linarith

theorem near_ofInt (hE : Accurate E c lo) (hlo : lo ≤ 1) (hE₀ : E₀.IsExact) {n : Int} (hn : 1 ≤ n) :
    Near c 1 (E.ofInt n) (E₀.ofInt n) ∧ 1 ≤ E.ofInt n ∧ E₀.ofInt n = n := by
  have h1 : (1 : K) ≤ n := by exact_mod_cast hn
  unfold FloatEnv.ofInt
  rw [hE₀]
  refine ⟨?_, E.one_le_rnd h1, rfl⟩
  simpa using Near.rnd hE (Near.refl hE.one_le (zero_le_one.trans h1)) (hlo.trans h1)

/-- The running total -/
theorem near_total (hE : Accurate E c lo) (hlo : lo ≤ 1) (hE₀ : E₀.IsExact) {ts : List Task}
    (hd : ∀ t ∈ ts, t.DurationOk) (hr : ∀ t ∈ ts, t.durMax < 2 ^ 62) {j : Nat} (hj : 1 ≤ j) {x y : K} (h : Near c j x y) :
    Near c (j + ts.length) ((ts.map fun t => E.ofInt t.meanDuration).foldl E.add x)
      ((ts.map fun t => E₀.ofInt t.meanDuration).foldl E₀.add y) ∧
    (ts ≠ [] ∨ 1 ≤ x → 1 ≤ (ts.map fun t => E.ofInt t.meanDuration).foldl E.add x) ∧
    (ts ≠ [] ∨ 1 ≤ y → 1 ≤ (ts.map fun t => E₀.ofInt t.meanDuration).foldl E₀.add y) ∧
    (ts.map fun t => E₀.ofInt t.meanDuration).foldl E₀.add y ≤ y + ts.length * 2 ^ 62 := by
  induction ts generalizing j x y with
  | nil => exact ⟨h, by simp, by simp, by simp⟩
  | cons t ts ih =>
    have hdt := hd t (by simp)
    obtain ⟨h1, h2, h3⟩ := near_ofInt hE hlo hE₀ (n := t.meanDuration) (Props.meanDuration_pos hdt)
    have h4 : (1 : K) ≤ t.meanDuration := by exact_mod_cast Props.meanDuration_pos hdt
    have h5 : (t.meanDuration : K) ≤ 2 ^ 62 := by
      have := hr t (by simp)
      have := hdt.2
      have h6 : t.meanDuration ≤ 2 ^ 62 := by
        unfold Task.meanDuration
        omega
      exact_mod_cast h6
    have hx : 1 ≤ E.add x (E.ofInt t.meanDuration) := E.one_le_rnd (by linarith [h.left])
    have hadd : E₀.add y (E₀.ofInt t.meanDuration) = y + t.meanDuration := by
      unfold FloatEnv.add
      rw [hE₀, h3]
    have hn : Near c (j + 1) (E.add x (E.ofInt t.meanDuration)) (E₀.add y (E₀.ofInt t.meanDuration)) := by
      rw [hadd, ← h3]
      exact Near.rnd hE (Near.add hE.one_le h (h1.mono hE.one_le hj)) (by linarith [h.left])
    obtain ⟨a1, a2, a3, a4⟩ := ih (fun t ht => hd t (by simp [ht])) (fun t ht => hr t (by simp [ht])) (by omega) hn
    simp only [List.map_cons, List.foldl_cons]
    refine ⟨?_, fun _ => a2 (Or.inr hx), fun _ => a3 (Or.inr ?_), a4.trans ?_⟩
    · have e : j + (t :: ts).length = j + 1 + ts.length := by
        rw [List.length_cons]
        omega
      rw [e]
      exact a1
    · rw [hadd]
      linarith [h.right]
    · rw [hadd]
      push_cast [List.length_cons]
      linarith

/-- Rounded and exact parameters of the same project, side by side -/
structure NearParams (E E₀ : FloatEnv K) (c lo : K) (p : Project) (sp sp₀ : ScheduleParams K) : Prop where
  deps : ∀ t, sp.deps t = sp₀.deps t
  avail : ∀ t, sp.avail t = sp₀.avail t
  tasks : sp.taskCount = p.tasks.length
  tasks₀ : sp₀.taskCount = p.tasks.length
  multiplier : Near c (p.tasks.length + 3) sp.durationMultiplier sp₀.durationMultiplier
  multiplier_ge : 1 / 2 ^ 9 ≤ sp.durationMultiplier
  /-- normalised item times -/
  time : ∀ it : Item, it.task < p.tasks.length → it.agent < p.agents.length →
    Near c (p.tasks.length + 8) (sp.itemTime E it) (sp₀.itemTime E₀ it) ∧ 1 / 2 ^ 112 ≤ sp.itemTime E it
  /-- item times in seconds -/
  seconds : ∀ it : Item, it.task < p.tasks.length → it.agent < p.agents.length →
    Near c 4 ((p.secondsParams E sp).itemTime E it) ((p.secondsParams E₀ sp₀).itemTime E₀ it) ∧
      1 / 2 ^ 41 ≤ (p.secondsParams E sp).itemTime E it

theorem nearParams (hE : Accurate E c lo) (hlo : lo ≤ 1 / 2 ^ 126) (hc : c ^ 400 ≤ 2) (hE₀ : E₀.IsExact)
    {p : Project} (hp : p.Sound) (hr : p.InRange) (hf : p.FloatsIn E) {sp sp₀ : ScheduleParams K}
    (h : toScheduleParams E p = ok sp) (h₀ : toScheduleParams E₀ p = ok sp₀) :
    NearParams E E₀ c lo p sp sp₀ := by
  have hlo1 : lo ≤ 1 := hlo.trans (by norm_num)
  have hc2 : c ≤ 2 := (le_self_pow₀ hE.one_le (by norm_num)).trans hc
  have hck : ∀ k ≤ 400, c ^ k ≤ 2 := fun k hk => (pow_le_pow_right₀ hE.one_le hk).trans hc
  obtain ⟨hane, htne, hdur, hperf, havail, hdeps, hmult, htd⟩ := toScheduleParams_ok h
  obtain ⟨_, _, _, hperf₀, havail₀, hdeps₀, hmult₀, htd₀⟩ := toScheduleParams_ok h₀
  obtain ⟨ht1, ht2, ht3, ht4⟩ := near_total (x := (0 : K)) (y := 0) hE hlo1 hE₀ hdur hr.durations le_rfl
    ⟨le_rfl, le_rfl, by simp, by simp⟩
  rw [zero_add] at ht4
  set T := (p.tasks.map fun t => E.ofInt t.meanDuration).foldl E.add 0
  set T₀ := (p.tasks.map fun t => E₀.ofInt t.meanDuration).foldl E₀.add 0
  have hT := ht2 (Or.inl htne)
  have hT₀ := ht3 (Or.inl htne)
  have hn := hr.tasks
  have hnK : (p.tasks.length : K) ≤ 127 := by exact_mod_cast hn
  have hT₀' : T₀ ≤ 2 ^ 69 := ht4.trans (by norm_num; linarith)
  -- number of agents
  have hA1 : 1 ≤ p.agents.length := List.length_pos_iff.2 hane
  obtain ⟨ha1, ha2, ha3⟩ := near_ofInt hE hlo1 hE₀ (n := (p.agents.length : Int)) (by exact_mod_cast hA1)
  have hAK : (1 : K) ≤ ((p.agents.length : Int) : K) := by exact_mod_cast hA1
  have hAK' : ((p.agents.length : Int) : K) ≤ 127 := by exact_mod_cast hr.agents
  have hA256 : E.ofInt (p.agents.length : Int) ≤ 254 := by
    have := ha1.le
    rw [ha3, pow_one] at this
    nlinarith
  -- the multiplier
  have hm1 : 1 / 254 ≤ T / E.ofInt (p.agents.length : Int) := by
    rw [div_le_div_iff₀ (by norm_num) (by linarith)]
    nlinarith
  have hmlo : lo ≤ T / E.ofInt (p.agents.length : Int) := hlo.trans (le_trans (by norm_num) hm1)
  have hM : 1 / 2 ^ 9 ≤ sp.durationMultiplier := by
    rw [hmult]
    refine le_trans ?_ (hE.half_le hc2 hmlo)
    norm_num at hm1 ⊢
    linarith
  have hMn : Near c (p.tasks.length + 3) sp.durationMultiplier sp₀.durationMultiplier := by
    rw [hmult, hmult₀]
    unfold FloatEnv.div
    rw [hE₀]
    have := Near.rnd hE (Near.div hE.one_le ht1 ha1 (by linarith) (by rw [ha3]; linarith)) hmlo
    exact this.mono hE.one_le (by omega)
  have hM₀ : sp₀.durationMultiplier ≤ 2 ^ 69 := by
    rw [hmult₀]
    unfold FloatEnv.div
    rw [hE₀, ha3]
    exact (div_le_self (by linarith) hAK).trans hT₀'
  have hM₀0 : 0 < sp₀.durationMultiplier := by
    rw [hmult₀]
    unfold FloatEnv.div
    rw [hE₀, ha3]
    exact div_pos (by linarith) (by linarith)
  have hM0 : 0 < sp.durationMultiplier := lt_of_lt_of_le (by positivity) hM
  have hMhi : sp.durationMultiplier ≤ 2 ^ 70 := by
    refine hMn.le.trans ?_
    have h1 := hck (p.tasks.length + 3) (by omega)
    calc c ^ (p.tasks.length + 3) * sp₀.durationMultiplier ≤ 2 * sp₀.durationMultiplier :=
          mul_le_mul_of_nonneg_right h1 hM₀0.le
      _ ≤ 2 * 2 ^ 69 := mul_le_mul_of_nonneg_left hM₀ (by norm_num)
      _ = 2 ^ 70 := by norm_num
  -- performances
  have hP : ∀ k < p.agents.length, Near c 2 (sp.agentPerformance.getD k 0) (sp₀.agentPerformance.getD k 0) ∧
      0 < sp.agentPerformance.getD k 0 ∧ 0 < sp₀.agentPerformance.getD k 0 ∧ sp.agentPerformance.getD k 0 ≤ 2 ^ 40 := by
    intro k hk
    obtain ⟨_, _, _, _, _, hpe⟩ := Props.params_faithful hp.agent_groups hp.task_groups h
    obtain ⟨_, _, _, _, _, hpe₀⟩ := Props.params_faithful hp.agent_groups hp.task_groups h₀
    have hka := List.getElem?_eq_getElem hk
    obtain ⟨lo1, hi1, hpo, hx⟩ := hpe k _ hka
    obtain ⟨lo2, hi2, hpo₀, hx₀⟩ := hpe₀ k _ hka
    have e1 : lo2 = lo1 := by
      have := hpo₀.1.symm.trans hpo.1
      injection this
    have e2 : hi2 = hi1 := by
      have := hpo₀.2.1.symm.trans hpo.2.1
      injection this
    subst e1 e2
    rw [hE₀, hE₀] at hx₀
    have hmem : p.agents[k] ∈ p.agents := List.getElem_mem hk
    obtain ⟨x, hx', hb1, hb2⟩ := Props.params_performance_between h hf hka hpo
    rw [hx] at hx'
    cases hx'
    obtain ⟨r1, _⟩ := hr.performance _ hmem lo2 (Or.inl hpo.1)
    obtain ⟨_, r2⟩ := hr.performance _ hmem hi2 (Or.inr hpo.2.1)
    have r1K : (1 / 2 ^ 40 : K) ≤ lo2 := by
      have : ((1 / 2 ^ 40 : ℚ) : K) ≤ (lo2 : K) := by exact_mod_cast r1
      push_cast at this
      exact this
    have r2K : (hi2 : K) ≤ 2 ^ 40 := by exact_mod_cast r2
    have hle : (lo2 : K) ≤ hi2 := by exact_mod_cast hpo.2.2.2
    have hpos : (0 : K) < 1 / 2 ^ 40 := by positivity
    have hsum : lo ≤ (lo2 : K) + hi2 := hlo.trans (by norm_num at r1K ⊢; linarith)
    have hsum2 := hE.half_le hc2 hsum
    have hN := Near.rnd hE (Near.refl hE.one_le (x := (lo2 : K) + hi2) (by linarith)) hsum
    have hN2 := Near.rnd hE (Near.div hE.one_le hN (Near.refl hE.one_le (x := (2 : K)) (by norm_num)) (by norm_num)
      (by norm_num)) (hlo.trans (by norm_num at r1K hsum2 ⊢; linarith))
    simp only [List.getD_eq_getElem?_getD, hx, hx₀, Option.getD_some]
    exact ⟨hN2, lt_of_lt_of_le hpos (r1K.trans hb1), by linarith, hb2.trans r2K⟩
  -- durations
  have hD : ∀ t < p.tasks.length, Near c 1 ((p.tasks.map fun t => E.ofInt t.meanDuration).getD t 0)
      ((p.tasks.map fun t => E₀.ofInt t.meanDuration).getD t 0) ∧
      1 ≤ (p.tasks.map fun t => E.ofInt t.meanDuration).getD t 0 := by
    intro t ht
    have := near_ofInt hE hlo1 hE₀ (n := (p.tasks[t]).meanDuration)
      (Props.meanDuration_pos (hdur _ (List.getElem_mem ht)))
    simpa [ht] using ⟨this.1, this.2.1⟩
  have hN : ∀ t < p.tasks.length, Near c (p.tasks.length + 5) (sp.taskDuration.getD t 0) (sp₀.taskDuration.getD t 0) ∧
      1 / 2 ^ 71 ≤ sp.taskDuration.getD t 0 := by
    intro t ht
    obtain ⟨h1, h2⟩ := hD t ht
    have e1 : sp.taskDuration.getD t 0
        = E.div ((p.tasks.map fun t => E.ofInt t.meanDuration).getD t 0) sp.durationMultiplier := by
      rw [htd]
      simp [ht]
    have e2 : sp₀.taskDuration.getD t 0
        = (p.tasks.map fun t => E₀.ofInt t.meanDuration).getD t 0 / sp₀.durationMultiplier := by
      rw [htd₀]
      simp only [FloatEnv.div, hE₀ _]
      simp [ht]
    have h3 : 1 / 2 ^ 70 ≤ (p.tasks.map fun t => E.ofInt t.meanDuration).getD t 0 / sp.durationMultiplier := by
      rw [div_le_div_iff₀ (by norm_num) hM0]
      nlinarith
    have h4 : lo ≤ (p.tasks.map fun t => E.ofInt t.meanDuration).getD t 0 / sp.durationMultiplier :=
      hlo.trans (le_trans (by norm_num) h3)
    rw [e1, e2]
    refine ⟨?_, ?_⟩
    · exact (Near.rnd hE (Near.div hE.one_le h1 hMn hM0 hM₀0) h4).mono hE.one_le (by omega)
    · refine le_trans ?_ (hE.half_le hc2 h4)
      norm_num at h3 ⊢
      linarith
  refine ⟨?_, ?_, ?_, ?_, hMn, hM, ?_, ?_⟩
  · intro t
    unfold ScheduleParams.deps
    rw [hdeps, hdeps₀]
  · intro t
    unfold ScheduleParams.avail
    rw [havail, havail₀]
  · simp [ScheduleParams.taskCount, htd]
  · simp [ScheduleParams.taskCount, htd₀]
  · intro it h1 h2
    obtain ⟨n1, n2⟩ := hN it.task h1
    obtain ⟨p1, p2, p3, p4⟩ := hP it.agent h2
    have h3 : 1 / 2 ^ 111 ≤ sp.taskDuration.getD it.task 0 / sp.agentPerformance.getD it.agent 0 := by
      rw [div_le_div_iff₀ (by norm_num) p2]
      norm_num at n2 p4 ⊢
      linarith
    have h4 := hlo.trans (le_trans (by norm_num) h3)
    unfold ScheduleParams.itemTime FloatEnv.div
    rw [hE₀]
    refine ⟨(Near.rnd hE (Near.div hE.one_le n1 p1 p2 p3) h4).mono hE.one_le (by omega), ?_⟩
    refine le_trans ?_ (hE.half_le hc2 h4)
    norm_num at h3 ⊢
    linarith
  · intro it h1 h2
    obtain ⟨n1, n2⟩ := hD it.task h1
    obtain ⟨p1, p2, p3, p4⟩ := hP it.agent h2
    have h3 : 1 / 2 ^ 40 ≤ (p.tasks.map fun t => E.ofInt t.meanDuration).getD it.task 0 / sp.agentPerformance.getD it.agent 0 := by
      rw [div_le_div_iff₀ (by norm_num) p2]
      norm_num at n2 p4 ⊢
      linarith
    have h4 := hlo.trans (le_trans (by norm_num) h3)
    unfold ScheduleParams.itemTime FloatEnv.div Project.secondsParams
    rw [hE₀]
    refine ⟨(Near.rnd hE (Near.div hE.one_le n1 p1 p2 p3) h4).mono hE.one_le (by omega), ?_⟩
    refine le_trans ?_ (hE.half_le hc2 h4)
    norm_num at h3 ⊢
    linarith

end

end Angonoka
