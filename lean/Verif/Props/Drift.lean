import Verif.Proof.Drift
import Verif.Proof.Fed
import Verif.Props.Temperature
import Verif.Spec.Estimator

/-!
# C94: the rolling mean

The temperature follows the mean of the last STUN values, and the simulation stops by the mean of its last errors. Both
means are `boost::accumulators::rolling_mean`, which corrects its result with every sample. Without rounding it is the average of the
window. In single precision its errors stay: it depends on samples that have left the window long ago.
-/

set_option linter.unusedSectionVars false

namespace Angonoka.Props
open Angonoka Outcome Stun

variable {K : Type} [Field K] [LinearOrder K] [IsStrictOrderedRing K] {E : FloatEnv K}

/-- C94 in exact arithmetic: the rolling mean is the average of the last `n` samples. -/
theorem rolling_mean_exact_partial (hE : E.IsExact) {n : Nat} (hn : 0 < n) (samples : List K) :
    E.rolling n samples = windowMean n samples := by
  unfold FloatEnv.rolling
  rw [rollingMean_exact hE hn, windowMean, List.length_take, Nat.min_comm]

/-- In exact arithmetic, `average_stun` is the average of the last STUN values, after any history. -/
theorem averageStun_exact (hE : E.IsExact) {beta : K} {window period : Nat} {samples : List K} {t : Temperature K}
    (h : TemperatureRun E beta window period samples t) : t.averageStun E = windowMean window samples := by
  obtain ⟨h1, _, h3, _, _, _, h7⟩ := temperatureRun_state h
  have hnn : ∀ x ∈ samples, 0 ≤ x := by
    clear * - h
    induction h with
    | new => simp
    | update _ hu ih =>
      intro x hx
      rcases List.mem_cons.1 hx with rfl | hx
      · exact (Temperature.update_eq hu).1
      · exact ih x hx
    | reset => simp
  unfold Temperature.averageStun
  rw [h1, h3, E.slack_exact hE, neg_zero, rolling_mean_exact_partial hE h7, max_eq_right]
  exact div_nonneg (List.sum_nonneg fun x hx => hnn x (List.mem_of_mem_take hx)) (Nat.cast_nonneg _)

/-- C35 and C94, the update rule in exact arithmetic: the value is multiplied by `1 + (a - 0.03) * beta * v²`, where `a` is the average of
the last STUN values and `v` the volatility. -/
theorem temperature_update_exact (hE : E.IsExact) {beta stun : K} {window period : Nat} {samples : List K} {t t' : Temperature K}
    (h : TemperatureRun E beta window period samples t) (hu : t.update E stun = ok t') :
    t'.value = t.value * (1 + (windowMean window (stun :: samples) - 3 / 100) * beta
      * volatility E period (samples.length + 1) * volatility E period (samples.length + 1)) := by
  have h1 := averageStun_exact hE (h.update hu)
  obtain ⟨h2, _, h3, _⟩ := temperatureRun_state (h.update hu)
  unfold Temperature.averageStun at h1
  rw [h2, h3] at h1
  rw [temperature_update_rule h hu, h1]
  simp only [FloatEnv.mul, FloatEnv.add, FloatEnv.sub, hE _]

/-- The jobs of an optimizer give their temperatures numbers between 0 and 1, at most one for each of the `batch_size` iterations of an
update. -/
theorem optimizer_samples {opts : Options K} {threads : Nat} {ms : List K} {o : Optimizer K} (h : OptimizerRun E opts threads ms o)
    {j : Job K} (hj : j ∈ o.jobs) : j.temperature.stunWindow = opts.stunWindow ∧
      (∀ x ∈ j.temperature.samples, 0 ≤ x ∧ x ≤ 1) ∧ j.temperature.samples.length ≤ opts.batchSize * ms.length :=
  ⟨(h.fed j hj).window, (h.fed j hj).samples, (h.fed j hj).count⟩

section
variable [FloorRing K]

/-- C94 in single precision: as long as there are not too many samples, the rolling mean is near the average of the window; samples
must be between 0 and 1. -/
theorem rolling_mean_near_partial (hE : E.IsFloat) {n : Nat} (hn : 0 < n) (hn2 : n ≤ 2 ^ 24) {samples : List K}
    (hs : ∀ x ∈ samples, 0 ≤ x ∧ x ≤ 1) :
    |E.rolling n samples - windowMean n samples| ≤ 4 * ((1 + 2 ^ (-24 : Int)) ^ samples.length - 1) :=
  rollingMean_drift hE hn hn2 hs

/-- For up to 1000 samples: four correct decimals -/
theorem rolling_mean_thousand (hE : E.IsFloat) {n : Nat} (hn : 0 < n) (hn2 : n ≤ 2 ^ 24) {samples : List K}
    (hs : ∀ x ∈ samples, 0 ≤ x ∧ x ≤ 1) (hlen : samples.length ≤ 1000) :
    |E.rolling n samples - windowMean n samples| ≤ 1 / 4000 := by
  refine (rolling_mean_near_partial hE hn hn2 hs).trans ?_
  have h1 : (1 + (2 : K) ^ (-24 : Int)) ^ samples.length ≤ (1 + (2 : K) ^ (-24 : Int)) ^ 1000 :=
    pow_le_pow_right₀ (by norm_num) hlen
  have h2 := pow_bound (K := K) (k := 1000) (b := 1 + 1 / 16000) (by
    have h := pow_bound_real 1000 (1 / 16384) (by norm_num)
    refine h.trans ?_
    have := Real.exp_bound_div_one_sub_of_interval (x := 1 / 16384) (by norm_num) (by norm_num)
    refine this.trans ?_
    norm_num)
  push_cast at h2
  have h3 := h1.trans h2
  generalize (1 + (2 : K) ^ (-24 : Int)) ^ samples.length = y at h3
  linarith

/-- The simplification in `Temperature.averageStun` makes no difference: the rolling mean does not fall below
the negative slack. -/
theorem averageStun_float {opts : Options K} (hE : E.IsFloat)
    (hw : 0 < opts.stunWindow) (hw2 : opts.stunWindow ≤ 2 ^ 24) {threads : Nat} {ms : List K}
    (hslack : E.slack = 900 ∧ opts.batchSize * ms.length ≤ 5 * 2 ^ 24 ∨ E.slack = 9 / 10 ∧ opts.batchSize * ms.length ≤ 3 * 2 ^ 20)
    {o : Optimizer K} (h : OptimizerRun E opts threads ms o) {j : Job K} (hj : j ∈ o.jobs) :
    j.temperature.averageStun E = E.rolling opts.stunWindow j.temperature.samples := by
  obtain ⟨h1, h2, h3⟩ := optimizer_samples h hj
  unfold Temperature.averageStun
  rw [h1, max_eq_right]
  have hd := rolling_mean_near_partial hE hw hw2 h2
  have hb := (windowMean_bounds (n := opts.stunWindow) h2).1
  have hs : 4 * ((1 + (2 : K) ^ (-24 : Int)) ^ j.temperature.samples.length - 1) ≤ E.slack := by
    rcases hslack with ⟨h4, h5⟩ | ⟨h4, h5⟩
    · rw [h4]
      exact drift_long (h3.trans h5)
    · rw [h4]
      exact drift_short (h3.trans h5)
  have := (abs_le.1 (hd.trans hs)).1
  linarith

end

/-- A sample equal to the one that leaves the window does not change the rolling mean. -/
theorem rollingMean_same {rnd : K → K} {n : Nat} {l : List K} {s : K} (hn : n ≤ l.length) (hs : l.getD (n - 1) 0 = s) :
    rollingMean rnd n (s :: l) = rollingMean rnd n l := by
  rw [rollingMean]
  simp only [if_neg (not_lt.2 hn), hs, lt_irrefl, if_false]

theorem getD_replicate_append {k i : Nat} (hi : i < k) (l : List K) : (List.replicate k (0 : K) ++ l).getD i 0 = 0 := by
  rw [List.getD_eq_getElem?_getD, List.getElem?_append_left (by simpa using hi), List.getElem?_replicate, if_pos hi]
  rfl

theorem rollingMean_stays {rnd : K → K} {n : Nat} (hn : 0 < n) (l : List K) (k : Nat) :
    rollingMean rnd n (List.replicate (n + k) 0 ++ l) = rollingMean rnd n (List.replicate n 0 ++ l) := by
  induction k with
  | zero => rfl
  | succ k ih =>
    rw [← ih, ← Nat.add_assoc, List.replicate_succ, List.cons_append]
    exact rollingMean_same (by simp; omega) (getD_replicate_append (by omega) l)

/-- The full C94 is false: give a rolling mean of three samples the number 1 and then nothing but zeros. In single precision it
is `-2⁻²⁵` for ever, below every sample. -/
theorem rolling_mean_residue {E : FloatEnv ℚ} (hE : E.IsFloat) (k : Nat) :
    E.rolling 3 (List.replicate (3 + k) 0 ++ [1]) = -(1 / 2 ^ 25) ∧ windowMean 3 (List.replicate (3 + k) 0 ++ [(1 : ℚ)]) = 0 := by
  constructor
  · unfold FloatEnv.rolling
    rw [rollingMean_stays (by norm_num)]
    rw [show E.rnd = Binary32.round from funext hE]
    decide +kernel
  · unfold windowMean
    rw [List.take_append_of_le_length (by simp), List.take_replicate]
    simp

/-- `rolling_mean_exact_partial` and `rolling_mean_residue` in numbers: after 1, 0, 0, 0 the exact mean is 0. -/
example : FloatEnv.rat.rolling 3 [0, 0, 0, 1] = 0 := by decide +kernel

/-- The average of the last two of three samples -/
example : E.IsExact → E.rolling 2 [1, 0, 1] = 1 / 2 := by
  intro hE
  rw [rolling_mean_exact_partial hE (by norm_num)]
  norm_num [windowMean]

end Angonoka.Props
