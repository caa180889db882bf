import Verif.Proof.Temperature
import Mathlib.Tactic.NormNum

/-!
# C34, C35: the temperature
-/

set_option linter.unusedSectionVars false

namespace Angonoka.Props
open Angonoka Outcome Stun

variable {K : Type} [Field K] [LinearOrder K] [IsStrictOrderedRing K]

/-- C34 for small beta scales: with `0.03 * beta <= 1` in exact arithmetic, and with `900.03 * beta <= 1` in single precision (the
default is 0.001). After any history the value
is non-negative, and the next update does not violate the contract. Missing: larger beta scales,
which the constructor accepts and for which the statement is false
(`temperature_negative`). -/
theorem temperature_nonneg_partial (E : FloatEnv K) {beta : K} (hb : SmallBeta E beta)
    {period : Nat} {t : Temperature K} (ht : TemperatureFor E beta period t) :
    0 ≤ t.value ∧ ∀ stun, 0 ≤ stun → ∃ t', t.update E stun = ok t' ∧ 0 ≤ t'.value := by
  refine ⟨ht.inv.value_nonneg, fun stun hs => ?_⟩
  obtain ⟨t', h⟩ := ht.inv.update_ok hb hs
  exact ⟨t', h, (ht.inv.update h).value_nonneg⟩

/-- A temperature with the default window and period, and beta scale 1000. -/
def hotTemperature : Temperature ℚ :=
  { value := 1, stunWindow := 100, samples := [], count := 0, betaScale := 1000,
    restartPeriodMask := 255 }

/-- The full C34 is false: with beta scale 1000 the constructor succeeds and the very first
update (with a STUN value of 0) violates the postcondition. -/
theorem temperature_negative :
    TemperatureFor FloatEnv.rat 1000 256 hotTemperature ∧
    hotTemperature.update FloatEnv.rat 0 = ub "Temperature::update: value >= 0" := by
  refine ⟨.new (window := 100) ?_, ?_⟩
  · decide +kernel
  · decide +kernel

/-- State of a temperature after some updates. -/
theorem temperatureRun_state {E : FloatEnv K} {beta : K} {window period : Nat} {samples : List K}
    {t : Temperature K} (h : TemperatureRun E beta window period samples t) :
    t.samples = samples ∧ t.count = samples.length ∧ t.stunWindow = window ∧
      t.betaScale = beta ∧ t.restartPeriodMask = period - 1 ∧ hasSingleBit period = true ∧
      0 < window := by
  induction h with
  | new h =>
    simp only [Temperature.new, bind_eq_ok, expects_eq_ok, decide_eq_true_eq] at h
    obtain ⟨_, _, _, h1, _, _, _, h2, h⟩ := h
    cases h
    exact ⟨rfl, rfl, rfl, rfl, rfl, h2, h1⟩
  | @update samples t t' stun _ hu ih =>
    obtain ⟨h1, h2, h3, h4, h5, h6, h7⟩ := ih
    simp only [Temperature.update, bind_eq_ok] at hu
    obtain ⟨_, _, _, _, hu⟩ := hu
    cases hu
    exact ⟨by simp [h1], by simp [h2], h3, h4, h5, h6, h7⟩
  | reset _ hr ih =>
    obtain ⟨_, _, h3, h4, h5, h6, h7⟩ := ih
    simp only [Temperature.reset, bind_eq_ok] at hr
    obtain ⟨_, _, hr⟩ := hr
    cases hr
    exact ⟨rfl, rfl, h3, h4, h5, h6, h7⟩

/-- C35, the update rule: at the `n`-th update since the construction or the last reset the value is
multiplied by `1 + (mean of the window - 0.03) * beta * v²`, where `v` is the volatility of
`n`, which depends on `n` modulo the period only. -/
theorem temperature_update_rule {E : FloatEnv K} {beta stun : K} {window period : Nat}
    {samples : List K} {t t' : Temperature K} (h : TemperatureRun E beta window period samples t)
    (hu : t.update E stun = ok t') :
    t'.value = E.mul t.value (E.add 1 (E.mul (E.mul (E.mul
      (E.sub (max (-E.slack) (E.rolling window (stun :: samples))) (E.rnd (3 / 100))) beta)
      (volatility E period (samples.length + 1))) (volatility E period (samples.length + 1)))) := by
  obtain ⟨h1, h2, h3, h4, h5, h6, h7⟩ := temperatureRun_state h
  obtain ⟨k, hk⟩ := (hasSingleBit_iff period).1 h6
  have hpos : 0 < period := by rw [hk]; exact Nat.two_pow_pos k
  have hd : dampening E (samples.length + 1) (period - 1) =
      E.div (E.ofInt (((samples.length + 1) % period : Nat) : Int)) (E.ofInt (period : Int)) := by
    unfold dampening
    rw [hk, Nat.and_two_pow_sub_one_eq_mod, Nat.sub_add_cancel (Nat.two_pow_pos k)]
  simp only [Temperature.update, bind_eq_ok] at hu
  obtain ⟨_, _, _, _, hu⟩ := hu
  cases hu
  dsimp only [Temperature.averageStun]
  rw [h1, h2, h3, h4, h5, hd]
  rfl

/-- C35, shape of the volatility: periodic, 1 at the multiples of the period, between 0 and 1,
and not increasing within a period. -/
theorem volatility_shape (E : FloatEnv K) {period : Nat} (hp : 0 < period) (n : Nat) :
    volatility E period (n + period) = volatility E period n ∧
    volatility E period (n * period) = 1 ∧
    0 ≤ volatility E period n ∧ volatility E period n ≤ 1 ∧
    ∀ m, m ≤ n → n < period → volatility E period n ≤ volatility E period m := by
  have hr1 : (1 : K) ≤ E.rnd (((period : Nat) : Int) : K) :=
    E.one_le_rnd (by exact_mod_cast hp)
  have hpos : (0 : K) < E.rnd (((period : Nat) : Int) : K) := lt_of_lt_of_le one_pos hr1
  have hdiv : ∀ a b : Nat, a ≤ b →
      E.div (E.ofInt ((a : Nat) : Int)) (E.ofInt (period : Int)) ≤
      E.div (E.ofInt ((b : Nat) : Int)) (E.ofInt (period : Int)) := by
    intro a b hab
    apply E.rnd_mono
    unfold FloatEnv.ofInt
    rw [div_le_div_iff_of_pos_right hpos]
    apply E.rnd_mono
    exact_mod_cast hab
  have h0 : E.div (E.ofInt ((0 : Nat) : Int)) (E.ofInt (period : Int)) = 0 := by
    simp [FloatEnv.div, FloatEnv.ofInt, E.rnd_zero]
  have h1 : E.div (E.ofInt ((period : Nat) : Int)) (E.ofInt (period : Int)) = 1 := by
    unfold FloatEnv.div FloatEnv.ofInt
    rw [div_self hpos.ne', E.rnd_one]
  refine ⟨?_, ?_, ?_, ?_, ?_⟩
  · unfold volatility
    rw [Nat.add_mod_right]
  · unfold volatility
    rw [Nat.mul_mod_left, h0, FloatEnv.sub, sub_zero, E.rnd_one]
  · apply E.rnd_nonneg
    have := hdiv (n % period) period (Nat.mod_lt _ hp).le
    rw [h1] at this
    linarith
  · apply E.rnd_le_one
    have := hdiv 0 (n % period) (Nat.zero_le _)
    rw [h0] at this
    linarith
  · intro m hm hn
    apply E.rnd_mono
    rw [Nat.mod_eq_of_lt hn, Nat.mod_eq_of_lt (lt_of_le_of_lt hm hn)]
    have := hdiv m n hm
    linarith

/-- C35, strictness in exact arithmetic: within a period the volatility falls with each update. -/
theorem volatility_strict {E : FloatEnv K} (hE : E.IsExact) {period m n : Nat} (hmn : m < n)
    (hn : n < period) : volatility E period n < volatility E period m := by
  have hp : (0 : K) < (period : K) := by exact_mod_cast (by omega : 0 < period)
  unfold volatility FloatEnv.sub FloatEnv.div FloatEnv.ofInt
  simp only [hE _]
  rw [Nat.mod_eq_of_lt hn, Nat.mod_eq_of_lt (lt_trans hmn hn)]
  have : (m : K) < (n : K) := by exact_mod_cast hmn
  have := (div_lt_div_iff_of_pos_right hp).2 this
  push_cast
  linarith

/-- C35: the constructor refuses exactly the non-positive parameters and the periods that are not
powers of two. -/
theorem temperature_new_iff (beta : K) (window period : Nat) :
    (∃ t, Temperature.new beta window period = ok t) ↔
      0 < beta ∧ 0 < window ∧ ∃ k, period = 2 ^ k := by
  simp only [Temperature.new, bind_eq_ok, expects_eq_ok, decide_eq_true_eq, hasSingleBit_iff]
  constructor
  · rintro ⟨t, _, h1, _, h2, _, _, _, h3, _⟩
    exact ⟨h1, h2, h3⟩
  · rintro ⟨h1, h2, k, rfl⟩
    exact ⟨_, (), h1, (), h2, (), Nat.two_pow_pos k, (), ⟨k, rfl⟩, rfl⟩

/-! ### Examples -/

/-- The default beta scale satisfies the condition. -/
example : SmallBeta FloatEnv.rat (1 / 1000 : ℚ) := by unfold SmallBeta; decide +kernel

/-- A temperature with two updates behind it. -/
example : ∃ t, TemperatureRun FloatEnv.rat (1 / 10000 : ℚ) 10 4 [1/2, 1/4] t := by
  have hb : SmallBeta FloatEnv.rat (1 / 10000 : ℚ) := by unfold SmallBeta; decide +kernel
  obtain ⟨t₀, h₀⟩ := (temperature_new_iff (1 / 10000 : ℚ) 10 4).2
    ⟨by norm_num, by norm_num, 2, by norm_num⟩
  obtain ⟨t₁, h₁, _⟩ := (temperature_nonneg_partial _ hb (.new h₀)).2 (1/4) (by norm_num)
  obtain ⟨t₂, h₂, _⟩ := (temperature_nonneg_partial _ hb (.update (.new h₀) h₁)).2 (1/2)
    (by norm_num)
  exact ⟨t₂, .update (.update (.new h₀) h₁) h₂⟩

end Angonoka.Props
