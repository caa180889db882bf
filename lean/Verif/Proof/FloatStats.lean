import Verif.Spec.Rounding
import Verif.Props.Histogram

/-!
# Thresholds of percentiles in single precision
-/

set_option linter.unusedSectionVars false

namespace Angonoka
open Outcome

variable {K : Type} [Field K] [LinearOrder K] [IsStrictOrderedRing K] [FloorRing K]

/-- Rounding a number below `2 ^ e` changes it by at most half a unit in the last place of numbers below `2 ^ e`. -/
theorem Binary32.round_error_below {x : K} {e : Int} (h0 : 0 ≤ x) (h : x < 2 ^ e) (he : -125 ≤ e) :
    |Binary32.round x - x| ≤ 2 ^ (e - 25) := by
  rcases h0.eq_or_lt with rfl | hpos
  · rw [round_nonneg_eq le_rfl, roundPos_zero, sub_self, abs_zero]
    exact (two_zpow_pos _).le
  rw [round_nonneg_eq h0]
  unfold roundPos
  have hu : unit x ≤ e - 24 := by
    unfold unit
    have h1 : Int.log 2 x < e := by
      have := (zpow_log_le hpos).trans_lt h
      exact (zpow_lt_zpow_iff_right₀ (by norm_num)).1 this
    omega
  have hpu := two_zpow_pos (K := K) (unit x)
  have h1 := nearest_error (x / 2 ^ unit x)
  have h2 : (nearest (x / 2 ^ unit x) : K) * 2 ^ unit x - x
      = ((nearest (x / 2 ^ unit x) : K) - x / 2 ^ unit x) * 2 ^ unit x := by
    rw [sub_mul, div_mul_cancel₀ _ hpu.ne']
  rw [h2, abs_mul, abs_of_pos hpu]
  have h3 : (2 : K) ^ unit x ≤ 2 ^ (e - 24) := zpow_le_zpow_right₀ (by norm_num) hu
  have h4 : (2 : K) ^ (e - 24) = 2 * 2 ^ (e - 25) := by
    rw [show e - 24 = (e - 25) + 1 by ring, zpow_add_one₀ (by norm_num), mul_comm]
  calc _ ≤ 1 / 2 * (2 : K) ^ unit x := by gcongr
    _ ≤ 1 / 2 * (2 * 2 ^ (e - 25)) := by rw [← h4]; gcongr
    _ = _ := by ring

/-- Whole numbers up to 2²⁴ are `float`s. -/
theorem FloatEnv.IsFloat.countsExact {E : FloatEnv K} (hE : E.IsFloat) {n : Int} (h : n ≤ 2 ^ 24) : CountsExact E n := by
  intro i h0 hi
  rw [hE, Binary32.round_int (by rw [abs_of_nonneg h0]; exact hi.trans h)]

/-- A whole number that reaches the computed threshold reaches the true one, if that is a whole number. -/
theorem FloatEnv.IsFloat.threshold {E : FloatEnv K} (hE : E.IsFloat) {n c N : Nat} {q : K} (hq0 : 0 ≤ q) (hq1 : q < 1)
    (hn : n < 2 ^ 24) (hN : q * n = N) (h : thresholdOf E n q ≤ (c : K)) : q * n ≤ (c : K) := by
  have e1 := Binary32.round_error_below (e := 0) hq0 (by simpa using hq1) (by norm_num)
  have hr0 : 0 ≤ Binary32.round q := by
    rw [Binary32.round_nonneg_eq hq0]
    exact Binary32.roundPos_nonneg hq0
  have hr1 : Binary32.round q ≤ 1 := by
    have := Binary32.round_mono hq1.le
    rwa [Binary32.round_one] at this
  have hn' : (n : K) < 2 ^ 24 := by exact_mod_cast hn
  have hx : (n : K) * Binary32.round q < 2 ^ (24 : Int) := by
    refine lt_of_le_of_lt ?_ (by exact_mod_cast hn' : (n : K) < 2 ^ (24 : Int))
    calc (n : K) * Binary32.round q ≤ n * 1 := by gcongr
      _ = n := mul_one _
  have e2 := Binary32.round_error_below (e := 24) (by positivity) hx (by norm_num)
  rw [thresholdOf, FloatEnv.mul, hE q, hE] at h
  have hu : (2 : K) ^ (0 - 25 : Int) = 1 / 2 ^ 25 := by norm_num
  have hv : (2 : K) ^ (24 - 25 : Int) = 1 / 2 := by norm_num
  rw [hu, abs_le] at e1
  rw [hv, abs_le] at e2
  have h1 : (n : K) * Binary32.round q ≥ n * (q - 1 / 2 ^ 25) := by
    apply mul_le_mul_of_nonneg_left _ (by positivity)
    linarith [e1.1]
  have h2 : (n : K) * (1 / 2 ^ 25) < 1 / 2 := by
    calc (n : K) * (1 / 2 ^ 25) < 2 ^ 24 * (1 / 2 ^ 25) := by gcongr
      _ = 1 / 2 := by norm_num
  have h3 : (N : K) < c + 1 := by
    have := e2.1
    nlinarith
  have h4 : N < c + 1 := by exact_mod_cast h3
  rw [hN]
  exact_mod_cast Nat.lt_succ_iff.1 h4

end Angonoka
