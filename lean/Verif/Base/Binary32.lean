import Mathlib.Algebra.Order.Floor.Ring
import Mathlib.Data.Int.Log
import Verif.Base.RealEnv

/-!
# `float` is a floating-point environment

IEEE 754 binary32 without the upper end of the range: a nonzero number is rounded to a multiple of its unit in the last
place, 24 significant bits or 2⁻¹⁴⁹ for subnormal numbers, to the nearest one, ties to even. The values of `std::exp` and `std::log` are
assumed to be rounded correctly.
-/

set_option linter.unusedSectionVars false

namespace Angonoka

section
variable {K : Type} [Field K] [LinearOrder K] [IsStrictOrderedRing K] [FloorRing K]

namespace Binary32

/-- The nearest integer, ties to even -/
def nearest (y : K) : Int :=
  if y - ⌊y⌋ < 1 / 2 then ⌊y⌋
  else if 1 / 2 < y - ⌊y⌋ then ⌊y⌋ + 1
  else if ⌊y⌋ % 2 = 0 then ⌊y⌋ else ⌊y⌋ + 1

/-- The exponent of the unit in the last place of a positive number -/
def unit (x : K) : Int := max (Int.log 2 x - 23) (-149)

/-- Rounding of a nonnegative number -/
def roundPos (x : K) : K := nearest (x / 2 ^ unit x) * 2 ^ unit x

/-- Rounding -/
def round (x : K) : K := if 0 ≤ x then roundPos x else -roundPos (-x)

theorem nearest_int (n : Int) : nearest (n : K) = n := by
  unfold nearest
  rw [Int.floor_intCast, sub_self, if_pos (by norm_num)]

theorem nearest_cases (y : K) : nearest y = ⌊y⌋ ∨ nearest y = ⌊y⌋ + 1 := by
  unfold nearest
  split_ifs <;> simp

theorem nearest_error (y : K) : |(nearest y : K) - y| ≤ 1 / 2 := by
  have h1 := Int.floor_le y
  have h2 := Int.lt_floor_add_one y
  rw [abs_le]
  unfold nearest
  split_ifs with ha hb hc
  · constructor <;> linarith
  · push_cast
    constructor <;> linarith
  · constructor <;> linarith [not_lt.1 ha, not_lt.1 hb]
  · push_cast
    constructor <;> linarith [not_lt.1 ha, not_lt.1 hb]

theorem nearest_mono {x y : K} (h : x ≤ y) : nearest x ≤ nearest y := by
  have hf : ⌊x⌋ ≤ ⌊y⌋ := Int.floor_le_floor h
  rcases hf.lt_or_eq with hlt | heq
  · have := nearest_cases x
    have := nearest_cases y
    omega
  · unfold nearest
    rw [heq]
    split_ifs <;> first | omega | (exfalso; linarith)

theorem le_nearest {n : Int} {y : K} (h : (n : K) ≤ y) : n ≤ nearest y := by
  have := nearest_mono h
  rwa [nearest_int] at this

theorem nearest_le {n : Int} {y : K} (h : y ≤ (n : K)) : nearest y ≤ n := by
  have := nearest_mono h
  rwa [nearest_int] at this

theorem two_zpow_pos (e : Int) : (0 : K) < 2 ^ e := zpow_pos (by norm_num) e

/-- Multiples of `2 ^ e` -/
def Grid (e : Int) (x : K) : Prop := ∃ n : Int, x = n * 2 ^ e

theorem Grid.of_le {e e' : Int} {x : K} (h : Grid e x) (hle : e' ≤ e) : Grid e' x := by
  obtain ⟨n, rfl⟩ := h
  refine ⟨n * 2 ^ (e - e').toNat, ?_⟩
  push_cast
  rw [mul_assoc, ← zpow_natCast, Int.toNat_of_nonneg (by omega), ← zpow_add₀ (by norm_num)]
  congr 2
  omega

theorem grid_pow {e k : Int} (h : e ≤ k) : Grid e ((2 : K) ^ k) :=
  Grid.of_le ⟨1, by simp⟩ h

theorem unit_mono {x y : K} (hx : 0 < x) (h : x ≤ y) : unit x ≤ unit y := by
  unfold unit
  have := Int.log_mono_right (b := 2) hx h
  omega

theorem roundPos_grid (x : K) : Grid (unit x) (roundPos x) := ⟨_, rfl⟩

theorem roundPos_of_grid {x : K} (h : Grid (unit x) x) : roundPos x = x := by
  obtain ⟨n, hn⟩ := h
  unfold roundPos
  have : x / 2 ^ unit x = n := by
    rw [div_eq_iff (two_zpow_pos _).ne']
    exact hn
  rw [this, nearest_int, ← hn]

theorem le_roundPos {x b : K} (hb : Grid (unit x) b) (h : b ≤ x) : b ≤ roundPos x := by
  obtain ⟨n, rfl⟩ := hb
  unfold roundPos
  apply mul_le_mul_of_nonneg_right _ (two_zpow_pos _).le
  exact_mod_cast le_nearest (by rwa [le_div_iff₀ (two_zpow_pos _)])

theorem roundPos_le {x b : K} (hb : Grid (unit x) b) (h : x ≤ b) : roundPos x ≤ b := by
  obtain ⟨n, rfl⟩ := hb
  unfold roundPos
  apply mul_le_mul_of_nonneg_right _ (two_zpow_pos _).le
  exact_mod_cast nearest_le (by rwa [div_le_iff₀ (two_zpow_pos _)])

theorem roundPos_nonneg {x : K} (h : 0 ≤ x) : 0 ≤ roundPos x := le_roundPos ⟨0, by simp⟩ h

theorem roundPos_zero : roundPos (0 : K) = 0 := roundPos_of_grid ⟨0, by simp⟩

theorem zpow_log_le {x : K} (h : 0 < x) : (2 : K) ^ Int.log 2 x ≤ x := by
  have := Int.zpow_log_le_self (b := 2) (by norm_num) h
  exact_mod_cast this

theorem lt_zpow_log (x : K) : x < (2 : K) ^ (Int.log 2 x + 1) := by
  have := Int.lt_zpow_succ_log_self (b := 2) (by norm_num) x
  exact_mod_cast this

theorem roundPos_mono {x y : K} (hx : 0 < x) (h : x ≤ y) : roundPos x ≤ roundPos y := by
  have hy := hx.trans_le h
  have hu := unit_mono hx h
  rcases hu.lt_or_eq with hlt | heq
  · -- the power of two at or below `y` separates them
    have hlog := Int.log_mono_right (b := 2) hx h
    have h1 : Int.log 2 x < Int.log 2 y := by
      unfold unit at hlt
      omega
    have h2 : unit y = Int.log 2 y - 23 := by
      unfold unit at hlt ⊢
      omega
    calc roundPos x ≤ 2 ^ Int.log 2 y := roundPos_le (grid_pow (by omega))
          ((lt_zpow_log x).le.trans (zpow_le_zpow_right₀ (by norm_num) (by omega)))
      _ ≤ roundPos y := le_roundPos (grid_pow (by omega)) (zpow_log_le hy)
  · unfold roundPos
    rw [heq]
    apply mul_le_mul_of_nonneg_right _ (two_zpow_pos _).le
    exact_mod_cast nearest_mono (div_le_div_of_nonneg_right h (two_zpow_pos _).le)

theorem roundPos_mono' {x y : K} (hx : 0 ≤ x) (h : x ≤ y) : roundPos x ≤ roundPos y := by
  rcases hx.lt_or_eq with hx | rfl
  · exact roundPos_mono hx h
  · rw [roundPos_zero]
    exact roundPos_nonneg h

/-- A rounded number is a multiple of its own unit in the last place. -/
theorem roundPos_rep {x : K} (hx : 0 < x) (hr : 0 < roundPos x) : Grid (unit (roundPos x)) (roundPos x) := by
  by_cases h : unit (roundPos x) ≤ unit x
  · exact (roundPos_grid x).of_le h
  · -- rounded up to the next power of two
    have hlt := not_le.1 h
    have hle : roundPos x ≤ 2 ^ max (Int.log 2 x + 1) (-149) := by
      apply roundPos_le
      · apply grid_pow
        unfold unit
        omega
      · exact (lt_zpow_log x).le.trans (zpow_le_zpow_right₀ (by norm_num) (le_max_left _ _))
    have hlog : Int.log 2 (roundPos x) ≤ max (Int.log 2 x + 1) (-149) := by
      have := Int.log_mono_right (b := 2) hr hle
      have h2 : Int.log 2 ((2 : K) ^ max (Int.log 2 x + 1) (-149)) = max (Int.log 2 x + 1) (-149) := by
        have := Int.log_zpow (R := K) (b := 2) (by norm_num) (max (Int.log 2 x + 1) (-149))
        exact_mod_cast this
      rwa [h2] at this
    have heq : Int.log 2 (roundPos x) = Int.log 2 x + 1 := by
      unfold unit at hlt
      omega
    have hge : (2 : K) ^ (Int.log 2 x + 1) ≤ roundPos x := by
      rw [← heq]
      exact zpow_log_le hr
    have hle' : roundPos x ≤ 2 ^ (Int.log 2 x + 1) := by
      have : max (Int.log 2 x + 1) (-149) = Int.log 2 x + 1 := by
        unfold unit at hlt
        omega
      rwa [this] at hle
    have h3 := le_antisymm hle' hge
    have h4 : Grid (Int.log 2 x + 1 - 23) (roundPos x) := by
      rw [h3]
      exact grid_pow (by omega)
    refine h4.of_le ?_
    unfold unit at hlt ⊢
    omega

theorem roundPos_idem {x : K} (hx : 0 ≤ x) : roundPos (roundPos x) = roundPos x := by
  rcases (roundPos_nonneg hx).lt_or_eq with hr | hr
  · rcases hx.lt_or_eq with hx | rfl
    · exact roundPos_of_grid (roundPos_rep hx hr)
    · rw [roundPos_zero, roundPos_zero]
  · rw [← hr, roundPos_zero]

theorem log_double {x : K} (hx : 0 < x) : Int.log 2 (2 * x) = Int.log 2 x + 1 := by
  have h2 : (0 : K) < 2 * x := by linarith
  have key : ∀ z : Int, (2 : K) ^ z ≤ 2 * x ↔ z ≤ Int.log 2 (2 * x) := by
    intro z
    have := Int.zpow_le_iff_le_log (b := 2) (by norm_num) (x := z) h2
    exact_mod_cast this
  have key' : ∀ z : Int, (2 : K) ^ z ≤ x ↔ z ≤ Int.log 2 x := by
    intro z
    have := Int.zpow_le_iff_le_log (b := 2) (by norm_num) (x := z) hx
    exact_mod_cast this
  apply le_antisymm
  · have h := (key _).2 le_rfl
    have h3 : (2 : K) ^ (Int.log 2 (2 * x) - 1) ≤ x := by
      rw [zpow_sub₀ (by norm_num), zpow_one, div_le_iff₀ (by norm_num)]
      linarith
    have := (key' _).1 h3
    omega
  · rw [← key, zpow_add₀ (by norm_num), zpow_one]
    linarith [(key' _).2 le_rfl]

theorem roundPos_double {x : K} (hx : 0 ≤ x) : roundPos (2 * roundPos x) = 2 * roundPos x := by
  rcases (roundPos_nonneg hx).lt_or_eq with hr | hr
  · rcases hx.lt_or_eq with hx | rfl
    · obtain ⟨n, hn⟩ := roundPos_rep hx hr
      apply roundPos_of_grid
      have h1 : Grid (unit (roundPos x) + 1) (2 * roundPos x) := by
        refine ⟨n, ?_⟩
        rw [zpow_add₀ (by norm_num), zpow_one, ← mul_assoc, ← hn, mul_comm]
      refine h1.of_le ?_
      unfold unit
      rw [log_double hr]
      omega
    · rw [roundPos_zero, mul_zero, roundPos_zero]
  · rw [← hr, mul_zero, roundPos_zero]

theorem round_nonneg_eq {x : K} (h : 0 ≤ x) : round x = roundPos x := if_pos h

theorem round_neg (x : K) : round (-x) = -round x := by
  unfold round
  rcases lt_trichotomy x 0 with h | rfl | h
  · rw [if_pos (by linarith), if_neg (by linarith), neg_neg]
  · simp [roundPos_zero]
  · rw [if_neg (by linarith), if_pos h.le, neg_neg]

theorem round_mono : Monotone (round : K → K) := by
  intro x y h
  unfold round
  split_ifs with hx hy
  · exact roundPos_mono' hx h
  · linarith
  · linarith [roundPos_nonneg (show 0 ≤ -x by linarith), roundPos_nonneg (by assumption : 0 ≤ y)]
  · have := roundPos_mono' (x := -y) (y := -x) (by linarith) (by linarith)
    linarith

theorem round_idem (x : K) : round (round x) = round x := by
  by_cases h : 0 ≤ x
  · rw [round_nonneg_eq h, round_nonneg_eq (roundPos_nonneg h), roundPos_idem h]
  · have h' : 0 ≤ -x := by linarith
    have : round x = -roundPos (-x) := if_neg h
    rw [this, round_neg, round_nonneg_eq (roundPos_nonneg h'), roundPos_idem h']

theorem round_double (x : K) : round (2 * round x) = 2 * round x := by
  by_cases h : 0 ≤ x
  · rw [round_nonneg_eq h, round_nonneg_eq (by linarith [roundPos_nonneg h]), roundPos_double h]
  · have h' : 0 ≤ -x := by linarith
    have : round x = -roundPos (-x) := if_neg h
    rw [this, mul_neg, round_neg, round_nonneg_eq (by linarith [roundPos_nonneg h']), roundPos_double h']

theorem round_one : round (1 : K) = 1 := by
  rw [round_nonneg_eq zero_le_one]
  apply roundPos_of_grid
  have : (1 : K) = 2 ^ (0 : Int) := (zpow_zero _).symm
  rw [this]
  apply grid_pow
  unfold unit
  rw [zpow_zero, Int.log_one_right]
  omega

/-- Whole numbers up to 2²⁴ are floats. -/
theorem round_int {n : Int} (h : |n| ≤ 2 ^ 24) : round (n : K) = n := by
  have key : ∀ n : Int, 0 ≤ n → n ≤ 2 ^ 24 → round (n : K) = n := by
    intro n h0 h
    have h0' : (0 : K) ≤ n := by exact_mod_cast h0
    rw [round_nonneg_eq h0']
    rcases h.lt_or_eq with h | rfl
    · apply roundPos_of_grid
      refine Grid.of_le (e := 0) ⟨n, by simp⟩ ?_
      unfold unit
      rcases h0.lt_or_eq with hp | rfl
      · have hp' : (0 : K) < n := by exact_mod_cast hp
        have : Int.log 2 (n : K) < 24 := by
          have := (Int.lt_zpow_iff_log_lt (b := 2) (by norm_num) (x := 24) hp').1 (by
            have : (n : K) < 2 ^ (24 : ℕ) := by exact_mod_cast h
            exact_mod_cast this)
          exact this
        omega
      · simp
    · apply roundPos_of_grid
      have : (((2 : Int) ^ 24 : Int) : K) = (2 : K) ^ (24 : Int) := by
        push_cast
        norm_cast
      rw [this]
      apply grid_pow
      unfold unit
      have h2 : Int.log 2 ((2 : K) ^ (24 : Int)) = 24 := by
        have := Int.log_zpow (R := K) (b := 2) (by norm_num) 24
        exact_mod_cast this
      rw [h2]
      omega
  rcases le_total 0 n with h0 | h0
  · exact key n h0 (by rwa [abs_of_nonneg h0] at h)
  · have := key (-n) (by omega) (by rwa [abs_of_nonpos h0] at h)
    push_cast at this
    rw [round_neg] at this
    linarith

/-- Relative error at most 2⁻²⁴ for normal numbers -/
theorem round_error {x : K} (h : 2 ^ (-126 : Int) ≤ |x|) : |round x - x| ≤ 2 ^ (-24 : Int) * |x| := by
  have key : ∀ x : K, 2 ^ (-126 : Int) ≤ x → |roundPos x - x| ≤ 2 ^ (-24 : Int) * x := by
    intro x hx
    have hx0 : 0 < x := (two_zpow_pos _).trans_le hx
    have hlog : -126 ≤ Int.log 2 x := by
      have := (Int.zpow_le_iff_le_log (b := 2) (by norm_num) (x := -126) hx0).1 (by exact_mod_cast hx)
      exact this
    have hu : unit x = Int.log 2 x - 23 := by
      unfold unit
      omega
    have he := nearest_error (x / 2 ^ unit x)
    have h1 : roundPos x - x = ((nearest (x / 2 ^ unit x) : K) - x / 2 ^ unit x) * 2 ^ unit x := by
      unfold roundPos
      rw [sub_mul, div_mul_cancel₀ _ (two_zpow_pos _).ne']
    rw [h1, abs_mul, abs_of_pos (a := (2 : K) ^ unit x) (two_zpow_pos _)]
    calc _ ≤ 1 / 2 * (2 : K) ^ unit x := mul_le_mul_of_nonneg_right he (two_zpow_pos _).le
      _ = 2 ^ (-24 : Int) * 2 ^ Int.log 2 x := by
        rw [hu, ← zpow_add₀ (by norm_num), show (1 / 2 : K) = 2 ^ (-1 : Int) by norm_num,
          ← zpow_add₀ (by norm_num)]
        congr 1
        omega
      _ ≤ _ := mul_le_mul_of_nonneg_left (zpow_log_le hx0) (two_zpow_pos _).le
  rcases le_total 0 x with h0 | h0
  · rw [round_nonneg_eq h0]
    rw [abs_of_nonneg h0] at h ⊢
    exact key x h
  · rw [abs_of_nonpos h0] at h ⊢
    have := key (-x) h
    rw [← neg_neg x, round_neg, round_nonneg_eq (by linarith), neg_neg]
    rw [show -roundPos (-x) - x = -(roundPos (-x) - -x) by ring, abs_neg]
    exact this

/-- The absolute error, also for subnormal numbers -/
theorem round_abs_error {x b : K} (h : |x| ≤ b) (hb : 2 ^ (-126 : Int) ≤ b) : |round x - x| ≤ 2 ^ (-24 : Int) * b := by
  rcases le_total (2 ^ (-126 : Int)) |x| with hx | hx
  · exact (round_error hx).trans (mul_le_mul_of_nonneg_left h (two_zpow_pos _).le)
  have key : ∀ x : K, 0 ≤ x → x ≤ 2 ^ (-126 : Int) → |roundPos x - x| ≤ 2 ^ (-24 : Int) * 2 ^ (-126 : Int) := by
    intro x h0 hx
    rcases h0.lt_or_eq with hx0 | rfl
    · have hlog : Int.log 2 x ≤ -126 := by
        have := Int.log_mono_right (b := 2) hx0 hx
        have h2 := Int.log_zpow (R := K) (b := 2) (by norm_num) (-126)
        rw [show ((2 : Nat) : K) = 2 by norm_num] at h2
        rwa [h2] at this
      have hu : unit x = -149 := by
        unfold unit
        omega
      have he := nearest_error (x / 2 ^ unit x)
      have h1 : roundPos x - x = ((nearest (x / 2 ^ unit x) : K) - x / 2 ^ unit x) * 2 ^ unit x := by
        unfold roundPos
        rw [sub_mul, div_mul_cancel₀ _ (two_zpow_pos _).ne']
      rw [h1, abs_mul, abs_of_pos (a := (2 : K) ^ unit x) (two_zpow_pos _), hu]
      rw [hu] at he
      calc _ ≤ 1 / 2 * (2 : K) ^ (-149 : Int) := mul_le_mul_of_nonneg_right he (two_zpow_pos _).le
        _ = _ := by
          rw [← zpow_add₀ (by norm_num), show (1 / 2 : K) = 2 ^ (-1 : Int) by norm_num, ← zpow_add₀ (by norm_num)]
          norm_num
    · rw [roundPos_zero, sub_zero, abs_zero]
      positivity
  refine le_trans ?_ (mul_le_mul_of_nonneg_left hb (two_zpow_pos _).le)
  rcases le_total 0 x with h0 | h0
  · rw [round_nonneg_eq h0]
    rw [abs_of_nonneg h0] at hx
    exact key x h0 hx
  · rw [abs_of_nonpos h0] at hx
    have := key (-x) (by linarith) hx
    rw [← neg_neg x, round_neg, round_nonneg_eq (by linarith), neg_neg]
    rw [show -roundPos (-x) - x = -(roundPos (-x) - -x) by ring, abs_neg]
    exact this

/-- Not every number is a float. -/
theorem round_example : round ((2 : K) ^ (-151 : Int)) = 0 := by
  rw [round_nonneg_eq (two_zpow_pos _).le]
  have hlog : Int.log 2 ((2 : K) ^ (-151 : Int)) = -151 := by
    have := Int.log_zpow (R := K) (b := 2) (by norm_num) (-151)
    exact_mod_cast this
  have hu : unit ((2 : K) ^ (-151 : Int)) = -149 := by
    unfold unit
    rw [hlog]
    rfl
  unfold roundPos
  rw [hu, ← zpow_sub₀ (by norm_num), show ((-151 : Int) - -149) = -2 by norm_num]
  have hf : ⌊(2 : K) ^ (-2 : Int)⌋ = 0 := by
    rw [Int.floor_eq_zero_iff]
    constructor <;> norm_num
  have : nearest ((2 : K) ^ (-2 : Int)) = 0 := by
    unfold nearest
    rw [hf, if_pos (by norm_num)]
  rw [this]
  simp

end Binary32

/-- Arithmetic on `float`, without overflow -/
def FloatEnv.binary32 (E : FloatEnv K) : FloatEnv K where
  rnd := Binary32.round
  rnd_mono := Binary32.round_mono
  rnd_idem := Binary32.round_idem
  rnd_neg := Binary32.round_neg
  rnd_one := Binary32.round_one
  rnd_double := Binary32.round_double
  exp x := Binary32.round (E.exp x)
  exp_nonneg x := by
    rw [Binary32.round_nonneg_eq (E.exp_nonneg x)]
    exact Binary32.roundPos_nonneg (E.exp_nonneg x)
  exp_le_one x hx := by
    have := Binary32.round_mono (E.exp_le_one x hx)
    rwa [Binary32.round_one] at this
  log x := Binary32.round (E.log x)
  slack := 900
  slack_nonneg := by norm_num
  slack_le := le_rfl
  slack_exact h := by
    have := Binary32.round_example (K := K)
    rw [h] at this
    exact absurd this (Binary32.two_zpow_pos _).ne'

end

/-- `float` with the real elementary functions -/
noncomputable def FloatEnv.float : FloatEnv ℝ := FloatEnv.real.binary32

end Angonoka
