import Verif.Spec.Rounding
import Verif.Spec.Rolling
import Mathlib.Analysis.Complex.ExponentialBounds

/-!
# How far the rolling mean drifts
-/

set_option linter.unusedSectionVars false

namespace Angonoka

variable {K : Type} [Field K] [LinearOrder K] [IsStrictOrderedRing K]

theorem rollingMean_id {n : Nat} (hn : 0 < n) (l : List K) : rollingMean (fun x => x) n l = windowMean n l := by
  rw [rollingMean_exact (fun _ => rfl) hn, windowMean, List.length_take, Nat.min_comm]

theorem windowMean_bounds {n : Nat} {l : List K} (h : ∀ x ∈ l, 0 ≤ x ∧ x ≤ 1) : 0 ≤ windowMean n l ∧ windowMean n l ≤ 1 := by
  unfold windowMean
  have h' : ∀ x ∈ l.take n, 0 ≤ x ∧ x ≤ 1 := fun x hx => h x (List.mem_of_mem_take hx)
  generalize l.take n = l at h'
  constructor
  · exact div_nonneg (List.sum_nonneg fun x hx => (h' x hx).1) (Nat.cast_nonneg _)
  · apply div_le_one_of_le₀ _ (Nat.cast_nonneg _)
    have := List.sum_le_card_nsmul l 1 fun x hx => (h' x hx).2
    simpa using this

section
variable [FloorRing K]

/-- The unit roundoff -/
local notation "u" => (2 : K) ^ (-24 : Int)

theorem u_pos : (0 : K) < u := by positivity

theorem u_small : u ≤ 1 / 2 ^ 24 := by norm_num

/-- The rounding errors of one step, from `m` by `D / k`; `b` bounds `D`, and `c` the result -/
theorem step_error {rnd : K → K} (hr : ∀ x, rnd x = Binary32.round x) {m D k b c : K} (hk1 : 1 ≤ k) (hk2 : k ≤ 2 ^ 24)
    (hb1 : 1 ≤ b) (hb : |D| ≤ b) (hc1 : 1 ≤ c) (hc : |m + D / k| ≤ c) :
    |rnd (m + rnd (rnd D / k)) - (m + D / k)| ≤ u * (3 * b / k) + u * c := by
  have hu0 : (0 : K) < u := u_pos
  have hus : u ≤ (1 : K) / 2 ^ 24 := u_small
  have hk0 : 0 < k := by linarith
  have htiny : (2 : K) ^ (-126 : Int) ≤ 1 / 2 ^ 24 := by norm_num
  have hbk : (1 : K) / 2 ^ 24 ≤ b * (1 + u) / k := by
    rw [div_le_div_iff₀ (by positivity) hk0]
    nlinarith
  have e1 : |rnd D - D| ≤ u * b := by
    rw [hr]
    exact Binary32.round_abs_error hb ((by norm_num : (2 : K) ^ (-126 : Int) ≤ 1).trans hb1)
  have hD : |rnd D| ≤ b * (1 + u) := by
    have := abs_sub_abs_le_abs_sub (rnd D) D
    linarith
  have hq : |rnd D / k| ≤ b * (1 + u) / k := by
    rw [abs_div, abs_of_pos hk0]
    exact div_le_div_of_nonneg_right hD hk0.le
  have e2 : |rnd (rnd D / k) - rnd D / k| ≤ u * (b * (1 + u) / k) := by
    rw [hr (rnd D / k)]
    exact Binary32.round_abs_error hq (htiny.trans hbk)
  have e3 : |rnd D / k - D / k| ≤ u * b / k := by
    rw [← sub_div, abs_div, abs_of_pos hk0]
    exact div_le_div_of_nonneg_right e1 hk0.le
  have e4 : |rnd (rnd D / k) - D / k| ≤ u * (b * (2 + u) / k) := by
    calc |rnd (rnd D / k) - D / k| = |(rnd (rnd D / k) - rnd D / k) + (rnd D / k - D / k)| := by ring_nf
      _ ≤ _ := abs_add_le _ _
      _ ≤ u * (b * (1 + u) / k) + u * b / k := add_le_add e2 e3
      _ = u * (b * (2 + u) / k) := by ring
  generalize rnd (rnd D / k) = δ at e4
  have hx : |m + δ| ≤ c + u * (b * (2 + u) / k) := by
    calc |m + δ| = |(m + D / k) + (δ - D / k)| := by ring_nf
      _ ≤ _ := abs_add_le _ _
      _ ≤ _ := add_le_add hc e4
  have hpos : 0 ≤ u * (b * (2 + u) / k) := by positivity
  have e5 : |rnd (m + δ) - (m + δ)| ≤ u * (c + u * (b * (2 + u) / k)) := by
    rw [hr]
    exact Binary32.round_abs_error hx ((by norm_num : (2 : K) ^ (-126 : Int) ≤ 1).trans (by linarith))
  have hbk0 : 0 ≤ b / k := by positivity
  have hcoef : u * (b * (2 + u) / k) * (1 + u) ≤ u * (3 * b / k) := by
    have h3 : (2 + u) * (1 + u) ≤ (3 : K) := by norm_num
    calc u * (b * (2 + u) / k) * (1 + u) = u * (b / k) * ((2 + u) * (1 + u)) := by ring
      _ ≤ u * (b / k) * 3 := mul_le_mul_of_nonneg_left h3 (by positivity)
      _ = _ := by ring
  calc |rnd (m + δ) - (m + D / k)| = |(rnd (m + δ) - (m + δ)) + (δ - D / k)| := by ring_nf
    _ ≤ _ := abs_add_le _ _
    _ ≤ u * (c + u * (b * (2 + u) / k)) + u * (b * (2 + u) / k) := add_le_add e5 e4
    _ = u * (b * (2 + u) / k) * (1 + u) + u * c := by ring
    _ ≤ _ := by linarith

/-- A step with a full window -/
theorem drift_full {rnd : K → K} (hr : ∀ x, rnd x = Binary32.round x) {m a D k : K} (hk1 : 1 ≤ k) (hk2 : k ≤ 2 ^ 24)
    (hD : |D| ≤ 1) (h1 : 0 ≤ a + D / k ∧ a + D / k ≤ 1) :
    |rnd (m + rnd (rnd D / k)) - (a + D / k)| ≤ |m - a| * (1 + u) + 4 * u := by
  have hu0 : (0 : K) < u := u_pos
  have hk0 : 0 < k := by linarith
  have hc : |m + D / k| ≤ 1 + |m - a| := by
    calc |m + D / k| = |(a + D / k) + (m - a)| := by ring_nf
      _ ≤ _ := abs_add_le _ _
      _ ≤ _ := add_le_add_left (abs_le.2 ⟨by linarith, h1.2⟩) _
  have hd0 := abs_nonneg (m - a)
  have h := step_error hr hk1 hk2 le_rfl hD (by linarith) hc
  have h2 : u * (3 * 1 / k) ≤ u * 3 := by
    apply mul_le_mul_of_nonneg_left _ hu0.le
    rw [div_le_iff₀ hk0]
    linarith
  calc |rnd (m + rnd (rnd D / k)) - (a + D / k)|
      = |(rnd (m + rnd (rnd D / k)) - (m + D / k)) + (m - a)| := by ring_nf
    _ ≤ _ := abs_add_le _ _
    _ ≤ _ := by linarith

/-- A step while the window is filling -/
theorem drift_fill {rnd : K → K} (hr : ∀ x, rnd x = Binary32.round x) {m a s k : K} (hk1 : 1 ≤ k) (hk2 : k ≤ 2 ^ 24)
    (h0 : 0 ≤ a ∧ a ≤ 1) (hs : 0 ≤ s ∧ s ≤ 1) :
    |rnd (m + rnd (rnd (s - m) / k)) - (a + (s - a) / k)| ≤ |m - a| * (1 + u) + 4 * u := by
  have hu0 : (0 : K) < u := u_pos
  have hus : u ≤ (1 : K) / 2 ^ 24 := u_small
  have hk0 : 0 < k := by linarith
  have hd0 := abs_nonneg (m - a)
  have hw1 : 1 / k ≤ 1 := by
    rw [div_le_one hk0]
    exact hk1
  have hw0 : 0 ≤ 1 / k := by positivity
  have hb : |s - m| ≤ 1 + |m - a| := by
    calc |s - m| = |(s - a) + -(m - a)| := by ring_nf
      _ ≤ _ := abs_add_le _ _
      _ ≤ _ := by
        rw [abs_neg]
        exact add_le_add_left (abs_le.2 ⟨by linarith, by linarith⟩) _
  have hy : |m + (s - m) / k - (a + (s - a) / k)| = |m - a| * (1 - 1 / k) := by
    rw [show m + (s - m) / k - (a + (s - a) / k) = (m - a) * (1 - 1 / k) by ring, abs_mul, abs_of_nonneg (a := 1 - 1 / k) (by linarith)]
  have ha : |a + (s - a) / k| ≤ 1 := by
    have h3 : a + (s - a) / k = a * (1 - 1 / k) + s * (1 / k) := by ring
    rw [h3, abs_le]
    have h4 : 0 ≤ 1 - 1 / k := by linarith
    constructor
    · have := mul_nonneg h0.1 h4
      have := mul_nonneg hs.1 hw0
      linarith
    · have := mul_le_mul_of_nonneg_right h0.2 h4
      have := mul_le_mul_of_nonneg_right hs.2 hw0
      linarith
  have hc : |m + (s - m) / k| ≤ 1 + |m - a| := by
    have h5 : |m + (s - m) / k| ≤ |a + (s - a) / k| + |m + (s - m) / k - (a + (s - a) / k)| := by
      calc |m + (s - m) / k| = |(a + (s - a) / k) + (m + (s - m) / k - (a + (s - a) / k))| := by ring_nf
        _ ≤ _ := abs_add_le _ _
    rw [hy] at h5
    have : |m - a| * (1 - 1 / k) ≤ |m - a| * 1 := mul_le_mul_of_nonneg_left (by linarith) hd0
    linarith
  have h := step_error hr hk1 hk2 (b := 1 + |m - a|) (by linarith) hb (by linarith) hc
  generalize |m - a| = d at *
  have h6 : u * (3 * (1 + d) / k) = 3 * u * (1 / k) + 3 * u * (d * (1 / k)) := by ring
  have h7 : 0 ≤ d * (1 / k) := mul_nonneg hd0 hw0
  have h8 : 3 * u * (d * (1 / k)) ≤ 1 * (d * (1 / k)) := mul_le_mul_of_nonneg_right (by norm_num) h7
  have h9 : 3 * u * (1 / k) ≤ 3 * u * 1 := mul_le_mul_of_nonneg_left hw1 (by linarith)
  calc |rnd (m + rnd (rnd (s - m) / k)) - (a + (s - a) / k)|
      = |(rnd (m + rnd (rnd (s - m) / k)) - (m + (s - m) / k)) + (m + (s - m) / k - (a + (s - a) / k))| := by ring_nf
    _ ≤ _ := abs_add_le _ _
    _ ≤ d * (1 + u) + 4 * u := by
      rw [hy]
      linarith

/-- The step in one formula -/
theorem rollingMean_cons {rnd : K → K} (hn : ∀ x, rnd (-x) = -rnd x) (h0 : rnd 0 = 0) (hi : ∀ x, rnd (rnd x) = rnd x) (n : Nat) (s : K)
    (l : List K) :
    rollingMean rnd n (s :: l) = rnd (rollingMean rnd n l + rnd (rnd (s - (if l.length < n then rollingMean rnd n l else l.getD (n - 1) 0))
      / rnd ((min (l.length + 1) n : Nat) : K))) ∧ rnd (rollingMean rnd n (s :: l)) = rollingMean rnd n (s :: l) := by
  have hfloat : ∀ l : List K, rnd (rollingMean rnd n l) = rollingMean rnd n l := by
    intro l
    induction l with
    | nil => exact h0
    | cons s l ih =>
      rw [rollingMean]
      split_ifs <;> simp only [hi, ih]
  refine ⟨?_, hfloat _⟩
  rw [rollingMean]
  generalize (if l.length < n then rollingMean rnd n l else l.getD (n - 1) 0) = old
  split_ifs with h1 h2
  · rw [← neg_sub s old, hn, neg_div, hn, sub_neg_eq_add]
  · rfl
  · rw [le_antisymm (not_lt.1 h2) (not_lt.1 h1), sub_self, h0, zero_div, h0, add_zero, hfloat]

/-- The exact step -/
theorem windowMean_cons {n : Nat} (hn : 0 < n) (s : K) (l : List K) :
    windowMean n (s :: l) = windowMean n l + (s - (if l.length < n then windowMean n l else l.getD (n - 1) 0))
      / ((min (l.length + 1) n : Nat) : K) := by
  have := (rollingMean_cons (rnd := fun x : K => x) (fun _ => rfl) rfl (fun _ => rfl) n s l).1
  simpa only [rollingMean_id hn] using this

/-- The distance between the rolling mean and the average of the window -/
theorem rollingMean_drift {rnd : K → K} (hr : ∀ x, rnd x = Binary32.round x) {n : Nat} (hn : 0 < n) (hn2 : n ≤ 2 ^ 24) {l : List K}
    (hl : ∀ x ∈ l, 0 ≤ x ∧ x ≤ 1) : |rollingMean rnd n l - windowMean n l| ≤ 4 * ((1 + u) ^ l.length - 1) := by
  induction l with
  | nil => simp [rollingMean, windowMean]
  | cons s l ih =>
    have hl' : ∀ x ∈ l, 0 ≤ x ∧ x ≤ 1 := fun x hx => hl x (List.mem_cons_of_mem _ hx)
    have ih := ih hl'
    have hs := hl s List.mem_cons_self
    have hk : 1 ≤ min (l.length + 1) n ∧ min (l.length + 1) n ≤ 2 ^ 24 := by omega
    have hcount : rnd ((min (l.length + 1) n : Nat) : K) = ((min (l.length + 1) n : Nat) : K) := by
      rw [hr]
      have := Binary32.round_int (K := K) (n := ((min (l.length + 1) n : Nat) : Int)) (by
        rw [abs_of_nonneg (by omega)]
        exact_mod_cast hk.2)
      simpa using this
    have hk1 : (1 : K) ≤ ((min (l.length + 1) n : Nat) : K) := by exact_mod_cast hk.1
    have hk2 : ((min (l.length + 1) n : Nat) : K) ≤ 2 ^ 24 := by exact_mod_cast hk.2
    have hb := windowMean_bounds (n := n) hl'
    have hb' := windowMean_bounds (n := n) hl
    have step : |rollingMean rnd n (s :: l) - windowMean n (s :: l)| ≤ |rollingMean rnd n l - windowMean n l| * (1 + u) + 4 * u := by
      rw [(rollingMean_cons (fun x => by rw [hr, hr, Binary32.round_neg]) (by rw [hr]; simpa using Binary32.round_int (K := K) (n := 0) (by norm_num))
        (fun x => by rw [hr, hr, Binary32.round_idem]) n s l).1, hcount]
      rw [windowMean_cons hn] at hb' ⊢
      by_cases hlen : l.length < n
      · simp only [if_pos hlen] at hb' ⊢
        exact drift_fill hr hk1 hk2 hb hs
      · simp only [if_neg hlen] at hb' ⊢
        have hm : l.getD (n - 1) 0 ∈ l := by
          have : n - 1 < l.length := by omega
          rw [List.getD_eq_getElem?_getD, List.getElem?_eq_getElem this]
          exact List.getElem_mem this
        have ho := hl' _ hm
        exact drift_full hr hk1 hk2 (abs_le.2 ⟨by linarith, by linarith⟩) hb'
    have hu0 : (0 : K) < u := u_pos
    calc _ ≤ _ := step
      _ ≤ 4 * ((1 + u) ^ l.length - 1) * (1 + u) + 4 * u := by
        have := mul_le_mul_of_nonneg_right ih (by linarith : (0 : K) ≤ 1 + u)
        linarith
      _ = _ := by
        rw [List.length_cons, pow_succ]
        ring

theorem pow_bound_real (k : Nat) (c : ℝ) (hk : (k : ℝ) ≤ c * 2 ^ 24) : (1 + (2 : ℝ) ^ (-24 : Int)) ^ k ≤ Real.exp c := by
  have h1 : 1 + (2 : ℝ) ^ (-24 : Int) ≤ Real.exp (2 ^ (-24 : Int)) := by
    have := Real.add_one_le_exp ((2 : ℝ) ^ (-24 : Int))
    linarith
  calc (1 + (2 : ℝ) ^ (-24 : Int)) ^ k ≤ (Real.exp (2 ^ (-24 : Int))) ^ k := pow_le_pow_left₀ (by positivity) h1 k
    _ = Real.exp (k * 2 ^ (-24 : Int)) := by rw [← Real.exp_nat_mul]
    _ ≤ Real.exp c := by
      apply Real.exp_le_exp.2
      calc (k : ℝ) * 2 ^ (-24 : Int) ≤ c * 2 ^ 24 * 2 ^ (-24 : Int) := mul_le_mul_of_nonneg_right hk (by positivity)
        _ = c := by
          rw [mul_assoc]
          norm_num

/-- From the reals to any ordered field -/
theorem pow_bound {k : Nat} {b : ℚ} (h : (1 + (2 : ℝ) ^ (-24 : Int)) ^ k ≤ (b : ℝ)) : (1 + u) ^ k ≤ (b : K) := by
  have h1 : (1 + (2 : ℚ) ^ (-24 : Int)) ^ k ≤ b := by
    rw [← Rat.cast_le (K := ℝ)]
    push_cast
    exact h
  have h2 : (((1 + (2 : ℚ) ^ (-24 : Int)) ^ k : ℚ) : K) ≤ (b : K) := by exact_mod_cast h1
  simpa using h2

/-- 83 million samples -/
theorem drift_long {k : Nat} (hk : k ≤ 5 * 2 ^ 24) : 4 * ((1 + u) ^ k - 1) ≤ (900 : K) := by
  have h := pow_bound (K := K) (k := k) (b := 226) (by
    refine (pow_bound_real k 5 (by exact_mod_cast hk)).trans ?_
    have h1 : Real.exp 5 = Real.exp 1 ^ 5 := by rw [← Real.exp_nat_mul]; norm_num
    rw [h1]
    calc Real.exp 1 ^ 5 ≤ (2.7182818286 : ℝ) ^ 5 := pow_le_pow_left₀ (Real.exp_pos _).le Real.exp_one_lt_d9.le 5
      _ ≤ _ := by norm_num)
  push_cast at h
  linarith

/-- 3 million samples -/
theorem drift_short {k : Nat} (hk : k ≤ 3 * 2 ^ 20) : 4 * ((1 + u) ^ k - 1) ≤ (9 / 10 : K) := by
  have h := pow_bound (K := K) (k := k) (b := 49 / 40) (by
    refine (pow_bound_real k (3 / 16) ?_).trans ?_
    · have : (k : ℝ) ≤ ((3 * 2 ^ 20 : Nat) : ℝ) := by exact_mod_cast hk
      refine this.trans (le_of_eq ?_)
      norm_num
    · have h1 : Real.exp (3 / 16) ^ 16 = Real.exp 1 ^ 3 := by
        rw [← Real.exp_nat_mul, ← Real.exp_nat_mul]
        norm_num
      have h2 : Real.exp 1 ^ 3 ≤ ((49 / 40 : ℝ)) ^ 16 := by
        calc Real.exp 1 ^ 3 ≤ (2.7182818286 : ℝ) ^ 3 := pow_le_pow_left₀ (Real.exp_pos _).le Real.exp_one_lt_d9.le 3
          _ ≤ _ := by norm_num
      rw [← h1] at h2
      have := (pow_le_pow_iff_left₀ (Real.exp_pos _).le (by norm_num) (by norm_num : 16 ≠ 0)).1 h2
      push_cast
      exact this)
  push_cast at h
  linarith

end

end Angonoka
