import Verif.Props.Drift
import Verif.Props.PSquare
import Verif.Props.FloatPredict

/-!
# C66 in single precision: predictions of up to 25 hours

In single precision the mean of the errors keeps a residue of the first error (C94). If the makespan is at most 100001 seconds, the residue is
below the limit of 0.01, and the prediction for a project without spread ends as it does in exact arithmetic.
-/

set_option linter.unusedSectionVars false

namespace Angonoka.Props
open Angonoka Outcome Stun Cli

variable {K : Type} [Field K] [LinearOrder K] [IsStrictOrderedRing K] [FloorRing K]
variable {E : FloatEnv K} {m : Machine K} {o : Cli.Options K}

theorem quantiles_constant_float (hE : E.IsFloat) {n : Nat} (hn : 13 ≤ n) {v : Int} (hv : |v| ≤ 2 ^ 24) :
    PSquare.quantiles E (List.replicate n v) = List.replicate 5 (v : K) := by
  obtain ⟨h1, _, h2⟩ := quantiles_bounds (halves_float hE) (vs := List.replicate n v) (by simpa using hn) (lo := v) (hi := v) (fun x hx => by
    rw [(List.mem_replicate.1 hx).2]
    exact ⟨le_rfl, le_rfl⟩)
  rw [List.eq_replicate_iff]
  refine ⟨h1, fun x hx => ?_⟩
  obtain ⟨h3, h4⟩ := h2 x hx
  unfold FloatEnv.ofInt at h3 h4
  rw [hE, Binary32.round_int hv] at h3 h4
  exact le_antisymm h4 h3

/-- Adding zero to a rolling mean `x` of fewer than 15 samples: the new mean is near `x * (1 - 1 / k)`. -/
theorem zero_step (hE : E.IsFloat) {x k : K} (hx : 1 / 100 ≤ x) (hk : 2 ≤ k) (hk' : k ≤ 15) :
    |E.rnd (x - E.rnd (x / k)) - x * (1 - 1 / k)| ≤ 2 ^ (-24 : Int) * (x * (1 + 1 / 2 ^ 20)) := by
  have hu0 : (0 : K) < 2 ^ (-24 : Int) := u_pos
  have hus : (2 : K) ^ (-24 : Int) ≤ 1 / 2 ^ 24 := u_small
  have hx0 : 0 < x := lt_of_lt_of_le (by norm_num) hx
  have hk0 : (0 : K) < k := by linarith
  have hq : 1 / 2000 ≤ x / k := by
    rw [le_div_iff₀ hk0]
    linarith
  have hq' : x / k ≤ x / 2 := div_le_div_of_nonneg_left hx0.le (by norm_num) hk
  have e1 : |E.rnd (x / k) - x / k| ≤ 2 ^ (-24 : Int) * (x / k) := by
    rw [hE]
    exact Binary32.round_abs_error (by rw [abs_of_pos (by linarith)]) (le_trans (by norm_num) hq)
  generalize E.rnd (x / k) = δ at e1
  have hy : x * (1 - 1 / k) = x - x / k := by ring
  rw [hy]
  have hB : |x - δ| ≤ (x - x / k) + 2 ^ (-24 : Int) * (x / k) := by
    rw [abs_le] at e1 ⊢
    constructor <;> linarith [e1.1, e1.2]
  have hB0 : 0 < (2 : K) ^ (-24 : Int) * (x / k) := mul_pos hu0 (by linarith)
  have e2 : |E.rnd (x - δ) - (x - δ)| ≤ 2 ^ (-24 : Int) * ((x - x / k) + 2 ^ (-24 : Int) * (x / k)) := by
    rw [hE]
    refine Binary32.round_abs_error hB ?_
    have h1 : (2 : K) ^ (-126 : Int) ≤ 1 / 2000 := by norm_num
    linarith
  have h4 : (2 : K) ^ (-24 : Int) * (x / k) ≤ x * (1 / 2 ^ 20) := by
    calc (2 : K) ^ (-24 : Int) * (x / k) ≤ 1 / 2 ^ 24 * x := mul_le_mul hus (by linarith) (by linarith) (by positivity)
      _ ≤ x * (1 / 2 ^ 20) := by
        rw [mul_comm]
        exact mul_le_mul_of_nonneg_left (by norm_num) hx0.le
  calc |E.rnd (x - δ) - (x - x / k)| = |(E.rnd (x - δ) - (x - δ)) + (x / k - δ)| := by ring_nf
    _ ≤ |E.rnd (x - δ) - (x - δ)| + |x / k - δ| := abs_add_le _ _
    _ ≤ 2 ^ (-24 : Int) * ((x - x / k) + 2 ^ (-24 : Int) * (x / k)) + 2 ^ (-24 : Int) * (x / k) := by
      rw [abs_sub_comm (x / k)]
      exact add_le_add e2 e1
    _ = 2 ^ (-24 : Int) * (x + 2 ^ (-24 : Int) * (x / k)) := by ring
    _ ≤ 2 ^ (-24 : Int) * (x + x * (1 / 2 ^ 20)) := mul_le_mul_of_nonneg_left (by linarith) hu0.le
    _ = _ := by ring

theorem rolling_cons (hE : E.IsFloat) (n : Nat) (s : K) (l : List K) :
    E.rolling n (s :: l) = E.rnd (E.rolling n l + E.rnd (E.rnd (s - (if l.length < n then E.rolling n l else l.getD (n - 1) 0))
      / E.rnd ((min (l.length + 1) n : Nat) : K))) ∧ E.rnd (E.rolling n (s :: l)) = E.rolling n (s :: l) :=
  rollingMean_cons (fun x => by rw [hE, hE, Binary32.round_neg]) (by rw [hE]; simpa using Binary32.round_int (K := K) (n := 0) (by norm_num))
    (fun x => by rw [hE, hE, Binary32.round_idem]) n s l

theorem rnd_nat (hE : E.IsFloat) {n : Nat} (hn : n ≤ 2 ^ 24) : E.rnd (n : K) = n := by
  rw [hE]
  have := Binary32.round_int (K := K) (n := (n : Int)) (by
    rw [abs_of_nonneg (by omega)]
    exact_mod_cast hn)
  simpa using this

/-- The rolling mean of the error `e` and `k` zeros, as long as there are not more than 15 of them -/
theorem first_error_mean (hE : E.IsFloat) {e : Nat} (he : 1 ≤ e) (he' : e ≤ 100000) {k : Nat} (hk : k < 15) :
    |E.rolling 15 (List.replicate k 0 ++ [(e : K)]) - (e : K) / (k + 1 : Nat)| ≤ (if k = 0 then 0 else 8 / 5) * (2 ^ (-24 : Int) * e) ∧
    E.rnd (E.rolling 15 (List.replicate k 0 ++ [(e : K)])) = E.rolling 15 (List.replicate k 0 ++ [(e : K)]) := by
  have hr0 : E.rnd 0 = 0 := by simpa using rnd_nat hE (n := 0) (by norm_num)
  have hre : E.rnd (e : K) = e := rnd_nat hE (by omega)
  have he0 : (1 : K) ≤ e := by exact_mod_cast he
  have hu0 : (0 : K) < 2 ^ (-24 : Int) := u_pos
  induction k with
  | zero =>
    have h := rolling_cons hE 15 (e : K) []
    have hnil : E.rolling 15 ([] : List K) = 0 := rfl
    rw [List.replicate_zero, List.nil_append]
    refine ⟨?_, h.2⟩
    rw [h.1, hnil]
    simp only [List.length_nil, Nat.zero_lt_succ, if_true, sub_zero, zero_add]
    rw [show min 1 15 = 1 from rfl, rnd_nat hE (n := 1) (by norm_num), hre, Nat.cast_one, div_one, hre, hre]
    simp
  | succ k ih =>
    obtain ⟨ih1, ih2⟩ := ih (by omega)
    have h := rolling_cons hE 15 0 (List.replicate k 0 ++ [(e : K)])
    rw [List.replicate_succ, List.cons_append]
    refine ⟨?_, h.2⟩
    have hlen : (List.replicate k 0 ++ [(e : K)]).length = k + 1 := by simp
    have hneg : ∀ y : K, E.rnd (-y) = -E.rnd y := fun y => by rw [hE, hE, Binary32.round_neg]
    rw [h.1, hlen, if_pos (by omega), show min (k + 1 + 1) 15 = k + 2 by omega, rnd_nat hE (n := k + 2) (by omega), zero_sub,
      hneg, ih2, neg_div, hneg, ← sub_eq_add_neg]
    generalize E.rolling 15 (List.replicate k 0 ++ [(e : K)]) = x at ih1 ih2
    -- bounds of the old mean
    have hk1 : (0 : K) < ((k + 1 : Nat) : K) := by exact_mod_cast Nat.succ_pos k
    have hk15 : ((k + 1 : Nat) : K) ≤ 15 := by exact_mod_cast (by omega : k + 1 ≤ 15)
    have hmean : (e : K) / 15 ≤ e / (k + 1 : Nat) := div_le_div_of_nonneg_left (by linarith) hk1 hk15
    have hue : (2 : K) ^ (-24 : Int) * e ≤ 1 / 2 ^ 24 * e := mul_le_mul_of_nonneg_right u_small (by linarith)
    have hue0 : (0 : K) < 2 ^ (-24 : Int) * e := mul_pos hu0 (by linarith)
    have hif : (if k = 0 then 0 else 8 / 5 : K) ≤ 8 / 5 := by split_ifs <;> norm_num
    have hif0 := mul_le_mul_of_nonneg_right hif hue0.le
    have hx : 1 / 100 ≤ x := by
      have := (abs_le.1 (ih1.trans hif0)).1
      norm_num at hue
      linarith
    have hxs : x ≤ e / (k + 1 : Nat) + (if k = 0 then 0 else 8 / 5) * (2 ^ (-24 : Int) * e) := by
      have := (abs_le.1 ih1).2
      linarith
    have hk2 : (2 : K) ≤ ((k + 2 : Nat) : K) := by exact_mod_cast (by omega : 2 ≤ k + 2)
    have step := zero_step hE hx hk2 (by exact_mod_cast (by omega : k + 2 ≤ 15))
    have hk20 : (0 : K) < ((k + 2 : Nat) : K) := by linarith
    have hw : (0 : K) ≤ 1 - 1 / ((k + 2 : Nat) : K) := by
      rw [sub_nonneg, div_le_one hk20]
      linarith
    have hval : (e : K) / (k + 1 : Nat) * (1 - 1 / ((k + 2 : Nat) : K)) = e / (k + 2 : Nat) := by
      have h1 : ((k + 2 : Nat) : K) = ((k + 1 : Nat) : K) + 1 := by push_cast; ring
      rw [h1] at hk20 ⊢
      field_simp
      ring
    have key : |E.rnd (x - E.rnd (x / ((k + 2 : Nat) : K))) - e / ((k + 2 : Nat) : K)|
        ≤ 2 ^ (-24 : Int) * (x * (1 + 1 / 2 ^ 20)) + (if k = 0 then 0 else 8 / 5) * (2 ^ (-24 : Int) * e) * (1 - 1 / ((k + 2 : Nat) : K)) := by
      rw [← hval]
      calc _ = |(E.rnd (x - E.rnd (x / ((k + 2 : Nat) : K))) - x * (1 - 1 / ((k + 2 : Nat) : K)))
            + (x - e / (k + 1 : Nat)) * (1 - 1 / ((k + 2 : Nat) : K))| := by ring_nf
        _ ≤ _ := abs_add_le _ _
        _ ≤ _ := by
          refine add_le_add step ?_
          rw [abs_mul, abs_of_nonneg hw]
          exact mul_le_mul_of_nonneg_right ih1 hw
    refine key.trans ?_
    rw [if_neg (Nat.succ_ne_zero k)]
    have hxu : 2 ^ (-24 : Int) * (x * (1 + 1 / 2 ^ 20)) ≤ (2 ^ (-24 : Int) * e) *
        ((1 / ((k + 1 : Nat) : K) + (if k = 0 then 0 else 8 / 5) * (1 / 2 ^ 24)) * (1 + 1 / 2 ^ 20)) := by
      have h1 : x ≤ e * (1 / ((k + 1 : Nat) : K) + (if k = 0 then 0 else 8 / 5) * (1 / 2 ^ 24)) := by
        refine hxs.trans ?_
        have h2 : (if k = 0 then 0 else 8 / 5 : K) * (2 ^ (-24 : Int) * e) ≤ (if k = 0 then 0 else 8 / 5) * (1 / 2 ^ 24 * e) :=
          mul_le_mul_of_nonneg_left hue (by split_ifs <;> norm_num)
        have h3 : (e : K) / ((k + 1 : Nat) : K) = e * (1 / ((k + 1 : Nat) : K)) := by ring
        rw [h3]
        linarith
      calc _ ≤ 2 ^ (-24 : Int) * (e * (1 / ((k + 1 : Nat) : K) + (if k = 0 then 0 else 8 / 5) * (1 / 2 ^ 24)) * (1 + 1 / 2 ^ 20)) :=
            mul_le_mul_of_nonneg_left (mul_le_mul_of_nonneg_right h1 (by norm_num)) hu0.le
        _ = _ := by ring
    have hc : (1 / ((k + 1 : Nat) : K) + (if k = 0 then 0 else 8 / 5) * (1 / 2 ^ 24)) * (1 + 1 / 2 ^ 20)
        + (if k = 0 then 0 else 8 / 5) * (1 - 1 / ((k + 2 : Nat) : K)) ≤ 8 / 5 := by
      clear * - hk
      have hk' : k < 14 := by omega
      clear hk
      interval_cases k <;> norm_num
    calc _ ≤ (2 ^ (-24 : Int) * (e : K)) * ((1 / ((k + 1 : Nat) : K) + (if k = 0 then 0 else 8 / 5) * (1 / 2 ^ 24)) * (1 + 1 / 2 ^ 20))
          + (if k = 0 then 0 else 8 / 5) * (2 ^ (-24 : Int) * e) * (1 - 1 / ((k + 2 : Nat) : K)) := by linarith
      _ = (2 ^ (-24 : Int) * (e : K)) * ((1 / ((k + 1 : Nat) : K) + (if k = 0 then 0 else 8 / 5) * (1 / 2 ^ 24)) * (1 + 1 / 2 ^ 20)
          + (if k = 0 then 0 else 8 / 5) * (1 - 1 / ((k + 2 : Nat) : K))) := by ring
      _ ≤ (2 ^ (-24 : Int) * (e : K)) * (8 / 5) := mul_le_mul_of_nonneg_left hc hue0.le
      _ = _ := by ring

/-- The mean is above the limit while the first error is in the window, and not above it when the error has left. -/
theorem first_error_leaves (hE : E.IsFloat) {e : Nat} (he : 1 ≤ e) (he' : e ≤ 100000) {k : Nat} (hk : k < 16) :
    E.rnd (1 / 100) < E.rolling 15 (List.replicate k 0 ++ [(e : K)]) ↔ k < 15 := by
  have he0 : (1 : K) ≤ e := by exact_mod_cast he
  have he1 : (e : K) ≤ 100000 := by exact_mod_cast he'
  have hue : (2 : K) ^ (-24 : Int) * e ≤ 1 / 2 ^ 24 * e := mul_le_mul_of_nonneg_right u_small (by linarith)
  have hue0 : (0 : K) < 2 ^ (-24 : Int) * e := mul_pos u_pos (by linarith)
  constructor
  · intro h
    by_contra hk15
    obtain rfl : k = 15 := by omega
    refine absurd h (not_lt.2 ?_)
    obtain ⟨h1, h2⟩ := first_error_mean hE he he' (k := 14) (by norm_num)
    have hneg : ∀ y : K, E.rnd (-y) = -E.rnd y := fun y => by rw [hE, hE, Binary32.round_neg]
    rw [List.replicate_succ, List.cons_append, (rolling_cons hE 15 0 _).1]
    have hget : (List.replicate 14 0 ++ [(e : K)]).getD (15 - 1) 0 = (e : K) := rfl
    have hlen : (List.replicate 14 0 ++ [(e : K)]).length = 15 := by simp
    rw [hget, hlen, if_neg (by norm_num), show min (15 + 1) 15 = 15 from rfl, rnd_nat hE (n := 15) (by norm_num), zero_sub, hneg,
      rnd_nat hE (n := e) (by omega), neg_div, hneg, ← sub_eq_add_neg]
    apply E.rnd_mono
    rw [if_neg (by norm_num)] at h1
    have h3 : |E.rnd ((e : K) / (15 : Nat)) - e / (15 : Nat)| ≤ 2 ^ (-24 : Int) * (e / (15 : Nat)) := by
      rw [hE]
      refine Binary32.round_abs_error (by rw [abs_of_pos (by push_cast; linarith)]) ?_
      have : (1 : K) / 15 ≤ e / (15 : Nat) := by push_cast; linarith
      exact le_trans (by norm_num) this
    have h4 : (2 : K) ^ (-24 : Int) * (e / (15 : Nat)) = 1 / 15 * (2 ^ (-24 : Int) * e) := by push_cast; ring
    rw [h4] at h3
    have h5 := (abs_le.1 h1).2
    have h6 := (abs_le.1 h3).1
    norm_num at hue h5 h6 ⊢
    linarith
  · intro hk15
    obtain ⟨h1, _⟩ := first_error_mean hE he he' hk15
    have hk1 : (0 : K) < ((k + 1 : Nat) : K) := by exact_mod_cast Nat.succ_pos k
    have hmean : (e : K) / 15 ≤ e / (k + 1 : Nat) :=
      div_le_div_of_nonneg_left (by linarith) hk1 (by exact_mod_cast (by omega : k + 1 ≤ 15))
    have hif : (if k = 0 then 0 else 8 / 5 : K) ≤ 8 / 5 := by split_ifs <;> norm_num
    have h2 := (abs_le.1 (h1.trans (mul_le_mul_of_nonneg_right hif hue0.le))).1
    have h3 : |E.rnd (1 / 100) - 1 / 100| ≤ 2 ^ (-24 : Int) * (1 / 100) := by
      rw [hE]
      exact Binary32.round_abs_error (by rw [abs_of_pos (by norm_num)]) (by norm_num)
    have h4 := (abs_le.1 h3).2
    norm_num at hue h4
    linarith

/-- The first error is the makespan less one. -/
theorem first_error (hE : E.IsFloat) {v : Int} (hv : 1 ≤ v) (hv' : v ≤ 100001) :
    Stopping.meanAbsolutePctError E (List.replicate 5 (v : K)) (List.replicate 5 1) = ok (((v - 1).toNat : K), List.replicate 5 (v : K)) := by
  obtain ⟨e, rfl⟩ : ∃ e : Nat, v = e + 1 := ⟨(v - 1).toNat, by omega⟩
  have hr : ∀ n : Nat, n ≤ 500005 → E.rnd (n : K) = n := fun n hn => rnd_nat hE (by omega)
  have hneg : ∀ y : K, E.rnd (-y) = -E.rnd y := fun y => by rw [hE, hE, Binary32.round_neg]
  have e1 : (1 : K) - ((e : K) + 1) = -e := by ring
  have e0 : E.rnd (e : K) = e := hr e (by omega)
  have h0 : (0 : K) ≤ e := Nat.cast_nonneg e
  have s2 : E.rnd ((e : K) + e) = ((2 * e : Nat) : K) := by rw [← hr (2 * e) (by omega)]; push_cast; ring_nf
  have s3 : E.rnd (((2 * e : Nat) : K) + e) = ((3 * e : Nat) : K) := by rw [← hr (3 * e) (by omega)]; push_cast; ring_nf
  have s4 : E.rnd (((3 * e : Nat) : K) + e) = ((4 * e : Nat) : K) := by rw [← hr (4 * e) (by omega)]; push_cast; ring_nf
  have s5 : E.rnd (((4 * e : Nat) : K) + e) = ((5 * e : Nat) : K) := by rw [← hr (5 * e) (by omega)]; push_cast; ring_nf
  have hr5 : E.rnd (5 : K) = 5 := by simpa using hr 5 (by norm_num)
  unfold Stopping.meanAbsolutePctError
  have hx : ((e : Int) + 1 - 1).toNat = e := by omega
  simp only [List.replicate, Stopping.errorLoop, at?, List.getElem?_cons_zero, ok_bind, List.tail_cons, FloatEnv.add, FloatEnv.sub,
    FloatEnv.div, FloatEnv.ofInt, List.isEmpty_cons, Bool.not_false, expects, ne_eq, one_ne_zero, not_false_eq_true, decide_true, if_true,
    div_one, Int.cast_add, Int.cast_natCast, Int.cast_one, e1, hneg, e0, abs_neg, abs_of_nonneg h0, zero_add, s2, s3, s4, s5, hx, List.length_cons,
    List.length_nil]
  rw [if_pos (by simp)]
  simp only [ok_bind]
  have h5 : E.rnd (((5 * e : Nat) : K) / 5) = e := by
    rw [Nat.cast_mul, Nat.cast_ofNat, mul_div_cancel_left₀ _ (by norm_num), e0]
  norm_num
  rw [hr5]
  push_cast at h5
  rw [h5]

/-- All others are zero. -/
theorem other_errors (hE : E.IsFloat) {v : Int} (hv : 1 ≤ v) :
    Stopping.meanAbsolutePctError E (List.replicate 5 (v : K)) (List.replicate 5 (v : K)) = ok (0, List.replicate 5 (v : K)) := by
  have hr0 : E.rnd 0 = 0 := by simpa using rnd_nat hE (n := 0) (by norm_num)
  have hv0 : (v : K) ≠ 0 := by exact_mod_cast (by omega : v ≠ 0)
  unfold Stopping.meanAbsolutePctError
  simp [List.replicate, Stopping.errorLoop, at?, FloatEnv.add, FloatEnv.sub, FloatEnv.div, FloatEnv.ofInt, expects, hr0, hv0]

theorem after_constant_float (hE : E.IsFloat) {v : Int} (hv : 1 ≤ v) (hv' : v ≤ 100001) {N k : Nat} (hk : 10000 * (k + 1) ≤ N) :
    Stopping.after E (PSquare.quantiles E) (List.replicate N v) (k + 1)
      = ok { quantiles := List.replicate 5 (v : K), errors := List.replicate k 0 ++ [((v - 1).toNat : K)] } := by
  have hva : |v| ≤ 2 ^ 24 := by rw [abs_of_nonneg (by omega)]; omega
  induction k with
  | zero =>
    rw [Stopping.after, Stopping.after, ok_bind, Stopping.step, show HistogramOp.batchSize = 10000 from rfl, take_replicate hk,
      quantiles_constant_float hE (by norm_num) hva]
    simp only [Stopping.init]
    rw [first_error hE hv hv']
    rfl
  | succ k ih =>
    rw [Stopping.after, ih (by omega), ok_bind, Stopping.step, show HistogramOp.batchSize = 10000 from rfl, take_replicate hk,
      quantiles_constant_float hE (by omega) hva]
    dsimp only
    rw [other_errors hE hv]
    rfl

/-- C65 and C66 in single precision: if all results are `v`, and `v` is at most 100001 seconds, then the rule stops after the first
batch if `v` is one second, else after 16 batches. -/
theorem stops_if_equal_float (hE : E.IsFloat) {v : Int} (hv : 1 ≤ v) (hv' : v ≤ 100001) :
    StopsAt16 (Stopping.more E (PSquare.quantiles E)) v := by
  intro j h1 h16
  obtain ⟨k, rfl⟩ : ∃ k, j = k + 1 := ⟨j - 1, by omega⟩
  unfold Stopping.more
  rw [List.length_replicate, show 10000 * (k + 1) / HistogramOp.batchSize = k + 1 from Nat.mul_div_cancel_left _ (by decide),
    after_constant_float hE hv hv' le_rfl, ok_bind]
  dsimp only
  rw [show Stopping.windowSize = 15 from rfl]
  show ok _ = ok _
  congr 1
  rw [decide_eq_decide]
  by_cases h : v = 1
  · subst h
    have hz : ∀ k, E.rolling 15 (List.replicate k 0 ++ [(0 : K)]) = 0 := by
      intro k
      have hr0 : E.rnd 0 = 0 := by simpa using rnd_nat hE (n := 0) (by norm_num)
      rw [← List.replicate_succ']
      induction k + 1 with
      | zero => rfl
      | succ k ih =>
        rw [List.replicate_succ, (rolling_cons hE 15 0 _).1, ih]
        have : (if (List.replicate k (0 : K)).length < 15 then 0 else (List.replicate k (0 : K)).getD (15 - 1) 0) = 0 := by
          split_ifs
          · rfl
          · rw [List.getD_eq_getElem?_getD, List.getElem?_replicate]
            split_ifs <;> rfl
        rw [this, sub_zero, hr0, zero_div, hr0, add_zero, hr0]
    have : E.rnd 0 ≤ E.rnd (1 / 100) := E.rnd_mono (by norm_num)
    have hr0 : E.rnd 0 = 0 := by simpa using rnd_nat hE (n := 0) (by norm_num)
    rw [hr0] at this
    simp only [sub_self, Int.toNat_zero, Nat.cast_zero, hz, ne_eq, not_true_eq_false, false_and, iff_false, not_lt]
    exact this
  · rw [first_error_leaves hE (by omega) (by omega) (by omega)]
    omega

theorem TakesBetween.mono {p : Project} (hp : p.Sound) {a b b' : ℚ} (h : p.TakesBetween a b) (hb : b ≤ b') : p.TakesBetween a b' := by
  refine ⟨h.longer, fun x hx q hq => lt_of_lt_of_le (h.shorter x hx q hq) ?_⟩
  obtain ⟨lo, hi, h1, _, h3, _⟩ := hp.performance x hx
  rw [hq] at h1
  cases h1
  exact mul_le_mul_of_nonneg_right hb h3.le

/-- C66 in single precision. The program without a command, for a project without spread that takes at least two seconds and less than 25
hours: whatever the random numbers are, it exits successfully after at most 16 batches and has written the output file once. The histogram has a single
bin, with all results, around the number of seconds `v` that every run takes; all percentiles are the middle of this bin. Starts,
durations, makespan and `v` are those of the fastest exact execution of the schedule, up to a relative error of 2⁻¹⁴ and one second. Missing: longer
projects, for which it is false (`endless_prediction`). -/
theorem float_certain_prediction_partial (hE : E.IsFloat) (hf : o.filename ≠ "") (hout : o.output ≠ "")
    {root : Yaml} {p : Project} (hs : m.source = .doc root) (hl : load m.readFloat root = ok p)
    (hp : p.Sound) (hr : p.InRange) (hfl : p.FloatsIn E) (hmod : p.TakesBetween 2 90000) (hw : CanWrite m o) (ht : 0 < m.threads)
    {sp sp₀ : ScheduleParams K} (hsp : toScheduleParams E p = ok sp) (hsp₀ : toScheduleParams E.unrounded p = ok sp₀)
    (ho : ValidOptions E (o.opt.options sp)) (hbin : ∀ b ∈ o.binSize, 1 ≤ b ∧ b < 2 ^ 31)
    (hperf : ∀ a ∈ p.agents, a.perfMin = a.perfMax) (hdur : ∀ t ∈ p.tasks, t.durMin = t.durMax)
    (hm : m.more = Stopping.more E (PSquare.quantiles E)) :
    ∃ (N : Nat) (s : List Item) (mk v : Int) (es : List TaskEntry) (start start₀ finish₀ : Nat → K) (V : K)
      (w low n middle : Int),
      ValidSchedule sp s ∧ es.length = s.length ∧
      (∀ (i : Nat) (it : Item) (e : TaskEntry), s[i]? = some it → es[i]? = some e →
        e.Correct E p (p.secondsParams E sp) s start i it ∧ CloseTo e.start (start₀ it.task) ∧
        CloseTo e.duration ((p.secondsParams E.unrounded sp₀).itemTime E.unrounded it)) ∧
      Earliest E.unrounded (p.secondsParams E.unrounded sp₀) s start₀ finish₀ ∧ IsEnd s finish₀ V ∧ CloseTo mk V ∧ CloseTo v V ∧
      w = resolutionOf o.binSize mk ∧ w ∣ low ∧ low ≤ v ∧ v < low + w ∧
      n = (if v = 1 then 10000 else 160000) ∧ middle = low + w / 2 ∧
      ∀ fuel, N ≤ fuel → ∀ fuel', 16 ≤ fuel' → ∀ zs, ∀ result,
        result = body E { m with fuel := fuel, fuel' := fuel', zs := zs } .predict o →
        status result.flow = .exit 0 ∧ ∃ pre post : List (Effect K), (∀ e ∈ pre ++ post, ¬ e.IsFile) ∧
          result.effects = pre ++ [.file o.output (.obj [
            ("histogram", .obj [("bin_size", .int w), ("bins", .arr [.arr [.int low, .int n]])]),
            ("makespan", .int mk),
            ("stats", .obj [("p25", .int middle), ("p50", .int middle), ("p75", .int middle),
              ("p95", .int middle), ("p99", .int middle)]),
            ("tasks", .arr (es.map TaskEntry.object))])] ++ post := by
  have hE₀ := unrounded_exact E
  obtain ⟨N, s, mk, es, start, start₀, finish₀, V, hvs, hlen, hex₀, hend₀, hmk, hcor, hall⟩ := float_predict_command hE hf hout hs
    hl hp hr hfl (TakesBetween.mono hp hmod (by norm_num)) hw ht hsp hsp₀ ho hbin
  -- the exact end
  have hs₀ := unrounded_valid hsp hsp₀ hvs
  obtain ⟨⟨a, b, hab, hlt⟩, hge⟩ := bounded_executions hE₀ hp (by norm_num) (by norm_num) hmod hsp₀ hs₀
  have hV2 : 2 ≤ V := by
    obtain ⟨it, hit, h⟩ := hge start₀ finish₀ hex₀.1
    have := h.trans (hend₀.1 it hit)
    push_cast at this
    exact this
  have hV9 : V < 90000 := by
    obtain ⟨it, hit, h⟩ := hend₀.2
    have := lt_of_le_of_lt ((hex₀.2 a b hab it hit).2) (hlt it hit)
    rw [h] at this
    push_cast at this
    exact this
  -- the end of every run
  obtain ⟨hws, hcs⟩ := secondsParams_wellFormed hp hfl hsp
  obtain ⟨st, fi, hex, hend, _, hleast⟩ := makespanValue_spec (E := E) hws (secondsParams_valid hcs hvs)
  have htr := timetable_rounding hE hp hr hfl hsp hsp₀ hvs ⟨hex, hleast⟩ hex₀
  have hwithin : Within (1 / 2 ^ 14) (makespanValue E (p.secondsParams E sp) (p.secondsParams E sp).agentCount s) V := by
    generalize makespanValue E (p.secondsParams E sp) (p.secondsParams E sp).agentCount s = W at hend
    obtain ⟨i1, m1, e1⟩ := hend.2
    obtain ⟨i2, m2, e2⟩ := hend₀.2
    have h1 := (htr i1 m1).2.1
    have h2 := (htr i2 m2).2.1
    have h3 := hend₀.1 i1 m1
    have h4 := hend.1 i2 m2
    unfold Within at h1 h2 ⊢
    rw [e1] at h1
    rw [e2] at h2
    rw [abs_le] at h1 h2 ⊢
    norm_num at h1 h2 ⊢
    constructor <;> linarith [h1.1, h1.2, h2.1, h2.2]
  generalize makespanValue E (p.secondsParams E sp) (p.secondsParams E sp).agentCount s = W at hend hwithin
  have hWp := isWholePart_floor W
  have hcl := closeTo_of hWp hwithin
  have hcr : ConstantRuns E p s ⌊W⌋ := fun sim zs hsim =>
    deterministic_value hp hfl hsp hvs hperf hdur ⟨hex, hleast⟩ hend hWp hsim zs
  have hW := abs_le.1 hwithin
  have hv1 : 1 ≤ ⌊W⌋ := by
    rw [Int.le_floor]
    norm_num at hW ⊢
    linarith [hW.1]
  have hv2 : ⌊W⌋ ≤ 100001 := by
    have : ⌊W⌋ < 100001 := by
      rw [Int.floor_lt]
      norm_num at hW ⊢
      linarith [hW.2]
    omega
  generalize ⌊W⌋ = v at hWp hcl hcr hv1 hv2
  have hmk1 : 1 ≤ mk := by
    have h0 : (0 : K) < mk := by
      have := (abs_le.1 hmk).1
      linarith
    have : 0 < mk := by exact_mod_cast h0
    omega
  have hw1 : 1 ≤ resolutionOf o.binSize mk := by
    unfold resolutionOf
    cases hob : o.binSize with
    | none =>
      dsimp only
      split_ifs <;> norm_num
    | some b => exact (hbin b hob).1
  have hstop : StopsAt16 m.more v := by
    rw [hm]
    exact stops_if_equal_float hE hv1 hv2
  have hrule : ∀ n, ∃ c, m.more (List.replicate n v) = ok c := fun n => by
    rw [hm]
    exact rule_answers (halves_float hE) fun x hx => by rw [(List.mem_replicate.1 hx).2]; exact hv1
  refine ⟨N, s, mk, v, es, start, start₀, finish₀, V, _, v / resolutionOf o.binSize mk * resolutionOf o.binSize mk, _, _, hvs, hlen,
    fun i it e h1 h2 => ⟨(hcor i it e h1 h2).1, (hcor i it e h1 h2).2.1, (hcor i it e h1 h2).2.2.1⟩, hex₀, hend₀, hmk, hcl, rfl,
    Dvd.intro_left _ rfl, Int.ediv_mul_le _ (by omega), ?_, rfl, rfl, ?_⟩
  · have := Int.lt_ediv_add_one_mul_self v (by omega : 0 < resolutionOf o.binSize mk)
    linarith
  intro fuel hN fuel' hfuel' zs result hresult
  have hans : RuleAnswers E p s m.more zs := by
    intro vs _ _ _ _ hvs
    rw [hcr.eq_replicate hvs.result]
    exact hrule _
  rcases hall fuel hN fuel' zs hans result hresult with ⟨_, _, hnone⟩ | ⟨vs, rest, k, bins, hk, hlv, hruns, hdec, hdesc, hfin⟩
  · exfalso
    obtain ⟨h, hh⟩ := histogram_constant_core hp hfl hsp hvs hstop hrule hcr hv1 (fun b hb => (hbin b hb).1) hmk1
      hfuel' zs
    rw [hnone] at hh
    cases hh
  · -- at most 16 batches
    have hk16 : k ≤ 16 := by
      by_contra h16
      have h1 := hdec 16 (by norm_num) (by omega)
      rw [hcr.eq_replicate hruns.result, hlv, take_replicate (Nat.mul_le_mul_left _ (by omega)), hstop 16 (by norm_num) le_rfl] at h1
      have h2 := (Outcome.ok.injEq ..).mp h1
      rw [decide_eq_decide] at h2
      omega
    obtain ⟨stt, hcons, hfin⟩ := hfin (by rw [hlv]; omega)
    obtain ⟨hrep, hk', hbins, hst⟩ := constant_contents hstop hcr hw1 hk hlv hruns.result hdec hdesc hcons
    obtain ⟨hex0, pre, post, hpp, _, heff⟩ := hfin (by
      rw [hrep]
      intro x hx
      rw [(List.mem_replicate.1 hx).2]
      omega)
    refine ⟨hex0, pre, post, hpp, ?_⟩
    rw [heff, hst, hbins]
    rfl

/-! ### Examples -/

theorem certain_inRange : Sample.certainProject.InRange where
  tasks := by decide
  agents := by decide
  durations := by decide
  performance := by
    intro a ha q hq
    simp only [Sample.certainProject, List.mem_cons, List.not_mem_nil, or_false] at ha
    rcases ha with rfl | rfl <;> rcases hq with hq | hq <;> cases hq <;> norm_num

theorem certain_takes : Sample.certainProject.TakesBetween 2 90000 where
  longer := by
    refine ⟨_, List.mem_cons_self, ?_⟩
    intro a ha q hq
    simp only [Sample.certainProject, List.mem_cons, List.not_mem_nil, or_false] at ha
    rcases ha with rfl | rfl <;> cases hq <;> decide +kernel
  shorter := by
    intro a ha q hq
    simp only [Sample.certainProject, List.mem_cons, List.not_mem_nil, or_false] at ha
    rcases ha with rfl | rfl <;> cases hq <;> decide +kernel

theorem certain_floats : Sample.certainProject.FloatsIn ratFloat := by
  intro a ha q hq
  simp only [Sample.certainProject, List.mem_cons, List.not_mem_nil, or_false] at ha
  rcases ha with rfl | rfl <;> rcases hq with hq | hq <;> cases hq <;> decide +kernel

/-- C66 in single precision applies to the example document `certain`, with bins of any size. -/
theorem certain_float_sized (draws : Nat → Nat → Nat → Draws ℚ) {b : Option Int} (hb : ∀ x ∈ b, 1 ≤ x ∧ x < 2 ^ 31) : ∃ N, ∀ fuel, N ≤ fuel → ∀ fuel', 16 ≤ fuel' → ∀ zs,
    status (body ratFloat { exampleMachine draws with
      source := .doc Sample.certain, more := Stopping.more ratFloat (PSquare.quantiles ratFloat),
      fuel := fuel, fuel' := fuel', zs := zs } .predict { cliOptions with binSize := b }).flow = .exit 0 := by
  obtain ⟨sp, hsp, hw⟩ := params_wellFormed (E := ratFloat) certain_sound certain_floats
  obtain ⟨sp₀, hsp₀, _⟩ := params_wellFormed (E := ratFloat.unrounded) certain_sound (fun _ _ _ _ => rfl)
  obtain ⟨N, _, _, _, _, _, _, _, _, _, _, _, _, _, _, _, _, _, _, _, _, _, _, _, _, _, h⟩ := float_certain_prediction_partial
    (o := { cliOptions with binSize := b }) (m := { exampleMachine draws with
      source := .doc Sample.certain, more := Stopping.more ratFloat (PSquare.quantiles ratFloat) })
    ratFloat_isFloat (by exact (by decide : cliOptions.filename ≠ "")) (by exact (by decide : cliOptions.output ≠ "")) rfl Sample.certain_loads certain_sound certain_inRange certain_floats certain_takes
    (example_canWrite (draws := draws)) (by exact (by decide : 0 < 4)) hsp hsp₀ (cliOptions_valid_float hw) hb
    (by
      intro a ha
      simp only [Sample.certainProject, List.mem_cons, List.not_mem_nil, or_false] at ha
      rcases ha with rfl | rfl <;> rfl)
    (by
      intro t ht
      simp only [Sample.certainProject, List.mem_cons, List.not_mem_nil, or_false] at ht
      rcases ht with rfl | rfl | rfl <;> rfl)
    rfl
  exact ⟨N, fun fuel hN fuel' hf zs => (h fuel hN fuel' hf zs _ rfl).1⟩

/-- C66 in single precision applies to the example document `certain`. -/
theorem certain_float_succeeds (draws : Nat → Nat → Nat → Draws ℚ) : ∃ N, ∀ fuel, N ≤ fuel → ∀ fuel', 16 ≤ fuel' → ∀ zs,
    status (body ratFloat { exampleMachine draws with
      source := .doc Sample.certain, more := Stopping.more ratFloat (PSquare.quantiles ratFloat),
      fuel := fuel, fuel' := fuel', zs := zs } .predict cliOptions).flow = .exit 0 :=
  certain_float_sized draws (b := none) (by intro b hb; cases hb)

/-- `averageStun_float` applies to an optimizer with the default options and four threads, after one update. -/
example (draws : Nat → Nat → Draws ℚ) : ∃ v o, OptimizerRun ratFloat (cliOptions.opt.options Example.params) 4 [v] o ∧
    ∀ j ∈ o.jobs, j.temperature.averageStun ratFloat = ratFloat.rolling 100 j.temperature.samples := by
  have hv := cliOptions_valid_float Example.params_wellFormed
  obtain ⟨o, _, h, _⟩ := Optimizer.new_ok (threads := 4) hv (by decide)
  obtain ⟨o', _, s, v, h1, _, h2, _⟩ := optimizer_best_of_jobs hv (OptimizerRun.new h) draws
  have hr := (OptimizerRun.new h).update h1 h2
  refine ⟨v, o', hr, fun j hj => ?_⟩
  exact averageStun_float ratFloat_isFloat hv.window_pos (by decide) (.inl ⟨rfl, by
    show exampleOpt.batchSize * 1 ≤ 5 * 2 ^ 24
    decide⟩) hr hj

end Angonoka.Props
