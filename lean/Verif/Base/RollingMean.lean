import Mathlib.Algebra.Order.Field.Basic
import Mathlib.Algebra.BigOperators.Group.List.Basic
import Mathlib.Algebra.Order.BigOperators.Group.List
import Mathlib.Tactic.FieldSimp
import Mathlib.Tactic.Linarith
import Mathlib.Tactic.Ring

/-!
# Rolling means

`boost::accumulators::rolling_mean` (used in `/repo/src/stun/temperature.h:101-104` and
`/repo/src/simulation.cpp:399-401`), as Boost 1.77 defines it in `immediate_rolling_mean_impl`: the
mean is not computed from the window but corrected with every sample.
-/

namespace Angonoka

variable {K : Type} [Field K] [LinearOrder K]

/-- The rolling mean of the last `n` samples. The list has all samples so far, newest first. Every operation is followed by `rnd`.

As long as there are not more than `n` samples the mean moves towards the new one; afterwards it moves by the
difference between the new sample and the one that leaves the window, divided by `n`. -/
def rollingMean (rnd : K → K) (n : Nat) : List K → K
  | [] => 0
  | s :: l =>
    let mean := rollingMean rnd n l
    let old := if l.length < n then mean else l.getD (n - 1) 0
    let count := rnd ((min (l.length + 1) n : Nat) : K)
    if s < old then rnd (mean - rnd (rnd (old - s) / count))
    else if old < s then rnd (mean + rnd (rnd (s - old) / count))
    else mean

omit [LinearOrder K] in
theorem take_succ_sum (n : Nat) (l : List K) (h : n < l.length) :
    (l.take (n + 1)).sum = (l.take n).sum + l.getD n 0 := by
  rw [List.take_add_one, List.sum_append]
  simp [List.getD_eq_getElem?_getD, List.getElem?_eq_getElem h]

/-- Without rounding it is the average of the samples in the window. -/
theorem rollingMean_exact [IsStrictOrderedRing K] {rnd : K → K} (hr : ∀ x, rnd x = x) {n : Nat} (hn : 0 < n) (l : List K) :
    rollingMean rnd n l = (l.take n).sum / ((min l.length n : Nat) : K) := by
  induction l with
  | nil => simp [rollingMean]
  | cons s l ih =>
    have hk : (0 : K) < ((min (l.length + 1) n : Nat) : K) := by
      rw [Nat.cast_pos]
      omega
    have key : ∀ old : K, (if s < old then rollingMean rnd n l - (old - s) / ((min (l.length + 1) n : Nat) : K)
        else if old < s then rollingMean rnd n l + (s - old) / ((min (l.length + 1) n : Nat) : K)
        else rollingMean rnd n l) = rollingMean rnd n l + (s - old) / ((min (l.length + 1) n : Nat) : K) := by
      intro old
      split_ifs with h1 h2
      · ring
      · rfl
      · rw [le_antisymm (not_lt.1 h2) (not_lt.1 h1)]
        simp
    rw [rollingMean]
    simp only [hr]
    rw [key, List.length_cons]
    obtain ⟨m, rfl⟩ : ∃ m, n = m + 1 := ⟨n - 1, by omega⟩
    rw [List.take_succ_cons, List.sum_cons, eq_div_iff hk.ne']
    split_ifs with h
    · rw [ih, show min (l.length + 1) (m + 1) = l.length + 1 by omega, show min l.length (m + 1) = l.length by omega,
        List.take_of_length_le (by omega), List.take_of_length_le (by omega)]
      have h1 : ((l.length + 1 : Nat) : K) ≠ 0 := Nat.cast_ne_zero.2 (Nat.succ_ne_zero _)
      rcases Nat.eq_zero_or_pos l.length with h0 | h0
      · rw [List.length_eq_zero_iff.1 h0]
        simp
      · have h2 : (l.length : K) ≠ 0 := by exact_mod_cast h0.ne'
        push_cast at h1 ⊢
        field_simp
        ring
    · rw [ih, show min (l.length + 1) (m + 1) = m + 1 by omega, show min l.length (m + 1) = m + 1 by omega,
        Nat.add_sub_cancel, take_succ_sum m l (by omega)]
      have h1 : ((m + 1 : Nat) : K) ≠ 0 := Nat.cast_ne_zero.2 (Nat.succ_ne_zero _)
      field_simp
      ring

theorem rollingMean_exact_nonneg [IsStrictOrderedRing K] {rnd : K → K} (hr : ∀ x, rnd x = x) {n : Nat} (hn : 0 < n)
    {l : List K} (h : ∀ x ∈ l, 0 ≤ x) : 0 ≤ rollingMean rnd n l := by
  rw [rollingMean_exact hr hn]
  exact div_nonneg (List.sum_nonneg fun x hx => h x (List.mem_of_mem_take hx)) (Nat.cast_nonneg _)

end Angonoka
