import Verif.Spec.Curve
import Mathlib.Tactic.FieldSimp
import Mathlib.Tactic.LinearCombination

/-!
# The fitted curve
-/

set_option linter.unusedSectionVars false

namespace Angonoka
open Outcome Stun

variable {K : Type} [Field K] [LinearOrder K] [IsStrictOrderedRing K]

/-- `Σ f x y` -/
def sumOf (f : K → K → K) (pts : List (K × K)) : K := (pts.map fun q => f q.1 q.2).sum

theorem sumOf_cons (f : K → K → K) (x y : K) (pts : List (K × K)) :
    sumOf f ((x, y) :: pts) = f x y + sumOf f pts := by simp [sumOf]

structure CurveInv (E : FloatEnv K) (pts : List (K × K)) (c : ExpCurve K) : Prop where
  xxy : c.xxy = sumOf (fun x y => x * (x * y)) pts
  ylogy : c.ylogy = sumOf (fun _ y => y * E.log y) pts
  xy : c.xy = sumOf (fun x y => x * y) pts
  xylogy : c.xylogy = sumOf (fun x y => x * (y * E.log y)) pts
  sumy : c.sumy = sumOf (fun _ y => y) pts
  divisor : c.divisor = c.sumy * c.xxy - c.xy * c.xy
  a : c.divisor ≠ 0 → c.a = (c.xxy * c.ylogy - c.xy * c.xylogy) / c.divisor
  b : c.divisor ≠ 0 → c.b = (c.sumy * c.xylogy - c.xy * c.ylogy) / c.divisor
  nonneg : ∀ q ∈ pts, 0 ≤ q.1 ∧ 0 ≤ q.2

theorem CurveRun.inv {E : FloatEnv K} (hE : E.IsExact) {pts : List (K × K)} {c : ExpCurve K}
    (h : CurveRun E pts c) : CurveInv E pts c := by
  induction h with
  | new => constructor <;> simp [ExpCurve.zero, sumOf]
  | @call pts c x y v c' h hc ih =>
    simp only [ExpCurve.call, bind_eq_ok, expects_eq_ok, decide_eq_true_eq, FloatEnv.mul,
      FloatEnv.add, FloatEnv.sub, FloatEnv.div, FloatEnv.fma, hE _] at hc
    obtain ⟨_, hx, _, hy, hc⟩ := hc
    have hnn : ∀ q ∈ (x, y) :: pts, 0 ≤ q.1 ∧ 0 ≤ q.2 := by
      intro q hq
      rcases List.mem_cons.1 hq with rfl | hq
      · exact ⟨hx, hy⟩
      · exact ih.nonneg q hq
    split at hc
    · next h0 =>
      simp only [pure_eq, ok.injEq, Prod.mk.injEq] at hc
      obtain ⟨_, rfl⟩ := hc
      constructor
      · simp only [sumOf_cons, ih.xxy]; ring
      · simp only [sumOf_cons, ih.ylogy]; ring
      · simp only [sumOf_cons, ih.xy]; ring
      · simp only [sumOf_cons, ih.xylogy]; ring
      · simp only [sumOf_cons, ih.sumy]; ring
      · ring
      · intro h; exact absurd h0 h
      · intro h; exact absurd h0 h
      · exact hnn
    · simp only [pure_eq, ok.injEq, Prod.mk.injEq] at hc
      obtain ⟨_, rfl⟩ := hc
      constructor
      · simp only [sumOf_cons, ih.xxy]; ring
      · simp only [sumOf_cons, ih.ylogy]; ring
      · simp only [sumOf_cons, ih.xy]; ring
      · simp only [sumOf_cons, ih.xylogy]; ring
      · simp only [sumOf_cons, ih.sumy]; ring
      · ring
      · intro _; rfl
      · intro _; rfl
      · exact hnn

/-- The divisor as a sum that is visibly non-negative. -/
theorem divisor_cons (x y : K) (pts : List (K × K)) :
    sumOf (fun _ y => y) ((x, y) :: pts) * sumOf (fun x y => x * (x * y)) ((x, y) :: pts)
      - sumOf (fun x y => x * y) ((x, y) :: pts) * sumOf (fun x y => x * y) ((x, y) :: pts)
    = (sumOf (fun _ y => y) pts * sumOf (fun x y => x * (x * y)) pts
      - sumOf (fun x y => x * y) pts * sumOf (fun x y => x * y) pts)
      + y * sumOf (fun x' y' => y' * (x' - x) ^ 2) pts := by
  have h : sumOf (fun x' y' => y' * (x' - x) ^ 2) pts
      = sumOf (fun x y => x * (x * y)) pts - 2 * x * sumOf (fun x y => x * y) pts
        + x ^ 2 * sumOf (fun _ y => y) pts := by
    induction pts with
    | nil => simp [sumOf]
    | cons q pts ih =>
      obtain ⟨a, b⟩ := q
      simp only [sumOf_cons, ih]
      ring
  simp only [sumOf_cons]
  rw [h]
  ring

theorem sumOf_nonneg {f : K → K → K} {pts : List (K × K)} (h : ∀ q ∈ pts, 0 ≤ f q.1 q.2) :
    0 ≤ sumOf f pts := by
  unfold sumOf
  apply List.sum_nonneg
  intro z hz
  obtain ⟨q, hq, rfl⟩ := List.mem_map.1 hz
  exact h q hq

theorem sumOf_pos {f : K → K → K} {pts : List (K × K)} (h : ∀ q ∈ pts, 0 ≤ f q.1 q.2) {r : K × K}
    (hr : r ∈ pts) (hp : 0 < f r.1 r.2) : 0 < sumOf f pts := by
  induction pts with
  | nil => simp at hr
  | cons q pts ih =>
    obtain ⟨a, b⟩ := q
    rw [sumOf_cons]
    rcases List.mem_cons.1 hr with rfl | hr
    · exact add_pos_of_pos_of_nonneg hp (sumOf_nonneg fun q hq => h q (by simp [hq]))
    · exact add_pos_of_nonneg_of_pos (h (a, b) (by simp)) (ih (fun q hq => h q (by simp [hq])) hr)

theorem divisor_nonneg {pts : List (K × K)} (h : ∀ q ∈ pts, 0 ≤ q.2) :
    0 ≤ sumOf (fun _ y => y) pts * sumOf (fun x y => x * (x * y)) pts
      - sumOf (fun x y => x * y) pts * sumOf (fun x y => x * y) pts := by
  induction pts with
  | nil => simp [sumOf]
  | cons q pts ih =>
    obtain ⟨x, y⟩ := q
    rw [divisor_cons]
    refine add_nonneg (ih fun q hq => h q (by simp [hq])) (mul_nonneg (h (x, y) (by simp)) ?_)
    exact sumOf_nonneg fun q hq => mul_nonneg (h q (by simp [hq])) (sq_nonneg _)

theorem divisor_pos {pts : List (K × K)} (h : ∀ q ∈ pts, 0 < q.2) (hs : Spread pts) :
    0 < sumOf (fun _ y => y) pts * sumOf (fun x y => x * (x * y)) pts
      - sumOf (fun x y => x * y) pts * sumOf (fun x y => x * y) pts := by
  induction pts with
  | nil => obtain ⟨q, hq, _⟩ := hs; simp at hq
  | cons q pts ih =>
    obtain ⟨x, y⟩ := q
    rw [divisor_cons]
    have hy : 0 < y := h (x, y) (by simp)
    have hpos : ∀ q ∈ pts, 0 < q.2 := fun q hq => h q (by simp [hq])
    have hterm : ∀ q ∈ pts, 0 ≤ q.2 * (q.1 - x) ^ 2 :=
      fun q hq => mul_nonneg (hpos q hq).le (sq_nonneg _)
    by_cases hd : ∃ r ∈ pts, r.1 ≠ x
    · obtain ⟨r, hr, hne⟩ := hd
      refine add_pos_of_nonneg_of_pos (divisor_nonneg fun q hq => (hpos q hq).le) (mul_pos hy ?_)
      exact sumOf_pos (f := fun x' y' => y' * (x' - x) ^ 2) hterm hr
        (mul_pos (hpos r hr) (by have := sub_ne_zero.2 hne; positivity))
    · push Not at hd
      exfalso
      obtain ⟨q, hq, r, hr, hne⟩ := hs
      apply hne
      have e : ∀ s ∈ (x, y) :: pts, s.1 = x := by
        intro s hs
        rcases List.mem_cons.1 hs with rfl | hs
        · rfl
        · exact hd s hs
      rw [e q hq, e r hr]

theorem divisor_zero {pts : List (K × K)} (hs : ¬ Spread pts) :
    sumOf (fun _ y => y) pts * sumOf (fun x y => x * (x * y)) pts
      - sumOf (fun x y => x * y) pts * sumOf (fun x y => x * y) pts = 0 := by
  induction pts with
  | nil => simp [sumOf]
  | cons q pts ih =>
    obtain ⟨x, y⟩ := q
    rw [divisor_cons, ih (fun ⟨q, hq, r, hr, h⟩ => hs ⟨q, by simp [hq], r, by simp [hr], h⟩)]
    have : sumOf (fun x' y' => y' * (x' - x) ^ 2) pts = 0 := by
      unfold sumOf
      apply List.sum_eq_zero
      intro z hz
      obtain ⟨q, hq, rfl⟩ := List.mem_map.1 hz
      have : q.1 = x := by
        by_contra hne
        exact hs ⟨q, by simp [hq], (x, y), by simp, hne⟩
      simp [this]
    rw [this]
    ring

/-- Expansion of the weighted error. -/
theorem weightedError_eq (log : K → K) (a b : K) (pts : List (K × K)) :
    weightedError log a b pts = sumOf (fun _ y => y * log y ^ 2) pts
      - 2 * a * sumOf (fun _ y => y * log y) pts
      - 2 * b * sumOf (fun x y => x * (y * log y)) pts
      + a ^ 2 * sumOf (fun _ y => y) pts + 2 * a * b * sumOf (fun x y => x * y) pts
      + b ^ 2 * sumOf (fun x y => x * (x * y)) pts := by
  induction pts with
  | nil => simp [sumOf, weightedError]
  | cons q pts ih =>
    obtain ⟨x, y⟩ := q
    have e : weightedError log a b ((x, y) :: pts)
        = y * (log y - (a + b * x)) ^ 2 + weightedError log a b pts := by simp [weightedError]
    rw [e, ih]
    simp only [sumOf_cons]
    ring

/-- A quadratic form with non-negative coefficients and determinant. -/
theorem quad_nonneg {s t u p q : K} (hs : 0 < s) (hd : 0 ≤ s * u - t * t) :
    0 ≤ p ^ 2 * s + 2 * p * q * t + q ^ 2 * u := by
  have h : s * (p ^ 2 * s + 2 * p * q * t + q ^ 2 * u)
      = (p * s + q * t) ^ 2 + q ^ 2 * (s * u - t * t) := by ring
  have h2 : 0 ≤ s * (p ^ 2 * s + 2 * p * q * t + q ^ 2 * u) := by rw [h]; positivity
  exact nonneg_of_mul_nonneg_right h2 hs

end Angonoka
