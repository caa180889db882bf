import Verif.Proof.Curve
import Verif.Proof.Optimizer
import Verif.Base.RealEnv

/-!
# C36, C61: the progress curve
-/

set_option linter.unusedSectionVars false

namespace Angonoka.Props
open Angonoka Outcome Stun

section
variable {K : Type} [Field K] [LinearOrder K] [IsStrictOrderedRing K]
variable {E : FloatEnv K} {pts : List (K × K)} {c : ExpCurve K}

/-- C61. In exact arithmetic the fitted coefficients minimise the weighted squared error of the
logarithm over all lines, whatever the points are, and `at` evaluates the exponential of the
fitted line. -/
theorem curve_least_squares (hE : E.IsExact) (h : CurveRun E pts c) (hpos : ∀ q ∈ pts, 0 < q.2)
    (hs : Spread pts) :
    (∀ a b, weightedError E.log c.a c.b pts ≤ weightedError E.log a b pts) ∧
      ∀ x, c.at E x = E.exp (c.b * x + c.a) := by
  have hi := h.inv hE
  have hd : c.divisor ≠ 0 := by
    rw [hi.divisor, hi.sumy, hi.xxy, hi.xy]
    exact (divisor_pos hpos hs).ne'
  constructor
  · intro a b
    rw [weightedError_eq, weightedError_eq]
    rw [← hi.xxy, ← hi.ylogy, ← hi.xy, ← hi.xylogy, ← hi.sumy]
    have hdp : 0 < c.divisor := by
      rw [hi.divisor, hi.sumy, hi.xxy, hi.xy]
      exact divisor_pos hpos hs
    have hsum : 0 < c.sumy := by
      rw [hi.sumy]
      obtain ⟨q, hq, _⟩ := hs
      exact sumOf_pos (f := fun _ y => y) (fun q hq => (hpos q hq).le) hq (hpos q hq)
    have ha := hi.a hd
    have hb := hi.b hd
    have n1 : c.ylogy = c.a * c.sumy + c.b * c.xy := by
      rw [ha, hb]
      field_simp
      rw [hi.divisor]
      ring
    have n2 : c.xylogy = c.a * c.xy + c.b * c.xxy := by
      rw [ha, hb]
      field_simp
      rw [hi.divisor]
      ring
    have hq := quad_nonneg (p := a - c.a) (q := b - c.b) hsum (u := c.xxy) (t := c.xy)
      (by rw [← hi.divisor]; exact hdp.le)
    rw [← sub_nonneg]
    refine hq.trans_eq ?_
    rw [n1, n2]
    ring
  · intro x
    unfold ExpCurve.at
    rw [if_neg hd, FloatEnv.fma, hE]

/-- C36, before there are two different `x`: the curve has no value and `at` returns 0, in particular
after a reset. -/
theorem curve_no_fit (hE : E.IsExact) (h : CurveRun E pts c) (hs : ¬ Spread pts) (x : K) :
    c.at E x = 0 := by
  have hi := h.inv hE
  unfold ExpCurve.at
  rw [if_pos]
  rw [hi.divisor, hi.sumy, hi.xxy, hi.xy]
  exact divisor_zero hs

/-- Feeding a point never fails for non-negative coordinates, and returns the value of the new
curve there. -/
theorem curve_call (E : FloatEnv K) (c : ExpCurve K) {x y : K} (hx : 0 ≤ x) (hy : 0 ≤ y) :
    ∃ c', c.call E x y = ok (c'.at E x, c') := by
  obtain ⟨v, c', h, _⟩ := ExpCurve.call_ok E c hx hy
  refine ⟨c', ?_⟩
  rw [h]
  simp only [ExpCurve.call, bind_eq_ok] at h
  obtain ⟨_, _, _, _, h⟩ := h
  split at h
  · next h0 =>
    cases h
    simp only [ExpCurve.at]
    rw [if_pos h0]
  · next h0 =>
    cases h
    simp only [ExpCurve.at]
    rw [if_neg h0]

end

/-- C36. If all points lie on one exponential curve and at least two have different `x`, then the fitted
curve is that curve (exact real arithmetic). -/
theorem curve_exact {pts : List (ℝ × ℝ)} {c : ExpCurve ℝ} (h : CurveRun FloatEnv.real pts c)
    (hs : Spread pts) (α β : ℝ) (hpts : ∀ q ∈ pts, q.2 = Real.exp (α + β * q.1)) (x : ℝ) :
    c.at FloatEnv.real x = Real.exp (α + β * x) := by
  have hE : FloatEnv.real.IsExact := fun _ => rfl
  have hpos : ∀ q ∈ pts, 0 < q.2 := fun q hq => by rw [hpts q hq]; exact Real.exp_pos _
  obtain ⟨h1, h2⟩ := curve_least_squares hE h hpos hs
  have hz : weightedError FloatEnv.real.log α β pts = 0 := by
    unfold weightedError
    apply List.sum_eq_zero
    intro z hz
    obtain ⟨q, hq, rfl⟩ := List.mem_map.1 hz
    have : FloatEnv.real.log q.2 = α + β * q.1 := by
      rw [hpts q hq]
      exact Real.log_exp _
    rw [this]
    ring
  have hle := h1 α β
  rw [hz] at hle
  have hterm : ∀ q ∈ pts, FloatEnv.real.log q.2 = c.a + c.b * q.1 := by
    intro q hq
    by_contra hne
    have : 0 < weightedError FloatEnv.real.log c.a c.b pts := by
      refine sumOf_pos (f := fun x y => y * (FloatEnv.real.log y - (c.a + c.b * x)) ^ 2)
        (fun q hq => mul_nonneg (hpos q hq).le (sq_nonneg _)) hq (mul_pos (hpos q hq) ?_)
      have := sub_ne_zero.2 hne
      positivity
    linarith
  have hlog : ∀ q ∈ pts, α + β * q.1 = c.a + c.b * q.1 := by
    intro q hq
    rw [← hterm q hq, hpts q hq]
    exact (Real.log_exp _).symm
  obtain ⟨q, hq, r, hr, hne⟩ := hs
  have e1 := hlog q hq
  have e2 := hlog r hr
  have hb : β = c.b := by
    have : (β - c.b) * (q.1 - r.1) = 0 := by linear_combination e1 - e2
    rcases mul_eq_zero.1 this with h | h
    · exact sub_eq_zero.1 h
    · exact absurd (sub_eq_zero.1 h) hne
  have ha : α = c.a := by rw [hb] at e1; linarith
  rw [h2 x, ← ha, ← hb]
  show Real.exp _ = _
  congr 1
  ring

/-- Three points on a curve can be fed to a fitter. -/
example (α β : ℝ) : ∃ c, CurveRun FloatEnv.real
    [(3, Real.exp (α + β * 3)), (2, Real.exp (α + β * 2)), (1, Real.exp (α + β * 1))] c ∧
    ∀ x, c.at FloatEnv.real x = Real.exp (α + β * x) := by
  obtain ⟨c₁, h₁⟩ := curve_call FloatEnv.real ExpCurve.zero (zero_le_one) (Real.exp_pos (α + β * 1)).le
  obtain ⟨c₂, h₂⟩ := curve_call FloatEnv.real c₁ (zero_le_two) (Real.exp_pos (α + β * 2)).le
  obtain ⟨c₃, h₃⟩ := curve_call FloatEnv.real c₂ (by norm_num : (0 : ℝ) ≤ 3) (Real.exp_pos (α + β * 3)).le
  refine ⟨c₃, .call (.call (.call .new h₁) h₂) h₃, ?_⟩
  apply curve_exact (.call (.call (.call .new h₁) h₂) h₃)
  · exact ⟨(3, Real.exp (α + β * 3)), by simp, (2, Real.exp (α + β * 2)), by simp, by norm_num⟩
  · intro q hq
    simp only [List.mem_cons, List.not_mem_nil, or_false] at hq
    rcases hq with rfl | rfl | rfl <;> rfl

end Angonoka.Props
