import Verif.Spec.Rounding
import Verif.Proof.Makespan
import Verif.Proof.Params

/-!
# Rounding errors

`Near c k x y`: `x` and `y` differ by at most `k` factors of `c`.
-/

set_option linter.unusedSectionVars false

namespace Angonoka
open Outcome Stun

variable {K : Type} [Field K] [LinearOrder K] [IsStrictOrderedRing K]

/-- Numbers from `lo` on are rounded with an error of at most a factor of `c`. -/
structure Accurate (E : FloatEnv K) (c lo : K) : Prop where
  one_le : 1 ≤ c
  pos : 0 < lo
  fixed : E.rnd lo = lo
  acc : ∀ x, lo ≤ x → E.rnd x ≤ c * x ∧ x ≤ c * E.rnd x

/-- `x` and `y` are nonnegative and differ by at most `k` factors of `c`. -/
structure Near (c : K) (k : Nat) (x y : K) : Prop where
  left : 0 ≤ x
  right : 0 ≤ y
  le : x ≤ c ^ k * y
  ge : y ≤ c ^ k * x

section
variable {c : K} (hc : 1 ≤ c)
include hc

theorem Near.refl {x : K} (hx : 0 ≤ x) : Near c 0 x x := ⟨hx, hx, by simp, by simp⟩

theorem Near.mono {k l : Nat} {x y : K} (h : Near c k x y) (hkl : k ≤ l) : Near c l x y := by
  have hp : c ^ k ≤ c ^ l := pow_le_pow_right₀ hc hkl
  exact ⟨h.left, h.right, h.le.trans (mul_le_mul_of_nonneg_right hp h.right),
    h.ge.trans (mul_le_mul_of_nonneg_right hp h.left)⟩

theorem Near.add {k : Nat} {x y x' y' : K} (h : Near c k x y) (h' : Near c k x' y') :
    Near c k (x + x') (y + y') :=
  ⟨add_nonneg h.left h'.left, add_nonneg h.right h'.right, by linarith [h.le, h'.le], by linarith [h.ge, h'.ge]⟩

theorem Near.max {k : Nat} {x y x' y' : K} (h : Near c k x y) (h' : Near c k x' y') :
    Near c k (max x x') (max y y') := by
  have hck : 0 ≤ c ^ k := pow_nonneg (by linarith) _
  refine ⟨le_max_of_le_left h.left, le_max_of_le_left h.right, ?_, ?_⟩
  · rw [mul_max_of_nonneg _ _ hck]
    exact max_le_max h.le h'.le
  · rw [mul_max_of_nonneg _ _ hck]
    exact max_le_max h.ge h'.ge

theorem Near.mul {k l : Nat} {x y x' y' : K} (h : Near c k x y) (h' : Near c l x' y') :
    Near c (k + l) (x * x') (y * y') := by
  have hck : 0 ≤ c ^ k := pow_nonneg (by linarith) _
  refine ⟨mul_nonneg h.left h'.left, mul_nonneg h.right h'.right, ?_, ?_⟩
  · calc x * x' ≤ (c ^ k * y) * (c ^ l * y') := mul_le_mul h.le h'.le h'.left (mul_nonneg hck h.right)
      _ = _ := by rw [pow_add]; ring
  · calc y * y' ≤ (c ^ k * x) * (c ^ l * x') := mul_le_mul h.ge h'.ge h'.right (mul_nonneg hck h.left)
      _ = _ := by rw [pow_add]; ring

theorem Near.div {k l : Nat} {x y x' y' : K} (h : Near c k x y) (h' : Near c l x' y') (hx : 0 < x') (hy : 0 < y') :
    Near c (k + l) (x / x') (y / y') := by
  have hck : 0 ≤ c ^ k := pow_nonneg (by linarith) _
  refine ⟨div_nonneg h.left hx.le, div_nonneg h.right hy.le, ?_, ?_⟩
  · rw [div_le_iff₀ hx, mul_assoc, pow_add]
    calc x ≤ c ^ k * y := h.le
      _ = c ^ k * (y / y' * y') := by rw [div_mul_cancel₀ _ hy.ne']
      _ ≤ c ^ k * (y / y' * (c ^ l * x')) := mul_le_mul_of_nonneg_left
        (mul_le_mul_of_nonneg_left h'.ge (div_nonneg h.right hy.le)) hck
      _ = _ := by ring
  · rw [div_le_iff₀ hy, mul_assoc, pow_add]
    calc y ≤ c ^ k * x := h.ge
      _ = c ^ k * (x / x' * x') := by rw [div_mul_cancel₀ _ hx.ne']
      _ ≤ c ^ k * (x / x' * (c ^ l * y')) := mul_le_mul_of_nonneg_left
        (mul_le_mul_of_nonneg_left h'.le (div_nonneg h.left hx.le)) hck
      _ = _ := by ring

theorem Near.maxOf {k : Nat} {xs ys : List K} (h : List.Forall₂ (Near c k) xs ys) :
    Near c k (maxOf xs) (maxOf ys) := by
  cases h with
  | nil => exact ⟨le_rfl, le_rfl, by simp [Stun.maxOf], by simp [Stun.maxOf]⟩
  | cons h t =>
    unfold Stun.maxOf
    clear * - hc h t
    rename_i x y xs ys
    induction t generalizing x y with
    | nil => exact h
    | cons h' t ih =>
      simp only [List.foldl_cons]
      exact ih (Near.max hc h h')

end

theorem Accurate.le_rnd {E : FloatEnv K} {c lo : K} (h : Accurate E c lo) {x : K} (hx : lo ≤ x) : lo ≤ E.rnd x := by
  have := E.rnd_mono hx
  rwa [h.fixed] at this

theorem Near.rnd {E : FloatEnv K} {c lo : K} (hE : Accurate E c lo) {k : Nat} {x y : K} (h : Near c k x y)
    (hx : lo ≤ x) : Near c (k + 1) (E.rnd x) y := by
  have hc : 0 ≤ c := zero_le_one.trans hE.one_le
  have hck : 0 ≤ c ^ k := pow_nonneg hc _
  obtain ⟨h1, h2⟩ := hE.acc x hx
  refine ⟨E.rnd_nonneg h.left, h.right, ?_, ?_⟩
  · calc E.rnd x ≤ c * x := h1
      _ ≤ c * (c ^ k * y) := mul_le_mul_of_nonneg_left h.le hc
      _ = _ := by rw [pow_succ]; ring
  · calc y ≤ c ^ k * x := h.ge
      _ ≤ c ^ k * (c * E.rnd x) := mul_le_mul_of_nonneg_left h2 hck
      _ = _ := by rw [pow_succ]; ring

/-! ### The recurrence -/

section
variable {E E₀ : FloatEnv K} {c lo : K} {p p₀ : ScheduleParams K}

/-- Rounded and exact execution of the same items, side by side -/
theorem near_run (hE : Accurate E c lo) (hE₀ : ∀ x, E₀.rnd x = x)
    (hdeps : ∀ t, p.deps t = p₀.deps t)
    (hp : ∀ x ∈ p.agentPerformance, 0 < x) (hd : ∀ x ∈ p.taskDuration, 0 ≤ x)
    (hp₀ : ∀ x ∈ p₀.agentPerformance, 0 < x) (hd₀ : ∀ x ∈ p₀.taskDuration, 0 ≤ x)
    {s pre : List Item} {start f w start₀ f₀ w₀ : Nat → K} {k j : Nat}
    (h : RunInv E p pre start f w) (h₀ : RunInv E₀ p₀ pre start₀ f₀ w₀)
    (hs : Runnable p pre s)
    (htime : ∀ it ∈ s, Near c j (p.itemTime E it) (p₀.itemTime E₀ it) ∧ lo ≤ p.itemTime E it)
    (hjk : j ≤ k) (nst : ∀ i, Near c k (start i) (start₀ i)) (nf : ∀ i, Near c k (f i) (f₀ i))
    (nw : ∀ i, Near c k (w i) (w₀ i)) :
    ∃ start' start₀', RunInv E p (pre ++ s) start' (runF E p s f w).1 (runF E p s f w).2 ∧
      RunInv E₀ p₀ (pre ++ s) start₀' (runF E₀ p₀ s f₀ w₀).1 (runF E₀ p₀ s f₀ w₀).2 ∧
      (∀ i, Near c (k + s.length) (start' i) (start₀' i)) ∧
      (∀ i, Near c (k + s.length) ((runF E p s f w).1 i) ((runF E₀ p₀ s f₀ w₀).1 i)) ∧
      (∀ i, Near c (k + s.length) ((runF E p s f w).2 i) ((runF E₀ p₀ s f₀ w₀).2 i)) := by
  induction s generalizing pre start f w start₀ f₀ w₀ k with
  | nil => exact ⟨start, start₀, by simpa [runF] using h, by simpa [runF] using h₀, nst, nf, nw⟩
  | cons it s ih =>
    obtain ⟨h1, h2⟩ := hs [] it s rfl
    have hstep := runInv_step hp hd h (it := it) (by simpa using h1) (by simpa using h2)
    have hstep₀ := runInv_step hp₀ hd₀ h₀ (it := it) (by simpa using h1) (by rw [← hdeps]; simpa using h2)
    obtain ⟨ht, hlo⟩ := htime it (by simp)
    have hst : Near c k (startTime p f w it) (startTime p₀ f₀ w₀ it) := by
      unfold startTime depsEnd
      refine Near.max hE.one_le (Near.maxOf hE.one_le ?_) (nw _)
      rw [hdeps]
      rw [List.forall₂_map_left_iff, List.forall₂_map_right_iff]
      exact List.forall₂_same.2 fun d _ => nf d
    have hend : Near c (k + 1) (endTime E p f w it) (endTime E₀ p₀ f₀ w₀ it) := by
      unfold endTime FloatEnv.add
      rw [hE₀]
      refine Near.rnd hE (Near.add hE.one_le hst (ht.mono hE.one_le hjk)) ?_
      linarith [hst.left]
    have hupd : ∀ (g g₀ : Nat → K) (x x₀ : K) (i : Nat), (∀ i, Near c k (g i) (g₀ i)) →
        Near c (k + 1) x x₀ → ∀ l, Near c (k + 1) (Function.update g i x l) (Function.update g₀ i x₀ l) := by
      intro g g₀ x x₀ i hg hx l
      by_cases hl : l = i
      · subst hl
        simpa using hx
      · rw [Function.update_of_ne hl, Function.update_of_ne hl]
        exact (hg l).mono hE.one_le (by omega)
    obtain ⟨start', start₀', a1, a2, a3, a4, a5⟩ := ih hstep hstep₀ (by
        intro s₁ x s₂ hx
        have := hs (it :: s₁) x s₂ (by rw [hx]; rfl)
        simpa using this)
      (fun x hx => htime x (by simp [hx])) (k := k + 1) (by omega)
      (hupd _ _ _ _ _ nst (hst.mono hE.one_le (by omega))) (hupd _ _ _ _ _ nf hend) (hupd _ _ _ _ _ nw hend)
    have hk : k + (it :: s).length = k + 1 + s.length := by
      rw [List.length_cons]
      omega
    rw [hk]
    exact ⟨start', start₀', by simpa [runF] using a1, by simpa [runF] using a2, a3, a4, a5⟩

end

end Angonoka
