import Verif.Spec.Tunneling
import Mathlib.Data.Nat.Bitwise

/-!
# Temperature
-/

set_option linter.unusedSectionVars false

namespace Angonoka
open Outcome Stun

variable {K : Type} [Field K] [LinearOrder K] [IsStrictOrderedRing K]

theorem dampening_mem (E : FloatEnv K) (count mask : Nat) :
    0 ≤ dampening E count mask ∧ dampening E count mask ≤ 1 := by
  unfold dampening FloatEnv.div FloatEnv.ofInt
  have h1 : (0 : K) ≤ E.rnd (((count &&& mask : Nat) : Int) : K) :=
    E.rnd_nonneg (by exact_mod_cast Nat.zero_le _)
  have h2 : (1 : K) ≤ E.rnd (((mask + 1 : Nat) : Int) : K) :=
    E.one_le_rnd (by push_cast; linarith [(Nat.cast_nonneg mask : (0 : K) ≤ mask)])
  have h3 : E.rnd (((count &&& mask : Nat) : Int) : K) ≤ E.rnd (((mask + 1 : Nat) : Int) : K) := by
    apply E.rnd_mono
    have : count &&& mask ≤ mask + 1 := Nat.le_succ_of_le Nat.and_le_right
    exact_mod_cast this
  constructor
  · exact E.rnd_nonneg (div_nonneg h1 (by linarith))
  · apply E.rnd_le_one
    rw [div_le_one (by linarith)]
    exact h3

theorem mul_ge_neg_one {E : FloatEnv K} {x s : K} (hx : -1 ≤ x) (h0 : 0 ≤ s) (h1 : s ≤ 1) :
    -1 ≤ E.mul x s := by
  apply E.neg_one_le_rnd
  nlinarith

/-- An update with a small beta scale does not violate a contract. -/
theorem Temperature.update_ok {E : FloatEnv K} {t : Temperature K} {stun : K} (h0 : 0 ≤ stun)
    (hv : 0 ≤ t.value) (hb : 0 ≤ t.betaScale) (hbeta : SmallBeta E t.betaScale) :
    ∃ t', t.update E stun = ok t' ∧ 0 ≤ t'.value ∧ t'.betaScale = t.betaScale := by
  unfold SmallBeta at hbeta
  generalize hm : Temperature.averageStun E { t with samples := stun :: t.samples } = mean
  have hmean : -E.slack ≤ mean := hm ▸ le_max_left _ _
  obtain ⟨hd0, hd1⟩ := dampening_mem E (t.count + 1) t.restartPeriodMask
  have hs0 : 0 ≤ E.sub 1 (dampening E (t.count + 1) t.restartPeriodMask) :=
    E.rnd_nonneg (by linarith)
  have hs1 : E.sub 1 (dampening E (t.count + 1) t.restartPeriodMask) ≤ 1 :=
    E.rnd_le_one (by linarith)
  have hdiff : -E.rnd (E.slack + E.rnd (3 / 100)) ≤ E.sub mean (E.rnd (3 / 100)) := by
    have h1 : -(E.slack + E.rnd (3 / 100)) ≤ mean - E.rnd (3 / 100) := by linarith
    have h2 := E.rnd_mono h1
    rwa [E.rnd_neg] at h2
  have hprod : -1 ≤ E.mul (E.sub mean (E.rnd (3 / 100))) t.betaScale := by
    apply E.neg_one_le_rnd
    have := mul_le_mul_of_nonneg_right hdiff hb
    linarith
  have hmul := mul_ge_neg_one (E := E) (mul_ge_neg_one (E := E) hprod hs0 hs1) hs0 hs1
  have hvalue : 0 ≤ E.mul t.value (E.add 1 (E.mul (E.mul (E.mul (E.sub mean (E.rnd (3 / 100))) t.betaScale)
      (E.sub 1 (dampening E (t.count + 1) t.restartPeriodMask)))
      (E.sub 1 (dampening E (t.count + 1) t.restartPeriodMask)))) := by
    apply E.rnd_nonneg
    apply mul_nonneg hv
    apply E.rnd_nonneg
    linarith
  unfold Temperature.update
  rw [expects_true (by simpa using h0), ok_bind]
  dsimp only
  rw [hm, expects_true (by simpa using hvalue), ok_bind]
  exact ⟨_, rfl, hvalue, rfl⟩

/-- What holds after any history. -/
structure TempInv (beta : K) (period : Nat) (t : Temperature K) : Prop where
  beta_eq : t.betaScale = beta
  beta_pos : 0 < beta
  value_nonneg : 0 ≤ t.value
  samples_nonneg : ∀ x ∈ t.samples, 0 ≤ x
  window_pos : 0 < t.stunWindow
  mask : t.restartPeriodMask = period - 1
  single : hasSingleBit period = true

theorem TempInv.new {beta : K} {window period : Nat} {t : Temperature K}
    (h : Temperature.new beta window period = ok t) : TempInv beta period t := by
  simp only [Temperature.new, bind_eq_ok, expects_eq_ok, decide_eq_true_eq] at h
  obtain ⟨_, h1, _, h2, _, h3, _, h4, h⟩ := h
  cases h
  exact ⟨rfl, h1, zero_le_one, by simp, h2, rfl, h4⟩

theorem TempInv.update {E : FloatEnv K} {beta stun : K} {period : Nat} {t t' : Temperature K}
    (h : TempInv beta period t) (hu : t.update E stun = ok t') : TempInv beta period t' := by
  simp only [Temperature.update, bind_eq_ok, expects_eq_ok, decide_eq_true_eq] at hu
  obtain ⟨_, h1, _, h2, hu⟩ := hu
  cases hu
  refine ⟨h.beta_eq, h.beta_pos, h2, ?_, h.window_pos, h.mask, h.single⟩
  intro x hx
  rcases List.mem_cons.1 hx with rfl | hx
  · exact h1
  · exact h.samples_nonneg x hx

theorem TempInv.reset {beta : K} {period : Nat} {t t' : Temperature K}
    (h : TempInv beta period t) (hr : t.reset = ok t') : TempInv beta period t' := by
  simp only [Temperature.reset, bind_eq_ok, expects_eq_ok, decide_eq_true_eq] at hr
  obtain ⟨_, _, hr⟩ := hr
  cases hr
  exact ⟨h.beta_eq, h.beta_pos, zero_le_one, by simp, h.window_pos, h.mask, h.single⟩

theorem TempInv.reset_ok {beta : K} {period : Nat} {t : Temperature K} (h : TempInv beta period t) :
    ∃ t', t.reset = ok t' := by
  unfold Temperature.reset
  rw [expects_true (by simpa using h.window_pos), ok_bind]
  exact ⟨_, rfl⟩

theorem TemperatureFor.inv {E : FloatEnv K} {beta : K} {period : Nat} {t : Temperature K}
    (h : TemperatureFor E beta period t) : TempInv beta period t := by
  induction h with
  | new h => exact .new h
  | update _ hu ih => exact ih.update hu
  | reset _ hr ih => exact ih.reset hr

theorem TempInv.update_ok {E : FloatEnv K} {beta stun : K} {period : Nat} {t : Temperature K}
    (h : TempInv beta period t) (hbeta : SmallBeta E beta) (h0 : 0 ≤ stun) :
    ∃ t', t.update E stun = ok t' := by
  obtain ⟨t', h1, _⟩ := Temperature.update_ok (E := E) (t := t) h0 h.value_nonneg
    (by rw [h.beta_eq]; exact h.beta_pos.le) (by rw [h.beta_eq]; exact hbeta)
  exact ⟨t', h1⟩

/-- `hasSingleBit` accepts exactly the powers of two. -/
theorem hasSingleBit_iff (n : Nat) : hasSingleBit n = true ↔ ∃ k, n = 2 ^ k := by
  constructor
  · intro h
    simp only [hasSingleBit, Bool.and_eq_true, decide_eq_true_eq] at h
    obtain ⟨h0, h1⟩ := h
    induction n using Nat.strong_induction_on with
    | _ n ih =>
      rcases Nat.lt_or_ge n 2 with hlt | hge
      · exact ⟨0, by omega⟩
      · have h2 : n / 2 &&& (n - 1) / 2 = 0 := by
          rw [← Nat.and_div_two, h1]
        rcases Nat.mod_two_eq_zero_or_one n with hm | hm
        · have h3 : (n - 1) / 2 = n / 2 - 1 := by omega
          rw [h3] at h2
          obtain ⟨k, hk⟩ := ih (n / 2) (by omega) (by omega) h2
          exact ⟨k + 1, by rw [pow_succ, ← hk]; omega⟩
        · have h3 : (n - 1) / 2 = n / 2 := by omega
          rw [h3, Nat.and_self] at h2
          omega
  · rintro ⟨k, rfl⟩
    have h : 2 ^ k &&& (2 ^ k - 1) = 0 := by
      rw [Nat.and_two_pow_sub_one_eq_mod, Nat.mod_self]
    have h' : 2 ^ k ≠ 0 := (Nat.two_pow_pos k).ne'
    simp [hasSingleBit, h]

end Angonoka
