import Verif.Proof.Stun
import Verif.Proof.Examples
import Mathlib.Tactic.NormNum

/-!
# C29-C33: stochastic tunneling
-/

namespace Angonoka.Props
open Angonoka Outcome Stun

variable {K : Type} [Field K] [LinearOrder K] [IsStrictOrderedRing K]

/-- C29. After any history the reported schedule is valid and the reported makespan is its makespan. -/
theorem tunneling_best_valid (E : FloatEnv K) {p : ScheduleParams K} (hp : WellFormed p)
    {t : Tunneling K} (ht : TunnelingFor E p t) :
    ∃ s v, t.schedule = ok s ∧ t.normalizedMakespan = ok v ∧ ValidSchedule p s ∧
      IsMakespan E p s v := by
  have hi := ht.inv hp
  refine ⟨t.bestSchedule, t.lowestE, ?_, ?_, hi.bestValid, ?_⟩
  · unfold Tunneling.schedule
    rw [expects_true (by simpa using hi.buffer_ne hp), ok_bind,
      expects_true (by simpa using hi.bestValid.ne_nil hp), ok_bind]
    rfl
  · unfold Tunneling.normalizedMakespan
    rw [expects_true (by simpa using hi.buffer_ne hp), ok_bind]
    rfl
  · rw [isMakespan_iff hp hi.bestValid]
    exact hi.lowest

/-- Updates preserve the invariant, and the lowest energy is the minimum. -/
theorem updates_lowest {E : FloatEnv K} {p : ScheduleParams K} (hp : WellFormed p)
    {t t' : Tunneling K} {l : List (List Item)} (h : Updates E p t l t') (hi : TunnelInv E p t) :
    TunnelInv E p t' ∧ (∀ s ∈ l, ValidSchedule p s) ∧ t'.lowestE ≤ t.lowestE ∧
      (t'.lowestE = t.lowestE ∨ ∃ s ∈ l, valueOf E p s = t'.lowestE) ∧
      ∀ s ∈ l, t'.lowestE ≤ valueOf E p s := by
  induction h with
  | nil => exact ⟨hi, by simp, le_rfl, Or.inl rfl, by simp⟩
  | cons he hs h _ ih =>
    obtain ⟨beta, period, hb, htemp⟩ := he.temperature
    obtain ⟨m₁, temp₁, t₁, s₁, h1, _, _, h2⟩ :=
      tunnelingUpdate_ok hp hi he.estimator.shape htemp.inv hb _
    rw [h1] at h
    cases h
    have h3 := h2.mutated
    rw [hs] at h3
    cases h3
    obtain ⟨g1, g2, g3, g4, g5⟩ := ih h2.inv
    rw [h2.lowestE] at g3 g4
    refine ⟨g1, ?_, g3.trans (min_le_left _ _), ?_, ?_⟩
    · intro x hx
      rcases List.mem_cons.1 hx with rfl | hx
      · exact h2.valid
      · exact g2 x hx
    · rcases g4 with g4 | ⟨x, hx, hxe⟩
      · rw [g4]
        rcases min_choice (_ : K) (valueOf E p _) with h' | h'
        · left; exact h'
        · right; exact ⟨_, List.mem_cons_self, h'.symm⟩
      · exact Or.inr ⟨x, List.mem_cons_of_mem _ hx, hxe⟩
    · intro x hx
      rcases List.mem_cons.1 hx with rfl | hx
      · exact g3.trans (min_le_right _ _)
      · exact g5 x hx

/-- C30, first part: updates never increase the reported makespan. -/
theorem tunneling_monotone (E : FloatEnv K) {p : ScheduleParams K} (hp : WellFormed p)
    {t t' : Tunneling K} {l : List (List Item)} (ht : TunnelingFor E p t) (h : Updates E p t l t') :
    ∃ v v', t.normalizedMakespan = ok v ∧ t'.normalizedMakespan = ok v' ∧ v' ≤ v := by
  have hi := ht.inv hp
  obtain ⟨h1, _, h2, _⟩ := updates_lowest hp h hi
  exact ⟨_, _, normalizedMakespan_eq hp hi, normalizedMakespan_eq hp h1, h2⟩

/-- C30, second part: after a reset to `s₀` and any updates the reported makespan is the least
makespan of `s₀` and of all the schedules tried. -/
theorem tunneling_best_ever (E : FloatEnv K) {p : ScheduleParams K} (hp : WellFormed p)
    {t₀ t t' : Tunneling K} {m m' : Makespan K} {s₀ : List Item} {l : List (List Item)}
    (ht : TunnelingFor E p t₀) (hm : EstimatorFor E p m) (hs : ValidSchedule p s₀)
    (hr : tunnelingReset E m t₀ s₀ = ok (m', t)) (h : Updates E p t l t') :
    ∃ v, t'.normalizedMakespan = ok v ∧ (∃ s ∈ s₀ :: l, IsMakespan E p s v) ∧
      ∀ s ∈ s₀ :: l, ∀ e, IsMakespan E p s e → v ≤ e := by
  have hi := (TunnelingFor.reset ht hm hs hr).inv hp
  obtain ⟨m₁, t₁, h1, _, _, _, _, h2, _⟩ :=
    tunnelingReset_ok (E := E) hp (ht.inv hp).gamma0 hm.shape hs
  rw [hr] at h1
  cases h1
  obtain ⟨g1, g2, g3, g4, g5⟩ := updates_lowest hp h hi
  refine ⟨_, normalizedMakespan_eq hp g1, ?_, ?_⟩
  · rcases g4 with g4 | ⟨s, hs', hse⟩
    · exact ⟨s₀, by simp, (isMakespan_iff hp hs).2 (by rw [g4, h2])⟩
    · exact ⟨s, by simp [hs'], (isMakespan_iff hp (g2 s hs')).2 hse.symm⟩
  · intro s hs' e he
    rcases List.mem_cons.1 hs' with rfl | hs'
    · rw [isMakespan_iff hp hs] at he
      rw [he, ← h2]
      exact g3
    · rw [isMakespan_iff hp (g2 s hs')] at he
      rw [he]
      exact g5 s hs'

/-- C31. After any history every operation succeeds (violates no contract), whatever the random
numbers are: update, reset to a valid schedule, copy, schedule, makespan. -/
theorem tunneling_no_violation (E : FloatEnv K) {p : ScheduleParams K} (hp : WellFormed p)
    {t : Tunneling K} (ht : TunnelingFor E p t) {m : Makespan K} {temp : Temperature K}
    (he : Environment E p m temp) :
    (∀ d, ∃ r, tunnelingUpdate E p d m temp t = ok r) ∧
    (∀ s, ValidSchedule p s → ∃ r, tunnelingReset E m t s = ok r) ∧
    (∃ t', t.copy = ok t') ∧ (∃ s, t.schedule = ok s) ∧ (∃ v, t.normalizedMakespan = ok v) := by
  have hi := ht.inv hp
  obtain ⟨beta, period, hb, htemp⟩ := he.temperature
  refine ⟨fun d => ?_, fun s hs => ?_, ?_, ?_, _, normalizedMakespan_eq hp hi⟩
  · obtain ⟨m', temp', t', s, h, _⟩ := tunnelingUpdate_ok hp hi he.estimator.shape htemp.inv hb d
    exact ⟨_, h⟩
  · obtain ⟨m', t', h, _⟩ := tunnelingReset_ok (E := E) hp hi.gamma0 he.estimator.shape hs
    exact ⟨_, h⟩
  · obtain ⟨t', h, _⟩ := Tunneling.copy_ok hp hi
    exact ⟨_, h⟩
  · obtain ⟨s, _, h, _⟩ := tunneling_best_valid E hp ht
    exact ⟨s, h⟩

/-- C31, the values behind the contracts: after any history the energies are non-negative and
ordered, and the STUN value is in [0, 1]. -/
theorem tunneling_ranges (E : FloatEnv K) {p : ScheduleParams K} (hp : WellFormed p)
    {t : Tunneling K} (ht : TunnelingFor E p t) :
    0 ≤ t.lowestE ∧ t.lowestE ≤ t.currentE ∧ 0 ≤ t.currentS ∧ t.currentS ≤ 1 := by
  have hi := ht.inv hp
  exact ⟨hi.lowest_nonneg hp, hi.le, hi.s0, hi.s1⟩

/-! ### C32: copies -/

/-- C32, what holds: a copy has the same best schedule and makespan, and both its current schedule
and best schedule are valid. Missing: that it has the same current schedule and an energy
that belongs to it, which is false (`tunneling_copy_exchanges`). It does hold right after a
reset (`tunneling_copy_after_reset_partial`). -/
theorem tunneling_copy_partial (E : FloatEnv K) {p : ScheduleParams K} (hp : WellFormed p)
    {t t' : Tunneling K} (ht : TunnelingFor E p t) (h : t.copy = ok t') :
    t'.schedule = t.schedule ∧ t'.normalizedMakespan = t.normalizedMakespan ∧
      ValidSchedule p t'.currentSchedule ∧
      (t'.currentSchedule = t.currentSchedule ∨ t'.currentSchedule = t.targetSchedule) := by
  have hi := ht.inv hp
  obtain ⟨t₁, h1, h2, h3, h4, _, _, _, h5, h6⟩ := Tunneling.copy_ok hp hi
  rw [h] at h1
  cases h1
  refine ⟨?_, ?_, h2.curValid, ?_⟩
  · have e1 : t.schedule = ok t.bestSchedule := by
      unfold Tunneling.schedule
      rw [expects_true (by simpa using hi.buffer_ne hp), ok_bind,
        expects_true (by simpa using hi.bestValid.ne_nil hp), ok_bind]
      rfl
    have e2 : t'.schedule = ok t'.bestSchedule := by
      unfold Tunneling.schedule
      rw [expects_true (by simpa using h2.buffer_ne hp), ok_bind,
        expects_true (by simpa using h2.bestValid.ne_nil hp), ok_bind]
      rfl
    rw [e1, e2, h3]
  · rw [normalizedMakespan_eq hp hi, normalizedMakespan_eq hp h2, h4]
  · by_cases hc : t.current = p.taskCount
    · exact Or.inl (h5 hc)
    · exact Or.inr (h6 hc)

/-- C32 right after a reset: the copy has the same current schedule and energies. -/
theorem tunneling_copy_after_reset_partial (E : FloatEnv K) {p : ScheduleParams K}
    (hp : WellFormed p) {t₀ t t' : Tunneling K} {m m' : Makespan K} {s : List Item}
    (ht : TunnelingFor E p t₀) (hm : EstimatorFor E p m) (hs : ValidSchedule p s)
    (hr : tunnelingReset E m t₀ s = ok (m', t)) (h : t.copy = ok t') :
    t'.currentSchedule = s ∧ IsMakespan E p s t'.currentE ∧ t'.currentS = t.currentS := by
  have hi := (TunnelingFor.reset ht hm hs hr).inv hp
  obtain ⟨m₁, t₁, h1, _, _, hb, hc, hl, he, _⟩ :=
    tunnelingReset_ok (E := E) hp (ht.inv hp).gamma0 hm.shape hs
  rw [hr] at h1
  cases h1
  obtain ⟨t₂, g1, _, _, _, g3, g4, _, g5, _⟩ := Tunneling.copy_ok hp hi
  rw [h] at g1
  cases g1
  have hcur : t.current = p.taskCount := by
    simp only [tunnelingReset, bind_eq_ok] at hr
    obtain ⟨_, _, t₃, h3, t₄, h4, h5⟩ := hr
    have e1 : t₃.current = s.length := by
      simp only [prepareSchedules, bind_eq_ok] at h3
      obtain ⟨_, _, h3⟩ := h3
      cases h3
      rfl
    have e2 : t₄.current = t₃.current := by
      simp only [initSchedules, bind_eq_ok] at h4
      obtain ⟨_, _, _, _, _, _, h4⟩ := h4
      cases h4
      rfl
    have e3 : t.current = t₄.current := by
      simp only [initEnergies, bind_eq_ok] at h5
      obtain ⟨_, _, ⟨_, _⟩, _, _, _, _, _, _, _, _, _, h5⟩ := h5
      cases h5
      rfl
    rw [e3, e2, e1, hs.length]
  refine ⟨by rw [g5 hcur, hc], ?_, g4⟩
  rw [isMakespan_iff hp hs, g3, he]

/-! ### A concrete history: one task, two agents, the second one faster -/

/-- One task that takes 2, agents with performance 1 and 2. -/
def tinyParams : ScheduleParams ℚ where
  agentPerformance := [1, 2]
  taskDuration := [2]
  availableAgents := Vector2D.ofSizes [0, 1] [2]
  dependencies := Vector2D.ofSizes [] [0]
  durationMultiplier := 1

theorem tinyParams_wellFormed : WellFormed tinyParams := by
  apply wellFormed_of_check
  all_goals decide

theorem tiny_valid (a : Nat) (h : a < 2) : ValidSchedule tinyParams [⟨0, a⟩] := by
  have : a = 0 ∨ a = 1 := by omega
  rcases this with rfl | rfl <;> apply validSchedule_of_check <;> decide

def tinyEstimator : Makespan ℚ := { params := tinyParams, taskDone := [0], workDone := [0, 0] }

theorem tinyEstimator_ok : EstimatorFor FloatEnv.rat tinyParams tinyEstimator :=
  .new (by decide +kernel)

def tinyTemperature : Temperature ℚ :=
  { value := 1, stunWindow := 10, samples := [], count := 0, betaScale := 1/10000,
    restartPeriodMask := 3 }

theorem tiny_environment : Environment FloatEnv.rat tinyParams tinyEstimator tinyTemperature where
  estimator := tinyEstimator_ok
  temperature := ⟨1/10000, 4, by decide +kernel, .new (window := 10) (by decide +kernel)⟩

/-- State constructed with the task given to the slow agent. -/
def tinyStart : Tunneling ℚ :=
  { buffer := [⟨0, 0⟩, ⟨0, 0⟩, ⟨0, 0⟩], n := 1, best := 0, current := 1, target := 2,
    currentE := 2, lowestE := 2, targetE := 0, gamma := 1/2, currentS := 0, targetS := 0 }

theorem tinyStart_ok : TunnelingFor FloatEnv.rat tinyParams tinyStart :=
  .new (m := tinyEstimator) (m' := { tinyEstimator with taskDone := [2], workDone := [2, 0] })
    (gamma := 1/2) (s := [⟨0, 0⟩]) tinyEstimator_ok (by decide +kernel) (tiny_valid 0 (by decide))
    (by decide +kernel)

/-- State after an update that tries the fast agent, an improvement. -/
def tinyImproved : Tunneling ℚ :=
  { buffer := [⟨0, 1⟩, ⟨0, 0⟩, ⟨0, 1⟩], n := 1, best := 0, current := 2, target := 1,
    currentE := 1, lowestE := 1, targetE := 1, gamma := 1/2, currentS := 1/3, targetS := 0 }

theorem tinyImproved_step : tunnelingUpdate FloatEnv.rat tinyParams ⟨0, 0, 1, 0⟩ tinyEstimator
    tinyTemperature tinyStart
    = ok ({ tinyEstimator with taskDone := [1], workDone := [0, 1] }, tinyTemperature,
        tinyImproved) := by
  decide +kernel

theorem tinyImproved_ok : TunnelingFor FloatEnv.rat tinyParams tinyImproved :=
  .update tinyStart_ok tiny_environment tinyImproved_step

/-- The full C32 is false: a copy can have a different current schedule, whose makespan is not
the copied current energy. -/
theorem tunneling_copy_exchanges :
    ∃ (t t' : Tunneling ℚ), TunnelingFor FloatEnv.rat tinyParams t ∧ t.copy = ok t' ∧
      t'.currentSchedule ≠ t.currentSchedule ∧
      ¬ IsMakespan FloatEnv.rat tinyParams t'.currentSchedule t'.currentE := by
  refine ⟨tinyImproved, { tinyImproved with current := 1, target := 2 }, tinyImproved_ok,
    by decide +kernel, by decide +kernel, ?_⟩
  rintro ⟨m, m', h1, h2⟩
  have h3 : m = tinyEstimator := by
    have : Makespan.new tinyParams = ok tinyEstimator := by decide +kernel
    rw [this] at h1
    cases h1
    rfl
  subst h3
  have h4 : tinyEstimator.call FloatEnv.rat
      ({ tinyImproved with current := 1, target := 2 } : Tunneling ℚ).currentSchedule
      = ok (2, { tinyEstimator with taskDone := [2], workDone := [2, 0] }) := by decide +kernel
  rw [h4] at h2
  simp only [Outcome.ok.injEq, Prod.mk.injEq] at h2
  exact absurd h2.1 (by decide +kernel)

/-! ### C33: the STUN value -/

/-- The STUN value that belongs to the current and the lowest energy. -/
def StunExact (E : FloatEnv K) (t : Tunneling K) : Prop :=
  stunFn E t.lowestE t.currentE t.gamma = ok t.currentS

/-- The full C33 is false: after the improvement above the current schedule is the best one, so its
STUN value should be 0; the state has 1/3. -/
theorem stun_value_stale :
    ∃ t : Tunneling ℚ, TunnelingFor FloatEnv.rat tinyParams t ∧
      t.currentSchedule = t.bestSchedule ∧ t.currentE = t.lowestE ∧
      stunFn FloatEnv.rat t.lowestE t.currentE t.gamma = ok 0 ∧ t.currentS = 1/3 := by
  refine ⟨tinyImproved, tinyImproved_ok, ?_⟩
  decide +kernel

/-- The stale value changes decisions: with a random number of 0.9 the next update accepts a
neighbour that is twice as long, though with the right STUN value the acceptance probability
would be below 0.9. -/
theorem stun_stale_decision :
    (∃ m temp t', tunnelingUpdate FloatEnv.rat tinyParams ⟨0, 0, 0, 9/10⟩ tinyEstimator
        tinyTemperature tinyImproved = ok (m, temp, t') ∧ t'.currentE = 2) ∧
    (∃ m temp t', tunnelingUpdate FloatEnv.rat tinyParams ⟨0, 0, 0, 9/10⟩ tinyEstimator
        tinyTemperature { tinyImproved with currentS := 0 } = ok (m, temp, t') ∧
        t'.currentE = 1) := by
  have h1 : ∀ (t : Tunneling ℚ) (e : ℚ),
      (match tunnelingUpdate FloatEnv.rat tinyParams ⟨0, 0, 0, 9/10⟩ tinyEstimator
        tinyTemperature t with
        | ok (_, _, t') => decide (t'.currentE = e)
        | _ => false) = true →
      ∃ m temp t', tunnelingUpdate FloatEnv.rat tinyParams ⟨0, 0, 0, 9/10⟩ tinyEstimator
        tinyTemperature t = ok (m, temp, t') ∧ t'.currentE = e := by
    intro t e h
    split at h
    · next m temp t' heq => exact ⟨m, temp, t', heq, by simpa using h⟩
    · simp at h
  exact ⟨h1 _ _ (by decide +kernel), h1 _ _ (by decide +kernel)⟩

/-- C33, what holds: after a reset the STUN value is exact, and updates that do not find a schedule
better than the current one keep it exact. Missing: updates that do (`stun_value_stale`). -/
theorem stun_value_exact_partial (E : FloatEnv K) {p : ScheduleParams K} (hp : WellFormed p)
    {t : Tunneling K} (ht : TunnelingFor E p t) {m : Makespan K} :
    (∀ s m' t', EstimatorFor E p m → ValidSchedule p s → tunnelingReset E m t s = ok (m', t') →
      StunExact E t') ∧
    (∀ temp d m' temp' t', Environment E p m temp → StunExact E t →
      tunnelingUpdate E p d m temp t = ok (m', temp', t') → t.currentE ≤ t'.targetE →
      StunExact E t') := by
  have hi := ht.inv hp
  constructor
  · intro s m' t' hm hs h
    obtain ⟨m₁, t₁, h1, _, h2, _, _, _, _, _, h3⟩ :=
      tunnelingReset_ok (E := E) hp hi.gamma0 hm.shape hs
    rw [h] at h1
    cases h1
    obtain ⟨v, hv, _, _, hveq⟩ := stunFn_ok (E := E) (h2.lowest_nonneg hp) h2.le h2.gamma0
    unfold StunExact
    rw [hv, hveq, h3]
  · intro temp d m' temp' t' he hex h hle
    obtain ⟨beta, period, hb, htemp⟩ := he.temperature
    obtain ⟨m₁, temp₁, t₁, s, h1, _, _, h2⟩ :=
      tunnelingUpdate_ok hp hi he.estimator.shape htemp.inv hb d
    rw [h] at h1
    cases h1
    rw [h2.targetE] at hle
    have hlow : t'.lowestE = t.lowestE := by
      rw [h2.lowestE, min_eq_left (hi.le.trans hle)]
    unfold StunExact
    obtain ⟨v, hv, _, _, hveq⟩ := stunFn_ok (E := E) (h2.inv.lowest_nonneg hp) h2.inv.le h2.inv.gamma0
    rcases h2.stun hle with ⟨_, h4⟩ | ⟨h3, h4⟩
    · rw [hv, hveq, h4, h2.gamma, hlow]
    · rw [hlow, h3, h2.gamma, h4]
      exact hex

/-! ### Examples -/

example : ∃ s v, tinyImproved.schedule = ok s ∧ tinyImproved.normalizedMakespan = ok v ∧
    ValidSchedule tinyParams s ∧ IsMakespan FloatEnv.rat tinyParams s v :=
  tunneling_best_valid _ tinyParams_wellFormed tinyImproved_ok

example : Updates FloatEnv.rat tinyParams tinyStart [[⟨0, 1⟩]] tinyImproved :=
  .cons tiny_environment (by decide +kernel) tinyImproved_step .nil

/-- For any well-formed project there is a history to which the theorems apply. -/
example (E : FloatEnv K) {p : ScheduleParams K} (hp : WellFormed p) {s : List Item}
    (hs : ValidSchedule p s) {m : Makespan K} (hm : EstimatorFor E p m) :
    ∃ t, TunnelingFor E p t := by
  obtain ⟨m', t', h, _⟩ := tunnelingReset_ok (E := E) (t := Tunneling.blank 0) hp le_rfl hm.shape hs
  refine ⟨t', .new (m' := m') hm le_rfl hs ?_⟩
  unfold Tunneling.new
  rw [expects_true (by simpa using hs.ne_nil hp), ok_bind, h]

end Angonoka.Props
