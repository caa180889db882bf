import Verif.Proof.Predict

/-!
# Optimizers that differ in nothing but their patience

None of this needs valid options: it holds whenever the calls return.
-/

set_option linter.unusedSectionVars false

namespace Angonoka
open Outcome Stun

variable {K : Type} [Field K] [LinearOrder K] [IsStrictOrderedRing K] {E : FloatEnv K}

/-! ### The best makespan never gets worse -/

theorem getNewNeighbor_lowest {p : ScheduleParams K} {d : Draws K} {m m' : Makespan K} {t t' : Tunneling K}
    (h : getNewNeighbor E p d m t = ok (m', t')) : t'.lowestE = t.lowestE := by
  unfold getNewNeighbor at h
  obtain ⟨_, _, h⟩ := bind_eq_ok.1 h
  obtain ⟨_, _, h⟩ := bind_eq_ok.1 h
  obtain ⟨s, _, h⟩ := bind_eq_ok.1 h
  obtain ⟨⟨e, m₁⟩, _, h⟩ := bind_eq_ok.1 h
  obtain ⟨_, _, h⟩ := bind_eq_ok.1 h
  cases h
  rfl

theorem neighborIsBetter_lowest {t t' : Tunneling K} {b : Bool} (h : neighborIsBetter E t = ok (b, t')) :
    t'.lowestE ≤ t.lowestE := by
  unfold neighborIsBetter at h
  obtain ⟨_, _, h⟩ := bind_eq_ok.1 h
  obtain ⟨_, _, h⟩ := bind_eq_ok.1 h
  obtain ⟨_, _, h⟩ := bind_eq_ok.1 h
  obtain ⟨_, _, h⟩ := bind_eq_ok.1 h
  obtain ⟨_, _, h⟩ := bind_eq_ok.1 h
  obtain ⟨_, _, h⟩ := bind_eq_ok.1 h
  obtain ⟨_, _, h⟩ := bind_eq_ok.1 h
  split at h
  · dsimp only at h
    split at h
    · rename_i hlt
      obtain ⟨s, _, h⟩ := bind_eq_ok.1 h
      cases h
      exact hlt.le
    · cases h
      exact le_rfl
  · cases h
    exact le_rfl

theorem performStun_lowest {d : Draws K} {c c' : Temperature K} {t t' : Tunneling K}
    (h : performStun E d c t = ok (c', t')) : t'.lowestE = t.lowestE := by
  unfold performStun at h
  obtain ⟨_, _, h⟩ := bind_eq_ok.1 h
  obtain ⟨_, _, h⟩ := bind_eq_ok.1 h
  obtain ⟨_, _, h⟩ := bind_eq_ok.1 h
  obtain ⟨_, _, h⟩ := bind_eq_ok.1 h
  obtain ⟨_, _, h⟩ := bind_eq_ok.1 h
  obtain ⟨s, _, h⟩ := bind_eq_ok.1 h
  dsimp only at h
  split at h
  · obtain ⟨c₂, _, h⟩ := bind_eq_ok.1 h
    obtain ⟨⟨c₁, t₁⟩, h1, h⟩ := bind_eq_ok.1 h
    cases h1
    obtain ⟨_, _, h⟩ := bind_eq_ok.1 h
    obtain ⟨_, _, h⟩ := bind_eq_ok.1 h
    cases h
    rfl
  · obtain ⟨⟨c₁, t₁⟩, h1, h⟩ := bind_eq_ok.1 h
    cases h1
    obtain ⟨_, _, h⟩ := bind_eq_ok.1 h
    obtain ⟨_, _, h⟩ := bind_eq_ok.1 h
    cases h
    rfl

theorem tunnelingUpdate_lowest {p : ScheduleParams K} {d : Draws K} {m m' : Makespan K} {c c' : Temperature K}
    {t t' : Tunneling K} (h : tunnelingUpdate E p d m c t = ok (m', c', t')) : t'.lowestE ≤ t.lowestE := by
  unfold tunnelingUpdate at h
  obtain ⟨_, _, h⟩ := bind_eq_ok.1 h
  obtain ⟨_, _, h⟩ := bind_eq_ok.1 h
  obtain ⟨⟨m₁, t₁⟩, h1, h⟩ := bind_eq_ok.1 h
  obtain ⟨⟨b, t₂⟩, h2, h⟩ := bind_eq_ok.1 h
  have h12 : t₂.lowestE ≤ t.lowestE := (neighborIsBetter_lowest h2).trans (getNewNeighbor_lowest h1).le
  dsimp only at h
  split at h
  · cases h
    exact h12
  · obtain ⟨⟨c₁, t₃⟩, h3, h⟩ := bind_eq_ok.1 h
    cases h
    exact (performStun_lowest h3).le.trans h12

theorem Job.steps_lowest {ds : List (Draws K)} {j j' : Job K} (h : j.steps E ds = ok j') :
    j'.stun.lowestE ≤ j.stun.lowestE := by
  induction ds generalizing j with
  | nil => cases h; exact le_rfl
  | cons d ds ih =>
    rw [Job.steps] at h
    obtain ⟨j₁, h1, h⟩ := bind_eq_ok.1 h
    refine (ih h).trans ?_
    unfold Job.step at h1
    obtain ⟨⟨m, c, t⟩, h2, h1⟩ := bind_eq_ok.1 h1
    cases h1
    exact tunnelingUpdate_lowest h2

theorem Job.update_lowest {draws : Nat → Draws K} {j j' : Job K} (h : j.update E draws = ok j') :
    j'.stun.lowestE ≤ j.stun.lowestE := by
  unfold Job.update at h
  obtain ⟨_, _, h⟩ := bind_eq_ok.1 h
  exact Job.steps_lowest h

theorem Job.normalizedMakespan_value {j : Job K} {v : K} (h : j.normalizedMakespan = ok v) : v = j.stun.lowestE := by
  unfold Job.normalizedMakespan Tunneling.normalizedMakespan at h
  obtain ⟨_, _, h⟩ := bind_eq_ok.1 h
  cases h
  rfl

theorem Job.copy_lowest {j j' : Job K} (h : j.copy = ok j') : j'.stun.lowestE = j.stun.lowestE := by
  unfold Job.copy at h
  obtain ⟨m, _, h⟩ := bind_eq_ok.1 h
  obtain ⟨t, ht, h⟩ := bind_eq_ok.1 h
  cases h
  unfold Tunneling.copy at ht
  split at ht
  · unfold prepareSchedules at ht
    obtain ⟨_, _, ht⟩ := bind_eq_ok.1 ht
    cases ht
    rfl
  · cases ht
    rfl

theorem minJob_lowest {best b : Job K} {rest : List (Job K)} (h : minJob best rest = ok b) :
    b.stun.lowestE ≤ best.stun.lowestE := by
  induction rest generalizing best with
  | nil => cases h; exact le_rfl
  | cons j rest ih =>
    rw [minJob] at h
    obtain ⟨v, hv, h⟩ := bind_eq_ok.1 h
    obtain ⟨w, hw, h⟩ := bind_eq_ok.1 h
    refine (ih h).trans ?_
    split
    · rename_i hlt
      rw [← Job.normalizedMakespan_value hv, ← Job.normalizedMakespan_value hw]
      exact hlt.le
    · exact le_rfl

/-- The first job after the exchange has a makespan no greater than the first job before it. -/
theorem replicateBestJob_head {j : Job K} {rest jobs' : List (Job K)} (h : replicateBestJob (j :: rest) = ok jobs') :
    ∃ j' rest', jobs' = j' :: rest' ∧ j'.stun.lowestE ≤ j.stun.lowestE := by
  unfold replicateBestJob at h
  obtain ⟨b, hb, h⟩ := bind_eq_ok.1 h
  obtain ⟨c, hc, h⟩ := bind_eq_ok.1 h
  obtain ⟨v, hv, h⟩ := bind_eq_ok.1 h
  have hv' := Job.normalizedMakespan_value hv
  rw [replicateLoop] at h
  obtain ⟨e, he, h⟩ := bind_eq_ok.1 h
  have hle := (Job.copy_lowest hc).le.trans (minJob_lowest hb)
  dsimp only at h
  split at h
  · obtain ⟨_, h0, h⟩ := bind_eq_ok.1 h
    cases h0
    obtain ⟨rest', _, h⟩ := bind_eq_ok.1 h
    cases h
    exact ⟨j, rest', rfl, le_rfl⟩
  · obtain ⟨c', hc', h⟩ := bind_eq_ok.1 h
    obtain ⟨_, h0, h⟩ := bind_eq_ok.1 h
    cases h0
    obtain ⟨rest', _, h⟩ := bind_eq_ok.1 h
    cases h
    exact ⟨_, rest', rfl, (Job.copy_lowest hc').le.trans hle⟩

/-- What a round leaves behind, apart from the progress -/
theorem Optimizer.update_result {o o' : Optimizer K} {draws : Nat → Nat → Draws K} (h : o.update E draws = ok o') :
    ∃ jobs jobs' v, updateJobs E draws 0 o.jobs = ok jobs ∧ replicateBestJob jobs = ok jobs' ∧
      o'.normalizedMakespan = ok v ∧ o'.jobs = jobs' ∧ o'.batchSize = o.batchSize ∧
      o'.maxIdleIters = o.maxIdleIters ∧ o'.lastMakespan = v ∧
      o'.idleIters = (if v = o.lastMakespan then o.idleIters + o.batchSize else 0) ∧
      o'.epochs = (if v = o.lastMakespan then o.epochs else o.epochs + 1) := by
  unfold Optimizer.update at h
  obtain ⟨_, _, h⟩ := bind_eq_ok.1 h
  obtain ⟨_, _, h⟩ := bind_eq_ok.1 h
  obtain ⟨jobs, hj, h⟩ := bind_eq_ok.1 h
  obtain ⟨jobs', hj', h⟩ := bind_eq_ok.1 h
  dsimp only at h
  obtain ⟨v, hv, h⟩ := bind_eq_ok.1 h
  refine ⟨jobs, jobs', v, hj, hj', ?_⟩
  split at h
  · rename_i heq
    unfold Optimizer.interpolateProgress at h
    obtain ⟨p, _, h⟩ := bind_eq_ok.1 h
    cases h
    exact ⟨hv, rfl, rfl, rfl, heq.symm, by rw [if_pos heq], by rw [if_pos heq]⟩
  · rename_i hne
    unfold Optimizer.estimateProgress at h
    obtain ⟨p, _, h⟩ := bind_eq_ok.1 h
    obtain ⟨e, he, h⟩ := bind_eq_ok.1 h
    rw [hv] at he
    cases he
    obtain ⟨⟨w, c⟩, _, h⟩ := bind_eq_ok.1 h
    obtain ⟨_, _, h⟩ := bind_eq_ok.1 h
    cases h
    exact ⟨hv, rfl, rfl, rfl, rfl, by rw [if_neg hne], by rw [if_neg hne]⟩

theorem Optimizer.makespan_head {o : Optimizer K} {v : K} (h : o.normalizedMakespan = ok v) :
    ∃ j rest, o.jobs = j :: rest ∧ v = j.stun.lowestE := by
  unfold Optimizer.normalizedMakespan Optimizer.bestJob at? at h
  cases hj : o.jobs with
  | nil => rw [hj] at h; cases h
  | cons j rest =>
    rw [hj] at h
    exact ⟨j, rest, rfl, Job.normalizedMakespan_value h⟩

theorem Optimizer.update_le {o o' : Optimizer K} {draws : Nat → Nat → Draws K} (h : o.update E draws = ok o') {v v' : K}
    (hv : o.normalizedMakespan = ok v) (hv' : o'.normalizedMakespan = ok v') : v' ≤ v := by
  obtain ⟨jobs, jobs', _, h1, h2, -, h3, -⟩ := Optimizer.update_result h
  obtain ⟨j, rest, hj, rfl⟩ := Optimizer.makespan_head hv
  obtain ⟨j', rest', hj', rfl⟩ := Optimizer.makespan_head hv'
  rw [hj, updateJobs] at h1
  obtain ⟨j₁, hj₁, h1⟩ := bind_eq_ok.1 h1
  obtain ⟨rest₁, _, h1⟩ := bind_eq_ok.1 h1
  cases h1
  obtain ⟨j₂, rest₂, rfl, hle⟩ := replicateBestJob_head h2
  rw [hj'] at h3
  cases h3
  exact hle.trans (Job.update_lowest hj₁)

theorem Optimizer.rounds_succ {o o' : Optimizer K} {draws : Nat → Nat → Nat → Draws K} {n : Nat}
    (h : o.rounds E draws (n + 1) = ok o') : ∃ o₁, o.rounds E draws n = ok o₁ ∧ o₁.update E (draws n) = ok o' := by
  rw [Optimizer.rounds] at h
  exact bind_eq_ok.1 h

/-- After more rounds the makespan is no greater. -/
theorem Optimizer.rounds_le {o o₁ o₂ : Optimizer K} {draws : Nat → Nat → Nat → Draws K} {n d : Nat}
    (h1 : o.rounds E draws n = ok o₁) (h2 : o.rounds E draws (n + d) = ok o₂) {v w : K}
    (hv : o₁.normalizedMakespan = ok v) (hw : o₂.normalizedMakespan = ok w) : w ≤ v := by
  induction d generalizing o₂ w with
  | zero =>
    rw [Nat.add_zero, h1] at h2
    cases h2
    rw [hv] at hw
    cases hw
    exact le_rfl
  | succ d ih =>
    obtain ⟨o₃, h3, h4⟩ := Optimizer.rounds_succ h2
    cases d with
    | zero =>
      rw [show n.add 0 = n from rfl, h1] at h3
      cases h3
      exact Optimizer.update_le h4 hv hw
    | succ d =>
      obtain ⟨o₄, _, h5⟩ := Optimizer.rounds_succ h3
      obtain ⟨_, _, u, _, _, hu, _⟩ := Optimizer.update_result h5
      exact (Optimizer.update_le h4 hu hw).trans (ih h3 hu)

/-! ### Patience does not influence the search -/

/-- The same in all that the search depends on -/
structure Twin (o o' : Optimizer K) : Prop where
  jobs : o'.jobs = o.jobs
  batch : o'.batchSize = o.batchSize
  last : o'.lastMakespan = o.lastMakespan
  idle : o'.idleIters = o.idleIters
  epochs : o'.epochs = o.epochs

theorem Twin.makespan {o o' : Optimizer K} (h : Twin o o') : o'.normalizedMakespan = o.normalizedMakespan := by
  unfold Optimizer.normalizedMakespan Optimizer.bestJob
  rw [h.jobs]

theorem Twin.schedule {o o' : Optimizer K} (h : Twin o o') : o'.schedule = o.schedule := by
  unfold Optimizer.schedule Optimizer.bestJob
  rw [h.jobs]

theorem Twin.update {o o' p p' : Optimizer K} {draws : Nat → Nat → Draws K} (h : Twin o o')
    (h1 : o.update E draws = ok p) (h2 : o'.update E draws = ok p') : Twin p p' := by
  obtain ⟨jobs, jobs', v, a1, a2, a3, a4, a5, -, a7, a8, a9⟩ := Optimizer.update_result h1
  obtain ⟨jobs₂, jobs₂', v', b1, b2, b3, b4, b5, -, b7, b8, b9⟩ := Optimizer.update_result h2
  rw [h.jobs, a1] at b1
  cases b1
  rw [a2] at b2
  cases b2
  have hjobs : p'.jobs = p.jobs := b4.trans a4.symm
  have hm : p'.normalizedMakespan = p.normalizedMakespan := by
    unfold Optimizer.normalizedMakespan Optimizer.bestJob
    rw [hjobs]
  rw [a3, b3] at hm
  cases hm
  exact ⟨hjobs, by rw [b5, a5, h.batch], by rw [a7, b7], by rw [a8, b8, h.last, h.idle, h.batch],
    by rw [a9, b9, h.last, h.epochs]⟩

theorem Twin.rounds {o o' : Optimizer K} {draws : Nat → Nat → Nat → Draws K} (h : Twin o o') {n : Nat} {p p' : Optimizer K}
    (h1 : o.rounds E draws n = ok p) (h2 : o'.rounds E draws n = ok p') : Twin p p' := by
  induction n generalizing p p' with
  | zero => cases h1; cases h2; exact h
  | succ n ih =>
    obtain ⟨q, g1, g2⟩ := Optimizer.rounds_succ h1
    obtain ⟨q', g3, g4⟩ := Optimizer.rounds_succ h2
    exact (ih g1 g3).update g2 g4

theorem Optimizer.rounds_maxIdle {o : Optimizer K} {draws : Nat → Nat → Nat → Draws K} {n : Nat} {p : Optimizer K}
    (h : o.rounds E draws n = ok p) : p.maxIdleIters = o.maxIdleIters := by
  induction n generalizing p with
  | zero => cases h; rfl
  | succ n ih =>
    obtain ⟨q, g1, g2⟩ := Optimizer.rounds_succ h
    obtain ⟨_, _, _, _, _, _, _, _, hm, _⟩ := Optimizer.update_result g2
    exact hm.trans (ih g1)

theorem Optimizer.new_twin {opts : Options K} {threads limit : Nat} {o o' : Optimizer K}
    (h : Optimizer.new E opts threads = ok o) (h' : Optimizer.new E { opts with maxIdleIters := limit } threads = ok o') :
    Twin o o' ∧ o.maxIdleIters = opts.maxIdleIters ∧ o'.maxIdleIters = limit := by
  unfold Optimizer.new at h h'
  obtain ⟨_, _, h⟩ := bind_eq_ok.1 h
  obtain ⟨_, _, h⟩ := bind_eq_ok.1 h
  obtain ⟨jobs, hj, h⟩ := bind_eq_ok.1 h
  obtain ⟨_, _, h⟩ := bind_eq_ok.1 h
  obtain ⟨_, _, h'⟩ := bind_eq_ok.1 h'
  obtain ⟨_, _, h'⟩ := bind_eq_ok.1 h'
  obtain ⟨jobs', hj', h'⟩ := bind_eq_ok.1 h'
  obtain ⟨_, _, h'⟩ := bind_eq_ok.1 h'
  have hnew : Job.new E { opts with maxIdleIters := limit } = Job.new E opts := rfl
  rw [hnew, hj] at hj'
  cases hj'
  cases h
  cases h'
  exact ⟨⟨rfl, rfl, rfl, rfl, rfl⟩, rfl, rfl⟩

/-- The patient optimizer goes through all the rounds of the impatient one. -/
theorem Twin.firstConverged {o o' : Optimizer K} {draws : Nat → Nat → Nat → Draws K} (h : Twin o o')
    (hle : o.maxIdleIters ≤ o'.maxIdleIters) {n n' : Nat} (h1 : FirstConverged E draws o n)
    (h2 : FirstConverged E draws o' n') : n ≤ n' := by
  by_contra hlt
  obtain ⟨p, hp, hc⟩ := h1.2 n' (by omega)
  obtain ⟨p', hp', hc'⟩ := h2.1
  have ht := h.rounds hp hp'
  unfold Optimizer.hasConverged at hc hc'
  rw [decide_eq_false_iff_not, Optimizer.rounds_maxIdle hp] at hc
  rw [decide_eq_true_eq, Optimizer.rounds_maxIdle hp', ht.idle] at hc'
  omega

/-! ### Seconds -/

theorem durationLoop_nonneg {ts : List Task} {total total' : K} {ds : List K} (h0 : 0 ≤ total)
    (h : durationLoop E ts total = ok (ds, total')) : 0 ≤ total' := by
  induction ts generalizing total total' ds with
  | nil => cases h; exact h0
  | cons t ts ih =>
    rw [durationLoop] at h
    obtain ⟨avg, ha, h⟩ := bind_eq_ok.1 h
    obtain ⟨⟨ds₁, t₁⟩, h1, h⟩ := bind_eq_ok.1 h
    cases h
    refine ih ?_ h1
    unfold Task.averageDuration at ha
    obtain ⟨_, c1, ha⟩ := bind_eq_ok.1 ha
    obtain ⟨_, c2, ha⟩ := bind_eq_ok.1 ha
    have c1 := of_decide_eq_true (expects_eq_ok.1 c1)
    have c2 := of_decide_eq_true (expects_eq_ok.1 c2)
    split at ha
    · cases ha
      have h2 : 0 ≤ (t.durMin + t.durMax).tdiv 2 := Int.tdiv_nonneg (by omega) (by omega)
      exact E.rnd_nonneg (add_nonneg h0 (E.rnd_nonneg (by exact_mod_cast h2)))
    · cases ha

theorem multiplier_nonneg {p : Project} {sp : ScheduleParams K} (h : toScheduleParams E p = ok sp) :
    0 ≤ sp.durationMultiplier := by
  unfold toScheduleParams at h
  obtain ⟨_, _, h⟩ := bind_eq_ok.1 h
  obtain ⟨_, _, h⟩ := bind_eq_ok.1 h
  obtain ⟨⟨ds, mult⟩, hd, h⟩ := bind_eq_ok.1 h
  obtain ⟨_, _, h⟩ := bind_eq_ok.1 h
  obtain ⟨_, _, h⟩ := bind_eq_ok.1 h
  obtain ⟨_, _, h⟩ := bind_eq_ok.1 h
  cases h
  unfold taskDuration at hd
  obtain ⟨_, _, hd⟩ := bind_eq_ok.1 hd
  obtain ⟨_, _, hd⟩ := bind_eq_ok.1 hd
  obtain ⟨⟨ds₁, total⟩, h1, hd⟩ := bind_eq_ok.1 hd
  cases hd
  exact E.rnd_nonneg (div_nonneg (durationLoop_nonneg le_rfl h1) (ofInt_nonneg E _))

variable [FloorRing K]

theorem truncate_mono {x y : K} (h : x ≤ y) : Simulation.truncate x ≤ Simulation.truncate y := by
  unfold Simulation.truncate
  split <;> split
  · exact Int.floor_le_floor h
  · rename_i h1 h2
    exact absurd (h1.trans h) h2
  · rename_i h1 h2
    exact (Int.ceil_nonpos.2 (not_le.1 h1).le).trans (Int.floor_nonneg.2 h2)
  · exact Int.ceil_le_ceil h

theorem seconds_mono {sp : ScheduleParams K} (h0 : 0 ≤ sp.durationMultiplier) {v w : K} (hle : v ≤ w) {x y : Int}
    (hx : Predict.makespan E sp v = ok x) (hy : Predict.makespan E sp w = ok y) : x ≤ y := by
  unfold Predict.makespan at hx hy
  obtain ⟨_, _, hx⟩ := bind_eq_ok.1 hx
  obtain ⟨_, _, hy⟩ := bind_eq_ok.1 hy
  cases hx
  cases hy
  exact truncate_mono (E.rnd_mono (mul_le_mul_of_nonneg_right hle h0))

end Angonoka
