import Verif.Proof.Reach

/-!
# Random numbers near those that lead to a best schedule

The random numbers of `Verif.Proof.Reach` accept with 0. Here are the bounds up to which the numbers may vary.
-/

set_option linter.unusedSectionVars false

namespace Angonoka
open Outcome Stun

variable {K : Type} [Field K] [LinearOrder K] [IsStrictOrderedRing K]
variable {E : FloatEnv K} {opts : Options K}

/-- `d'` has the same integers as `d`, and accepts at least as easily. -/
def Draws.Within (d d' : Draws K) : Prop := d'.swap = d.swap ∧ d'.task = d.task ∧ d'.agent = d.agent ∧ d'.u ≤ d.u

/-! ### Small integers suffice -/

theorem uniformInt_mod (raw : Nat) (n : Nat) (hn : 0 < n) (max : Int) (h : max = (n : Int) - 1) :
    uniformInt (raw % n) max = uniformInt raw max := by
  have : max.toNat + 1 = n := by omega
  simp only [uniformInt, this, Nat.mod_mod]

theorem trySwap_small {p : ScheduleParams K} {s : List Item} (raw : Nat) :
    ∃ r, (r < s.length ∨ r = 0) ∧ trySwap p r s = trySwap p raw s := by
  by_cases h1 : s.length = 1
  · exact ⟨0, Or.inr rfl, by simp only [trySwap, h1, if_true]⟩
  · by_cases h0 : s.length = 0
    · exact ⟨0, Or.inr rfl, by simp [trySwap, List.length_eq_zero_iff.1 h0, expects]⟩
    · refine ⟨raw % (s.length - 1), Or.inl ((Nat.mod_lt _ (by omega)).trans (by omega)), ?_⟩
      simp only [trySwap]
      rw [uniformInt_mod raw (s.length - 1) (by omega) _ (by omega)]

theorem updateAgent_small {p : ScheduleParams K} (hw : WellFormed p) {b : Nat} (ha : ∀ t < p.taskCount, (p.avail t).length ≤ b)
    {s : List Item} (hs : ValidSchedule p s) (rt ra : Nat) :
    ∃ r q, r < s.length ∧ q < b ∧ updateAgent p r q s = updateAgent p rt ra s := by
  have hlen : 0 < s.length := by rw [hs.length]; exact hw.tasks_pos
  have hlt := Nat.mod_lt rt hlen
  have hit := hs.task_lt (List.getElem_mem hlt)
  have hrow : 0 < (p.avail (s[rt % s.length]).task).length := List.length_pos_iff.2 (hw.avail_ne _ hit)
  refine ⟨rt % s.length, ra % (p.avail (s[rt % s.length]).task).length, hlt, (Nat.mod_lt _ hrow).trans_le (ha _ hit), ?_⟩
  simp only [updateAgent]
  rw [uniformInt_mod rt s.length hlen _ rfl]
  have hu : uniformInt rt ((s.length : Int) - 1) = ok (rt % s.length) := by
    have : ((s.length : Int) - 1).toNat + 1 = s.length := by omega
    rw [uniformInt, expects_true (by simp; omega), ok_bind, this]
    rfl
  have hat : at? s (rt % s.length) "update_agent: index" = ok s[rt % s.length] := by
    simp only [at?, List.getElem?_eq_getElem hlt]
  rw [hu]
  simp only [ok_bind, hat]
  have hk := uniformInt_mod ra _ hrow _ rfl
  simp only [ScheduleParams.avail] at hk ⊢
  rw [hk]

theorem mutate_small {p : ScheduleParams K} (hw : WellFormed p) {b : Nat} (hb : p.taskCount ≤ b)
    (ha : ∀ t < p.taskCount, (p.avail t).length ≤ b) {s : List Item} (hs : ValidSchedule p s) (d : Draws K) :
    ∃ d' : Draws K, (d'.swap < b ∧ d'.task < b ∧ d'.agent < b) ∧ d'.u = d.u ∧ mutate p d' s = mutate p d s := by
  have hlen := hs.length
  have hpos := hw.tasks_pos
  obtain ⟨s₁, h1, h2, _⟩ := trySwap_ok hw hs d.swap
  obtain ⟨r, hr, e⟩ := trySwap_small (p := p) (s := s) d.swap
  obtain ⟨r', q, hr', hq, e'⟩ := updateAgent_small hw ha h2 d.task d.agent
  refine ⟨⟨r, r', q, d.u⟩, ⟨by dsimp only; omega, by have := h2.length; dsimp only; omega, hq⟩, rfl, ?_⟩
  simp only [mutate, e, h1, ok_bind, e']

theorem Leads.small {p : ScheduleParams K} (hw : WellFormed p) {b : Nat} (hb : p.taskCount ≤ b)
    (ha : ∀ t < p.taskCount, (p.avail t).length ≤ b) {s t : List Item} {ds : List (Draws K)} (h : Leads p s ds t) (hs : ValidSchedule p s) :
    ∃ ds', ds'.length = ds.length ∧ ((∀ d ∈ ds, d.u = 0) → ∀ d ∈ ds', d.u = 0) ∧
      (∀ d ∈ ds', d.swap < b ∧ d.task < b ∧ d.agent < b) ∧ Leads p s ds' t := by
  induction h with
  | nil => exact ⟨[], rfl, by simp, by simp, .nil⟩
  | @cons s d u ds t hm _ ih =>
    obtain ⟨u', hm', hu⟩ := mutate_ok hw hs d
    rw [hm] at hm'
    cases hm'
    obtain ⟨ds', h1, h2, h3, h4⟩ := ih hu
    obtain ⟨d', g1, g2, g3⟩ := mutate_small hw hb ha hs d
    refine ⟨d' :: ds', by simp [h1], ?_, ?_, .cons (g3.trans hm) h4⟩
    · intro h0 x hx
      rcases List.mem_cons.1 hx with rfl | hx
      · rw [g2]
        exact h0 d (by simp)
      · exact h2 (fun y hy => h0 y (by simp [hy])) x hx
    · intro x hx
      rcases List.mem_cons.1 hx with rfl | hx
      · exact g1
      · exact h3 x hx

/-! ### How easily a step is accepted -/

/-- If a step is made with 0 for the acceptance, the same is made with every number up to the acceptance probability. -/
theorem performStun_within {d : Draws K} {temp : Temperature K} {t : Tunneling K} {r} (h : performStun E d temp t = ok r) (h0 : d.u = 0) :
    ∃ x, ∀ d' : Draws K, d'.u ≤ min 1 (E.exp x) → performStun E d' temp t = ok r := by
  unfold performStun at h
  obtain ⟨_, h1, h⟩ := bind_eq_ok.1 h
  obtain ⟨_, h2, h⟩ := bind_eq_ok.1 h
  obtain ⟨_, h3, h⟩ := bind_eq_ok.1 h
  obtain ⟨_, h4, h⟩ := bind_eq_ok.1 h
  obtain ⟨_, h5, h⟩ := bind_eq_ok.1 h
  obtain ⟨s, h6, h⟩ := bind_eq_ok.1 h
  dsimp only at h
  refine ⟨E.mul (-temp.value) (E.sub s t.currentS), fun d' hd' => ?_⟩
  unfold performStun
  rw [h1, ok_bind, h2, ok_bind, h3, ok_bind, h4, ok_bind, h5, ok_bind, h6, ok_bind]
  dsimp only
  have hpr : d.u ≤ min 1 (E.exp (E.mul (-temp.value) (E.sub s t.currentS))) := by
    rw [h0]
    exact le_min zero_le_one (E.exp_nonneg _)
  rw [if_pos hpr] at h
  rw [if_pos hd']
  exact h

theorem Job.step_within {j j' : Job K} {d : Draws K} (h : j.step E d = ok j') (h0 : d.u = 0) :
    ∃ x, ∀ d', Draws.Within { d with u := min 1 (E.exp x) } d' → j.step E d' = ok j' := by
  have hnb : ∀ {d' : Draws K}, d'.swap = d.swap → d'.task = d.task → d'.agent = d.agent →
      ∀ m t, getNewNeighbor E j.params d' m t = getNewNeighbor E j.params d m t := by
    intro d' e1 e2 e3 m t
    unfold getNewNeighbor mutate
    rw [e1, e2, e3]
  unfold Job.step tunnelingUpdate at h
  obtain ⟨r, h1, h⟩ := bind_eq_ok.1 h
  obtain ⟨_, g1, h1⟩ := bind_eq_ok.1 h1
  obtain ⟨_, g2, h1⟩ := bind_eq_ok.1 h1
  obtain ⟨⟨m, t⟩, g3, h1⟩ := bind_eq_ok.1 h1
  obtain ⟨⟨better, t'⟩, g4, h1⟩ := bind_eq_ok.1 h1
  dsimp only at g4 h1
  cases better with
  | true =>
    rw [if_pos rfl] at h1
    refine ⟨0, fun d' ⟨e1, e2, e3, _⟩ => ?_⟩
    unfold Job.step tunnelingUpdate
    rw [g1, ok_bind, g2, ok_bind, hnb e1 e2 e3, g3, ok_bind]
    dsimp only
    rw [g4, ok_bind]
    dsimp only
    rw [if_pos rfl, h1, ok_bind]
    exact h
  | false =>
    rw [if_neg (by simp)] at h1
    obtain ⟨r', g5, h1⟩ := bind_eq_ok.1 h1
    obtain ⟨x, hx⟩ := performStun_within g5 h0
    refine ⟨x, fun d' ⟨e1, e2, e3, e4⟩ => ?_⟩
    unfold Job.step tunnelingUpdate
    rw [g1, ok_bind, g2, ok_bind, hnb e1 e2 e3, g3, ok_bind]
    dsimp only
    rw [g4, ok_bind]
    dsimp only
    rw [if_neg (by simp), hx d' e4, ok_bind, h1, ok_bind]
    exact h

/-! ### The optimizer -/

theorem updateJobs_all {draws : Nat → Nat → Draws K} {j j' : Job K} (n : Nat) :
    ∀ k, (∀ i < n, j.update E (draws (k + i)) = ok j') → updateJobs E draws k (List.replicate n j) = ok (List.replicate n j') := by
  induction n with
  | zero => intro k _; rfl
  | succ n ih =>
    intro k h
    have h0 : j.update E (draws k) = ok j' := h 0 (by omega)
    rw [List.replicate_succ, updateJobs, h0, ok_bind, ih (k + 1) (fun i hi => by
      have := h (i + 1) (by omega)
      rwa [show k + (i + 1) = k + 1 + i by omega] at this), ok_bind]
    rfl

/-- Bounds for random numbers: with all numbers within them the optimizer ends with a best schedule. Only the numbers of the first `R` rounds matter. -/
theorem best_draws_within {threads : Nat} {o : Optimizer K} (ho : ValidOptions E opts) (hn : Optimizer.new E opts threads = ok o)
    (hidle : opts.params.taskCount * (opts.params.taskCount + 3) / 2 ≤ opts.maxIdleIters) {b : Nat} (hb : opts.params.taskCount ≤ b)
    (ha : ∀ t < opts.params.taskCount, (opts.params.avail t).length ≤ b) :
    ∃ (R : Nat) (f : Nat → Draws K), (∀ i, ((f i).swap < b ∧ (f i).task < b ∧ (f i).agent < b) ∧ ∃ x, (f i).u = min 1 (E.exp x)) ∧
      ∀ draws : Nat → Nat → Nat → Draws K,
        (∀ r < R, ∀ k < threads, ∀ i < opts.batchSize, Draws.Within (f (r * opts.batchSize + i)) (draws r k i)) →
        ∀ n o', o.rounds E draws n = ok o' → o'.hasConverged = true →
          ∃ s v, o'.schedule = ok s ∧ o'.normalizedMakespan = ok v ∧ ValidSchedule opts.params s ∧
            v = valueOf E opts.params s ∧ ∀ t, ValidSchedule opts.params t → v ≤ valueOf E opts.params t := by
  classical
  have hw := ho.wellFormed
  obtain ⟨j, hj, hjn, hjobs, hidle0⟩ := new_jobs ho hn
  obtain ⟨ms₀, hi⟩ := OptimizerRun.inv ho (.new hn)
  obtain ⟨s₀, hs₀, hv₀⟩ := initialSchedule_ok hw
  obtain ⟨best, hbest, hmin⟩ := best_exists (E := E) hw
  obtain ⟨ds₀, d1, d2, d3⟩ := away_aux hw best [] s₀ hv₀ hbest
  obtain ⟨ds, e1, e2, e3, e4⟩ := Leads.small hw hb ha (by simpa using d3 : Leads opts.params s₀ ds₀ best) hv₀
  rw [hbest.length] at d1
  have e2 := e2 d2
  let g : Nat → Draws K := fun i => ds.getD i ⟨0, 0, 0, 0⟩
  have hg0 : ∀ i, (g i).u = 0 := by
    intro i
    simp only [g, List.getD_eq_getElem?_getD]
    cases h : ds[i]? with
    | none => rfl
    | some d => exact e2 d (List.mem_of_getElem? h)
  have hgb : ∀ i, (g i).swap < b ∧ (g i).task < b ∧ (g i).agent < b := by
    intro i
    simp only [g, List.getD_eq_getElem?_getD]
    cases h : ds[i]? with
    | none => have := hw.tasks_pos; exact ⟨by dsimp; omega, by dsimp; omega, by dsimp; omega⟩
    | some d => exact e3 d (List.mem_of_getElem? h)
  -- the states of a job on the way
  have hst : ∀ i, ∃ j', j.steps E ((List.range i).map g) = ok j' ∧ JobInv E opts j' := fun i => by
    obtain ⟨j', h1, h2, _⟩ := Job.steps_ok ho ((List.range i).map g) hj
    exact ⟨j', h1, h2⟩
  choose st hst hinv using hst
  have hstep : ∀ i, (st i).step E (g i) = ok (st (i + 1)) := by
    intro i
    have h := hst (i + 1)
    rw [List.range_succ, List.map_append, Job.steps_append, hst i, ok_bind] at h
    simp only [List.map_cons, List.map_nil, Job.steps] at h
    obtain ⟨j', h1, h2⟩ := bind_eq_ok.1 h
    cases h2
    exact h1
  choose x hx using fun i => Job.step_within (hstep i) (hg0 i)
  have hbatch : ∀ (a n : Nat) (d : Nat → Draws K), (∀ i < n, Draws.Within { g (a + i) with u := min 1 (E.exp (x (a + i))) } (d i)) →
      (st a).steps E ((List.range n).map d) = ok (st (a + n)) := by
    intro a n d
    induction n with
    | zero => intro _; rfl
    | succ n ih =>
      intro hd
      rw [List.range_succ, List.map_append, Job.steps_append, ih (fun i hi => hd i (by omega)), ok_bind]
      simp only [List.map_cons, List.map_nil, Job.steps]
      rw [hx (a + n) (d n) (hd n (by omega))]
      rfl
  have hlow : (st ds.length).stun.lowestE ≤ valueOf E opts.params best := by
    obtain ⟨j₁, k1, k2, k3⟩ := Job.steps_lead ho e4 e2 hj (Job.new_current ho hjn hs₀) (hj.bound s₀ hs₀)
    have hds : (List.range ds.length).map g = ds := by
      apply List.ext_getElem
      · simp
      · intro i h _
        have hi : i < ds.length := by simpa using h
        simp [g, List.getElem?_eq_getElem hi]
    have := hst ds.length
    rw [hds, k1] at this
    cases this
    exact k3
  have hlow' : ∀ n, ds.length ≤ n → (st n).stun.lowestE ≤ valueOf E opts.params best := by
    intro n hn
    obtain ⟨k, rfl⟩ := Nat.exists_eq_add_of_le hn
    have h := hst (ds.length + k)
    rw [range_map_append, Job.steps_append, hst ds.length, ok_bind] at h
    obtain ⟨j₂, k1, _, k3⟩ := Job.steps_ok ho ((List.range k).map fun i => g (ds.length + i)) (hinv ds.length)
    rw [h] at k1
    cases k1
    exact k3.trans hlow
  have hbp := ho.batch_pos
  let R := (ds.length + opts.batchSize - 1) / opts.batchSize
  have hR : ds.length ≤ R * opts.batchSize := by
    have h1 : opts.batchSize * R + (ds.length + opts.batchSize - 1) % opts.batchSize = ds.length + opts.batchSize - 1 := Nat.div_add_mod _ _
    have h2 := Nat.mod_lt (ds.length + opts.batchSize - 1) hbp
    rw [Nat.mul_comm]
    omega
  have hR' : R * opts.batchSize < ds.length + opts.batchSize := by
    have h1 : opts.batchSize * R + (ds.length + opts.batchSize - 1) % opts.batchSize = ds.length + opts.batchSize - 1 := Nat.div_add_mod _ _
    rw [Nat.mul_comm]
    omega
  refine ⟨R, fun i => { g i with u := min 1 (E.exp (x i)) }, fun i => ⟨hgb i, x i, rfl⟩, ?_⟩
  intro draws hd
  have hrun : ∀ n, ∃ o' ms v, o.rounds E draws n = ok o' ∧ OptInv E opts threads ms o' v ∧ o'.idleIters ≤ n * opts.batchSize ∧
      (n ≤ R → o'.jobs = List.replicate threads (st (n * opts.batchSize))) ∧ (R ≤ n → v ≤ valueOf E opts.params best) := by
    intro n
    have hval : ∀ {n : Nat} {o' : Optimizer K} {ms : List K} {v : K}, OptInv E opts threads ms o' v → R ≤ n →
        o'.jobs = List.replicate threads (st (n * opts.batchSize)) → v ≤ valueOf E opts.params best := by
      intro n o' ms v h hn h3
      have hv := (h.jobs _ (by rw [h3]; exact List.mem_replicate.2 ⟨by have := h.threads_pos; omega, rfl⟩)).2
      rw [← hv]
      exact hlow' _ (hR.trans (Nat.mul_le_mul_right _ hn))
    induction n with
    | zero =>
      have h0 : o.jobs = List.replicate threads (st (0 * opts.batchSize)) := by
        have := hst 0
        simp only [List.range_zero, List.map_nil, Job.steps] at this
        cases this
        rw [Nat.zero_mul]
        exact hjobs
      exact ⟨o, _, _, rfl, hi, by omega, fun _ => h0, fun h => hval hi h h0⟩
    | succ n ih =>
      obtain ⟨o₁, ms, v, h1, h2, h3, h4, h5⟩ := ih
      obtain ⟨o', v', _, g1, g2, g3, _⟩ := Optimizer.update_ok ho h2 (draws n)
      obtain ⟨jobs, e1, e2, e3⟩ := update_fields g1
      have hjobs' : n + 1 ≤ R → o'.jobs = List.replicate threads (st ((n + 1) * opts.batchSize)) := by
        intro hn
        rw [h4 (by omega), updateJobs_all (j' := st ((n + 1) * opts.batchSize)) threads 0 (fun k hk => ?_)] at e1
        · cases e1
          rw [replicateBestJob_same ho (hinv _) hi.threads_pos] at e2
          exact ((Outcome.ok.injEq ..).mp e2).symm
        · obtain ⟨j', k1, _⟩ := Job.update_ok ho (hinv (n * opts.batchSize)) (draws n (0 + k))
          have k1' := k1
          unfold Job.update at k1
          rw [(hinv (n * opts.batchSize)).batch] at k1
          obtain ⟨_, _, k1⟩ := bind_eq_ok.1 k1
          rw [hbatch _ _ _ (fun i hi => by rw [Nat.zero_add]; exact hd n (by omega) k hk i hi)] at k1
          rw [k1', ← k1, Nat.succ_mul]
      refine ⟨o', _, v', by rw [Optimizer.rounds, h1, ok_bind, g1], g2, ?_, hjobs', fun hn => ?_⟩
      · rw [h2.batch] at e3
        rw [Nat.succ_mul]
        omega
      · by_cases h : n + 1 ≤ R
        · exact hval g2 hn (hjobs' h)
        · exact g3.trans (h5 (by omega))
  intro n o' hr hc
  obtain ⟨o₁, ms, v, h1, h2, h3, h4, h5⟩ := hrun n
  rw [hr] at h1
  cases h1
  obtain ⟨s, g1, g2, g3⟩ := h2.schedule_eq ho
  refine ⟨s, v, g1, h2.makespan_eq ho, g2, g3, fun t ht => le_trans (h5 ?_) (hmin t ht)⟩
  have hc' : o'.maxIdleIters ≤ o'.idleIters := of_decide_eq_true hc
  rw [h2.maxIdle] at hc'
  by_contra hlt
  have : (n + 1) * opts.batchSize ≤ R * opts.batchSize := Nat.mul_le_mul_right _ (by omega)
  rw [Nat.succ_mul] at this
  omega

end Angonoka
