import Verif.Proof.Termination
import Verif.Proof.Mutator
import Mathlib.Data.Finset.Max

/-!
# Random numbers that lead to a best schedule

How many mutations lead from one valid schedule to another, and what the optimizer does with random numbers
that make it accept every one of them.
-/

set_option linter.unusedSectionVars false

namespace Angonoka
open Outcome Stun

variable {K : Type} [Field K] [LinearOrder K] [IsStrictOrderedRing K]

/-! ### Paths of mutations -/

/-- The mutations with the given random numbers lead from one schedule to the other. -/
inductive Leads (p : ScheduleParams K) : List Item → List (Draws K) → List Item → Prop
  | nil {s} : Leads p s [] s
  | cons {s d u ds t} (h : mutate p d s = ok u) (r : Leads p u ds t) : Leads p s (d :: ds) t

theorem Leads.trans {p : ScheduleParams K} {s u t : List Item} {ds es : List (Draws K)}
    (h : Leads p s ds u) (g : Leads p u es t) : Leads p s (ds ++ es) t := by
  induction h with
  | nil => exact g
  | cons h _ ih => exact .cons h (ih g)

/-- At most `k` mutations, all with the random number 0 for the acceptance. -/
def Away (p : ScheduleParams K) (k : Nat) (s t : List Item) : Prop :=
  ∃ ds : List (Draws K), ds.length ≤ k ∧ (∀ d ∈ ds, d.u = 0) ∧ Leads p s ds t

theorem Away.refl {p : ScheduleParams K} {k : Nat} {s : List Item} : Away p k s s :=
  ⟨[], by simp, by simp, .nil⟩

theorem MutStep.away {p : ScheduleParams K} {s t : List Item} (h : MutStep p s t) : Away p 1 s t := by
  obtain ⟨d, hd⟩ := h
  exact ⟨[{ d with u := 0 }], by simp, by simp, .cons hd .nil⟩

theorem Away.trans {p : ScheduleParams K} {k l : Nat} {s u t : List Item} (h : Away p k s u)
    (g : Away p l u t) : Away p (k + l) s t := by
  obtain ⟨ds, h1, h2, h3⟩ := h
  obtain ⟨es, g1, g2, g3⟩ := g
  refine ⟨ds ++ es, by simp; omega, ?_, h3.trans g3⟩
  intro d hd
  rcases List.mem_append.1 hd with h | h
  · exact h2 d h
  · exact g2 d h

theorem Away.mono {p : ScheduleParams K} {k l : Nat} {s t : List Item} (h : Away p k s t) (hkl : k ≤ l) :
    Away p l s t := by
  obtain ⟨ds, h1, h2, h3⟩ := h
  exact ⟨ds, h1.trans hkl, h2, h3⟩

theorem Away.valid {p : ScheduleParams K} (hw : WellFormed p) {k : Nat} {s t : List Item} (h : Away p k s t)
    (hs : ValidSchedule p s) : ValidSchedule p t := by
  obtain ⟨ds, h1, h2, h⟩ := h
  clear h1 h2
  induction h with
  | nil => exact hs
  | cons h _ ih => exact ih (MutStep.valid hw ⟨_, h⟩ hs)

/-- A change of one agent, in at most two mutations. -/
theorem away_agent {p : ScheduleParams K} (hw : WellFormed p) {pre post : List Item} {it : Item}
    (hs : ValidSchedule p (pre ++ it :: post)) {g : Nat} (hg : g ∈ p.avail it.task) :
    Away p 2 (pre ++ it :: post) (pre ++ { it with agent := g } :: post) := by
  rcases Nat.lt_or_ge (pre ++ it :: post).length 2 with h2 | h2
  · -- a single task
    have hpre : pre = [] := List.length_eq_zero_iff.1 (by simp at h2; omega)
    have hpost : post = [] := List.length_eq_zero_iff.1 (by simp at h2; omega)
    subst hpre hpost
    obtain ⟨k, hk, hkg⟩ := List.getElem_of_mem hg
    refine (MutStep.away ⟨⟨0, 0, k, 0⟩, ?_⟩).mono (by omega)
    unfold mutate
    have h1 : trySwap p 0 ([] ++ [it]) = ok ([] ++ [it]) := by
      simp [trySwap, expects]
    rw [expects_true (by simp), ok_bind, h1, ok_bind]
    apply updateAgent_at hw hs (by simp)
    dsimp only
    rw [Nat.mod_eq_of_lt hk, List.getElem?_eq_getElem hk, hkg]
  · -- the first two tasks
    obtain ⟨x, y, l, hl⟩ : ∃ x y l, pre ++ it :: post = x :: y :: l := by
      match h : pre ++ it :: post, h2 with
      | x :: y :: l, _ => exact ⟨x, y, l, rfl⟩
    by_cases hxy : x.task ∈ p.deps y.task
    · -- no swap happens
      obtain ⟨k, hk, hkg⟩ := List.getElem_of_mem hg
      refine (MutStep.away ⟨⟨0, pre.length, k, 0⟩, ?_⟩).mono (by omega)
      have hs' := hs
      rw [hl, ← List.nil_append (x :: y :: l)] at hs'
      unfold mutate
      have h1 : trySwap p 0 (pre ++ it :: post) = ok (pre ++ it :: post) := by
        rw [hl]
        have := trySwap_at hw hs' (raw := 0) (by simp)
        rw [if_pos hxy] at this
        exact this
      rw [expects_true (by simp), ok_bind, h1, ok_bind]
      apply updateAgent_at hw hs (Nat.mod_eq_of_lt (by omega))
      dsimp only
      rw [Nat.mod_eq_of_lt hk, List.getElem?_eq_getElem hk, hkg]
    · -- swap, then swap back and change the agent
      have hs' := hs
      rw [hl, ← List.nil_append (x :: y :: l)] at hs'
      have hyx : y.task ∉ p.deps x.task := by
        intro h
        have := hs'.ordered [] x (y :: l) rfl _ h
        simp at this
      have step1 := mutate_pure_swap hw hs' hxy
      have step2 := mutate_swap hw (hs'.swap hxy) hyx (pre' := pre) (it := it) (post' := post)
        (by rw [hl]; rfl) hg
      rw [hl]
      exact step1.away.trans step2.away

/-- Moving an item to the left past items it does not need. -/
theorem away_move {p : ScheduleParams K} (hw : WellFormed p) {c u v : List Item} {y : Item}
    (hs : ValidSchedule p (c ++ (u ++ y :: v))) (hu : ∀ z ∈ u, z.task ∉ p.deps y.task) :
    Away p u.length (c ++ (u ++ y :: v)) (c ++ (y :: (u ++ v))) := by
  induction u using List.reverseRecOn generalizing v with
  | nil => exact .refl
  | append_singleton u z ih =>
    have h1 : c ++ (u ++ [z] ++ y :: v) = (c ++ u) ++ z :: y :: v := by simp
    have hz := hu z (by simp)
    rw [h1] at hs ⊢
    have step := mutate_pure_swap hw hs hz
    have hs' := hs.swap hz
    have h2 : (c ++ u) ++ y :: z :: v = c ++ (u ++ y :: (z :: v)) := by simp
    rw [h2] at hs' step
    have h3 := step.away.trans (ih hs' (fun x hx => hu x (by simp [hx])))
    rw [show (u ++ [z]).length = 1 + u.length by simp; omega]
    simpa using h3

theorem away_aux {p : ScheduleParams K} (hw : WellFormed p) (t : List Item) :
    ∀ (c s : List Item), ValidSchedule p (c ++ s) → ValidSchedule p (c ++ t) →
      Away p (t.length * (t.length + 3) / 2) (c ++ s) (c ++ t) := by
  induction t with
  | nil =>
    intro c s hs ht
    have h1 := hs.length
    have h2 := ht.length
    have : s = [] := List.length_eq_zero_iff.1 (by simp at h1 h2; omega)
    rw [this]
    exact .refl
  | cons x t ih =>
    intro c s hs ht
    have hlen : s.length = t.length + 1 := by
      have h1 := hs.length
      have h2 := ht.length
      simp at h1 h2
      omega
    -- find the task of `x` in `s`
    have hx : x.task ∈ (c ++ s).map Item.task := by
      have := ht.complete.mem_iff.1 (List.mem_map_of_mem (f := Item.task) (a := x) (by simp))
      exact hs.complete.mem_iff.2 this
    have hnot : x.task ∉ c.map Item.task := by
      have := ht.nodup
      rw [List.map_append, List.nodup_append] at this
      intro hmem
      exact this.2.2 _ hmem _ (by simp) rfl
    rw [List.map_append, List.mem_append] at hx
    obtain ⟨y, hy, hyx⟩ := List.mem_map.1 (hx.resolve_left hnot)
    obtain ⟨u, v, rfl⟩ := List.append_of_mem hy
    have hdeps : ∀ z ∈ u, z.task ∉ p.deps y.task := by
      intro z hz hmem
      rw [hyx] at hmem
      have hc := ht.ordered c x t rfl _ hmem
      have := hs.nodup
      rw [List.map_append, List.nodup_append] at this
      exact this.2.2 _ hc _ (List.mem_map_of_mem (f := Item.task) (a := z) (by simp [hz])) rfl
    have step1 := away_move hw hs hdeps
    have hs1 := step1.valid hw hs
    have hg : x.agent ∈ p.avail y.task := by
      rw [hyx]
      exact ht.eligible x (by simp)
    have step2 := away_agent hw hs1 hg
    have hxy : ({ y with agent := x.agent } : Item) = x := by
      cases x
      cases y
      simp_all
    rw [hxy] at step2
    have hs2 := step2.valid hw hs1
    have h3 := ih (c ++ [x]) (u ++ v) (by simpa using hs2) (by simpa using ht)
    have h4 := (step1.trans step2).trans (by simpa using h3 : Away p _ (c ++ x :: (u ++ v)) (c ++ x :: t))
    refine h4.mono ?_
    have hu : u.length ≤ t.length := by simp at hlen; omega
    have e : (x :: t).length * ((x :: t).length + 3) = t.length * (t.length + 3) + 2 * (t.length + 2) := by
      simp only [List.length_cons]
      ring
    rw [e, Nat.add_mul_div_left _ _ (by omega)]
    omega

/-! ### One job -/

section
variable {E : FloatEnv K} {opts : Options K}

theorem performStun_zero {d : Draws K} (hu : d.u = 0) {temp temp' : Temperature K} {t t' : Tunneling K}
    (h : performStun E d temp t = ok (temp', t')) : t'.currentSchedule = t.targetSchedule := by
  unfold performStun at h
  obtain ⟨_, _, h⟩ := bind_eq_ok.1 h
  obtain ⟨_, _, h⟩ := bind_eq_ok.1 h
  obtain ⟨_, _, h⟩ := bind_eq_ok.1 h
  obtain ⟨_, _, h⟩ := bind_eq_ok.1 h
  obtain ⟨_, _, h⟩ := bind_eq_ok.1 h
  obtain ⟨v, _, h⟩ := bind_eq_ok.1 h
  dsimp only at h
  rw [if_pos (by rw [hu]; exact le_min zero_le_one (E.exp_nonneg _))] at h
  obtain ⟨_, _, h⟩ := bind_eq_ok.1 h
  rw [pure_eq, ok_bind] at h
  obtain ⟨_, _, h⟩ := bind_eq_ok.1 h
  obtain ⟨_, _, h⟩ := bind_eq_ok.1 h
  cases h
  rfl

theorem tunnelingUpdate_zero {p : ScheduleParams K} (hw : WellFormed p) {t : Tunneling K} (h : TunnelInv E p t)
    {m m' : Makespan K} (hm : MakespanShape p m) {d : Draws K} (hu : d.u = 0) {temp temp' : Temperature K}
    {t' : Tunneling K} {s : List Item} (hs : mutate p d t.currentSchedule = ok s)
    (hup : tunnelingUpdate E p d m temp t = ok (m', temp', t')) : t'.currentSchedule = s := by
  obtain ⟨m₁, t₁, s', h1, h2, hN⟩ := getNewNeighbor_ok hw h hm d
  have hss : s' = s := by
    have := hN.mutated
    rw [hs] at this
    exact ((Outcome.ok.injEq ..).mp this).symm
  subst hss
  have htv : ValidSchedule p t₁.targetSchedule := by rw [hN.target]; exact hN.valid
  obtain ⟨b, t₂, h3, h4, h5, hgam, h6, h7, h8⟩ := neighborIsBetter_ok (E := E) hw hN.inv htv
    (by rw [hN.target]; exact hN.targetE)
  unfold tunnelingUpdate at hup
  rw [expects_true (by simpa using h.buffer_ne hw), ok_bind,
    expects_true (by simpa using h.curValid.ne_nil hw), ok_bind, h1, ok_bind] at hup
  dsimp only at hup
  rw [h3, ok_bind] at hup
  cases b with
  | true =>
    dsimp only at hup
    rw [if_pos rfl] at hup
    cases hup
    rw [(h7 rfl).1, hN.target]
  | false =>
    obtain ⟨rfl, _⟩ := h6 rfl
    dsimp only at hup
    rw [if_neg (by simp)] at hup
    obtain ⟨⟨_, _⟩, hp, hup⟩ := bind_eq_ok.1 hup
    cases hup
    rw [performStun_zero hu hp, hN.target]

theorem Job.step_zero (ho : ValidOptions E opts) {j : Job K} (h : JobInv E opts j) {d : Draws K} (hu : d.u = 0)
    {s : List Item} (hs : mutate opts.params d j.stun.currentSchedule = ok s) :
    ∃ j', j.step E d = ok j' ∧ JobInv E opts j' ∧ j'.stun.currentSchedule = s ∧
      j'.stun.lowestE ≤ valueOf E opts.params s := by
  obtain ⟨m', temp', t', s', h1, h2, h3, h4⟩ := tunnelingUpdate_ok ho.wellFormed h.inv h.shape h.temp
    ho.beta_small d
  have hss : s' = s := by
    have := h4.mutated
    rw [hs] at this
    exact ((Outcome.ok.injEq ..).mp this).symm
  subst hss
  have hz := tunnelingUpdate_zero ho.wellFormed h.inv h.shape hu hs h1
  unfold Job.step
  rw [h.params, h1, ok_bind]
  have hle : t'.lowestE ≤ j.stun.lowestE := by rw [h4.lowestE]; exact min_le_left _ _
  exact ⟨_, rfl, ⟨h.batch, rfl, h2, h3, h4.inv, fun s hs => hle.trans (h.bound s hs)⟩, hz,
    by rw [h4.lowestE]; exact min_le_right _ _⟩

theorem Job.steps_lead (ho : ValidOptions E opts) {s t : List Item} {ds : List (Draws K)} (hl : Leads opts.params s ds t)
    (hu : ∀ d ∈ ds, d.u = 0) : ∀ {j : Job K}, JobInv E opts j → j.stun.currentSchedule = s →
    j.stun.lowestE ≤ valueOf E opts.params s →
    ∃ j', j.steps E ds = ok j' ∧ JobInv E opts j' ∧ j'.stun.lowestE ≤ valueOf E opts.params t := by
  induction hl with
  | nil => intro j h _ hv; exact ⟨j, rfl, h, hv⟩
  | @cons s d u ds t hm _ ih =>
    intro j h hc _
    obtain ⟨j₁, h1, h2, h3, h4⟩ := Job.step_zero ho h (hu d (by simp)) (by rw [hc]; exact hm)
    obtain ⟨j₂, g1, g2, g3⟩ := ih (fun x hx => hu x (by simp [hx])) h2 h3 h4
    refine ⟨j₂, ?_, g2, g3⟩
    simp only [Job.steps, h1, ok_bind, g1]

theorem Job.steps_append {j : Job K} {a b : List (Draws K)} :
    j.steps E (a ++ b) = (j.steps E a >>= fun j' => j'.steps E b) := by
  induction a generalizing j with
  | nil => rfl
  | cons d a ih =>
    simp only [List.cons_append, Job.steps]
    cases h : j.step E d with
    | ok j' => simp only [ok_bind]; exact ih
    | throws e => rfl
    | ub e => rfl

/-! ### The optimizer with equal jobs -/

theorem updateJobs_same {draws : Nat → Draws K} {j j' : Job K} (h : j.update E draws = ok j') (n : Nat) :
    ∀ k, updateJobs E (fun _ => draws) k (List.replicate n j) = ok (List.replicate n j') := by
  induction n with
  | zero => intro k; rfl
  | succ n ih =>
    intro k
    rw [List.replicate_succ, updateJobs, h, ok_bind, ih, ok_bind]
    rfl

theorem replicateLoop_same {j target : Job K} {v : K} (h : j.normalizedMakespan = ok v) {q : ScheduleParams K} (n : Nat) :
    replicateLoop target v q (List.replicate n j) = ok (List.replicate n j) := by
  induction n with
  | zero => rfl
  | succ n ih =>
    rw [List.replicate_succ, replicateLoop, h, ok_bind, if_pos rfl, ih]
    rfl

theorem minJob_same {j : Job K} {v : K} (h : j.normalizedMakespan = ok v) (n : Nat) :
    minJob j (List.replicate n j) = ok j := by
  induction n with
  | zero => rfl
  | succ n ih =>
    rw [List.replicate_succ, minJob, h, ok_bind, ok_bind, if_neg (lt_irrefl _)]
    exact ih

theorem replicateBestJob_same (ho : ValidOptions E opts) {j : Job K} (h : JobInv E opts j) {n : Nat} (hn : 0 < n) :
    replicateBestJob (List.replicate n j) = ok (List.replicate n j) := by
  obtain ⟨k, rfl⟩ : ∃ k, n = k + 1 := ⟨n - 1, by omega⟩
  obtain ⟨c, c1, c2, c3, _⟩ := Job.copy_ok ho h
  have hm := h.makespan_eq ho
  simp only [replicateBestJob, List.replicate_succ, minJob_same hm, ok_bind, c1, c2.makespan_eq ho, c3]
  exact replicateLoop_same hm (k + 1)

theorem interpolate_fields {o o' : Optimizer K} (h : o.interpolateProgress E = ok o') :
    o'.jobs = o.jobs ∧ o'.idleIters = o.idleIters := by
  unfold Optimizer.interpolateProgress at h
  obtain ⟨_, _, h⟩ := bind_eq_ok.1 h
  cases h
  exact ⟨rfl, rfl⟩

theorem estimate_fields {o o' : Optimizer K} (h : o.estimateProgress E = ok o') :
    o'.jobs = o.jobs ∧ o'.idleIters = 0 := by
  unfold Optimizer.estimateProgress at h
  obtain ⟨_, _, h⟩ := bind_eq_ok.1 h
  obtain ⟨_, _, h⟩ := bind_eq_ok.1 h
  dsimp only at h
  obtain ⟨⟨_, _⟩, _, h⟩ := bind_eq_ok.1 h
  dsimp only at h
  obtain ⟨_, _, h⟩ := bind_eq_ok.1 h
  cases h
  exact ⟨rfl, rfl⟩

theorem update_fields {o o' : Optimizer K} {draws : Nat → Nat → Draws K} (h : o.update E draws = ok o') :
    ∃ jobs, updateJobs E draws 0 o.jobs = ok jobs ∧ replicateBestJob jobs = ok o'.jobs ∧
      o'.idleIters ≤ o.idleIters + o.batchSize := by
  unfold Optimizer.update at h
  obtain ⟨_, _, h⟩ := bind_eq_ok.1 h
  obtain ⟨_, _, h⟩ := bind_eq_ok.1 h
  obtain ⟨jobs, h1, h⟩ := bind_eq_ok.1 h
  obtain ⟨jobs', h2, h⟩ := bind_eq_ok.1 h
  dsimp only at h
  obtain ⟨_, _, h⟩ := bind_eq_ok.1 h
  refine ⟨jobs, h1, ?_⟩
  split at h
  · obtain ⟨g1, g2⟩ := interpolate_fields h
    exact ⟨by rw [h2, g1], g2.le⟩
  · obtain ⟨g1, g2⟩ := estimate_fields h
    exact ⟨by rw [h2, g1], by rw [g2]; omega⟩

/-- Random numbers from one sequence: all jobs use the same ones. -/
def sequence (batch : Nat) (f : Nat → Draws K) : Nat → Nat → Nat → Draws K := fun r _ i => f (r * batch + i)

theorem range_map_append {α : Type} (f : Nat → α) (a b : Nat) :
    (List.range (a + b)).map f = (List.range a).map f ++ (List.range b).map fun i => f (a + i) := by
  rw [List.range_add, List.map_append, List.map_map]
  rfl

theorem rounds_same (ho : ValidOptions E opts) {threads : Nat} (ht : 0 < threads) {j₀ : Job K} (hj : JobInv E opts j₀)
    (f : Nat → Draws K) {o : Optimizer K} (hjobs : o.jobs = List.replicate threads j₀) {v₀ : K} {ms₀ : List K}
    (hi : OptInv E opts threads ms₀ o v₀) (n : Nat) :
    ∃ o' j ms v, o.rounds E (sequence opts.batchSize f) n = ok o' ∧ OptInv E opts threads ms o' v ∧
      o'.jobs = List.replicate threads j ∧ JobInv E opts j ∧
      j₀.steps E ((List.range (n * opts.batchSize)).map f) = ok j ∧
      o'.idleIters ≤ o.idleIters + n * opts.batchSize := by
  induction n with
  | zero => exact ⟨o, j₀, ms₀, v₀, rfl, hi, hjobs, hj, by simp [Job.steps], by omega⟩
  | succ n ih =>
    obtain ⟨o₁, j, ms, v, h1, h2, h3, h4, h5, h6⟩ := ih
    obtain ⟨o', v', _, g1, g2, _⟩ := Optimizer.update_ok ho h2 (sequence opts.batchSize f n)
    obtain ⟨j', k1, k2, _⟩ := Job.update_ok ho h4 (fun i => f (n * opts.batchSize + i))
    obtain ⟨jobs, e1, e2, e3⟩ := update_fields g1
    have e4 := updateJobs_same k1 threads 0
    rw [h3] at e1
    have e5 : jobs = List.replicate threads j' := by
      have : updateJobs E (sequence opts.batchSize f n) 0 (List.replicate threads j)
          = ok (List.replicate threads j') := e4
      rw [e1] at this
      exact (Outcome.ok.injEq ..).mp this
    rw [e5, replicateBestJob_same ho k2 ht] at e2
    refine ⟨o', j', _, v', ?_, g2, ((Outcome.ok.injEq ..).mp e2).symm, k2, ?_, ?_⟩
    · rw [Optimizer.rounds, h1, ok_bind, g1]
    · rw [Nat.succ_mul, range_map_append, Job.steps_append, h5, ok_bind]
      unfold Job.update at k1
      rw [h4.batch] at k1
      obtain ⟨_, _, k1⟩ := bind_eq_ok.1 k1
      exact k1
    · rw [h2.batch] at e3
      rw [Nat.succ_mul]
      omega

theorem mapM_new_same {j : Job K} (h : Job.new E opts = ok j) (n : Nat) :
    (List.replicate n ()).mapM (fun _ => Job.new E opts) = ok (List.replicate n j) := by
  induction n with
  | zero => rfl
  | succ n ih =>
    rw [List.replicate_succ, List.mapM_cons, ih, h]
    rfl

theorem new_jobs {threads : Nat} {o : Optimizer K} (ho : ValidOptions E opts) (h : Optimizer.new E opts threads = ok o) :
    ∃ j, JobInv E opts j ∧ Job.new E opts = ok j ∧ o.jobs = List.replicate threads j ∧ o.idleIters = 0 := by
  obtain ⟨j, h1, h2⟩ := Job.new_ok ho
  unfold Optimizer.new at h
  rw [mapM_new_same h1] at h
  obtain ⟨_, _, h⟩ := bind_eq_ok.1 h
  obtain ⟨_, _, h⟩ := bind_eq_ok.1 h
  rw [ok_bind] at h
  obtain ⟨_, _, h⟩ := bind_eq_ok.1 h
  cases h
  exact ⟨j, h2, h1, rfl, rfl⟩

/-- The current schedule of a new job is the initial one. -/
theorem Job.new_current (ho : ValidOptions E opts) {j : Job K} (h : Job.new E opts = ok j) {s : List Item}
    (hs : initialSchedule opts.params = ok s) : j.stun.currentSchedule = s := by
  obtain ⟨s', hs', hv⟩ := initialSchedule_ok ho.wellFormed
  rw [hs] at hs'
  cases hs'
  simp only [Job.new, bind_eq_ok] at h
  obtain ⟨_, _, _, _, m, hm, _, _, s', hs', ⟨m₁, t₁⟩, h1, _, _, h⟩ := h
  rw [hs] at hs'
  cases hs'
  cases h
  have hm' : MakespanShape opts.params m := (EstimatorFor.new (E := E) hm).shape
  obtain ⟨m', t', g1, _, _, _, h4, _⟩ := tunnelingReset_ok (E := E)
    (t := Tunneling.blank opts.gamma) ho.wellFormed ho.gamma_nonneg hm' hv
  unfold Tunneling.new at h1
  rw [expects_true (by simpa using hv.ne_nil ho.wellFormed), ok_bind, g1] at h1
  cases h1
  exact h4

/-- There is a best schedule. -/
theorem best_exists {p : ScheduleParams K} (hw : WellFormed p) : ∃ b, ValidSchedule p b ∧
    ∀ t, ValidSchedule p t → valueOf E p b ≤ valueOf E p t := by
  classical
  obtain ⟨s₀, _, hv₀⟩ := initialSchedule_ok hw
  let good := (makespans E p).filter fun x => ∃ t, ValidSchedule p t ∧ x = valueOf E p t
  have hne : good.Nonempty :=
    ⟨_, Finset.mem_filter.2 ⟨hv₀.mem_makespans (E := E) hw, s₀, hv₀, rfl⟩⟩
  obtain ⟨b, hb, hbv⟩ := (Finset.mem_filter.1 (good.min'_mem hne)).2
  refine ⟨b, hb, fun t ht => ?_⟩
  rw [← hbv]
  exact Finset.min'_le _ _ (Finset.mem_filter.2 ⟨ht.mem_makespans (E := E) hw, t, ht, rfl⟩)

/-- Random numbers with which the optimizer ends with a best schedule. -/
theorem best_draws {threads : Nat} {o : Optimizer K} (ho : ValidOptions E opts) (hn : Optimizer.new E opts threads = ok o)
    (hidle : opts.params.taskCount * (opts.params.taskCount + 3) / 2 ≤ opts.maxIdleIters) :
    ∃ draws : Nat → Nat → Nat → Draws K, (∀ r k i, (draws r k i).u = 0) ∧
      ∀ n o', o.rounds E draws n = ok o' → o'.hasConverged = true →
        ∃ s v, o'.schedule = ok s ∧ o'.normalizedMakespan = ok v ∧ ValidSchedule opts.params s ∧
          v = valueOf E opts.params s ∧ ∀ t, ValidSchedule opts.params t → v ≤ valueOf E opts.params t := by
  classical
  have hw := ho.wellFormed
  obtain ⟨j, hj, hjn, hjobs, hidle0⟩ := new_jobs ho hn
  obtain ⟨ms₀, hi⟩ := OptimizerRun.inv ho (.new hn)
  obtain ⟨s₀, hs₀, hv₀⟩ := initialSchedule_ok hw
  obtain ⟨best, hbest, hmin⟩ := best_exists (E := E) hw
  obtain ⟨ds, d1, d2, d3⟩ := away_aux hw best [] s₀ hv₀ hbest
  rw [hbest.length] at d1
  let f : Nat → Draws K := fun i => ds.getD i ⟨0, 0, 0, 0⟩
  have hf : ∀ i, (f i).u = 0 := by
    intro i
    simp only [f, List.getD_eq_getElem?_getD]
    cases h : ds[i]? with
    | none => rfl
    | some d => exact d2 d (List.mem_of_getElem? h)
  refine ⟨sequence opts.batchSize f, fun r k i => hf _, ?_⟩
  intro n o' hr hc
  obtain ⟨o₁, j', ms, v, h1, h2, h3, h4, h5, h6⟩ := rounds_same ho hi.threads_pos hj f hjobs hi n
  rw [hr] at h1
  cases h1
  obtain ⟨s, g1, g2, g3⟩ := h2.schedule_eq ho
  refine ⟨s, v, g1, h2.makespan_eq ho, g2, g3, fun t ht => ?_⟩
  refine le_trans ?_ (hmin t ht)
  -- the whole path has been taken
  have hlen : ds.length ≤ n * opts.batchSize := by
    have hc' : o'.maxIdleIters ≤ o'.idleIters := of_decide_eq_true hc
    rw [h2.maxIdle] at hc'
    rw [hidle0] at h6
    omega
  obtain ⟨k, hk⟩ := Nat.exists_eq_add_of_le hlen
  rw [hk, range_map_append] at h5
  have hds : (List.range ds.length).map f = ds := by
    apply List.ext_getElem
    · simp
    · intro i h _
      have hi : i < ds.length := by simpa using h
      simp [f, List.getElem?_eq_getElem hi]
  rw [hds, Job.steps_append] at h5
  obtain ⟨j₁, e1, e2, e3⟩ := Job.steps_lead ho (by simpa using d3 : Leads opts.params s₀ ds best) d2 hj
    (Job.new_current ho hjn hs₀) (hj.bound s₀ hs₀)
  rw [e1, ok_bind] at h5
  obtain ⟨j₂, k1, _, k3⟩ := Job.steps_ok ho ((List.range k).map fun i => f (ds.length + i)) e2
  rw [h5] at k1
  cases k1
  have hv := (h2.jobs j' (by rw [h3]; exact List.mem_replicate.2 ⟨by have := h2.threads_pos; omega, rfl⟩)).2
  rw [← hv]
  exact k3.trans e3

end

end Angonoka
