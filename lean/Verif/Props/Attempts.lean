import Verif.Props.Eventually
import Verif.Props.NearBest

/-!
# How fast patience finds a best schedule

`n (n + 3) / 2 + 1` iterations of a job suffice to get from any schedule of `n` tasks to a best one. So each batch of each job consists of many attempts.
-/

set_option linter.unusedSectionVars false

namespace Angonoka.Props
open Outcome Stun MeasureTheory ProbabilityTheory Adaptive
open scoped ENNReal

variable {K : Type} [_root_.Field K] [LinearOrder K] [IsStrictOrderedRing K]
variable {E : FloatEnv K} {opts : Stun.Options K} {threads : Nat} {o : Optimizer K}

/-- The number of iterations of an attempt, for `n` tasks -/
def attemptLength (n : Nat) : Nat := n * (n + 3) / 2 + 1

/-- From any state of a job there are random numbers for one attempt that lead to a best schedule. -/
theorem job_attempt (ho : ValidOptions E opts) {b : Nat} (hb : opts.params.taskCount ≤ b)
    (ha : ∀ t < opts.params.taskCount, (opts.params.avail t).length ≤ b) :
    ∃ g : Job K → Nat → Draws K, (∀ j i, SmallDraws b (g j i)) ∧ ∀ j, JobInv E opts j → ∀ d : Nat → Draws K,
      (∀ i < attemptLength opts.params.taskCount, d i = g j i) → ∀ j', j.steps E ((List.range (attemptLength opts.params.taskCount)).map d) = ok j' →
        ∀ t, ValidSchedule opts.params t → j'.stun.lowestE ≤ valueOf E opts.params t := by
  classical
  have hw := ho.wellFormed
  have hz : SmallDraws b (⟨0, 0, 0, 0⟩ : Draws K) := by
    have := hw.tasks_pos
    exact ⟨⟨by dsimp; omega, by dsimp; omega, by dsimp; omega⟩, rfl⟩
  obtain ⟨best, hbest, hmin⟩ := best_exists (E := E) hw
  obtain ⟨next, rank, hnext, hc⟩ := compass hw hb ha hbest
  have hstep : ∀ j : Job K, ∃ f : Nat → Draws K, (∀ i, SmallDraws b (f i)) ∧ (JobInv E opts j → ∀ d : Nat → Draws K,
      (∀ i < attemptLength opts.params.taskCount, d i = f i) → ∀ j', j.steps E ((List.range (attemptLength opts.params.taskCount)).map d) = ok j' →
        ∀ t, ValidSchedule opts.params t → j'.stun.lowestE ≤ valueOf E opts.params t) := by
    intro j
    by_cases hj : JobInv E opts j
    · obtain ⟨ds, d1, d2, j₁, d3, d4, d5⟩ := Job.guided ho hnext (fun s hs => (hc s hs).2) (attemptLength opts.params.taskCount) hj
      refine ⟨fun i => ds.getD i ⟨0, 0, 0, 0⟩, fun i => ?_, fun _ d hd j' hj' t ht => ?_⟩
      · dsimp only
        by_cases hi : i < ds.length
        · rw [List.getD_eq_getElem?_getD, List.getElem?_eq_getElem hi]
          exact d2 _ (List.getElem_mem hi)
        · rw [List.getD_eq_getElem?_getD, List.getElem?_eq_none (not_lt.1 hi)]
          exact hz
      · have hds : (List.range (attemptLength opts.params.taskCount)).map d = ds := by
          apply List.ext_getElem
          · simp [d1]
          · intro i h1 h2
            simp only [List.getElem_map, List.getElem_range]
            rw [hd i (d1 ▸ h2)]
            dsimp only
            rw [List.getD_eq_getElem?_getD, List.getElem?_eq_getElem h2]
            rfl
        rw [hds, d3] at hj'
        cases hj'
        rcases d5 with d5 | d5
        · exact d5.trans (hmin t ht)
        · have := (hc _ hj.inv.curValid).1
          unfold attemptLength at d5
          omega
    · exact ⟨fun _ => ⟨0, 0, 0, 0⟩, fun _ => hz, fun h => absurd h hj⟩
  choose g h1 h2 using hstep
  exact ⟨g, h1, h2⟩

theorem updateJobs_getElem {d : Nat → Nat → Draws K} : ∀ {jobs jobs' : List (Job K)} (k : Nat), updateJobs E d k jobs = ok jobs' →
    ∀ (i : Nat) (j : Job K), jobs[i]? = some j → ∃ j', j.update E (d (k + i)) = ok j' ∧ j' ∈ jobs' := by
  intro jobs
  induction jobs with
  | nil => intro jobs' k h i j hj; simp at hj
  | cons x rest ih =>
    intro jobs' k h i j hj
    rw [updateJobs] at h
    obtain ⟨x', h1, h⟩ := bind_eq_ok.1 h
    obtain ⟨rest', h2, h⟩ := bind_eq_ok.1 h
    cases h
    cases i with
    | zero =>
      simp only [List.getElem?_cons_zero, Option.some.injEq] at hj
      subst hj
      exact ⟨x', h1, by simp⟩
    | succ i =>
      obtain ⟨j', g1, g2⟩ := ih (k + 1) h2 i j (by simpa using hj)
      exact ⟨j', by rw [← g1]; congr 2; omega, by simp [g2]⟩

variable {Ω D : Type} [MeasurableSpace Ω] [MeasurableSpace D] [Countable D] [MeasurableSingletonClass D]
variable {P : Measure Ω} [IsProbabilityMeasure P] {b : Nat} {ε : ℝ≥0∞} {draw : D → Draws K} {X : Nat × Nat × Nat → Ω → D}

/-- The random numbers that are drawn before iteration `i` of job `j` in round `r`, if the jobs are run one after the other -/
def drawn (threads batch r j i : Nat) : Finset (Nat × Nat × Nat) :=
  (Finset.range (r + 1) ×ˢ (Finset.range threads ×ˢ Finset.range batch)).filter
    fun c => c.1 < r ∨ (c.1 = r ∧ (c.2.1 < j ∨ (c.2.1 = j ∧ c.2.2 < i)))

/-- The random numbers of `N` iterations of job `j` in round `r`, from `i` on -/
def attempt (N r j i : Nat) : Finset (Nat × Nat × Nat) := {r} ×ˢ ({j} ×ˢ Finset.Ico i (i + N))

theorem mem_drawn {threads batch r j i : Nat} {c : Nat × Nat × Nat} : c ∈ drawn threads batch r j i ↔
    c.2.1 < threads ∧ c.2.2 < batch ∧ (c.1 < r ∨ (c.1 = r ∧ (c.2.1 < j ∨ (c.2.1 = j ∧ c.2.2 < i)))) := by
  simp only [drawn, Finset.mem_filter, Finset.mem_product, Finset.mem_range]
  constructor
  · rintro ⟨⟨_, h1, h2⟩, h3⟩; exact ⟨h1, h2, h3⟩
  · rintro ⟨h1, h2, h3⟩; exact ⟨⟨by omega, h1, h2⟩, h3⟩

theorem mem_attempt {N r j i : Nat} {c : Nat × Nat × Nat} : c ∈ attempt N r j i ↔ c.1 = r ∧ c.2.1 = j ∧ i ≤ c.2.2 ∧ c.2.2 < i + N := by
  simp only [attempt, Finset.mem_product, Finset.mem_singleton, Finset.mem_Ico]

/-- The probability that no attempt of all jobs in `k` rounds has led to a best schedule. -/
theorem missed_attempts (ho : ValidOptions E opts) (hn : Optimizer.new E opts threads = ok o) (hb : opts.params.taskCount ≤ b)
    (ha : ∀ t < opts.params.taskCount, (opts.params.avail t).length ≤ b) (hX : Generator P b ε draw X) (k : Nat) :
    P {ω | Missed E opts.params o (numbers draw X ω) k} ≤
      (1 - ε ^ attemptLength opts.params.taskCount) ^ (k * threads * (opts.batchSize / attemptLength opts.params.taskCount)) := by
  classical
  obtain ⟨v, hi⟩ := OptimizerRun.inv ho (.new hn)
  obtain ⟨g, hg, hguide⟩ := job_attempt ho hb ha
  generalize hN : attemptLength opts.params.taskCount = N at *
  have hNpos : 0 < N := by rw [← hN]; exact Nat.succ_pos _
  generalize hq : opts.batchSize / N = q
  have hqN : q * N ≤ opts.batchSize := by rw [← hq]; exact Nat.div_mul_le_self _ _
  have hfit : ∀ {a : Nat}, a < q → a * N + N ≤ opts.batchSize := fun {a} h => by
    have := Nat.mul_le_mul_right N (Nat.succ_le_of_lt h)
    rw [Nat.succ_mul] at this
    omega
  let S : Nat → Nat → Nat → Finset (Nat × Nat × Nat) := drawn threads opts.batchSize
  let state : Nat → Ω → Outcome (Optimizer K) := fun r ω => o.rounds E (numbers draw X ω) r
  -- the state of a job within a round
  let job : Nat → Nat → Nat → Ω → Outcome (Job K) := fun r j i ω => do
    let o' ← state r ω
    let x ← at? o'.jobs j ""
    x.steps E ((List.range i).map (numbers draw X ω r j))
  have hjob : ∀ r j i ω ω', j < threads → i ≤ opts.batchSize → (∀ c ∈ S r j i, X c ω = X c ω') → job r j i ω = job r j i ω' := by
    intro r j i ω ω' hj hib h
    have h1 : state r ω = state r ω' := by
      refine hi.rounds_congr ho fun r' hr' k' hk' i' hi' => ?_
      simp only [numbers]
      rw [h (r', k', i') (mem_drawn.2 ⟨hk', hi', Or.inl hr'⟩)]
    have h2 : (List.range i).map (numbers draw X ω r j) = (List.range i).map (numbers draw X ω' r j) := by
      refine List.map_congr_left fun i' hi' => ?_
      have := List.mem_range.1 hi'
      simp only [numbers]
      rw [h (r, j, i') (mem_drawn.2 ⟨hj, by dsimp; omega, Or.inr ⟨rfl, Or.inr ⟨rfl, this⟩⟩⟩)]
    simp only [job, h1, h2]
  let target : Nat → Nat → Nat → Ω → Nat × Nat × Nat → Draws K := fun r j i ω c => match job r j i ω with
    | ok x => g x (c.2.2 - i)
    | _ => ⟨0, 0, 0, 0⟩
  let aim : Nat → Nat → Nat → Ω → Nat × Nat × Nat → Set D := fun r j i ω c => {x | draw x = target r j i ω c}
  have haim : ∀ r j i ω ω', j < threads → i ≤ opts.batchSize → (∀ c ∈ S r j i, X c ω = X c ω') → aim r j i ω = aim r j i ω' := by
    intro r j i ω ω' hj hib h
    simp only [aim, target, hjob r j i ω ω' hj hib h]
  have hsmall : ∀ r j i ω c, ε ≤ P (X c ⁻¹' aim r j i ω c) := by
    intro r j i ω c
    have hs : SmallDraws b (target r j i ω c) := by
      simp only [target]
      split
      · exact hg _ _
      · have := ho.wellFormed.tasks_pos
        exact ⟨⟨by dsimp; omega, by dsimp; omega, by dsimp; omega⟩, rfl⟩
    obtain ⟨⟨h1, h2, h3⟩, h4⟩ := hs
    have h := hX.possible c _ _ _ h1 h2 h3
    have he : target r j i ω c = ⟨(target r j i ω c).swap, (target r j i ω c).task, (target r j i ω c).agent, 0⟩ := by
      rw [← h4]
    rw [← he] at h
    exact h
  let Hit : Nat → Nat → Nat → Set Ω := fun r j a => {ω | ∀ c ∈ attempt N r j (a * N), X c ω ∈ aim r j (a * N) ω c}
  -- no attempt so far
  let None : Nat → Nat → Nat → Set Ω := fun r j a => {ω | ∀ r' j' a', j' < threads → a' < q →
    (r' < r ∨ (r' = r ∧ (j' < j ∨ (j' = j ∧ a' < a)))) → ω ∉ Hit r' j' a'}
  have hnone : ∀ r j a, j < threads → a < q → Determined X (S r j (a * N)) (None r j a) := by
    intro r j a hj ha' ω ω' h hm r' j' a' hj' haq hlt hhit
    have hle : a' * N + N ≤ opts.batchSize := hfit haq
    have hsub : ∀ c, c ∈ S r' j' (a' * N) ∨ c ∈ attempt N r' j' (a' * N) → X c ω = X c ω' := by
      intro c hc
      refine h c ?_
      rcases hc with hc | hc
      · obtain ⟨c1, c2, c3⟩ := mem_drawn.1 hc
        refine mem_drawn.2 ⟨c1, c2, ?_⟩
        rcases hlt with hlt | ⟨rfl, hlt | ⟨rfl, hlt⟩⟩
        · omega
        · omega
        · have := Nat.mul_le_mul_right N hlt.le
          omega
      · obtain ⟨c1, c2, c3, c4⟩ := mem_attempt.1 hc
        refine mem_drawn.2 ⟨by omega, by omega, ?_⟩
        rcases hlt with hlt | ⟨rfl, hlt | ⟨rfl, hlt⟩⟩
        · omega
        · omega
        · have := Nat.mul_le_mul_right N (Nat.succ_le_of_lt hlt)
          rw [Nat.succ_mul] at this
          omega
    refine hm r' j' a' hj' haq hlt fun c hc => ?_
    rw [hsub c (Or.inr hc), haim r' j' (a' * N) ω ω' hj' (by omega) fun c hc => hsub c (Or.inl hc)]
    exact hhit c hc
  have hstep : ∀ r j a, j < threads → a < q → P (None r j (a + 1)) ≤ (1 - ε ^ N) * P (None r j a) := by
    intro r j a hj ha'
    have hle : a * N + N ≤ opts.batchSize := hfit ha'
    have hdis : Disjoint (S r j (a * N)) (attempt N r j (a * N)) := by
      refine Finset.disjoint_left.2 fun c hc hc' => ?_
      obtain ⟨_, _, h3⟩ := mem_drawn.1 hc
      obtain ⟨k1, k2, k3, _⟩ := mem_attempt.1 hc'
      omega
    have hcard : (attempt N r j (a * N)).card = N := by simp [attempt]
    have h1 := hit hX.measurable hX.independent hdis (hnone r j a hj ha') (aim r j (a * N))
      (fun ω ω' h => haim r j (a * N) ω ω' hj (by omega) h) (fun ω c _ => hsmall r j (a * N) ω c)
    rw [hcard] at h1
    have hmeas : MeasurableSet (None r j a ∩ Hit r j a) := by
      refine Determined.measurable (S := S r j (a * N) ∪ attempt N r j (a * N)) hX.measurable fun ω ω' h hm => ⟨?_, fun c hc => ?_⟩
      · exact hnone r j a hj ha' ω ω' (fun c hc => h c (Finset.mem_union_left _ hc)) hm.1
      · rw [← h c (Finset.mem_union_right _ hc), ← haim r j (a * N) ω ω' hj (by omega) fun c hc => h c (Finset.mem_union_left _ hc)]
        exact hm.2 c hc
    have hsub : None r j (a + 1) ⊆ None r j a \ (None r j a ∩ Hit r j a) := by
      intro ω hω
      refine ⟨fun r' j' a' h1 h2 h3 => hω r' j' a' h1 h2 (by omega), fun h => ?_⟩
      exact hω r j a hj ha' (by omega) h.2
    refine (measure_mono hsub).trans ?_
    rw [measure_sdiff Set.inter_subset_left hmeas.nullMeasurableSet (measure_ne_top _ _)]
    refine (tsub_le_tsub_left h1 _).trans (le_of_eq ?_)
    rw [ENNReal.sub_mul (fun _ _ => measure_ne_top _ _), one_mul]
  generalize hx : 1 - ε ^ N = x at hstep ⊢
  have hbatch : ∀ r j a, j < threads → a ≤ q → P (None r j a) ≤ x ^ a * P (None r j 0) := by
    intro r j a hj
    induction a with
    | zero => intro _; simp
    | succ a ih =>
      intro ha'
      refine (hstep r j a hj (by omega)).trans ?_
      rw [pow_succ', mul_assoc]
      exact mul_le_mul_right (ih (by omega)) _
  have hround : ∀ r j, j ≤ threads → P (None r j 0) ≤ x ^ (j * q) * P (None r 0 0) := by
    intro r j
    induction j with
    | zero => intro _; simp
    | succ j ih =>
      intro hj
      have hsub : None r (j + 1) 0 ⊆ None r j q := fun ω hω r' j' a' h1 h2 h3 => hω r' j' a' h1 h2 (by omega)
      refine (measure_mono hsub).trans ((hbatch r j q (by omega) le_rfl).trans ?_)
      rw [Nat.succ_mul, Nat.add_comm, pow_add, mul_assoc]
      exact mul_le_mul_right (ih (by omega)) _
  have hall : ∀ r, P (None r 0 0) ≤ x ^ (r * (threads * q)) := by
    intro r
    induction r with
    | zero => simpa using prob_le_one
    | succ r ih =>
      have hsub : None (r + 1) 0 0 ⊆ None r threads 0 := fun ω hω r' j' a' h1 h2 h3 => hω r' j' a' h1 h2 (by omega)
      refine (measure_mono hsub).trans ((hround r threads le_rfl).trans ?_)
      rw [Nat.succ_mul, Nat.add_comm, pow_add]
      exact mul_le_mul_right ih _
  rw [Nat.mul_assoc]
  refine (measure_mono ?_).trans (hall k)
  -- an attempt that hits ends the search
  rintro ω ⟨o', w, t, m1, m2, m3, m4⟩ r j a hj haq hlt hhit
  have hr : r + 1 ≤ k := by omega
  have hle : a * N + N ≤ opts.batchSize := hfit haq
  obtain ⟨o₁, ms₁, v₁, e1, e2, _⟩ := hi.rounds_ok ho (numbers draw X ω) r
  obtain ⟨o₂, v₂, jobs, f1, f2, _, f4, f5, _, f7⟩ := Optimizer.update_ok ho e2 (numbers draw X ω r)
  have hlen : j < o₁.jobs.length := by rw [e2.len]; exact hj
  have hget := List.getElem?_eq_getElem hlen
  have hinv := (e2.jobs _ (List.getElem_mem hlen)).1
  generalize o₁.jobs[j] = y at hget hinv
  obtain ⟨y', u1, u2⟩ := updateJobs_getElem 0 f4 j y hget
  rw [Nat.zero_add] at u1
  obtain ⟨y₁, s1, s2, _⟩ := Job.steps_ok ho ((List.range (a * N)).map (numbers draw X ω r j)) hinv
  obtain ⟨y₂, s3, s4, _⟩ := Job.steps_ok ho ((List.range N).map fun i => numbers draw X ω r j (a * N + i)) s2
  have hy : job r j (a * N) ω = ok y₁ := by
    simp only [job, state, e1, ok_bind, at?, hget, s1]
  have hbest := hguide y₁ s2 (fun i => numbers draw X ω r j (a * N + i)) (fun i hi' => by
    have h1 : draw (X (r, j, a * N + i) ω) = target r j (a * N) ω (r, j, a * N + i) := hhit (r, j, a * N + i) (mem_attempt.2 ⟨rfl, rfl, by dsimp; omega, by dsimp; omega⟩)
    simp only [target, hy, Nat.add_sub_cancel_left] at h1
    exact h1) y₂ s3 t m3
  have hlow : y'.stun.lowestE ≤ y₂.stun.lowestE := by
    unfold Job.update at u1
    obtain ⟨_, _, u1⟩ := bind_eq_ok.1 u1
    obtain ⟨c, hc⟩ := Nat.exists_eq_add_of_le hle
    rw [hinv.batch, hc, range_map_append, Job.steps_append, range_map_append, Job.steps_append, s1, ok_bind, s3, ok_bind] at u1
    exact Job.steps_lowest u1
  have hv₂ : v₂ ≤ valueOf E opts.params t := ((f7 y' u2).trans hlow).trans hbest
  obtain ⟨d, rfl⟩ := Nat.exists_eq_add_of_le hr
  have hsucc : o.rounds E (numbers draw X ω) (r + 1) = ok o₂ := by rw [Optimizer.rounds, e1, ok_bind, f1]
  exact absurd ((Optimizer.rounds_le hsucc m1 (f2.makespan_eq ho) m2).trans hv₂) (not_le.2 m4)

/-! ### The properties -/

/-- C104. The probability that the optimizer does not find a best schedule decreases exponentially with the number of batches that the limit of idle iterations has room
for, with the number of threads and with the number of attempts in a batch: `n (n + 3) / 2 + 1` iterations are an attempt for `n` tasks. This holds with any arithmetic. -/
theorem patience_pays (ho : ValidOptions E opts) (hn : Optimizer.new E opts threads = ok o) (hb : opts.params.taskCount ≤ b)
    (ha : ∀ t < opts.params.taskCount, (opts.params.avail t).length ≤ b) (hX : Generator P b ε draw X) {k attempts : Nat}
    (hidle : k * opts.batchSize ≤ opts.maxIdleIters)
    (hbatch : attempts * (opts.params.taskCount * (opts.params.taskCount + 3) / 2 + 1) ≤ opts.batchSize) :
    P {ω | ¬ FindsBest E opts.params o (fun r j i => draw (X (r, j, i) ω))} ≤
        (1 - ε ^ (opts.params.taskCount * (opts.params.taskCount + 3) / 2 + 1)) ^ (k * threads * attempts) ∧
      1 - ε ^ (opts.params.taskCount * (opts.params.taskCount + 3) / 2 + 1) < 1 := by
  have hlt : 1 - ε ^ attemptLength opts.params.taskCount < 1 :=
    ENNReal.sub_lt_self ENNReal.one_ne_top one_ne_zero (pow_ne_zero _ hX.positive.ne')
  refine ⟨le_trans (measure_mono fun ω hω => ?_) ((missed_attempts ho hn hb ha hX k).trans ?_), hlt⟩
  · by_contra hm
    exact hω (finds_unless_missed ho hn hm hidle)
  · refine pow_le_pow_right_of_le_one' hlt.le (Nat.mul_le_mul_left _ ?_)
    exact (Nat.le_div_iff_mul_le (Nat.succ_pos _)).2 hbatch

/-- An optimizer that finds a best schedule has it when its loop ends. -/
theorem found_best (ho : ValidOptions E opts) (hn : Optimizer.new E opts threads = ok o) {draws : Nat → Nat → Nat → Draws K}
    (h : FindsBest E opts.params o draws) {n : Nat} {o' : Optimizer K} (h1 : o.rounds E draws n = ok o') (h2 : o'.hasConverged = true) :
    ∃ s v, o'.schedule = ok s ∧ o'.normalizedMakespan = ok v ∧ ValidSchedule opts.params s ∧
      v = valueOf E opts.params s ∧ ∀ t, ValidSchedule opts.params t → v ≤ valueOf E opts.params t := by
  obtain ⟨n', o₂, s, v, f1, f2, f3, f4, f5, f6, f7, f8⟩ := h
  -- the loop ends after that many rounds, and a longer search is no worse
  obtain ⟨v₀, hi⟩ := OptimizerRun.inv ho (.new hn)
  obtain ⟨o₃, ms₃, v₃, e1, e2, _⟩ := hi.rounds_ok ho draws n
  rw [h1] at e1
  cases e1
  obtain ⟨s₃, g1, g2, g3⟩ := e2.schedule_eq ho
  have hle : n' ≤ n := by
    by_contra hlt
    obtain ⟨o₄, k1, k2⟩ := f3 n (by omega)
    rw [h1] at k1
    cases k1
    rw [h2] at k2
    exact Bool.noConfusion k2
  obtain ⟨d, rfl⟩ := Nat.exists_eq_add_of_le hle
  refine ⟨s₃, v₃, g1, e2.makespan_eq ho, g2, g3, fun t ht' => ?_⟩
  exact (Optimizer.rounds_le f1 h1 f5 (e2.makespan_eq ho)).trans (f8 t _ ht' ((isMakespan_iff ho.wellFormed ht').2 rfl))

section
open Cli CommandLine Doc
variable [FloorRing K] {read : ReadReal} {isFile : String → Bool} {terminal : Bool} {a : Arguments} {co : Cli.Options K} {mc : Machine K}
variable {root : Yaml} {p : Project}

/-- C104, from the document to the file. The command `schedule` for exact arithmetic, under the conditions of C74. Let `n` be the number of tasks in the document; let the limit of
idle iterations have room for `k` batches (10 by default), and a batch for a number of attempts of `n (n + 3) / 2 + 1` iterations each (at least one by default). Then the program fails to
write a best timetable with a probability of at most `(1 - ε ^ (n (n + 3) / 2 + 1)) ^ (k * threads * attempts)`. -/
theorem document_patience_pays (hE : E.IsExact) (hsig : SignsAgree read) (hnof : isFile "" = false)
    (h : parse E read isFile terminal .schedule a = .accepted co)
    (hz : ∀ t, a.restartPeriod = some t → ¬ LeadingZero t)
    (hbeta : ∀ t q, a.betaScale = some t → read t = some (.fin q) → ModerateBeta E q)
    (hout : a.output ≠ some "") (hd : mc.source = .doc root) (hl : load mc.readFloat root = ok p)
    (hs : Schedulable mc.readFloat root 1 (2 ^ 31)) (hw : CanWrite mc co) (ht : 0 < mc.threads)
    {n k attempts : Nat} (hn : (tasks root).length = n) (hidle : k * co.opt.batchSize ≤ co.opt.maxIdleIters)
    (hbatch : attempts * (n * (n + 3) / 2 + 1) ≤ co.opt.batchSize) (hX : Generator P 128 ε draw X) :
    P {ω | ¬ WritesBest E mc co root (a.output.getD "schedule.json") (fun r j i => draw (X (r, j, i) ω))} ≤
      (1 - ε ^ (n * (n + 3) / 2 + 1)) ^ (k * mc.threads * attempts) := by
  obtain ⟨hp, hmod⟩ := schedulable_sound hl hs
  have hfl : p.FloatsIn E := fun _ _ _ _ => hE _
  obtain ⟨sp, hsp, hwf⟩ := params_wellFormed (E := E) hp hfl
  obtain ⟨ho, hf', hout'⟩ := accepted_options_partial (Or.inl hE) hsig hnof h hz hbeta hout hwf
  obtain ⟨l1, l2, l3⟩ := search_limits hl hp hsp hwf
  obtain ⟨o₀, _, hnew, _⟩ := Optimizer.new_ok ho ht
  obtain rfl : sp.taskCount = n := by
    rw [(params_faithful hp.agent_groups hp.task_groups hsp).1, (load_faithful hl).2.tasks_length, hn]
  have hb := patience_pays (k := k) ho hnew (b := 128) l1 l3 hX hidle hbatch
  refine le_trans (measure_mono fun ω hω => ?_) hb.1
  intro hfind
  refine hω (document_best_of hE hsig hnof h hz hbeta hout hd hl hs hw ht fun {sp' o₁} hsp' hnew' n o' hn hc => ?_)
  rw [hsp] at hsp'
  cases hsp'
  rw [hnew] at hnew'
  cases hnew'
  exact found_best ho hnew hfind hn hc

/-- C104, from the document to the file in single precision, under the conditions of C75: the program fails to write a timetable that is best up to rounding, see C98, with a
probability of at most `(1 - ε ^ (n (n + 3) / 2 + 1)) ^ (k * threads * attempts)`. -/
theorem float_document_patience_pays (hE : E.IsFloat) (hsig : SignsAgree read) (hnof : isFile "" = false)
    (h : parse E read isFile terminal .schedule a = .accepted co)
    (hz : ∀ t, a.restartPeriod = some t → ¬ LeadingZero t)
    (hbeta : ∀ t q, a.betaScale = some t → read t = some (.fin q) → ModerateBeta E q)
    (hout : a.output ≠ some "") (hd : mc.source = .doc root) (hl : load mc.readFloat root = ok p)
    (hread : ∀ s (q : ℚ), mc.readFloat s = some (.fin q) → E.rnd (q : K) = q)
    (hs : Schedulable mc.readFloat root 2 (2 ^ 30)) (hr : Doc.InRange mc.readFloat root) (hw : CanWrite mc co) (ht : 0 < mc.threads)
    {n k attempts : Nat} (hn : (tasks root).length = n) (hidle : k * co.opt.batchSize ≤ co.opt.maxIdleIters)
    (hbatch : attempts * (n * (n + 3) / 2 + 1) ≤ co.opt.batchSize) (hX : Generator P 128 ε draw X) :
    P {ω | ¬ WritesNearBest E mc co root (a.output.getD "schedule.json") (fun r j i => draw (X (r, j, i) ω))} ≤
      (1 - ε ^ (n * (n + 3) / 2 + 1)) ^ (k * mc.threads * attempts) := by
  obtain ⟨hp, hmod⟩ := schedulable_sound hl hs
  obtain ⟨sp, hsp, hwf⟩ := params_wellFormed (E := E) hp (floatsIn_of_document hl hread)
  obtain ⟨ho, hf', hout'⟩ := accepted_options_partial (Or.inr hE) hsig hnof h hz hbeta hout hwf
  obtain ⟨l1, l2, l3⟩ := search_limits hl hp hsp hwf
  obtain ⟨o₀, _, hnew, _⟩ := Optimizer.new_ok ho ht
  obtain rfl : sp.taskCount = n := by
    rw [(params_faithful hp.agent_groups hp.task_groups hsp).1, (load_faithful hl).2.tasks_length, hn]
  have hb := patience_pays (k := k) ho hnew (b := 128) l1 l3 hX hidle hbatch
  refine le_trans (measure_mono fun ω hω => ?_) hb.1
  intro hfind
  refine hω (document_near_best_of hE hsig hnof h hz hbeta hout hd hl hread hs hr hw ht fun {sp' o₁} hsp' hnew' n o' hn hc => ?_)
  rw [hsp] at hsp'
  cases hsp'
  rw [hnew] at hnew'
  cases hnew'
  exact found_best ho hnew hfind hn hc

end

/-! ### Examples -/

open Cli CommandLine Doc in
/-- The default options, fair dice and the sample document with four tasks: an attempt has 15 iterations, so a batch has 666 attempts, and with four threads and ten batches
there are 26640 of them. -/
example (draws₀ : Nat → Nat → Nat → Draws ℚ) : ∃ o,
    parse FloatEnv.rat exampleRead (fun f => f == "plan.yml") true .schedule { input := "plan.yml" } = .accepted o ∧
    fair {ω | ¬ WritesBest FloatEnv.rat (exampleMachine draws₀) o Sample.plan "schedule.json" (fun r k i => (ω (r, k, i)).draws)} ≤
      (1 - (1 / (128 ^ 3 * 4)) ^ 15) ^ 26640 := by
  have hpar := options_as_given (E := FloatEnv.rat) (isFile := fun f => f == "plan.yml") (terminal := true) (c := .schedule)
    (a := { input := "plan.yml" }) exampleRead_naturals (by decide) (batch := 10000) (idle := 100000) (window := 100) (period := 256)
    (Or.inl ⟨rfl, rfl⟩) (Or.inl ⟨rfl, rfl⟩) (Or.inl ⟨rfl, rfl⟩) (Or.inl ⟨rfl, rfl⟩)
    (Or.inl ⟨rfl, rfl⟩) (Or.inl ⟨rfl, rfl⟩) (Or.inl ⟨rfl, rfl⟩)
  have hall : ∃ o : Cli.Options ℚ, parse FloatEnv.rat exampleRead (fun f => f == "plan.yml") true .schedule { input := "plan.yml" } = .accepted o ∧
      CanWrite (exampleMachine draws₀) o ∧ o.opt.batchSize = 10000 ∧ o.opt.maxIdleIters = 100000 := ⟨_, hpar, example_canWrite, rfl, rfl⟩
  obtain ⟨o, h1, h2, h3, h4⟩ := hall
  refine ⟨o, h1, ?_⟩
  have h := document_patience_pays (mc := exampleMachine draws₀) (k := 10) (n := 4) (attempts := 666) (fun _ => rfl)
    exampleRead_signs (by decide) h1 (by simp) (by simp) (by simp) rfl Sample.plan_loads
    (sound_schedulable Sample.plan_loads plan_sound plan_moderate) h2 (by exact (by decide : 0 < 4))
    ((load_faithful Sample.plan_loads).2.tasks_length.symm.trans rfl)
    (by rw [h3, h4]) (by rw [h3]; norm_num) example_generator
  have ht : (exampleMachine draws₀).threads = 4 := rfl
  rw [ht, show 4 * (4 + 3) / 2 + 1 = 15 by norm_num, show 10 * 4 * 666 = 26640 by norm_num] at h
  exact h

open Cli CommandLine Doc in
/-- The same in single precision -/
example (draws₀ : Nat → Nat → Nat → Draws ℚ) : ∃ o,
    parse ratFloat exampleRead (fun f => f == "plan.yml") true .schedule { input := "plan.yml" } = .accepted o ∧
    fair {ω | ¬ WritesNearBest ratFloat (exampleMachine draws₀) o Sample.plan "schedule.json" (fun r k i => (ω (r, k, i)).draws)} ≤
      (1 - (1 / (128 ^ 3 * 4)) ^ 15) ^ 26640 := by
  have hpar := options_as_given (E := ratFloat) (isFile := fun f => f == "plan.yml") (terminal := true) (c := .schedule)
    (a := { input := "plan.yml" }) exampleRead_naturals (by decide) (batch := 10000) (idle := 100000) (window := 100) (period := 256)
    (Or.inl ⟨rfl, rfl⟩) (Or.inl ⟨rfl, rfl⟩) (Or.inl ⟨rfl, rfl⟩) (Or.inl ⟨rfl, rfl⟩)
    (Or.inl ⟨rfl, rfl⟩) (Or.inl ⟨rfl, rfl⟩) (Or.inl ⟨rfl, rfl⟩)
  have hall : ∃ o : Cli.Options ℚ, parse ratFloat exampleRead (fun f => f == "plan.yml") true .schedule { input := "plan.yml" } = .accepted o ∧
      CanWrite (exampleMachine draws₀) o ∧ o.opt.batchSize = 10000 ∧ o.opt.maxIdleIters = 100000 := ⟨_, hpar, example_canWrite, rfl, rfl⟩
  obtain ⟨o, h1, h2, h3, h4⟩ := hall
  refine ⟨o, h1, ?_⟩
  have h := float_document_patience_pays (mc := exampleMachine draws₀) (k := 10) (n := 4) (attempts := 666) ratFloat_isFloat
    exampleRead_signs (by decide) h1 (by simp) (by simp) (by simp) rfl Sample.plan_loads (sample_reads_floats draws₀)
    plan_schedulable plan_document_inRange h2 (by exact (by decide : 0 < 4))
    ((load_faithful Sample.plan_loads).2.tasks_length.symm.trans rfl)
    (by rw [h3, h4]) (by rw [h3]; norm_num) example_generator
  have ht : (exampleMachine draws₀).threads = 4 := rfl
  rw [ht, show 4 * (4 + 3) / 2 + 1 = 15 by norm_num, show 10 * 4 * 666 = 26640 by norm_num] at h
  exact h

end Angonoka.Props
