import Mathlib.Probability.Independence.InfinitePi
import Verif.Proof.Adaptive
import Verif.Proof.Guide
import Verif.Props.Chance

/-!
# With patience a best schedule is found
-/

set_option linter.unusedSectionVars false

namespace Angonoka.Props
open Outcome Stun MeasureTheory ProbabilityTheory Adaptive
open scoped ENNReal

variable {K : Type} [_root_.Field K] [LinearOrder K] [IsStrictOrderedRing K]
variable {E : FloatEnv K} {opts : Stun.Options K} {threads : Nat} {o : Optimizer K}

/-- A random number generator: `X (r, k, i)` is what it gives iteration `i` of thread `k` in round `r`, and `draw` is what the iteration makes of it. A generator has
countably many outputs (that of the program has finitely many). They are independent, and each combination of integers less than `b` together with the
number 0 from the unit interval has a probability of at least `ε`. -/
structure Generator {Ω D : Type} [MeasurableSpace Ω] [MeasurableSpace D] (P : Measure Ω) (b : Nat) (ε : ℝ≥0∞) (draw : D → Draws K)
    (X : Nat × Nat × Nat → Ω → D) : Prop where
  measurable : ∀ c, Measurable (X c)
  independent : iIndepFun X P
  positive : 0 < ε
  possible : ∀ (c : Nat × Nat × Nat) (swap task agent : Nat), swap < b → task < b → agent < b →
    ε ≤ P {ω | draw (X c ω) = ⟨swap, task, agent, 0⟩}

variable {Ω D : Type} [MeasurableSpace Ω] [MeasurableSpace D] [Countable D] [MeasurableSingletonClass D]
variable {P : Measure Ω} [IsProbabilityMeasure P] {b : Nat} {ε : ℝ≥0∞} {draw : D → Draws K} {X : Nat × Nat × Nat → Ω → D}

/-! ### The proof -/

/-- The random numbers of the rounds before `r` -/
def before (threads batch r : Nat) : Finset (Nat × Nat × Nat) := Finset.range r ×ˢ (Finset.range threads ×ˢ Finset.range batch)

/-- The random numbers of the first job in round `r` -/
def firstJob (batch r : Nat) : Finset (Nat × Nat × Nat) := {r} ×ˢ ({0} ×ˢ Finset.range batch)

theorem before_mono {threads batch r r' : Nat} (h : r ≤ r') : before threads batch r ⊆ before threads batch r' := by
  intro c hc
  simp only [before, Finset.mem_product, Finset.mem_range] at hc ⊢
  exact ⟨hc.1.trans_le h, hc.2⟩

theorem firstJob_before {threads batch r : Nat} (ht : 0 < threads) : firstJob batch r ⊆ before threads batch (r + 1) := by
  intro c hc
  simp only [firstJob, before, Finset.mem_product, Finset.mem_range, Finset.mem_singleton] at hc ⊢
  exact ⟨by omega, by omega, hc.2.2⟩

theorem firstJob_disjoint {threads batch r : Nat} : Disjoint (before threads batch r) (firstJob batch r) := by
  refine Finset.disjoint_left.2 fun c hc hc' => ?_
  simp only [firstJob, before, Finset.mem_product, Finset.mem_range, Finset.mem_singleton] at hc hc'
  omega

theorem firstJob_card {batch r : Nat} : (firstJob batch r).card = batch := by
  simp [firstJob]

/-- The random numbers of the optimizer when the generator is in the state `ω` -/
def numbers (draw : D → Draws K) (X : Nat × Nat × Nat → Ω → D) (ω : Ω) : Nat → Nat → Nat → Draws K := fun r k i => draw (X (r, k, i) ω)

/-- After `n` rounds there is a better schedule than the one found. -/
def Missed (E : FloatEnv K) (p : ScheduleParams K) (o : Optimizer K) (draws : Nat → Nat → Nat → Draws K) (n : Nat) : Prop :=
  ∃ o' w t, o.rounds E draws n = ok o' ∧ o'.normalizedMakespan = ok w ∧ ValidSchedule p t ∧ valueOf E p t < w

theorem missed_bound (ho : ValidOptions E opts) (hn : Optimizer.new E opts threads = ok o) (hb : opts.params.taskCount ≤ b)
    (ha : ∀ t < opts.params.taskCount, (opts.params.avail t).length ≤ b) (hX : Generator P b ε draw X) (n : Nat) :
    P {ω | Missed E opts.params o (numbers draw X ω) (n * guideRounds opts)} ≤ (1 - ε ^ (opts.batchSize * guideRounds opts)) ^ n := by
  classical
  obtain ⟨v, hi⟩ := OptimizerRun.inv ho (.new hn)
  obtain ⟨g, hg, hguide⟩ := guide ho hb ha threads
  have ht := hi.threads_pos
  have hw := ho.wellFormed
  let batch := opts.batchSize
  let m := guideRounds opts
  let state : Nat → Ω → Outcome (Optimizer K) := fun r ω => o.rounds E (numbers draw X ω) r
  have hstate : ∀ r ω ω', (∀ c ∈ before threads batch r, X c ω = X c ω') → state r ω = state r ω' := by
    intro r ω ω' h
    refine hi.rounds_congr ho fun q hq k hk i hi' => ?_
    simp only [numbers]
    rw [h (q, k, i) (by simp [before, hq, hk, batch, hi'])]
  -- what the first job should draw in a round
  let target : Nat → Ω → Nat × Nat × Nat → Draws K := fun r ω c => match state r ω with
    | ok o' => g o' c.2.2
    | _ => ⟨0, 0, 0, 0⟩
  let aim : Nat → Ω → Nat × Nat × Nat → Set D := fun r ω c => {x | draw x = target r ω c}
  have haim : ∀ r ω ω', (∀ c ∈ before threads batch r, X c ω = X c ω') → aim r ω = aim r ω' := by
    intro r ω ω' h
    simp only [aim, target, hstate r ω ω' h]
  have hsmall : ∀ r ω, ∀ c ∈ firstJob batch r, ε ≤ P (X c ⁻¹' aim r ω c) := by
    intro r ω c hc
    simp only [firstJob, Finset.mem_product, Finset.mem_singleton, Finset.mem_range] at hc
    have hs : SmallDraws b (target r ω c) := by
      simp only [target]
      split
      · exact hg _ _ hc.2.2
      · have := hw.tasks_pos
        exact ⟨⟨by dsimp; omega, by dsimp; omega, by dsimp; omega⟩, rfl⟩
    obtain ⟨⟨h1, h2, h3⟩, h4⟩ := hs
    have h := hX.possible c _ _ _ h1 h2 h3
    have he : target r ω c = ⟨(target r ω c).swap, (target r ω c).task, (target r ω c).agent, 0⟩ := by
      rw [← h4]
    rw [← he] at h
    exact h
  let Good : Nat → Set Ω := fun r => {ω | ∀ c ∈ firstJob batch r, X c ω ∈ aim r ω c}
  have hgood : ∀ r, Determined X (before threads batch (r + 1)) (Good r) := by
    intro r ω ω' h hm c hc
    rw [← h c (firstJob_before ht hc), ← haim r ω ω' fun c hc => h c (before_mono (Nat.le_succ r) hc)]
    exact hm c hc
  -- guided rounds in a row
  have hblock : ∀ (q r : Nat) (B : Set Ω), Determined X (before threads batch r) B →
      Determined X (before threads batch (r + q)) (B ∩ {ω | ∀ i < q, ω ∈ Good (r + i)}) ∧
      ε ^ (batch * q) * P B ≤ P (B ∩ {ω | ∀ i < q, ω ∈ Good (r + i)}) := by
    intro q
    induction q with
    | zero => intro r B hB; simpa using hB
    | succ q ih =>
      intro r B hB
      have hset : B ∩ {ω | ∀ i < q + 1, ω ∈ Good (r + i)} = (B ∩ {ω | ∀ i < q, ω ∈ Good (r + i)}) ∩ Good (r + q) := by
        ext ω
        simp only [Set.mem_inter_iff, Set.mem_ofPred_eq]
        constructor
        · exact fun h => ⟨⟨h.1, fun i hi => h.2 i (by omega)⟩, h.2 q (by omega)⟩
        · rintro ⟨⟨h1, h2⟩, h3⟩
          refine ⟨h1, fun i hi => ?_⟩
          rcases Nat.lt_succ_iff_lt_or_eq.1 hi with hlt | rfl
          · exact h2 i hlt
          · exact h3
      obtain ⟨h1, h2⟩ := ih r B hB
      rw [hset]
      refine ⟨(h1.mono (before_mono (by omega))).inter (hgood (r + q)), ?_⟩
      have h3 := hit hX.measurable hX.independent (firstJob_disjoint (threads := threads) (batch := batch) (r := r + q)) h1 (aim (r + q))
        (haim (r + q)) (hsmall (r + q))
      rw [firstJob_card] at h3
      refine le_trans ?_ h3
      rw [Nat.mul_succ, pow_add, mul_comm (ε ^ (batch * q)), mul_assoc]
      exact mul_le_mul_right h2 _
  let Bad : Nat → Set Ω := fun r => {ω | Missed E opts.params o (numbers draw X ω) r}
  have hbad : ∀ r, Determined X (before threads batch r) (Bad r) := by
    rintro r ω ω' h ⟨o', w, t, h1, h2⟩
    refine ⟨o', w, t, ?_, h2⟩
    have := hstate r ω ω' h
    simp only [state] at this
    rw [← this]
    exact h1
  have hstep : ∀ r, Bad (r + m) ⊆ Bad r \ (Bad r ∩ {ω | ∀ i < m, ω ∈ Good (r + i)}) := by
    rintro r ω ⟨o', w, t, h1, h2, h3, h4⟩
    obtain ⟨o₁, ms₁, v₁, e1, e2, _⟩ := hi.rounds_ok ho (numbers draw X ω) r
    have hle : w ≤ v₁ := Optimizer.rounds_le e1 h1 (e2.makespan_eq ho) h2
    refine ⟨⟨o₁, v₁, t, e1, e2.makespan_eq ho, h3, h4.trans_le hle⟩, fun hx => ?_⟩
    have hadd := Optimizer.rounds_add e1
    rw [hadd] at h1
    refine absurd (hguide e2 _ (fun q hq o₂ ho₂ i hi' => ?_) o' h1 w h2 t h3) (not_le.2 h4)
    have h5 := hx.2 q hq (r + q, 0, i) (by simp [firstJob, batch, hi'])
    have h6 : draw (X (r + q, 0, i) ω) = target (r + q) ω (r + q, 0, i) := h5
    have h7 : state (r + q) ω = ok o₂ := (hadd q).trans ho₂
    simp only [target, h7] at h6
    exact h6
  have hmain : ∀ n, P (Bad (n * m)) ≤ (1 - ε ^ (batch * m)) ^ n := by
    intro n
    induction n with
    | zero => simpa using prob_le_one
    | succ n ih =>
      rw [Nat.succ_mul, pow_succ']
      obtain ⟨h1, h2⟩ := hblock m (n * m) _ (hbad (n * m))
      refine (measure_mono (hstep (n * m))).trans ?_
      rw [measure_sdiff Set.inter_subset_left (h1.measurable hX.measurable).nullMeasurableSet (measure_ne_top _ _)]
      refine (tsub_le_tsub_left h2 _).trans ?_
      calc P (Bad (n * m)) - ε ^ (batch * m) * P (Bad (n * m)) = (1 - ε ^ (batch * m)) * P (Bad (n * m)) := by
            rw [ENNReal.sub_mul (fun _ _ => measure_ne_top _ _), one_mul]
        _ ≤ _ := mul_le_mul_right ih _
  exact hmain n

/-- An optimizer that has not missed the best schedule when it may stop finds one. -/
theorem finds_unless_missed (ho : ValidOptions E opts) (hn : Optimizer.new E opts threads = ok o) {draws : Nat → Nat → Nat → Draws K} {n : Nat}
    (hm : ¬ Missed E opts.params o draws n) (hidle : n * opts.batchSize ≤ opts.maxIdleIters) : FindsBest E opts.params o draws := by
  obtain ⟨v, hi⟩ := OptimizerRun.inv ho (.new hn)
  obtain ⟨_, _, _, _, h0⟩ := new_jobs ho hn
  refine finds_best ho hn fun q o' h1 h2 => ?_
  obtain ⟨o₁, ms₁, v₁, e1, e2, _, e4⟩ := hi.rounds_ok ho draws q
  rw [h1] at e1
  cases e1
  have hq : n ≤ q := by
    unfold Optimizer.hasConverged at h2
    have h3 : o'.maxIdleIters ≤ o'.idleIters := of_decide_eq_true h2
    rw [e2.maxIdle] at h3
    have : n * opts.batchSize ≤ q * opts.batchSize := by omega
    exact Nat.le_of_mul_le_mul_right this ho.batch_pos
  obtain ⟨s, g1, g2, g3⟩ := e2.schedule_eq ho
  refine ⟨s, v₁, g1, e2.makespan_eq ho, g2, g3, fun t ht => ?_⟩
  by_contra hlt
  obtain ⟨o₂, ms₂, v₂, f1, f2, _⟩ := hi.rounds_ok ho draws n
  obtain ⟨d, rfl⟩ := Nat.exists_eq_add_of_le hq
  have hle := Optimizer.rounds_le f1 h1 (f2.makespan_eq ho) (e2.makespan_eq ho)
  exact hm ⟨o₂, v₂, t, f1, f2.makespan_eq ho, ht, (not_le.1 hlt).trans_le hle⟩

theorem generator_le_one (hb : 0 < b) (hX : Generator P b ε draw X) : ε ≤ 1 :=
  (hX.possible (0, 0, 0) 0 0 0 hb hb hb).trans prob_le_one

/-! ### The properties -/

/-- C104. With probability one there is a limit of idle iterations such that the optimizer finds a best schedule with this limit and with every higher one, given the same random numbers.
This holds for any batch size, any number of threads and any arithmetic. -/
theorem patience_finds_best (ho : ValidOptions E opts) (ht : 0 < threads) (hb : opts.params.taskCount ≤ b)
    (ha : ∀ t < opts.params.taskCount, (opts.params.avail t).length ≤ b) (hX : Generator P b ε draw X) :
    ∀ᵐ ω ∂P, ∃ limit, ∀ l, limit ≤ l → ∃ o, Optimizer.new E { opts with maxIdleIters := l } threads = ok o ∧
      FindsBest E opts.params o (fun r j i => draw (X (r, j, i) ω)) := by
  obtain ⟨o₀, _, hn, _⟩ := Optimizer.new_ok ho ht
  have hpos : 0 < b := ho.wellFormed.tasks_pos.trans_le hb
  have hlt : 1 - ε ^ (opts.batchSize * guideRounds opts) < 1 :=
    ENNReal.sub_lt_self ENNReal.one_ne_top one_ne_zero (pow_ne_zero _ hX.positive.ne')
  have hzero : P {ω | ∀ n, Missed E opts.params o₀ (numbers draw X ω) n} = 0 := by
    refine le_antisymm (ge_of_tendsto' (ENNReal.tendsto_pow_atTop_nhds_zero_of_lt_one hlt) fun n => ?_) zero_le
    refine le_trans (measure_mono fun ω hω => ?_) (missed_bound ho hn hb ha hX n)
    exact hω (n * guideRounds opts)
  have hae : ∀ᵐ ω ∂P, ¬ ∀ n, Missed E opts.params o₀ (numbers draw X ω) n := by
    rw [ae_iff]
    simpa using hzero
  refine hae.mono fun ω hω => ?_
  obtain ⟨n, hm⟩ := not_forall.1 hω
  refine ⟨n * opts.batchSize + 1, fun l hl => ?_⟩
  have ho' : ValidOptions E { opts with maxIdleIters := l } :=
    ⟨ho.wellFormed, ho.batch_pos, by dsimp only; omega, ho.window_pos, ho.period, ho.beta_pos, ho.beta_small, ho.gamma_nonneg⟩
  obtain ⟨o, _, hn', hi'⟩ := Optimizer.new_ok ho' ht
  refine ⟨o, hn', finds_unless_missed (n := n) ho' hn' (fun hmiss => hm ?_) (by dsimp only; omega)⟩
  obtain ⟨htw, _⟩ := Optimizer.new_twin (opts := opts) (limit := l) hn hn'
  obtain ⟨v₀, hi⟩ := OptimizerRun.inv ho (.new hn)
  obtain ⟨q, w, t, h1, h2, h3, h4⟩ := hmiss
  obtain ⟨q₀, _, _, e1, e2, _⟩ := hi.rounds_ok ho (numbers draw X ω) n
  exact ⟨q₀, w, t, e1, ((htw.rounds e1 h1).makespan).symm.trans h2, h3, h4⟩

/-! ### Examples -/

/-- Fair dice with `128 ^ 3 * 4` outcomes -/
theorem example_generator : Generator fair 128 (1 / (128 ^ 3 * 4)) Dice.draws (fun c ω => ω c) where
  measurable c := measurable_pi_apply c
  independent := iIndepFun_infinitePi (X := fun _ x => x) fun _ => measurable_id
  positive := ENNReal.div_pos one_ne_zero (by finiteness)
  possible c x y z hx hy hz := by
    have hone : {ω : Nat × Nat × Nat → Dice | (ω c).draws = ⟨x, y, z, 0⟩} =
        Set.pi ({c} : Finset (Nat × Nat × Nat)) (fun _ => {w : Dice | w.draws = ⟨x, y, z, 0⟩}) := by
      ext ω
      simp
    have hset : {w : Dice | w.draws = ⟨x, y, z, 0⟩} = {((⟨x, hx⟩, ⟨y, hy⟩, ⟨z, hz⟩, 0) : Dice)} := by
      ext ⟨w1, w2, w3, w4⟩
      simp only [Set.mem_ofPred_eq, Dice.draws, Draws.mk.injEq, Set.mem_singleton_iff, Prod.mk.injEq, Fin.ext_iff]
      have : ((w4 : ℕ) : ℚ) / 4 = 0 ↔ (w4 : ℕ) = 0 := by
        rw [div_eq_zero_iff]
        norm_num
      rw [this]
      exact Iff.rfl
    unfold fair
    rw [hone, Measure.infinitePi_pi _ fun c _ => (Set.toFinite _).measurableSet, Finset.prod_singleton, hset, uniformOn_univ,
      Measure.count_singleton]
    refine ENNReal.div_le_div_left ?_ _
    simp only [Fintype.card_prod, Fintype.card_fin]
    norm_num

instance : IsProbabilityMeasure fair := by
  unfold fair
  infer_instance

/-- The optimizer of the example with 4 threads, fair dice and enough patience -/
example : ∀ᵐ ω ∂fair, ∃ limit, ∀ l, limit ≤ l → ∃ o : Optimizer ℚ, Optimizer.new FloatEnv.rat { exampleOptions with maxIdleIters := l } 4 = ok o ∧
    FindsBest FloatEnv.rat Example.params o (fun r j i => (ω (r, j, i)).draws) :=
  patience_finds_best exampleOptions_valid (by decide) (by decide) (by decide) example_generator

end Angonoka.Props
