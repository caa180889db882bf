import Mathlib.Probability.Independence.InfinitePi
import Mathlib.Probability.StrongLaw

/-!
# Experiments repeated with one stream of random numbers

An experiment reads random numbers from the start of a stream until it is done. The next one continues with the rest of the stream. If the random
numbers are independent and have the same law then so are and have the results.
-/

set_option linter.unusedSectionVars false

namespace Angonoka.Restart
open MeasureTheory ProbabilityTheory Filter Topology

/-- The stream without its first `n` numbers. -/
def shift (n : ℕ) (ζ : ℕ → ℝ) : ℕ → ℝ := fun i => ζ (i + n)

/-- The stream with zeros after the first `n` numbers. -/
def cut (n : ℕ) (ζ : ℕ → ℝ) : ℕ → ℝ := fun i => if i < n then ζ i else 0

theorem measurable_shift (n : ℕ) : Measurable (shift n) := measurable_pi_lambda _ fun i => measurable_pi_apply (i + n)

theorem shift_shift (m n : ℕ) (ζ : ℕ → ℝ) : shift m (shift n ζ) = shift (n + m) ζ := by
  funext i
  simp only [shift]
  congr 1
  omega

/-- `G v n` are the streams of which the experiment reads the first `n` numbers and returns `v`. -/
structure Experiment where
  G : Int → ℕ → Set (ℕ → ℝ)
  measurable : ∀ v n, MeasurableSet (G v n)
  isLocal : ∀ {v n ζ ζ'}, (∀ i < n, ζ i = ζ' i) → ζ ∈ G v n → ζ' ∈ G v n
  unique : ∀ {v n v' n' ζ}, ζ ∈ G v n → ζ ∈ G v' n' → v = v' ∧ n = n'

namespace Experiment
variable (X : Experiment)

/-- The streams that give results in the given sets. -/
def results : List (Set Int) → Set (ℕ → ℝ)
  | [] => Set.univ
  | A :: As => {ζ | ∃ v ∈ A, ∃ n, ζ ∈ X.G v n ∧ shift n ζ ∈ results As}

theorem results_cons (A : Set Int) (As : List (Set Int)) :
    X.results (A :: As) = ⋃ v ∈ A, ⋃ n, (X.G v n ∩ shift n ⁻¹' X.results As) := by
  ext ζ
  simp [results]

theorem measurable_results (As : List (Set Int)) : MeasurableSet (X.results As) := by
  induction As with
  | nil => exact .univ
  | cons A As ih =>
    rw [results_cons]
    exact .biUnion (Set.to_countable A) fun v _ => .iUnion fun n => (X.measurable v n).inter (measurable_shift n ih)

theorem mem_cut {v : Int} {n : ℕ} {ζ : ℕ → ℝ} : cut n ζ ∈ X.G v n ↔ ζ ∈ X.G v n :=
  ⟨X.isLocal fun i hi => by simp [cut, hi], X.isLocal fun i hi => by simp [cut, hi]⟩

variable {Ω : Type} [MeasurableSpace Ω] {P : Measure Ω} [IsProbabilityMeasure P] {Z : ℕ → Ω → ℝ}

theorem indep_cut_shift (hm : ∀ i, Measurable (Z i)) (hi : iIndepFun Z P) (n : ℕ) :
    IndepFun (fun ω => cut n fun i => Z i ω) (fun ω => shift n fun i => Z i ω) P := by
  have h := indep_iSup_of_disjoint (fun i => (hm i).comap_le) hi (S := {i | i < n}) (T := {i | n ≤ i})
    (Set.disjoint_left.2 fun i h1 h2 => by simp at h1 h2; omega)
  refine indep_of_indep_of_le_left (indep_of_indep_of_le_right h ?_) ?_
  · rw [← measurable_iff_comap_le]
    refine @measurable_pi_lambda _ _ _ (_) _ _ fun i => ?_
    exact Measurable.mono (comap_measurable (Z (i + n))) (le_iSup₂_of_le (i + n) (by simp) le_rfl) le_rfl
  · rw [← measurable_iff_comap_le]
    refine @measurable_pi_lambda _ _ _ (_) _ _ fun i => ?_
    by_cases hin : i < n
    · simp only [cut, hin, if_true]
      exact Measurable.mono (comap_measurable (Z i)) (le_iSup₂_of_le i hin le_rfl) le_rfl
    · simp only [cut, hin, if_false]
      exact measurable_const

theorem shift_law (hm : ∀ i, Measurable (Z i)) (hi : iIndepFun Z P) (hd : ∀ i, P.map (Z i) = P.map (Z 0)) (n : ℕ) {A : Set (ℕ → ℝ)}
    (hA : MeasurableSet A) : P {ω | (shift n fun i => Z i ω) ∈ A} = P {ω | (fun i => Z i ω) ∈ A} := by
  have h1 := (iIndepFun_iff_map_fun_eq_infinitePi_map hm).1 hi
  have h2 := (iIndepFun_iff_map_fun_eq_infinitePi_map (fun i => hm (i + n))).1
    (hi.precomp (g := fun i => i + n) fun a b h => by simpa using h)
  have h3 : P.map (fun ω i => Z (i + n) ω) = P.map (fun ω i => Z i ω) := by
    rw [h1, h2]
    congr 1
    funext i
    rw [hd, hd i]
  have e1 := Measure.map_apply (μ := P) (measurable_pi_lambda (fun ω i => Z i ω) hm) hA
  have e2 := Measure.map_apply (μ := P) (measurable_pi_lambda (fun ω i => Z (i + n) ω) fun i => hm (i + n)) hA
  rw [h3, e1] at e2
  exact e2.symm

/-- The probability that the experiment returns something in `A`. -/
noncomputable def chance (P : Measure Ω) (Z : ℕ → Ω → ℝ) (A : Set Int) : ENNReal :=
  P {ω | ∃ v ∈ A, ∃ n, (fun i => Z i ω) ∈ X.G v n}

theorem results_prob (hm : ∀ i, Measurable (Z i)) (hi : iIndepFun Z P) (hd : ∀ i, P.map (Z i) = P.map (Z 0)) (As : List (Set Int)) :
    P {ω | (fun i => Z i ω) ∈ X.results As} = (As.map (X.chance P Z)).prod := by
  induction As with
  | nil => simp [results]
  | cons A As ih =>
    have hZm : Measurable fun ω i => Z i ω := measurable_pi_lambda _ hm
    have hstep : ∀ v n, P {ω | (fun i => Z i ω) ∈ X.G v n ∧ (shift n fun i => Z i ω) ∈ X.results As} =
        P {ω | (fun i => Z i ω) ∈ X.G v n} * P {ω | (fun i => Z i ω) ∈ X.results As} := by
      intro v n
      have := (indep_cut_shift hm hi n).measure_inter_preimage_eq_mul _ _ (X.measurable v n) (X.measurable_results As)
      simp only [Set.preimage, X.mem_cut] at this
      rw [← shift_law hm hi hd n (X.measurable_results As)]
      exact this
    have hdis : ∀ (B : Int × ℕ → Set Ω), (∀ q, B q ⊆ {ω | (fun i => Z i ω) ∈ X.G q.1 q.2}) →
        Pairwise (Function.onFun Disjoint B) := by
      intro B hB q q' hne
      refine Set.disjoint_left.2 fun ω h1 h2 => hne ?_
      have := X.unique (hB q h1) (hB q' h2)
      exact Prod.ext this.1 this.2
    have hU : {ω | (fun i => Z i ω) ∈ X.results (A :: As)} =
        ⋃ q : Int × ℕ, {ω | q.1 ∈ A ∧ (fun i => Z i ω) ∈ X.G q.1 q.2 ∧ (shift q.2 fun i => Z i ω) ∈ X.results As} := by
      ext ω
      simp [results]
    have hV : {ω | ∃ v ∈ A, ∃ n, (fun i => Z i ω) ∈ X.G v n} =
        ⋃ q : Int × ℕ, {ω | q.1 ∈ A ∧ (fun i => Z i ω) ∈ X.G q.1 q.2} := by
      ext ω
      simp
    have hGm : ∀ v n, MeasurableSet {ω | (fun i => Z i ω) ∈ X.G v n} := fun v n => hZm (X.measurable v n)
    rw [List.map_cons, List.prod_cons, ← ih, chance, hU, hV, measure_iUnion (hdis _ fun q ω h => h.2.1), measure_iUnion (hdis _ fun q ω h => h.2),
      ← ENNReal.tsum_mul_right]
    · congr 1
      funext q
      by_cases hq : q.1 ∈ A
      · simp only [hq, true_and]
        exact hstep q.1 q.2
      · simp [hq]
    · exact fun q => (MeasurableSet.const _).inter (hGm q.1 q.2)
    · exact fun q => (MeasurableSet.const _).inter ((hGm q.1 q.2).inter (hZm (measurable_shift q.2 (X.measurable_results As))))

open Classical in
/-- The result of the first experiment. -/
noncomputable def first (ζ : ℕ → ℝ) : Int := if h : ∃ v n, ζ ∈ X.G v n then h.choose else 0

open Classical in
/-- The stream after the first experiment. -/
noncomputable def next (ζ : ℕ → ℝ) : ℕ → ℝ := if h : ∃ n v, ζ ∈ X.G v n then shift h.choose ζ else ζ

/-- The result of the experiment number `i`. -/
noncomputable def result : ℕ → (ℕ → ℝ) → Int
  | 0, ζ => X.first ζ
  | i + 1, ζ => result i (X.next ζ)

theorem first_eq {v : Int} {n : ℕ} {ζ : ℕ → ℝ} (h : ζ ∈ X.G v n) : X.first ζ = v := by
  have hex : ∃ v n, ζ ∈ X.G v n := ⟨v, n, h⟩
  rw [first, dif_pos hex]
  obtain ⟨n', h'⟩ := hex.choose_spec
  exact (X.unique h' h).1

theorem next_eq {v : Int} {n : ℕ} {ζ : ℕ → ℝ} (h : ζ ∈ X.G v n) : X.next ζ = shift n ζ := by
  have hex : ∃ n v, ζ ∈ X.G v n := ⟨n, v, h⟩
  rw [next, dif_pos hex]
  obtain ⟨v', h'⟩ := hex.choose_spec
  rw [(X.unique h' h).2]

theorem measurable_first : Measurable X.first := by
  refine measurable_to_countable' fun v => ?_
  have hset : X.first ⁻¹' {v} = (⋃ n, X.G v n) ∪ (if v = 0 then (⋃ v, ⋃ n, X.G v n)ᶜ else ∅) := by
    ext ζ
    simp only [Set.mem_preimage, Set.mem_singleton_iff, Set.mem_union, Set.mem_iUnion]
    by_cases hex : ∃ v n, ζ ∈ X.G v n
    · obtain ⟨v', n', h'⟩ := hex
      rw [X.first_eq h']
      constructor
      · rintro rfl
        exact Or.inl ⟨n', h'⟩
      · rintro (⟨n, h⟩ | h)
        · exact (X.unique h' h).1
        · split_ifs at h
          · exact absurd (Set.mem_iUnion.2 ⟨v', Set.mem_iUnion.2 ⟨n', h'⟩⟩) h
          · exact absurd h (Set.notMem_empty _)
    · rw [first, dif_neg hex]
      constructor
      · rintro rfl
        refine Or.inr ?_
        rw [if_pos rfl]
        intro h
        obtain ⟨v, h⟩ := Set.mem_iUnion.1 h
        obtain ⟨n, h⟩ := Set.mem_iUnion.1 h
        exact hex ⟨v, n, h⟩
      · rintro (⟨n, h⟩ | h)
        · exact absurd ⟨v, n, h⟩ hex
        · split_ifs at h with h0
          · exact h0.symm
          · exact absurd h (Set.notMem_empty _)
  rw [hset]
  refine (MeasurableSet.iUnion fun n => X.measurable v n).union ?_
  split_ifs
  · exact (MeasurableSet.iUnion fun v => .iUnion fun n => X.measurable v n).compl
  · exact .empty

theorem measurable_next : Measurable X.next := by
  intro A hA
  have hset : X.next ⁻¹' A = (⋃ v, ⋃ n, (X.G v n ∩ shift n ⁻¹' A)) ∪ ((⋃ v, ⋃ n, X.G v n)ᶜ ∩ A) := by
    ext ζ
    simp only [Set.mem_preimage, Set.mem_union, Set.mem_iUnion, Set.mem_inter_iff, Set.mem_compl_iff]
    by_cases hex : ∃ v n, ζ ∈ X.G v n
    · obtain ⟨v', n', h'⟩ := hex
      rw [X.next_eq h']
      constructor
      · intro h
        exact Or.inl ⟨v', n', h', h⟩
      · rintro (⟨v, n, h, hA⟩ | h)
        · rwa [(X.unique h' h).2]
        · exact absurd ⟨v', n', h'⟩ h.1
    · rw [next, dif_neg fun ⟨n, v, h⟩ => hex ⟨v, n, h⟩]
      constructor
      · exact fun h => Or.inr ⟨hex, h⟩
      · rintro (⟨v, n, h, hA⟩ | h)
        · exact absurd ⟨v, n, h⟩ hex
        · exact h.2
  rw [hset]
  exact (MeasurableSet.iUnion fun v => .iUnion fun n => (X.measurable v n).inter (measurable_shift n hA)).union
    ((MeasurableSet.iUnion fun v => .iUnion fun n => X.measurable v n).compl.inter hA)

theorem measurable_result (i : ℕ) : Measurable (X.result i) := by
  induction i with
  | zero => exact X.measurable_first
  | succ i ih => exact ih.comp X.measurable_next

theorem mem_results {As : List (Set Int)} {ζ : ℕ → ℝ} (hζ : ζ ∈ X.results (List.replicate As.length Set.univ)) :
    ζ ∈ X.results As ↔ ∀ (i : ℕ) (h : i < As.length), X.result i ζ ∈ As[i] := by
  induction As generalizing ζ with
  | nil => simp [results]
  | cons A As ih =>
    obtain ⟨v, -, n, h1, h2⟩ := hζ
    have ih := ih h2
    constructor
    · rintro ⟨v', hA, n', h1', h2'⟩
      obtain ⟨rfl, rfl⟩ := X.unique h1 h1'
      intro i hi
      cases i with
      | zero => simpa [result, X.first_eq h1] using hA
      | succ i =>
        simp only [result, X.next_eq h1, List.getElem_cons_succ]
        exact ih.1 h2' i (by simpa using hi)
    · intro h
      refine ⟨v, ?_, n, h1, ih.2 fun i hi => ?_⟩
      · have := h 0 (by simp)
        simpa [result, X.first_eq h1] using this
      · have := h (i + 1) (by simpa using hi)
        simpa [result, X.next_eq h1] using this

theorem results_certain (hm : ∀ i, Measurable (Z i)) (hi : iIndepFun Z P) (hd : ∀ i, P.map (Z i) = P.map (Z 0))
    (hall : X.chance P Z Set.univ = 1) (n : ℕ) : ∀ᵐ ω ∂P, (fun i => Z i ω) ∈ X.results (List.replicate n Set.univ) := by
  have hZm : Measurable fun ω i => Z i ω := measurable_pi_lambda _ hm
  refine (mem_ae_iff_prob_eq_one (hZm (X.measurable_results _))).2 ?_
  rw [show (fun ω i => Z i ω) ⁻¹' X.results (List.replicate n Set.univ) =
    {ω | (fun i => Z i ω) ∈ X.results (List.replicate n Set.univ)} from rfl, X.results_prob hm hi hd, List.map_replicate, hall,
    List.prod_replicate, one_pow]

/-- If the experiment ends with probability one then so do all of them, and the results are independent and have the same law. -/
theorem results_law (hm : ∀ i, Measurable (Z i)) (hi : iIndepFun Z P) (hd : ∀ i, P.map (Z i) = P.map (Z 0)) (hall : X.chance P Z Set.univ = 1)
    (As : List (Set Int)) :
    P {ω | (fun i => Z i ω) ∈ X.results As} = P {ω | ∀ (i : ℕ) (h : i < As.length), X.result i (fun i => Z i ω) ∈ As[i]} := by
  refine measure_congr ?_
  filter_upwards [X.results_certain hm hi hd hall As.length] with ω h
  exact propext (X.mem_results h)

/-- The law of the results. -/
theorem chance_eq (hm : ∀ i, Measurable (Z i)) (hi : iIndepFun Z P) (hd : ∀ i, P.map (Z i) = P.map (Z 0)) (hall : X.chance P Z Set.univ = 1)
    (A : Set Int) : X.chance P Z A = P.map (fun ω => X.result 0 fun i => Z i ω) A := by
  have hRm : Measurable fun ω => X.result 0 fun i => Z i ω := (X.measurable_result 0).comp (measurable_pi_lambda _ hm)
  have h1 := X.results_law hm hi hd hall [A]
  rw [X.results_prob hm hi hd] at h1
  simp only [List.map_cons, List.map_nil, List.prod_cons, List.prod_nil, mul_one, List.length_singleton] at h1
  rw [h1, Measure.map_apply hRm (MeasurableSet.of_discrete)]
  congr 1
  ext ω
  simp only [Set.mem_ofPred_eq, Set.mem_preimage]
  constructor
  · exact fun h => h 0 (by simp)
  · intro h i hi
    obtain rfl : i = 0 := by omega
    exact h

theorem results_independent (hm : ∀ i, Measurable (Z i)) (hi : iIndepFun Z P) (hd : ∀ i, P.map (Z i) = P.map (Z 0))
    (hall : X.chance P Z Set.univ = 1) :
    iIndepFun (fun (j : ℕ) ω => X.result j fun i => Z i ω) P ∧
      ∀ j, P.map (fun ω => X.result j fun i => Z i ω) = P.map (fun ω => X.result 0 fun i => Z i ω) := by
  have hZm : Measurable fun ω i => Z i ω := measurable_pi_lambda _ hm
  have hRm : ∀ j, Measurable fun ω => X.result j fun i => Z i ω := fun j => (X.measurable_result j).comp hZm
  set π := P.map (fun ω => X.result 0 fun i => Z i ω) with hπ
  have : IsProbabilityMeasure π := Measure.isProbabilityMeasure_map (hRm 0).aemeasurable
  have hch : ∀ A : Set Int, X.chance P Z A = π A := fun A => X.chance_eq hm hi hd hall A
  have hlist : ∀ As : List (Set Int), P {ω | ∀ (i : ℕ) (h : i < As.length), X.result i (fun i => Z i ω) ∈ As[i]} = (As.map π).prod := by
    intro As
    rw [← X.results_law hm hi hd hall, X.results_prob hm hi hd]
    congr 1
    exact List.map_congr_left fun A _ => hch A
  have hlaw : P.map (fun ω j => X.result j fun i => Z i ω) = Measure.infinitePi fun _ : ℕ => π := by
    refine Measure.eq_infinitePi _ fun s t ht => ?_
    rw [Measure.map_apply (measurable_pi_lambda _ hRm) (.pi s.countable_toSet fun i hi => ht i)]
    obtain ⟨N, hN⟩ : ∃ N, ∀ i ∈ s, i < N := ⟨s.sup id + 1, fun i hi => Nat.lt_succ_of_le (Finset.le_sup (f := id) hi)⟩
    have h1 := hlist ((List.range N).map fun i => if i ∈ s then t i else Set.univ)
    rw [List.map_map] at h1
    have h2 : ((List.range N).map (π ∘ fun i => if i ∈ s then t i else Set.univ)).prod = ∏ i ∈ s, π (t i) := by
      have h3 : ((List.range N).map (π ∘ fun i => if i ∈ s then t i else Set.univ)).prod =
          ∏ i ∈ Finset.range N, π (if i ∈ s then t i else Set.univ) := rfl
      rw [h3, ← Finset.prod_subset (s₁ := s) (fun i hi => Finset.mem_range.2 (hN i hi))]
      · exact Finset.prod_congr rfl fun i hi => by rw [if_pos hi]
      · intro i _ hi
        rw [if_neg hi, measure_univ]
    rw [← h2, ← h1]
    congr 1
    ext ω
    simp only [Set.mem_preimage, Set.mem_pi, Finset.mem_coe, Set.mem_ofPred_eq, List.length_map, List.length_range, List.getElem_map, List.getElem_range]
    constructor
    · intro h i hi
      split_ifs with his
      · exact h i his
      · trivial
    · intro h i his
      have := h i (hN i his)
      rwa [if_pos his] at this
  have hmarg : ∀ j, P.map (fun ω => X.result j fun i => Z i ω) = π := by
    intro j
    have h1 := Measure.infinitePi_map_eval (fun _ : ℕ => π) j
    rw [← hlaw, Measure.map_map (measurable_pi_apply j) (measurable_pi_lambda _ hRm)] at h1
    exact h1
  refine ⟨(iIndepFun_iff_map_fun_eq_infinitePi_map hRm).2 ?_, hmarg⟩
  rw [hlaw]
  congr 1
  funext j
  exact (hmarg j).symm

/-- The law of large numbers for the results. -/
theorem results_frequency (hm : ∀ i, Measurable (Z i)) (hi : iIndepFun Z P) (hd : ∀ i, P.map (Z i) = P.map (Z 0))
    (hall : X.chance P Z Set.univ = 1) (A : Set Int) [DecidablePred (· ∈ A)] :
    ∀ᵐ ω ∂P, Tendsto (fun n : ℕ => (((List.range n).countP fun j => decide (X.result j (fun i => Z i ω) ∈ A) : ℕ) : ℝ) / n) atTop
      (𝓝 (X.chance P Z A).toReal) := by
  have hZm : Measurable fun ω i => Z i ω := measurable_pi_lambda _ hm
  have hRm : ∀ j, Measurable fun ω => X.result j fun i => Z i ω := fun j => (X.measurable_result j).comp hZm
  obtain ⟨hind, hlaw⟩ := X.results_independent hm hi hd hall
  let f : Int → ℝ := fun v => if v ∈ A then 1 else 0
  have hf : Measurable f := .of_discrete
  have hset : MeasurableSet {ω | X.result 0 (fun i => Z i ω) ∈ A} := hRm 0 .of_discrete
  have hzero : (fun ω => f (X.result 0 fun i => Z i ω)) = Set.indicator {ω | X.result 0 (fun i => Z i ω) ∈ A} fun _ => 1 := by
    funext ω
    simp [f, Set.indicator]
  have key := strong_law_ae_real (μ := P) (fun j ω => f (X.result j fun i => Z i ω)) ?_ ?_ ?_
  · have hexp : ∫ ω, f (X.result 0 fun i => Z i ω) ∂P = (X.chance P Z A).toReal := by
      rw [hzero, integral_indicator_const _ hset]
      have h1 := X.results_law hm hi hd hall [A]
      rw [X.results_prob hm hi hd] at h1
      simp only [List.map_cons, List.map_nil, List.prod_cons, List.prod_nil, mul_one, List.length_singleton] at h1
      rw [h1, smul_eq_mul, mul_one]
      simp only [Measure.real]
      congr 2
      ext ω
      simp only [Set.mem_ofPred_eq]
      constructor
      · intro h i hi
        obtain rfl : i = 0 := by omega
        exact h
      · exact fun h => h 0 (by simp)
    filter_upwards [key] with ω h
    rw [hexp] at h
    refine h.congr fun n => ?_
    congr 1
    induction n with
    | zero => simp
    | succ n ih =>
      rw [Finset.sum_range_succ, ih, List.range_succ, List.countP_append, List.countP_singleton]
      simp only [f]
      split_ifs <;> simp_all
  · rw [hzero]
    exact (integrable_const (1 : ℝ)).indicator hset
  · intro i j hij
    exact (hind.indepFun hij).comp hf hf
  · intro j
    have : IdentDistrib (fun ω => X.result j fun i => Z i ω) (fun ω => X.result 0 fun i => Z i ω) P P :=
      ⟨(hRm j).aemeasurable, (hRm 0).aemeasurable, hlaw j⟩
    exact this.comp hf

end Experiment
end Angonoka.Restart
