import Mathlib.Probability.Independence.Basic
import Mathlib.MeasureTheory.Measure.Typeclasses.Probability

/-!
# Independent discrete random variables, and aims that depend on the earlier ones
-/

set_option linter.unusedSectionVars false

namespace Angonoka.Adaptive
open MeasureTheory ProbabilityTheory
open scoped ENNReal

variable {Ω D ι : Type} [MeasurableSpace Ω] [MeasurableSpace D] [Countable D] [MeasurableSingletonClass D] [DecidableEq ι]
variable {P : Measure Ω} {X : ι → Ω → D}

/-- Whether the event happens depends on the variables in `S` only. -/
def Determined (X : ι → Ω → D) (S : Finset ι) (B : Set Ω) : Prop :=
  ∀ ω ω', (∀ c ∈ S, X c ω = X c ω') → ω ∈ B → ω' ∈ B

theorem Determined.mono {S T : Finset ι} {B : Set Ω} (h : Determined X S B) (hs : S ⊆ T) : Determined X T B :=
  fun ω ω' he => h ω ω' fun c hc => he c (hs hc)

theorem Determined.inter {S : Finset ι} {A B : Set Ω} (h : Determined X S A) (h' : Determined X S B) : Determined X S (A ∩ B) :=
  fun ω ω' he hm => ⟨h ω ω' he hm.1, h' ω ω' he hm.2⟩

/-- The variables in `S` have the values `x`. -/
def cell (X : ι → Ω → D) (S : Finset ι) (x : S → D) : Set Ω := {ω | ∀ c : S, X c ω = x c}

theorem measurable_cell (hX : ∀ c, Measurable (X c)) (S : Finset ι) (x : S → D) : MeasurableSet (cell X S x) := by
  have : cell X S x = ⋂ c : S, X c ⁻¹' {x c} := by
    ext ω
    simp [cell]
  rw [this]
  exact MeasurableSet.iInter fun c => hX c (measurableSet_singleton _)

theorem Determined.cells {S : Finset ι} {B : Set Ω} (h : Determined X S B) (x : S → D) : B ∩ cell X S x = ∅ ∨ B ∩ cell X S x = cell X S x := by
  rcases Set.eq_empty_or_nonempty (B ∩ cell X S x) with h0 | ⟨ω, h1, h2⟩
  · exact Or.inl h0
  · right
    refine Set.inter_eq_right.2 fun ω' h' => h ω ω' (fun c hc => ?_) h1
    rw [h2 ⟨c, hc⟩, h' ⟨c, hc⟩]

theorem union_cells (S : Finset ι) (B : Set Ω) : B = ⋃ x : S → D, B ∩ cell X S x := by
  ext ω
  simp only [Set.mem_iUnion, Set.mem_inter_iff]
  exact ⟨fun h => ⟨fun c => X c ω, h, fun _ => rfl⟩, fun ⟨_, h, _⟩ => h⟩

theorem Determined.measurable (hX : ∀ c, Measurable (X c)) {S : Finset ι} {B : Set Ω} (h : Determined X S B) : MeasurableSet B := by
  rw [union_cells (X := X) S B]
  refine MeasurableSet.iUnion fun x => ?_
  rcases h.cells x with h0 | h0 <;> rw [h0]
  · exact MeasurableSet.empty
  · exact measurable_cell hX S x

/-- The variables in `T` hit aims that depend on the variables in `S`, whatever else is known about the latter. -/
theorem hit (hX : ∀ c, Measurable (X c)) (hI : iIndepFun X P) {S T : Finset ι} (hd : Disjoint S T) {B : Set Ω} (hB : Determined X S B)
    (aim : Ω → ι → Set D) (haim : ∀ ω ω', (∀ c ∈ S, X c ω = X c ω') → aim ω = aim ω') {ε : ℝ≥0∞}
    (hε : ∀ ω, ∀ c ∈ T, ε ≤ P (X c ⁻¹' aim ω c)) :
    ε ^ T.card * P B ≤ P (B ∩ {ω | ∀ c ∈ T, X c ω ∈ aim ω c}) := by
  classical
  let G : Set Ω := {ω | ∀ c ∈ T, X c ω ∈ aim ω c}
  -- one cell
  have hcell : ∀ x : S → D, MeasurableSet (B ∩ G ∩ cell X S x) ∧ ε ^ T.card * P (B ∩ cell X S x) ≤ P (B ∩ G ∩ cell X S x) := by
    intro x
    rcases Set.eq_empty_or_nonempty (B ∩ cell X S x) with h0 | ⟨ω₀, h1, h2⟩
    · have : B ∩ G ∩ cell X S x = ∅ := by
        rw [Set.inter_right_comm, h0, Set.empty_inter]
      rw [this, h0]
      simp
    · have hfull : B ∩ cell X S x = cell X S x := by
        rcases hB.cells x with h | h
        · have : ω₀ ∈ B ∩ cell X S x := ⟨h1, h2⟩
          rw [h] at this
          exact absurd this (Set.notMem_empty _)
        · exact h
      let sets : ι → Set D := fun c => if h : c ∈ S then {x ⟨c, h⟩} else aim ω₀ c
      have hsets : ∀ c, MeasurableSet (sets c) := fun c => (Set.to_countable _).measurableSet
      have hcellS : cell X S x = ⋂ c ∈ S, X c ⁻¹' sets c := by
        ext ω
        simp only [cell, Set.mem_ofPred_eq, Set.mem_iInter, Set.mem_preimage, Subtype.forall, sets]
        refine forall_congr' fun c => forall_congr' fun hc => ?_
        rw [dif_pos hc, Set.mem_singleton_iff]
      have hboth : B ∩ G ∩ cell X S x = ⋂ c ∈ S ∪ T, X c ⁻¹' sets c := by
        rw [Set.inter_right_comm, hfull]
        ext ω
        have key : ω ∈ cell X S x → aim ω = aim ω₀ := fun hω => haim ω ω₀ fun c hc => by rw [hω ⟨c, hc⟩, h2 ⟨c, hc⟩]
        have hT : ∀ c ∈ T, sets c = aim ω₀ c := fun c hc => dif_neg fun hs => Finset.disjoint_left.1 hd hs hc
        constructor
        · rintro ⟨hω, hg⟩
          simp only [Set.mem_iInter, Finset.mem_union]
          intro c hc
          rcases hc with hc | hc
          · rw [hcellS] at hω
            simp only [Set.mem_iInter] at hω
            exact hω c hc
          · rw [Set.mem_preimage, hT c hc, ← key hω]
            exact hg c hc
        · intro hω
          simp only [Set.mem_iInter, Finset.mem_union] at hω
          have hc : ω ∈ cell X S x := by
            rw [hcellS]
            simp only [Set.mem_iInter]
            exact fun c hc => hω c (Or.inl hc)
          refine ⟨hc, fun c hcT => ?_⟩
          have := hω c (Or.inr hcT)
          rw [Set.mem_preimage, hT c hcT, ← key hc] at this
          exact this
      refine ⟨?_, ?_⟩
      · rw [hboth]
        exact Finset.measurableSet_biInter _ fun c _ => hX c (hsets c)
      · rw [hboth, hfull, hI.measure_inter_preimage_eq_mul _ fun c _ => hsets c, Finset.prod_union hd, hcellS,
          hI.measure_inter_preimage_eq_mul _ fun c _ => hsets c, mul_comm]
        refine mul_le_mul_right ?_ _
        rw [← Finset.prod_const]
        refine Finset.prod_le_prod' fun c hc => ?_
        have : sets c = aim ω₀ c := dif_neg fun hs => Finset.disjoint_left.1 hd hs hc
        rw [this]
        exact hε ω₀ c hc
  calc ε ^ T.card * P B ≤ ε ^ T.card * ∑' x : S → D, P (B ∩ cell X S x) := by
        refine mul_le_mul_right ?_ _
        conv_lhs => rw [union_cells (X := X) S B]
        exact measure_iUnion_le _
    _ = ∑' x : S → D, ε ^ T.card * P (B ∩ cell X S x) := ENNReal.tsum_mul_left.symm
    _ ≤ ∑' x : S → D, P (B ∩ G ∩ cell X S x) := ENNReal.tsum_le_tsum fun x => (hcell x).2
    _ = P (⋃ x : S → D, B ∩ G ∩ cell X S x) := by
        refine (measure_iUnion (fun x y hxy => ?_) fun x => (hcell x).1).symm
        refine Set.disjoint_left.2 fun ω hx hy => hxy ?_
        funext c
        rw [← hx.2 c, ← hy.2 c]
    _ = P (B ∩ G) := by rw [← union_cells (X := X) S (B ∩ G)]

end Angonoka.Adaptive
