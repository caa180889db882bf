import Mathlib.MeasureTheory.Constructions.BorelSpace.Order
import Mathlib.Probability.BorelCantelli
import Mathlib.Probability.Independence.InfinitePi
import Verif.Base.RealEnv
import Verif.Proof.MakespanBounds
import Verif.Proof.Simulation

/-!
# Mirrored random numbers

Sampling from a stream of random numbers, and the same stream with the accepted numbers of some samples negated where the
negated number is accepted as well. In exact arithmetic the makespans for the two streams are on average at least the makespan for the
middles of the bounds; for symmetric random numbers the two streams have the same law.
-/

set_option linter.unusedSectionVars false

namespace Angonoka
open Outcome Stun

section Half
variable {K : Type} [Field K] [LinearOrder K] [IsStrictOrderedRing K]

theorem maxOf_half {l : List Nat} {f g h : Nat → K} (hh : ∀ x ∈ l, 2 * h x ≤ f x + g x) :
    2 * maxOf (l.map h) ≤ maxOf (l.map f) + maxOf (l.map g) := by
  by_cases h0 : l = []
  · simp [h0, maxOf]
  · obtain ⟨x, hx, hxe⟩ := List.mem_map.1 (maxOf_mem (l := l.map h) (by simpa using h0))
    rw [← hxe]
    exact (hh x hx).trans (add_le_add (le_maxOf (List.mem_map_of_mem hx)) (le_maxOf (List.mem_map_of_mem hx)))

/-- The recurrence is convex in the times of the items. -/
theorem runF_half {E : FloatEnv K} (hE : E.IsExact) {p q r : ScheduleParams K} (hq : ∀ t, q.deps t = p.deps t)
    (hr : ∀ t, r.deps t = p.deps t) {s : List Item} (ht : ∀ it ∈ s, 2 * r.itemTime E it ≤ p.itemTime E it + q.itemTime E it)
    {fp wp fq wq fr wr : Nat → K} (hf : ∀ t, 2 * fr t ≤ fp t + fq t) (hw : ∀ a, 2 * wr a ≤ wp a + wq a) :
    (∀ t, 2 * (runF E r s fr wr).1 t ≤ (runF E p s fp wp).1 t + (runF E q s fq wq).1 t) ∧
    (∀ a, 2 * (runF E r s fr wr).2 a ≤ (runF E p s fp wp).2 a + (runF E q s fq wq).2 a) := by
  induction s generalizing fp wp fq wq fr wr with
  | nil => exact ⟨hf, hw⟩
  | cons it s ih =>
    have hend : 2 * endTime E r fr wr it ≤ endTime E p fp wp it + endTime E q fq wq it := by
      have h1 : 2 * depsEnd r fr it.task ≤ depsEnd p fp it.task + depsEnd q fq it.task := by
        unfold depsEnd
        rw [hr, hq]
        exact maxOf_half fun x _ => hf x
      have h2 := hw it.agent
      have h3 := ht it (by simp)
      unfold endTime startTime FloatEnv.add
      rw [hE, hE, hE]
      have h4 : 2 * max (depsEnd r fr it.task) (wr it.agent) ≤
          max (depsEnd p fp it.task) (wp it.agent) + max (depsEnd q fq it.task) (wq it.agent) := by
        rcases max_cases (depsEnd r fr it.task) (wr it.agent) with ⟨h, _⟩ | ⟨h, _⟩ <;> rw [h]
        · exact h1.trans (add_le_add (le_max_left _ _) (le_max_left _ _))
        · exact h2.trans (add_le_add (le_max_right _ _) (le_max_right _ _))
      linarith
    apply ih (fun x hx => ht x (by simp [hx]))
    · intro t
      by_cases h : t = it.task
      · rw [h, Function.update_self, Function.update_self, Function.update_self]
        exact hend
      · rw [Function.update_of_ne h, Function.update_of_ne h, Function.update_of_ne h]
        exact hf t
    · intro a
      by_cases h : a = it.agent
      · rw [h, Function.update_self, Function.update_self, Function.update_self]
        exact hend
      · rw [Function.update_of_ne h, Function.update_of_ne h, Function.update_of_ne h]
        exact hw a

/-- The makespan for durations not above the averages of two lists is not above the average of the makespans. -/
theorem makespanValue_half {E : FloatEnv K} (hE : E.IsExact) (sp : ScheduleParams K) {perf dur dur' avg : List K}
    (hp : ∀ x ∈ perf, 0 < x) {s : List Item} (h : ∀ it ∈ s, 2 * avg.getD it.task 0 ≤ dur.getD it.task 0 + dur'.getD it.task 0) (m : Nat) :
    2 * makespanValue E (sp.sampled perf avg) m s ≤
      makespanValue E (sp.sampled perf dur) m s + makespanValue E (sp.sampled perf dur') m s := by
  refine maxOf_half fun a _ => (runF_half (p := sp.sampled perf dur) (q := sp.sampled perf dur') (r := sp.sampled perf avg)
    (fp := fun _ => 0) (wp := fun _ => 0) (fq := fun _ => 0) (wq := fun _ => 0) (fr := fun _ => 0) (wr := fun _ => 0)
    hE (fun _ => rfl) (fun _ => rfl) ?_ (fun _ => by simp) (fun _ => by simp)).2 a
  intro it hit
  simp only [ScheduleParams.itemTime, FloatEnv.div, hE _, ScheduleParams.sampled]
  have h0 : 0 ≤ perf.getD it.agent 0 := by
    by_cases hi : it.agent < perf.length
    · simpa [hi] using (hp _ (List.getElem_mem hi)).le
    · simp [hi]
  rw [← mul_div_assoc, ← add_div]
  exact div_le_div_of_nonneg_right (h it hit) h0

end Half

section Stream

/-- Bounds to sample from, and whether the accepted number is mirrored. -/
abbrev Marked := List (Bool × ℝ × ℝ)

/-- The stream `ζ` is sampled with `ks` rejected numbers. -/
def Reads (E : FloatEnv ℝ) : Marked → List ℕ → (ℕ → ℝ) → Prop
  | [], [], _ => True
  | (_, lo, hi) :: bs, k :: ks, ζ =>
    if lo = hi then k = 0 ∧ Reads E bs ks ζ
    else (∀ i < k, drawn E lo hi (ζ i) ≤ 0) ∧ 0 < drawn E lo hi (ζ k) ∧ Reads E bs ks (fun i => ζ (i + (k + 1)))
  | _, _, _ => False

/-- The sampled values. -/
noncomputable def vals (E : FloatEnv ℝ) : Marked → List ℕ → (ℕ → ℝ) → List ℝ
  | (_, lo, hi) :: bs, k :: ks, ζ =>
    if lo = hi then lo :: vals E bs ks ζ
    else drawn E lo hi (ζ k) :: vals E bs ks (fun i => ζ (i + (k + 1)))
  | _, _, _ => []

/-- How many numbers are used. -/
noncomputable def usedCount : Marked → List ℕ → ℕ
  | (_, lo, hi) :: bs, k :: ks => if lo = hi then usedCount bs ks else k + 1 + usedCount bs ks
  | _, _ => 0

/-- The first numbers of a stream. -/
def firsts (n : ℕ) (ζ : ℕ → ℝ) : List ℝ := (List.range n).map ζ

theorem firsts_add (k m : ℕ) (ζ : ℕ → ℝ) :
    firsts (k + 1 + m) ζ = firsts k ζ ++ ζ k :: firsts m (fun i => ζ (i + (k + 1))) := by
  unfold firsts
  rw [List.range_add, List.map_append, List.range_succ, List.map_append, List.append_assoc, List.map_map]
  simp [Function.comp_def, Nat.add_comm]

theorem Reads.samples {E : FloatEnv ℝ} {bs : Marked} {ks : List ℕ} {ζ : ℕ → ℝ} (h : Reads E bs ks ζ) (rest : List ℝ) :
    Samples E (bs.map Prod.snd) (vals E bs ks ζ) (firsts (usedCount bs ks) ζ ++ rest) rest := by
  induction bs generalizing ks ζ with
  | nil =>
    cases ks with
    | nil => exact .nil
    | cons k ks => exact absurd h (by simp [Reads])
  | cons b bs ih =>
    obtain ⟨m, lo, hi⟩ := b
    cases ks with
    | nil => exact absurd h (by simp [Reads])
    | cons k ks =>
      by_cases he : lo = hi
      · subst he
        simp only [Reads, if_true] at h
        simp only [vals, usedCount, if_true, List.map_cons]
        exact .fixed (ih h.2)
      · simp only [Reads, if_neg he] at h
        simp only [vals, usedCount, if_neg he, List.map_cons]
        rw [firsts_add, List.append_assoc, List.cons_append]
        refine .drawn _ he ?_ h.2.1 (ih h.2.2)
        intro r hr
        obtain ⟨i, hi, rfl⟩ := List.mem_map.1 hr
        exact h.1 i (List.mem_range.1 hi)

theorem Reads.unique {E : FloatEnv ℝ} {bs : Marked} {ks ks' : List ℕ} {ζ : ℕ → ℝ} (h : Reads E bs ks ζ) (h' : Reads E bs ks' ζ) : ks = ks' := by
  induction bs generalizing ks ks' ζ with
  | nil =>
    cases ks <;> cases ks' <;> simp_all [Reads]
  | cons b bs ih =>
    obtain ⟨m, lo, hi⟩ := b
    cases ks with
    | nil => exact absurd h (by simp [Reads])
    | cons k ks =>
      cases ks' with
      | nil => exact absurd h' (by simp [Reads])
      | cons k' ks' =>
        by_cases he : lo = hi
        · subst he
          simp only [Reads, if_true] at h h'
          rw [h.1, h'.1, ih h.2 h'.2]
        · simp only [Reads, if_neg he] at h h'
          have hk : k = k' := by
            rcases lt_trichotomy k k' with hl | hl | hl
            · exact absurd (h'.1 k hl) (not_le.2 h.2.1)
            · exact hl
            · exact absurd (h.1 k' hl) (not_le.2 h'.2.1)
          subst hk
          rw [ih h.2.2 h'.2.2]

/-- Negate a number if both it and the negated one are accepted. -/
noncomputable def mirror (E : FloatEnv ℝ) (lo hi z : ℝ) : ℝ :=
  if 0 < drawn E lo hi z ∧ 0 < drawn E lo hi (-z) then -z else z

/-- What happens to the number at index `i` of the stream. -/
noncomputable def mirrorAt (E : FloatEnv ℝ) : Marked → List ℕ → ℕ → ℝ → ℝ
  | (m, lo, hi) :: bs, k :: ks, i =>
    if lo = hi then mirrorAt E bs ks i
    else if i < k then id
    else if i = k then (if m then mirror E lo hi else id)
    else mirrorAt E bs ks (i - (k + 1))
  | _, _, _ => id

/-- The mirrored stream. -/
noncomputable def mirrored (E : FloatEnv ℝ) (bs : Marked) (ks : List ℕ) (ζ : ℕ → ℝ) : ℕ → ℝ := fun i => mirrorAt E bs ks i (ζ i)

theorem mirrored_fixed (E : FloatEnv ℝ) (m : Bool) (lo : ℝ) (bs : Marked) (k : ℕ) (ks : List ℕ) (ζ : ℕ → ℝ) :
    mirrored E ((m, lo, lo) :: bs) (k :: ks) ζ = mirrored E bs ks ζ := by
  funext i
  simp [mirrored, mirrorAt]

theorem mirrored_shift {E : FloatEnv ℝ} {m : Bool} {lo hi : ℝ} (he : lo ≠ hi) (bs : Marked) (k : ℕ) (ks : List ℕ) (ζ : ℕ → ℝ) :
    (fun i => mirrored E ((m, lo, hi) :: bs) (k :: ks) ζ (i + (k + 1))) = mirrored E bs ks (fun i => ζ (i + (k + 1))) := by
  funext i
  simp only [mirrored, mirrorAt, if_neg he]
  rw [if_neg (by omega), if_neg (by omega), Nat.add_sub_cancel]

theorem mirrored_lt {E : FloatEnv ℝ} {m : Bool} {lo hi : ℝ} (he : lo ≠ hi) (bs : Marked) {k i : ℕ} (hi' : i < k) (ks : List ℕ) (ζ : ℕ → ℝ) :
    mirrored E ((m, lo, hi) :: bs) (k :: ks) ζ i = ζ i := by
  simp [mirrored, mirrorAt, he, hi']

theorem mirrored_at {E : FloatEnv ℝ} {m : Bool} {lo hi : ℝ} (he : lo ≠ hi) (bs : Marked) (k : ℕ) (ks : List ℕ) (ζ : ℕ → ℝ) :
    mirrored E ((m, lo, hi) :: bs) (k :: ks) ζ k = if m then mirror E lo hi (ζ k) else ζ k := by
  simp only [mirrored, mirrorAt, if_neg he, lt_irrefl, if_true, if_false]
  cases m <;> rfl

theorem mirror_pos {E : FloatEnv ℝ} {lo hi z : ℝ} (h : 0 < drawn E lo hi z) : 0 < drawn E lo hi (mirror E lo hi z) := by
  unfold mirror
  split
  · next h' => exact h'.2
  · exact h

theorem Reads.mirrored {E : FloatEnv ℝ} {bs : Marked} {ks : List ℕ} {ζ : ℕ → ℝ} (h : Reads E bs ks ζ) : Reads E bs ks (mirrored E bs ks ζ) := by
  induction bs generalizing ks ζ with
  | nil =>
    cases ks with
    | nil => trivial
    | cons k ks => exact absurd h (by simp [Reads])
  | cons b bs ih =>
    obtain ⟨m, lo, hi⟩ := b
    cases ks with
    | nil => exact absurd h (by simp [Reads])
    | cons k ks =>
      by_cases he : lo = hi
      · subst he
        simp only [Reads, if_true] at h ⊢
        rw [mirrored_fixed]
        exact ⟨h.1, ih h.2⟩
      · simp only [Reads, if_neg he] at h ⊢
        rw [mirrored_shift he, mirrored_at he]
        refine ⟨fun i hi' => by rw [mirrored_lt he bs hi']; exact h.1 i hi', ?_, ih h.2.2⟩
        split
        · exact mirror_pos h.2.1
        · exact h.2.1

theorem drawn_exact {E : FloatEnv ℝ} (hE : E.IsExact) (lo hi z : ℝ) : drawn E lo hi z = z * ((hi - lo) / 4) + (lo + hi) / 2 := by
  unfold drawn
  simp only [FloatEnv.add, FloatEnv.mul, FloatEnv.div, FloatEnv.sub, hE _]

theorem mirror_sum {E : FloatEnv ℝ} (hE : E.IsExact) {lo hi z : ℝ} (h0 : 0 < lo) (hle : lo ≤ hi) (h : 0 < drawn E lo hi z) :
    lo + hi ≤ drawn E lo hi z + drawn E lo hi (mirror E lo hi z) := by
  have hs : ∀ z, drawn E lo hi z + drawn E lo hi (-z) = lo + hi := by
    intro z
    rw [drawn_exact hE, drawn_exact hE]
    ring
  have := hs z
  unfold mirror
  split
  · exact this.ge
  · next h' =>
    have : drawn E lo hi (-z) ≤ 0 := by
      by_contra hc
      exact h' ⟨h, not_le.1 hc⟩
    linarith

/-- Values of the mirrored stream. -/
theorem Reads.vals_mirrored {E : FloatEnv ℝ} (hE : E.IsExact) {bs : Marked} (hbs : ∀ b ∈ bs, 0 < b.2.1 ∧ b.2.1 ≤ b.2.2) {ks : List ℕ}
    {ζ : ℕ → ℝ} (h : Reads E bs ks ζ) {i : ℕ} {b : Bool × ℝ × ℝ} (hb : bs[i]? = some b) :
    (b.1 = false → (vals E bs ks (Angonoka.mirrored E bs ks ζ)).getD i 0 = (vals E bs ks ζ).getD i 0) ∧
    (b.1 = true → b.2.1 + b.2.2 ≤ (vals E bs ks ζ).getD i 0 + (vals E bs ks (Angonoka.mirrored E bs ks ζ)).getD i 0) := by
  induction bs generalizing ks ζ i with
  | nil => simp at hb
  | cons b' bs ih =>
    obtain ⟨m, lo, hi⟩ := b'
    cases ks with
    | nil => exact absurd h (by simp [Reads])
    | cons k ks =>
      have ih := @ih (fun b hb => hbs b (by simp [hb]))
      obtain ⟨h0, hle⟩ : 0 < lo ∧ lo ≤ hi := hbs _ (List.mem_cons_self ..)
      by_cases he : lo = hi
      · subst he
        simp only [Reads, if_true] at h
        simp only [vals, if_true, mirrored_fixed]
        cases i with
        | zero =>
          simp only [List.getElem?_cons_zero, Option.some.injEq] at hb
          subst hb
          simp
        | succ i => simpa using ih h.2 (by simpa using hb)
      · simp only [Reads, if_neg he] at h
        simp only [vals, if_neg he, mirrored_shift he, mirrored_at he]
        cases i with
        | zero =>
          simp only [List.getElem?_cons_zero, Option.some.injEq] at hb
          subst hb
          simp only [List.getD_cons_zero]
          refine ⟨fun hm => by simp [hm], fun hm => ?_⟩
          rw [if_pos hm]
          exact mirror_sum hE h0 hle h.2.1
        | succ i => simpa using ih h.2.2 (by simpa using hb)

theorem vals_length {E : FloatEnv ℝ} {bs : Marked} {ks : List ℕ} {ζ : ℕ → ℝ} (h : Reads E bs ks ζ) : (vals E bs ks ζ).length = bs.length := by
  simpa using (h.samples []).length

open MeasureTheory ProbabilityTheory

theorem measurable_rnd (E : FloatEnv ℝ) : Measurable E.rnd := Monotone.measurable E.rnd_mono

theorem measurable_drawn {E : FloatEnv ℝ} (lo hi : ℝ) : Measurable (drawn E lo hi) := by
  unfold drawn FloatEnv.add FloatEnv.mul
  have h := measurable_rnd E
  fun_prop

theorem measurable_vals {E : FloatEnv ℝ} (bs : Marked) (ks : List ℕ) (i : ℕ) :
    Measurable fun ζ : ℕ → ℝ => (vals E bs ks ζ).getD i 0 := by
  induction bs generalizing ks i with
  | nil => simp [vals]
  | cons b bs ih =>
    obtain ⟨m, lo, hi⟩ := b
    cases ks with
    | nil => simp [vals]
    | cons k ks =>
      by_cases he : lo = hi
      · subst he
        simp only [vals, if_true]
        cases i with
        | zero => simp
        | succ i => simpa using ih ks i
      · simp only [vals, if_neg he]
        cases i with
        | zero =>
          simp only [List.getD_cons_zero]
          exact (measurable_drawn lo hi).comp (measurable_pi_apply k)
        | succ i =>
          simp only [List.getD_cons_succ]
          exact (ih ks i).comp (measurable_pi_lambda _ fun j => measurable_pi_apply (j + (k + 1)))

theorem measurable_reads {E : FloatEnv ℝ} (bs : Marked) (ks : List ℕ) : MeasurableSet {ζ : ℕ → ℝ | Reads E bs ks ζ} := by
  induction bs generalizing ks with
  | nil => cases ks <;> simp [Reads]
  | cons b bs ih =>
    obtain ⟨m, lo, hi⟩ := b
    cases ks with
    | nil => simp [Reads]
    | cons k ks =>
      by_cases he : lo = hi
      · subst he
        simp only [Reads, if_true]
        by_cases hk : k = 0
        · simpa [hk] using ih ks
        · simp [hk]
      · simp only [Reads, if_neg he]
        have hset : {ζ : ℕ → ℝ | (∀ i < k, drawn E lo hi (ζ i) ≤ 0) ∧ 0 < drawn E lo hi (ζ k) ∧ Reads E bs ks (fun i => ζ (i + (k + 1)))} =
            (⋂ i, ⋂ (_ : i < k), {ζ : ℕ → ℝ | drawn E lo hi (ζ i) ≤ 0}) ∩
              ({ζ : ℕ → ℝ | 0 < drawn E lo hi (ζ k)} ∩ (fun (ζ : ℕ → ℝ) i => ζ (i + (k + 1))) ⁻¹' {ζ | Reads E bs ks ζ}) := by
          ext ζ
          simp
        rw [hset]
        refine .inter (.iInter fun i => .iInter fun _ => ?_) (.inter ?_ ?_)
        · exact measurableSet_le ((measurable_drawn lo hi).comp (measurable_pi_apply i)) measurable_const
        · exact measurableSet_lt measurable_const ((measurable_drawn lo hi).comp (measurable_pi_apply k))
        · exact (measurable_pi_lambda _ fun j => measurable_pi_apply (j + (k + 1)) : Measurable fun (ζ : ℕ → ℝ) i => ζ (i + (k + 1))) (ih ks)

theorem measurable_mirror {E : FloatEnv ℝ} (lo hi : ℝ) : Measurable (mirror E lo hi) := by
  refine Measurable.ite ?_ measurable_neg measurable_id
  exact .inter (measurableSet_lt measurable_const (measurable_drawn lo hi))
    (measurableSet_lt measurable_const ((measurable_drawn lo hi).comp measurable_neg))

/-- Mirroring keeps a symmetric law. -/
theorem map_mirror {E : FloatEnv ℝ} (lo hi : ℝ) {ν : Measure ℝ} (hν : ν.map (fun x => -x) = ν) :
    ν.map (mirror E lo hi) = ν := by
  ext A hA
  rw [Measure.map_apply (measurable_mirror lo hi) hA]
  set C : Set ℝ := {z | 0 < drawn E lo hi z ∧ 0 < drawn E lo hi (-z)} with hC
  have hCm : MeasurableSet C := .inter (measurableSet_lt measurable_const (measurable_drawn lo hi))
    (measurableSet_lt measurable_const ((measurable_drawn lo hi).comp measurable_neg))
  have hneg : (fun x : ℝ => -x) ⁻¹' (A ∩ C) = mirror E lo hi ⁻¹' A ∩ C := by
    ext z
    simp only [Set.mem_preimage, Set.mem_inter_iff, hC, Set.mem_ofPred_eq, neg_neg, mirror]
    constructor
    · rintro ⟨h1, h2, h3⟩
      exact ⟨by rwa [if_pos ⟨h3, h2⟩], h3, h2⟩
    · rintro ⟨h1, h2, h3⟩
      rw [if_pos ⟨h2, h3⟩] at h1
      exact ⟨h1, h3, h2⟩
  have hid : mirror E lo hi ⁻¹' A \ C = A \ C := by
    ext z
    simp only [Set.mem_preimage, Set.mem_sdiff, hC, Set.mem_ofPred_eq, mirror]
    constructor
    · rintro ⟨h1, h2⟩
      rw [if_neg h2] at h1
      exact ⟨h1, h2⟩
    · rintro ⟨h1, h2⟩
      exact ⟨by rwa [if_neg h2], h2⟩
  rw [← measure_inter_add_sdiff (mirror E lo hi ⁻¹' A) hCm, hid, ← hneg, ← Measure.map_apply measurable_neg (hA.inter hCm), hν,
    measure_inter_add_sdiff A hCm]

theorem measurable_mirrorAt {E : FloatEnv ℝ} (bs : Marked) (ks : List ℕ) (i : ℕ) :
    Measurable (mirrorAt E bs ks i) ∧ ∀ ν : Measure ℝ, ν.map (fun x => -x) = ν → ν.map (mirrorAt E bs ks i) = ν := by
  induction bs generalizing ks i with
  | nil => simp [mirrorAt, measurable_id]
  | cons b bs ih =>
    obtain ⟨m, lo, hi⟩ := b
    cases ks with
    | nil => simp [mirrorAt, measurable_id]
    | cons k ks =>
      unfold mirrorAt
      split_ifs
      · exact ih ks i
      · exact ⟨measurable_id, fun ν _ => Measure.map_id⟩
      · exact ⟨measurable_mirror lo hi, fun ν hν => map_mirror lo hi hν⟩
      · exact ⟨measurable_id, fun ν _ => Measure.map_id⟩
      · exact ih ks _

/-- A stream with infinitely many non-negative numbers can be sampled. -/
theorem reads_exists {E : FloatEnv ℝ} (hE : E.IsExact) {bs : Marked} (hbs : ∀ b ∈ bs, 0 < b.2.1 ∧ b.2.1 ≤ b.2.2) {ζ : ℕ → ℝ}
    (hζ : ∀ n, ∃ i ≥ n, 0 ≤ ζ i) : ∃ ks, Reads E bs ks ζ := by
  classical
  induction bs generalizing ζ with
  | nil => exact ⟨[], trivial⟩
  | cons b bs ih =>
    obtain ⟨m, lo, hi⟩ := b
    have ih := @ih (fun b hb => hbs b (by simp [hb]))
    obtain ⟨h0, hle⟩ : 0 < lo ∧ lo ≤ hi := hbs _ (List.mem_cons_self ..)
    by_cases he : lo = hi
    · obtain ⟨ks, h⟩ := ih hζ
      exact ⟨0 :: ks, by simp [Reads, he, h]⟩
    · have hex : ∃ k, 0 < drawn E lo hi (ζ k) := by
        obtain ⟨k, _, hk⟩ := hζ 0
        refine ⟨k, ?_⟩
        rw [drawn_exact hE]
        have : 0 ≤ ζ k * ((hi - lo) / 4) := mul_nonneg hk (by linarith)
        linarith
      obtain ⟨ks, h⟩ := ih (ζ := fun i => ζ (i + (Nat.find hex + 1))) fun n => by
        obtain ⟨i, hi1, hi2⟩ := hζ (n + (Nat.find hex + 1))
        exact ⟨i - (Nat.find hex + 1), by omega, by simpa [Nat.sub_add_cancel (by omega : Nat.find hex + 1 ≤ i)] using hi2⟩
      refine ⟨Nat.find hex :: ks, ?_⟩
      simp only [Reads, if_neg he]
      exact ⟨fun i hi' => not_lt.1 (Nat.find_min hex hi'), Nat.find_spec hex, h⟩

variable {Ω : Type} [MeasurableSpace Ω] {P : Measure Ω} {Z : ℕ → Ω → ℝ}

theorem nonneg_infinitely_often [IsProbabilityMeasure P] (hm : ∀ i, Measurable (Z i)) (hi : iIndepFun Z P)
    (hs : ∀ i, (P.map (Z i)).map (fun x => -x) = P.map (Z i)) : ∀ᵐ ω ∂P, ∀ n, ∃ i ≥ n, 0 ≤ Z i ω := by
  have hh : ∀ i, 1 / 2 ≤ P (Z i ⁻¹' Set.Ici 0) := by
    intro i
    have h1 : P (Z i ⁻¹' Set.Iic 0) = P (Z i ⁻¹' Set.Ici 0) := by
      rw [← Measure.map_apply (hm i) measurableSet_Iic, ← Measure.map_apply (hm i) measurableSet_Ici]
      conv_rhs => rw [← hs i, Measure.map_apply measurable_neg measurableSet_Ici]
      congr 1
      ext x
      simp
    have h2 : (1 : ENNReal) ≤ P (Z i ⁻¹' Set.Iic 0) + P (Z i ⁻¹' Set.Ici 0) := by
      rw [← measure_univ (μ := P)]
      refine (measure_mono ?_).trans (measure_union_le _ _)
      intro ω _
      exact le_total (Z i ω) 0
    rw [h1, ← two_mul] at h2
    exact ENNReal.div_le_of_le_mul' h2
  have hl := measure_limsup_eq_one (μ := P) (s := fun i => Z i ⁻¹' Set.Ici 0) (fun i => hm i measurableSet_Ici) ?_ ?_
  · have hset : Filter.limsup (fun i => Z i ⁻¹' Set.Ici 0) Filter.atTop = {ω | ∀ n, ∃ i ≥ n, 0 ≤ Z i ω} := by
      rw [Filter.limsup_eq_iInf_iSup_of_nat]
      ext ω
      simp
    rw [hset] at hl
    refine (mem_ae_iff_prob_eq_one ?_).2 hl
    rw [← hset]
    exact MeasurableSet.measurableSet_limsup fun i => hm i measurableSet_Ici
  · rw [iIndepSet_iff_meas_biInter fun i => hm i measurableSet_Ici]
    intro S
    exact hi.measure_inter_preimage_eq_mul S fun i _ => measurableSet_Ici
  · refine top_le_iff.1 ?_
    rw [← ENNReal.tsum_const_eq_top_of_ne_zero (α := ℕ) (c := 1 / 2) (by simp)]
    exact ENNReal.tsum_le_tsum hh

/-- If of each stream and the mirrored one, one is good, then a random stream is good with probability at least one half. -/
theorem half_chance [IsProbabilityMeasure P] (hm : ∀ i, Measurable (Z i)) (hi : iIndepFun Z P)
    (hs : ∀ i, (P.map (Z i)).map (fun x => -x) = P.map (Z i)) {E : FloatEnv ℝ} (hE : E.IsExact) {bs : Marked}
    (hbs : ∀ b ∈ bs, 0 < b.2.1 ∧ b.2.1 ≤ b.2.2) {good : List ℝ → Prop}
    (hgm : ∀ ks, MeasurableSet {ζ : ℕ → ℝ | good (vals E bs ks ζ)})
    (hpair : ∀ ks ζ, Reads E bs ks ζ → ¬ good (vals E bs ks ζ) → good (vals E bs ks (mirrored E bs ks ζ))) :
    1 / 2 ≤ P {ω | ∃ ks, Reads E bs ks (fun i => Z i ω) ∧ good (vals E bs ks (fun i => Z i ω))} := by
  have hZm : Measurable (fun ω i => Z i ω) := measurable_pi_lambda _ hm
  set μ := P.map (fun ω i => Z i ω) with hμ
  have hμp : IsProbabilityMeasure μ := Measure.isProbabilityMeasure_map hZm.aemeasurable
  have hμi : μ = Measure.infinitePi fun i => P.map (Z i) := hi.map_fun_eq_infinitePi_map hm
  have hpi : ∀ i, IsProbabilityMeasure (P.map (Z i)) := fun i => Measure.isProbabilityMeasure_map (hm i).aemeasurable
  have hmir : ∀ ks, Measurable (mirrored E bs ks) ∧ μ.map (mirrored E bs ks) = μ := by
    intro ks
    constructor
    · exact measurable_pi_lambda _ fun i => (measurable_mirrorAt bs ks i).1.comp (measurable_pi_apply i)
    · rw [hμi]
      have := Measure.infinitePi_map_pi (μ := fun i => P.map (Z i)) (f := fun i => mirrorAt E bs ks i) fun i => (measurable_mirrorAt bs ks i).1
      unfold mirrored
      rw [this]
      congr 1
      funext i
      exact (measurable_mirrorAt bs ks i).2 _ (hs i)
  let G : List ℕ → Set (ℕ → ℝ) := fun ks => {ζ | Reads E bs ks ζ} ∩ {ζ | good (vals E bs ks ζ)}
  let B : List ℕ → Set (ℕ → ℝ) := fun ks => {ζ | Reads E bs ks ζ} ∩ {ζ | good (vals E bs ks ζ)}ᶜ
  have hGm : ∀ ks, MeasurableSet (G ks) := fun ks => (measurable_reads bs ks).inter (hgm ks)
  have hBG : ∀ ks, μ (B ks) ≤ μ (G ks) := by
    intro ks
    rw [← (hmir ks).2, Measure.map_apply (hmir ks).1 (hGm ks), (hmir ks).2]
    refine measure_mono fun ζ hζ => ?_
    exact ⟨Reads.mirrored hζ.1, hpair ks ζ hζ.1 hζ.2⟩
  have hdis : Pairwise (Function.onFun Disjoint G) := by
    intro ks ks' hne
    refine Set.disjoint_left.2 fun ζ h1 h2 => hne (Reads.unique h1.1 h2.1)
  have hle : μ (⋃ ks, B ks) ≤ μ (⋃ ks, G ks) := by
    rw [measure_iUnion hdis hGm]
    exact (measure_iUnion_le _).trans (ENNReal.tsum_le_tsum hBG)
  have hall : μ ((⋃ ks, B ks) ∪ ⋃ ks, G ks) = 1 := by
    have hBm : MeasurableSet (⋃ ks, B ks) := .iUnion fun ks => (measurable_reads bs ks).inter (hgm ks).compl
    have hU : MeasurableSet ((⋃ ks, B ks) ∪ ⋃ ks, G ks) := hBm.union (.iUnion hGm)
    rw [hμ, Measure.map_apply hZm hU]
    refine (mem_ae_iff_prob_eq_one (hZm hU)).1 ?_
    filter_upwards [nonneg_infinitely_often hm hi hs] with ω hω
    obtain ⟨ks, h⟩ := reads_exists hE hbs hω
    by_cases hg : good (vals E bs ks fun i => Z i ω)
    · exact Or.inr (Set.mem_iUnion.2 ⟨ks, h, hg⟩)
    · exact Or.inl (Set.mem_iUnion.2 ⟨ks, h, hg⟩)
  have h1 : (1 : ENNReal) ≤ 2 * μ (⋃ ks, G ks) := by
    rw [← hall, two_mul]
    exact (measure_union_le _ _).trans (add_le_add_left hle _)
  have h2 := ENNReal.div_le_of_le_mul' h1
  refine h2.trans (le_of_eq ?_)
  rw [hμ, Measure.map_apply hZm (.iUnion hGm)]
  congr 1
  ext ω
  simp [G]

/-- The makespan is a measurable function of performances and durations. -/
theorem measurable_makespanValue {X : Type} [MeasurableSpace X] {E : FloatEnv ℝ} (sp : ScheduleParams ℝ) {perf dur : X → List ℝ}
    (hp : ∀ i, Measurable fun x => (perf x).getD i 0) (hd : ∀ i, Measurable fun x => (dur x).getD i 0) (m : ℕ) (s : List Item) :
    Measurable fun x => makespanValue E (sp.sampled (perf x) (dur x)) m s := by
  have hmax : ∀ (l : List ℕ) (f : X → ℕ → ℝ), (∀ i, Measurable fun x => f x i) → Measurable fun x => maxOf (l.map (f x)) := by
    intro l f hf
    cases l with
    | nil => simp [maxOf]
    | cons a l =>
      simp only [List.map_cons, maxOf]
      have : ∀ (l : List ℕ) (g : X → ℝ), Measurable g → Measurable fun x => (l.map (f x)).foldl max (g x) := by
        intro l
        induction l with
        | nil => exact fun g hg => by simpa using hg
        | cons b l ih => exact fun g hg => by simpa using ih _ (hg.max (hf b))
      exact this l _ (hf a)
  have hrun : ∀ (s : List Item) (f w : X → ℕ → ℝ), (∀ i, Measurable fun x => f x i) → (∀ i, Measurable fun x => w x i) →
      ∀ i, Measurable fun x => (runF E (sp.sampled (perf x) (dur x)) s (f x) (w x)).2 i := by
    intro s
    induction s with
    | nil => exact fun f w _ hw => hw
    | cons it s ih =>
      intro f w hf hw
      have hend : Measurable fun x => endTime E (sp.sampled (perf x) (dur x)) (f x) (w x) it := by
        simp only [endTime, startTime, FloatEnv.add, ScheduleParams.itemTime, FloatEnv.div]
        refine (measurable_rnd E).comp (Measurable.add (Measurable.max ?_ (hw _)) ((measurable_rnd E).comp ?_))
        · exact hmax (sp.deps it.task) f hf
        · exact (hd it.task).div (hp it.agent)
      refine ih _ _ ?_ ?_
      · intro i
        by_cases h : i = it.task
        · subst h
          simpa using hend
        · simpa [Function.update_of_ne h] using hf i
      · intro i
        by_cases h : i = it.agent
        · subst h
          simpa using hend
        · simpa [Function.update_of_ne h] using hw i
  exact hmax _ _ (hrun s _ _ (fun _ => measurable_const) (fun _ => measurable_const))

end Stream
end Angonoka
