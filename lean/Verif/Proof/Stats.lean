import Verif.Model.Stats
import Verif.Proof.Histogram

/-!
# Percentile proofs
-/

set_option linter.unusedSectionVars false

namespace Angonoka
open Outcome

variable {K : Type} [Field K] [LinearOrder K] [IsStrictOrderedRing K]

/-! ### Cumulative counts -/

theorem cumulative_zero (bins : List Bin) : cumulative bins 0 = 0 := by simp [cumulative]

theorem cumulative_succ {bins : List Bin} {k : Nat} (h : k < bins.length) :
    cumulative bins (k + 1) = cumulative bins k + bins[k].count := by
  unfold cumulative
  rw [List.take_add_one, List.getElem?_eq_getElem h, List.map_append, List.sum_append]
  simp only [Option.toList_some, List.map_cons, List.map_nil, List.sum_singleton]

theorem cumulative_length (bins : List Bin) :
    cumulative bins bins.length = (bins.map Bin.count).sum := by
  simp [cumulative]

theorem cumulative_mono {bins : List Bin} (hpos : ∀ b ∈ bins, 0 < b.count) {i j : Nat} (h : i ≤ j) :
    cumulative bins i ≤ cumulative bins j := by
  induction j, h using Nat.le_induction with
  | base => exact le_rfl
  | succ j _ ih =>
    by_cases hj : j < bins.length
    · rw [cumulative_succ hj]
      have := hpos _ (List.getElem_mem hj)
      omega
    · have : cumulative bins (j + 1) = cumulative bins j := by
        unfold cumulative
        rw [List.take_of_length_le (by omega), List.take_of_length_le (by omega)]
      omega

/-- Counting the values in disjoint bins. -/
theorem countP_bins {vs : List Int} {l : List Bin} (h : l.Pairwise fun a b => a.high ≤ b.low)
    (hw : ∀ b ∈ l, b.low ≤ b.high) :
    ((l.map fun b => (vs.countP fun v => b.Contains v : Int)).sum) =
      vs.countP fun v => decide (∃ b ∈ l, b.Contains v) := by
  induction l with
  | nil => simp
  | cons b l ih =>
    obtain ⟨h1, h2⟩ := List.pairwise_cons.1 h
    rw [List.map_cons, List.sum_cons, ih h2 (fun b hb => hw b (by simp [hb]))]
    have key : ∀ us : List Int, (us.countP fun v => decide (b.Contains v))
        + (us.countP fun v => decide (∃ x ∈ l, x.Contains v))
        = us.countP fun v => decide (∃ x ∈ b :: l, x.Contains v) := by
      intro us
      induction us with
      | nil => rfl
      | cons u us ihu =>
        simp only [List.countP_cons, decide_eq_true_eq] at ihu ⊢
        have hex : (∃ x ∈ b :: l, x.Contains u) ↔ b.Contains u ∨ ∃ x ∈ l, x.Contains u := by simp
        by_cases hb : b.Contains u
        · have hno : ¬ ∃ x ∈ l, x.Contains u := by
            rintro ⟨x, hx, hxu⟩
            have := h1 x hx
            unfold Bin.Contains at hb hxu
            omega
          rw [if_pos hb, if_neg hno, if_pos (hex.2 (Or.inl hb))]
          omega
        · by_cases hx : ∃ x ∈ l, x.Contains u
          · rw [if_neg hb, if_pos hx, if_pos (hex.2 (Or.inr hx))]
            omega
          · have : ¬ ∃ x ∈ b :: l, x.Contains u := fun h => (hex.1 h).elim hb hx
            rw [if_neg hb, if_neg hx, if_neg this]
            omega
    have := key vs
    push_cast [← this]
    rfl

theorem Describes.cumulative_eq {w : Int} {vs : List Int} {bins : List Bin} (hw : 1 ≤ w)
    (h : Describes w vs bins) {i : Nat} (hi : i < bins.length) :
    cumulative bins (i + 1) = vs.countP fun v => decide (v < bins[i].high) := by
  have hsub : ∀ b ∈ bins.take (i + 1), b ∈ bins := fun b hb => List.mem_of_mem_take hb
  unfold cumulative
  rw [List.map_congr_left fun b hb => h.counts b (hsub b hb),
    countP_bins (h.ascending.sublist (List.take_sublist _ _))
      (fun b hb => by have := (h.width b (hsub b hb)).1; omega)]
  congr 1
  apply List.countP_congr
  intro v hv
  simp only [decide_eq_true_eq]
  have hasc := List.pairwise_iff_getElem.1 h.ascending
  constructor
  · rintro ⟨b, hb, hbv⟩
    obtain ⟨j, hj, rfl⟩ := List.mem_take_iff_getElem.1 hb
    have hj' : j < bins.length := by omega
    have h1 := hbv.2
    rcases Nat.lt_or_ge j i with hlt | hge
    · have := hasc j i hj' hi hlt
      have := (h.width _ (List.getElem_mem hi)).1
      omega
    · have : j = i := by omega
      subst this
      exact h1
  · intro hlt
    obtain ⟨b, hb, hbv⟩ := h.covers v hv
    obtain ⟨j, hj, rfl⟩ := List.getElem_of_mem hb
    refine ⟨bins[j], List.mem_take_iff_getElem.2 ⟨j, ?_, rfl⟩, hbv⟩
    by_cases hji : j ≤ i
    · omega
    · have := hasc i j hi hj (by omega)
      have := hbv.1
      omega

theorem Describes.total {w : Int} {vs : List Int} {bins : List Bin} (hw : 1 ≤ w)
    (h : Describes w vs bins) : (bins.map Bin.count).sum = vs.length := by
  rw [List.map_congr_left fun b hb => h.counts b hb,
    countP_bins h.ascending (fun b hb => by have := (h.width b hb).1; omega)]
  congr 1
  rw [List.countP_eq_length]
  intro v hv
  simpa using h.covers v hv

/-! ### The scan -/

/-- Whatever the rounding: a scan from position `i` ends at some position not before `i`. -/
theorem accumulateUntil_index {E : FloatEnv K} {bins : List Bin} {t c c' : K} {i : Nat} {s : Int}
    {rest : List Bin} (hi : i ≤ bins.length) (hn : bins ≠ [])
    (h : accumulateUntil E bins t (bins.drop i) c = ok (s, rest, c')) :
    ∃ j, ∃ hj : j < bins.length, min i (bins.length - 1) ≤ j ∧ s = bins[j].middle ∧
      rest = bins.drop (j + 1) := by
  have hpos := List.length_pos_iff.2 hn
  have hscan : ∀ (i : Nat) (c : K) hit rest c', i ≤ bins.length →
      scan E t (bins.drop i) c = ok (hit, rest, c') →
      (∃ j, ∃ hj : j < bins.length, i ≤ j ∧ hit = some bins[j] ∧ rest = bins.drop (j + 1)) ∨
        (hit = none ∧ rest = []) := by
    intro i c hit rest c' hi hs
    induction hk : bins.length - i generalizing i c with
    | zero =>
      rw [List.drop_of_length_le (by omega)] at hs
      cases hs
      exact Or.inr ⟨rfl, rfl⟩
    | succ k ih =>
      have hi' : i < bins.length := by omega
      rw [List.drop_eq_getElem_cons hi', scan] at hs
      obtain ⟨x, _, hs⟩ := bind_eq_ok.1 hs
      dsimp only at hs
      split at hs
      · cases hs
        exact Or.inl ⟨i, hi', le_rfl, rfl, rfl⟩
      · rcases ih (i + 1) _ (by omega) hs (by omega) with ⟨j, hj, h1, h2⟩ | h1
        · exact Or.inl ⟨j, hj, by omega, h2⟩
        · exact Or.inr h1
  unfold accumulateUntil at h
  obtain ⟨_, _, h⟩ := bind_eq_ok.1 h
  obtain ⟨⟨hit, r, x⟩, hs, h⟩ := bind_eq_ok.1 h
  have hsec : ∀ {v s : Int}, toSeconds v = ok s → s = v := by
    intro v s hv
    unfold toSeconds at hv
    obtain ⟨_, _, hv⟩ := bind_eq_ok.1 hv
    cases hv
    rfl
  rcases hscan i c hit r x hi hs with ⟨j, hj, h1, rfl, rfl⟩ | ⟨rfl, rfl⟩
  · dsimp only at h
    obtain ⟨s', hs', h⟩ := bind_eq_ok.1 h
    cases h
    exact ⟨j, hj, by omega, hsec hs', rfl⟩
  · dsimp only at h
    rw [List.getLast?_eq_getElem?, List.getElem?_eq_getElem (by omega)] at h
    dsimp only at h
    obtain ⟨s', hs', h⟩ := bind_eq_ok.1 h
    cases h
    refine ⟨bins.length - 1, by omega, by omega, hsec hs', ?_⟩
    rw [List.drop_of_length_le (by omega)]

theorem toFloat_ok {E : FloatEnv K} {b : Bin} (h : E.rnd (b.count : K) = (b.count : K)) :
    b.toFloat E = ok (b.count : K) := by
  unfold Bin.toFloat
  rw [if_pos (by simpa [FloatEnv.ofInt] using h)]

section exact
variable {E : FloatEnv K} {bins : List Bin}

theorem cumulative_bounds (hpos : ∀ b ∈ bins, 0 < b.count) (k : Nat) :
    0 ≤ cumulative bins k ∧ cumulative bins k ≤ (bins.map Bin.count).sum := by
  constructor
  · have := cumulative_mono hpos (Nat.zero_le k)
    rwa [cumulative_zero] at this
  · by_cases hk : k ≤ bins.length
    · have := cumulative_mono hpos hk
      rwa [cumulative_length] at this
    · unfold cumulative
      rw [List.take_of_length_le (by omega)]

theorem count_le_total (hpos : ∀ b ∈ bins, 0 < b.count) {b : Bin} (hb : b ∈ bins) :
    b.count ≤ (bins.map Bin.count).sum := by
  obtain ⟨i, hi, rfl⟩ := List.getElem_of_mem hb
  have h1 := cumulative_succ hi
  have h2 := (cumulative_bounds hpos i).1
  have h3 := (cumulative_bounds hpos (i + 1)).2
  omega

theorem accumulate_exact (hpos : ∀ b ∈ bins, 0 < b.count)
    (hE : CountsExact E (bins.map Bin.count).sum) :
    accumulate E bins 0 = ok (((bins.map Bin.count).sum : Int) : K) := by
  have key : ∀ k i, bins.length - i = k → i ≤ bins.length →
      accumulate E (bins.drop i) (cumulative bins i : K) = ok (((bins.map Bin.count).sum : Int) : K) := by
    intro k
    induction k with
    | zero =>
      intro i hk hi
      have : i = bins.length := by omega
      rw [List.drop_of_length_le (by omega), accumulate, this, cumulative_length]
    | succ k ih =>
      intro i hk hi
      have hi' : i < bins.length := by omega
      have hmem := List.getElem_mem hi'
      rw [List.drop_eq_getElem_cons hi', accumulate,
        toFloat_ok (hE _ (hpos _ hmem).le (count_le_total hpos hmem)), ok_bind]
      have hsum : E.add (bins[i].count : K) (cumulative bins i : K) = (cumulative bins (i + 1) : K) := by
        have hb := cumulative_bounds hpos (i + 1)
        have := hE _ hb.1 hb.2
        rw [FloatEnv.add, ← this]
        congr 1
        rw [cumulative_succ hi']
        push_cast
        ring
      rw [hsum]
      exact ih (i + 1) (by omega) (by omega)
  have := key bins.length 0 (by omega) (by omega)
  rwa [cumulative_zero, Int.cast_zero, List.drop_zero] at this

/-- An exact scan from position `i` ends at the first position from `i` on at which the threshold is
reached. -/
theorem scan_exact (hpos : ∀ b ∈ bins, 0 < b.count) (hE : CountsExact E (bins.map Bin.count).sum)
    (t : K) {i : Nat} (hi : i ≤ bins.length) :
    (∃ j, ∃ hj : j < bins.length, i ≤ j ∧ t ≤ (cumulative bins (j + 1) : K) ∧
        (∀ k, i ≤ k → k < j → (cumulative bins (k + 1) : K) < t) ∧
        scan E t (bins.drop i) (cumulative bins i : K)
          = ok (some bins[j], bins.drop (j + 1), (cumulative bins (j + 1) : K))) ∨
      ((∀ k, i ≤ k → k < bins.length → (cumulative bins (k + 1) : K) < t) ∧
        scan E t (bins.drop i) (cumulative bins i : K)
          = ok (none, [], (cumulative bins bins.length : K))) := by
  induction hk : bins.length - i generalizing i with
  | zero =>
    right
    have : i = bins.length := by omega
    subst this
    refine ⟨by omega, ?_⟩
    rw [List.drop_of_length_le (by omega), scan]
  | succ k ih =>
    have hi' : i < bins.length := by omega
    have hmem := List.getElem_mem hi'
    have hsum : E.add (cumulative bins i : K) (bins[i].count : K) = (cumulative bins (i + 1) : K) := by
      have hb := cumulative_bounds hpos (i + 1)
      have := hE _ hb.1 hb.2
      rw [FloatEnv.add, ← this]
      congr 1
      rw [cumulative_succ hi']
      push_cast
      ring
    have hstep : scan E t (bins.drop i) (cumulative bins i : K)
        = if t ≤ (cumulative bins (i + 1) : K) then
            ok (some bins[i], bins.drop (i + 1), (cumulative bins (i + 1) : K))
          else scan E t (bins.drop (i + 1)) (cumulative bins (i + 1) : K) := by
      rw [List.drop_eq_getElem_cons hi', scan,
        toFloat_ok (hE _ (hpos _ hmem).le (count_le_total hpos hmem)), ok_bind]
      simp only [hsum]
    by_cases ht : t ≤ (cumulative bins (i + 1) : K)
    · left
      exact ⟨i, hi', le_rfl, ht, by omega, by rw [hstep, if_pos ht]⟩
    · rw [hstep, if_neg ht]
      rcases ih (i := i + 1) (by omega) (by omega) with ⟨j, hj, h1, h2, h3, h4⟩ | ⟨h1, h2⟩
      · refine Or.inl ⟨j, hj, by omega, h2, ?_, h4⟩
        intro k hk1 hk2
        rcases Nat.eq_or_lt_of_le hk1 with rfl | hlt
        · exact lt_of_not_ge ht
        · exact h3 k hlt hk2
      · refine Or.inr ⟨?_, h2⟩
        intro k hk1 hk2
        rcases Nat.eq_or_lt_of_le hk1 with rfl | hlt
        · exact lt_of_not_ge ht
        · exact h1 k hlt hk2

/-- The position at which the code's scan for a threshold ends: `e` is the right one, `i` the position
where the scan starts. -/
def hitIndex (n e i : Nat) : Nat := min (n - 1) (max e i)

theorem accumulateUntil_exact (hpos : ∀ b ∈ bins, 0 < b.count) (hmid : ∀ b ∈ bins, 0 ≤ b.middle)
    (hE : CountsExact E (bins.map Bin.count).sum) {t : K} (ht : 0 ≤ t) {e i : Nat}
    (he : IsPercentile bins t e) (hi : i ≤ bins.length) :
    ∃ hj : hitIndex bins.length e i < bins.length,
      accumulateUntil E bins t (bins.drop i) (cumulative bins i : K)
        = ok (bins[hitIndex bins.length e i].middle, bins.drop (hitIndex bins.length e i + 1),
            (cumulative bins (hitIndex bins.length e i + 1) : K)) := by
  have hlen : 0 < bins.length := lt_of_le_of_lt (Nat.zero_le _) he.1
  have hj : hitIndex bins.length e i < bins.length := by unfold hitIndex; omega
  have hsec : ∀ b ∈ bins, toSeconds b.middle = ok b.middle := by
    intro b hb
    unfold toSeconds
    rw [expects_true (by simpa using hmid b hb), ok_bind]
    rfl
  refine ⟨hj, ?_⟩
  unfold accumulateUntil
  rw [expects_true (by simpa using ht), ok_bind]
  rcases scan_exact hpos hE t hi with ⟨j, hj', h1, h2, h3, h4⟩ | ⟨h1, h2⟩
  · have hje : e ≤ j := by
      by_contra hlt
      have := he.2.2 j (by omega)
      exact absurd h2 (not_le.2 this)
    have hjm : j = hitIndex bins.length e i := by
      unfold hitIndex
      by_contra hne
      have hlt : max e i < j := by omega
      have := h3 (max e i) (le_max_right _ _) hlt
      have hm : cumulative bins (e + 1) ≤ cumulative bins (max e i + 1) :=
        cumulative_mono hpos (by omega)
      have hm' : (cumulative bins (e + 1) : K) ≤ (cumulative bins (max e i + 1) : K) := by
        exact_mod_cast hm
      exact absurd (lt_of_le_of_lt (he.2.1.trans hm') this) (lt_irrefl _)
    rw [h4, ok_bind]
    dsimp only
    rw [hsec _ (List.getElem_mem hj'), ok_bind]
    subst hjm
    rfl
  · have hin : i = bins.length := by
      by_contra hne
      have hlt := h1 (max e i) (le_max_right _ _) (by have := he.1; omega)
      have hm : cumulative bins (e + 1) ≤ cumulative bins (max e i + 1) :=
        cumulative_mono hpos (by omega)
      have hm' : (cumulative bins (e + 1) : K) ≤ (cumulative bins (max e i + 1) : K) := by
        exact_mod_cast hm
      exact absurd (lt_of_le_of_lt (he.2.1.trans hm') hlt) (lt_irrefl _)
    have hjm : hitIndex bins.length e i = bins.length - 1 := by unfold hitIndex; omega
    have hj1 : hitIndex bins.length e i + 1 = bins.length := by omega
    rw [h2, ok_bind]
    dsimp only
    rw [List.getLast?_eq_getElem?, List.getElem?_eq_getElem (by omega)]
    dsimp only
    rw [hsec _ (List.getElem_mem (by omega)), ok_bind, hj1]
    simp only [hjm, List.drop_length, pure_eq]

/-- Every threshold up to the total is reached somewhere. -/
theorem exists_percentile {t : K} (hn : bins ≠ []) (ht : t ≤ (((bins.map Bin.count).sum : Int) : K)) :
    ∃ e, IsPercentile bins t e := by
  have hlen := List.length_pos_iff.2 hn
  have hex : ∃ k, t ≤ (cumulative bins (k + 1) : K) := by
    refine ⟨bins.length - 1, ?_⟩
    rw [Nat.sub_add_cancel hlen, cumulative_length]
    exact ht
  classical
  refine ⟨Nat.find hex, ?_, Nat.find_spec hex, fun k hk => lt_of_not_ge (Nat.find_min hex hk)⟩
  have : Nat.find hex ≤ bins.length - 1 := Nat.find_min' hex (by
    rw [Nat.sub_add_cancel hlen, cumulative_length]
    exact ht)
  omega

end exact
end Angonoka
