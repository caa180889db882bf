import Verif.Props.Histogram
import Verif.Spec.Visualizer

/-!
# C70: the visualizer's histogram
-/

set_option linter.unusedSectionVars false

namespace Angonoka.Props
open Angonoka Outcome Visualizer

variable {K : Type} [Field K] [LinearOrder K] [IsStrictOrderedRing K]

/-! ### Positions -/

theorem mem_range {start stop step i : Int} (h : 1 ≤ step) :
    i ∈ Visualizer.range start stop step ↔ step ∣ i - start ∧ start ≤ i ∧ i < stop := by
  unfold Visualizer.range
  rw [List.mem_map]
  constructor
  · rintro ⟨k, hk, rfl⟩
    rw [List.mem_range] at hk
    have h1 : (k : Int) + 1 ≤ (stop - start + step - 1) / step := by omega
    have h2 := (Int.le_ediv_iff_mul_le (by omega)).1 h1
    have h3 : 0 ≤ (k : Int) * step := by positivity
    refine ⟨⟨k, by ring⟩, by omega, ?_⟩
    nlinarith
  · rintro ⟨⟨k, hk⟩, h1, h2⟩
    have hk0 : 0 ≤ k := by
      by_contra hneg
      have : step * k < 0 := Int.mul_neg_of_pos_of_neg (by omega) (by omega)
      omega
    refine ⟨k.toNat, ?_, ?_⟩
    · rw [List.mem_range]
      have : k + 1 ≤ (stop - start + step - 1) / step := by
        rw [Int.le_ediv_iff_mul_le (by omega)]
        have : (k + 1) * step = step * k + step := by ring
        omega
      omega
    · rw [Int.toNat_of_nonneg hk0, Int.mul_comm]
      omega

theorem range_ascending {start stop step : Int} (h : 1 ≤ step) :
    (Visualizer.range start stop step).Pairwise (· < ·) := by
  unfold Visualizer.range
  rw [List.pairwise_map]
  refine List.pairwise_lt_range.imp fun {a b} hab => ?_
  have : (a : Int) * step < b * step := Int.mul_lt_mul_of_pos_right (by exact_mod_cast hab) (by omega)
  omega

/-! ### Counts -/

/-- The array of bins in the JSON -/
def pairs (bins : List Bin) : List (Int × Int) := bins.map fun b => (b.low, b.count)

theorem lookup_of_mem {l : List (Int × Int)} (h : (l.map Prod.fst).Nodup) {k c : Int} (hm : (k, c) ∈ l) :
    l.lookup k = some c := by
  induction l with
  | nil => cases hm
  | cons x l ih =>
    rw [List.map_cons, List.nodup_cons] at h
    rw [List.lookup_cons]
    rcases List.mem_cons.1 hm with rfl | hm
    · simp
    · have : k ≠ x.1 := by
        rintro rfl
        exact h.1 (List.mem_map.2 ⟨_, hm, rfl⟩)
      simp only [beq_eq_false_iff_ne.2 this]
      exact ih h.2 hm

theorem lookup_none {l : List (Int × Int)} {k : Int} (h : ∀ c, (k, c) ∉ l) : l.lookup k = none := by
  rw [List.lookup_eq_none_iff]
  intro p hp
  rw [bne_iff_ne]
  rintro rfl
  exact h p.2 hp

section
variable {w : Int} {vs : List Int} {bins : List Bin}

theorem lows_nodup (hw : 1 ≤ w) (hd : Describes w vs bins) : ((pairs bins).map Prod.fst).Nodup := by
  unfold pairs
  rw [List.map_map, List.nodup_iff_pairwise_ne, List.pairwise_map]
  have := hd.ascending
  have h2 : bins.Pairwise fun a b => a.low < b.low := by
    refine (List.pairwise_iff_forall_sublist.2 ?_)
    intro a b hab
    have h3 := List.pairwise_iff_forall_sublist.1 this hab
    have := (hd.width a (hab.subset (by simp))).1
    omega
  exact h2.imp fun h => by
    simp only [Function.comp_apply]
    omega

/-- The number of values from `i` on, below `i + w` -/
theorem get_pairs (hw : 1 ≤ w) (hd : Describes w vs bins) {i : Int} (hi : w ∣ i) :
    get (pairs bins) i = if 0 < vs.countP (fun v => i ≤ v ∧ v < i + w) then
      some ((vs.countP fun v => i ≤ v ∧ v < i + w : Nat) : Int) else none := by
  unfold Visualizer.get
  have hnd : ((pairs bins).reverse.map Prod.fst).Nodup := by
    rw [List.map_reverse, List.nodup_reverse]
    exact lows_nodup hw hd
  split
  · rename_i h
    obtain ⟨v, hv, hvi⟩ := List.countP_pos_iff.1 h
    simp only [decide_eq_true_eq] at hvi
    obtain ⟨b, hb, hbv⟩ := hd.covers v hv
    obtain ⟨h1, h2⟩ := hd.width b hb
    have hlow : b.low = i := by
      obtain ⟨x, hx⟩ := h2
      obtain ⟨y, hy⟩ := hi
      have := hbv.1
      have := hbv.2
      have e1 : w * x < w * (y + 1) := by rw [Int.mul_add]; omega
      have e2 : w * y < w * (x + 1) := by rw [Int.mul_add]; omega
      have e3 := Int.lt_of_mul_lt_mul_left e1 (by omega)
      have e4 := Int.lt_of_mul_lt_mul_left e2 (by omega)
      have : x = y := by omega
      rw [hx, hy, this]
    apply lookup_of_mem hnd
    rw [List.mem_reverse]
    unfold pairs
    refine List.mem_map.2 ⟨b, hb, ?_⟩
    rw [hd.counts b hb, hlow]
    simp only [Prod.mk.injEq, true_and, Bin.Contains, h1, hlow]
  · rename_i h
    apply lookup_none
    intro c hc
    rw [List.mem_reverse] at hc
    unfold pairs at hc
    obtain ⟨b, hb, he⟩ := List.mem_map.1 hc
    have h1 := hd.positive b hb
    have h2 := hd.counts b hb
    have h3 := (hd.width b hb).1
    simp only [Prod.mk.injEq] at he
    apply h
    rw [← he.1]
    simp only [Bin.Contains, h3] at h2
    omega

theorem foldl_max_le {l : List Int} {a m : Int} (ha : a ≤ m) (h : ∀ x ∈ l, x ≤ m) : l.foldl max a ≤ m := by
  induction l generalizing a with
  | nil => exact ha
  | cons x l ih =>
    rw [List.foldl_cons]
    exact ih (max_le ha (h x (by simp))) fun y hy => h y (by simp [hy])

theorem le_foldl_max {l : List Int} {a : Int} : a ≤ l.foldl max a ∧ ∀ x ∈ l, x ≤ l.foldl max a := by
  induction l generalizing a with
  | nil => simp
  | cons x l ih =>
    rw [List.foldl_cons]
    obtain ⟨h1, h2⟩ := ih (a := max a x)
    refine ⟨(le_max_left _ _).trans h1, fun y hy => ?_⟩
    rcases List.mem_cons.1 hy with rfl | hy
    · exact (le_max_right _ _).trans h1
    · exact h2 y hy

theorem foldl_max_mem {l : List Int} {a : Int} : l.foldl max a = a ∨ l.foldl max a ∈ l := by
  induction l generalizing a with
  | nil => simp
  | cons x l ih =>
    rw [List.foldl_cons]
    rcases ih (a := max a x) with h | h
    · rw [h]
      rcases max_choice a x with h' | h' <;> rw [h'] <;> simp
    · exact .inr (by simp [h])

end

/-! ### The theorems -/

/-- A histogram with statistics: its bins, and the bins of the percentiles -/
theorem stats_bins {E : FloatEnv K} {w : Int} {vs : List Int} {h : Histogram} (hh : HistogramOf w vs h)
    {st : HistogramStats} (hs : stats E h = ok st) :
    ∃ bins, h.toList = ok bins ∧ Describes w vs bins ∧ bins ≠ [] ∧
      ∀ q x, (q, x) ∈ labels st → ∃ b ∈ bins, x = b.low + w / 2 ∧ b.high = b.low + w := by
  obtain ⟨_, _, _, _, bins, hl, hx⟩ := percentiles_ordered hh hs
  obtain ⟨hw, hi⟩ := hh.inv
  have hd := hi.describes hw
  rw [hi.toList hw] at hl
  cases hl
  refine ⟨_, hi.toList hw, hd, ?_, ?_⟩
  · intro h0
    obtain ⟨b, hb, _⟩ := hx st.p25 (by simp)
    rw [h0] at hb
    cases hb
  · intro q x hq
    obtain ⟨b, hb, he⟩ := hx x (by
      simp only [labels, List.mem_cons, Prod.mk.injEq, List.not_mem_nil, or_false] at hq
      rcases hq with ⟨_, rfl⟩ | ⟨_, rfl⟩ | ⟨_, rfl⟩ | ⟨_, rfl⟩ <;> simp)
    exact ⟨b, hb, by rw [he, hd.middle b hb], (hd.width b hb).1⟩

/-- The bars of the visualizer, for the JSON of the histogram -/
theorem bars_eq {D : FloatEnv K} {w : Int} {bins : List Bin} {st : HistogramStats} (hne : bins ≠ []) :
    ∃ b₀ rest, bins = b₀ :: rest ∧ bars D w (pairs bins) st
      = ok ((Visualizer.range b₀.low (st.p95 + w) w).map fun i => bar D (pairs bins) i (hintAt w st i)) := by
  cases bins with
  | nil => exact absurd rfl hne
  | cons b rest => exact ⟨b, rest, rfl, rfl⟩

/-- The bars of bins that describe values -/
theorem bars_describe {D : FloatEnv K} (hD : D.IsExact) {w : Int} (hw : 1 ≤ w) {vs : List Int} {bins : List Bin} (hd : Describes w vs bins)
    (hne : bins ≠ []) (st : HistogramStats) :
    ∃ (bs : List (Bar K)) (most : Nat), bars D w (bins.map fun b => (b.low, b.count)) st = ok bs ∧
      (bs.map Bar.key).Pairwise (· < ·) ∧
      (∀ i, i ∈ bs.map Bar.key ↔ w ∣ i ∧ (∃ v ∈ vs, v < i + w) ∧ i < st.p95 + w) ∧
      0 < most ∧ (∃ i, w ∣ i ∧ vs.countP (fun v => i ≤ v ∧ v < i + w) = most) ∧
      ∀ x ∈ bs, ∀ n, n = vs.countP (fun v => x.key ≤ v ∧ v < x.key + w) →
        n ≤ most ∧ x.share = 100 * (n : K) / vs.length ∧
        x.height = if n = 0 then none else some (99 * (n : K) / most + 1) := by
  obtain ⟨b₀, rest, hb, hbars⟩ := bars_eq (D := D) (w := w) (st := st) hne
  have hnn : ∀ b ∈ bins, 0 < b.count := hd.positive
  have hb0 : b₀ ∈ bins := by rw [hb]; simp
  -- the largest count
  have hmax := le_foldl_max (l := (pairs bins).map Prod.snd) (a := 0)
  have hmpos : 0 < maxCount (pairs bins) :=
    lt_of_lt_of_le (hnn b₀ hb0) (hmax.2 _ (by unfold pairs; rw [List.map_map]; exact List.mem_map.2 ⟨b₀, hb0, rfl⟩))
  obtain ⟨most, hmost⟩ := Int.eq_ofNat_of_zero_le hmpos.le
  have hbin : ∀ b ∈ bins, b.count = ((vs.countP fun v => b.low ≤ v ∧ v < b.low + w : Nat) : Int) := by
    intro b hb
    rw [hd.counts b hb]
    simp only [Bin.Contains, (hd.width b hb).1]
  refine ⟨_, most, hbars, ?_, ?_, by omega, ?_, ?_⟩
  · rw [List.map_map]
    have : (Bar.key ∘ fun i => bar D (pairs bins) i (hintAt w st i)) = id := rfl
    rw [this, List.map_id]
    exact range_ascending hw
  · intro i
    rw [List.map_map]
    have : (Bar.key ∘ fun i => bar D (pairs bins) i (hintAt w st i)) = id := rfl
    rw [this, List.map_id, mem_range hw]
    obtain ⟨hw0, hdvd⟩ := hd.width b₀ hb0
    constructor
    · rintro ⟨h1, h2, h3⟩
      refine ⟨by have := Int.dvd_add h1 hdvd; simpa using this, ?_, h3⟩
      have h4 := hnn b₀ hb0
      rw [hd.counts b₀ hb0] at h4
      obtain ⟨v, hv, hvb⟩ := List.countP_pos_iff.1 (by omega : 0 < vs.countP fun v => b₀.Contains v)
      simp only [decide_eq_true_eq] at hvb
      exact ⟨v, hv, by have := hvb.2; omega⟩
    · rintro ⟨h1, ⟨v, hv, hvi⟩, h3⟩
      refine ⟨Int.dvd_sub h1 hdvd, ?_, h3⟩
      obtain ⟨b, hbm, hbv⟩ := hd.covers v hv
      have hle : b₀.low ≤ b.low := by
        have := hd.ascending
        rw [hb, List.pairwise_cons] at this
        rw [hb] at hbm
        rcases List.mem_cons.1 hbm with rfl | hbm
        · exact le_rfl
        · have := this.1 b hbm
          omega
      have h5 := hbv.1
      obtain ⟨x, hx⟩ := hdvd
      obtain ⟨y, hy⟩ := h1
      have e1 : w * x < w * (y + 1) := by rw [Int.mul_add]; omega
      have e3 := Int.lt_of_mul_lt_mul_left e1 (by omega)
      have e4 : w * x ≤ w * y := Int.mul_le_mul_of_nonneg_left (by omega) (by omega)
      omega
  · rcases foldl_max_mem (l := (pairs bins).map Prod.snd) (a := 0) with h0 | h0
    · unfold maxCount at hmpos
      omega
    · unfold pairs at h0
      rw [List.map_map] at h0
      obtain ⟨b, hb, he⟩ := List.mem_map.1 h0
      refine ⟨b.low, (hd.width b hb).2, ?_⟩
      have h1 := hbin b hb
      have h2 : b.count = maxCount (pairs bins) := by
        unfold maxCount pairs
        rw [List.map_map]
        exact he
      omega
  · rintro x hx n rfl
    obtain ⟨i, hi, rfl⟩ := List.mem_map.1 hx
    have hdvd : w ∣ i := by
      have h1 := ((mem_range hw).1 hi).1
      have := Int.dvd_add h1 (hd.width b₀ hb0).2
      simpa using this
    have hget := get_pairs hw hd hdvd
    have htot : ((pairs bins).map Prod.snd).sum = vs.length := by
      have := hd.total hw
      unfold pairs
      rw [List.map_map]
      exact this
    change (vs.countP fun v => i ≤ v ∧ v < i + w) ≤ most ∧ (bar D (pairs bins) i (hintAt w st i)).share
      = 100 * ((vs.countP fun v => i ≤ v ∧ v < i + w : Nat) : K) / vs.length ∧ (bar D (pairs bins) i (hintAt w st i)).height
      = if (vs.countP fun v => i ≤ v ∧ v < i + w) = 0 then none else
        some (99 * ((vs.countP fun v => i ≤ v ∧ v < i + w : Nat) : K) / most + 1)
    unfold bar
    dsimp only
    rw [hget, htot, hmost]
    by_cases h0 : (vs.countP fun v => i ≤ v ∧ v < i + w) = 0
    · rw [h0]
      simp [FloatEnv.div, hD _]
    · have hpos : 0 < vs.countP fun v => i ≤ v ∧ v < i + w := Nat.pos_of_ne_zero h0
      rw [if_pos hpos, if_neg h0]
      refine ⟨?_, ?_, ?_⟩
      · have h1 : (i, ((vs.countP fun v => i ≤ v ∧ v < i + w : Nat) : Int)) ∈ pairs bins := by
          rw [if_pos hpos] at hget
          unfold Visualizer.get at hget
          obtain ⟨l₁, l₂, he, _⟩ := List.lookup_eq_some_iff.1 hget
          rw [← List.mem_reverse, he]
          simp
        have h2 := hmax.2 _ (List.mem_map_of_mem (f := Prod.snd) h1)
        unfold maxCount at hmost
        rw [hmost] at h2
        dsimp only at h2
        exact_mod_cast h2
      · simp [FloatEnv.div, hD _]
      · simp [FloatEnv.div, FloatEnv.add, hD _]

/-- C70, the bars, in exact arithmetic on the side of the visualizer. For a histogram of one or more values and its statistics, the visualizer draws bars at
the multiples of the bin size from the first bin until beyond the 95th percentile, in ascending order. The title of a bar is the percentage of values that lie
in it; a bar is transparent if there are none; otherwise its height is more than 1 and at most 100 percent, proportional to the
number of values above 1 percent, and 100 percent for the highest. -/
theorem bars_true {E D : FloatEnv K} (hD : D.IsExact) {w : Int} {vs : List Int} {h : Histogram} (hh : HistogramOf w vs h)
    {st : HistogramStats} (hs : stats E h = ok st) :
    ∃ (bins : List Bin) (bs : List (Bar K)) (most : Nat), h.toList = ok bins ∧ Describes w vs bins ∧
      bars D w (bins.map fun b => (b.low, b.count)) st = ok bs ∧
      (bs.map Bar.key).Pairwise (· < ·) ∧
      (∀ i, i ∈ bs.map Bar.key ↔ w ∣ i ∧ (∃ v ∈ vs, v < i + w) ∧ i < st.p95 + w) ∧
      0 < most ∧ (∃ i, w ∣ i ∧ vs.countP (fun v => i ≤ v ∧ v < i + w) = most) ∧
      ∀ x ∈ bs, ∀ n, n = vs.countP (fun v => x.key ≤ v ∧ v < x.key + w) →
        n ≤ most ∧ x.share = 100 * (n : K) / vs.length ∧
        x.height = if n = 0 then none else some (99 * (n : K) / most + 1) := by
  obtain ⟨bins, hl, hd, hne, _⟩ := stats_bins hh hs
  obtain ⟨bs, most, h⟩ := bars_describe hD hh.1 hd hne st
  exact ⟨bins, bs, most, hl, hd, h⟩

theorem hintAt_some {w : Int} {st : HistogramStats} {i : Int} {q : Nat} (h : hintAt w st i = some q) :
    ∃ x, (q, x) ∈ labels st ∧ x ≤ i ∧ i < x + w := by
  unfold hintAt at h
  obtain ⟨⟨a, x⟩, h1, h2⟩ := Option.map_eq_some_iff.1 h
  have h3 := List.find?_some h1
  have h4 := List.mem_of_find?_eq_some h1
  simp only [decide_eq_true_eq] at h3
  dsimp only at h2
  subst h2
  refine ⟨x, ?_, h3⟩
  simp only [labels, List.mem_cons, Prod.mk.injEq, List.not_mem_nil, or_false] at h4 ⊢
  tauto

theorem hintAt_ge {w : Int} {st : HistogramStats} {i : Int} {q : Nat} {y : Int} (h : (q, y) ∈ labels st) (h1 : y ≤ i)
    (h2 : i < y + w) : ∃ q', q ≤ q' ∧ hintAt w st i = some q' := by
  unfold hintAt
  by_cases c1 : st.p95 ≤ i ∧ i < st.p95 + w
  · refine ⟨95, ?_, by rw [List.find?_cons_of_pos (by simpa using c1)]; rfl⟩
    simp only [labels, List.mem_cons, Prod.mk.injEq, List.not_mem_nil, or_false] at h
    omega
  rw [List.find?_cons_of_neg (by simpa using c1)]
  by_cases c2 : st.p75 ≤ i ∧ i < st.p75 + w
  · refine ⟨75, ?_, by rw [List.find?_cons_of_pos (by simpa using c2)]; rfl⟩
    simp only [labels, List.mem_cons, Prod.mk.injEq, List.not_mem_nil, or_false] at h
    omega
  rw [List.find?_cons_of_neg (by simpa using c2)]
  by_cases c3 : st.p50 ≤ i ∧ i < st.p50 + w
  · refine ⟨50, ?_, by rw [List.find?_cons_of_pos (by simpa using c3)]; rfl⟩
    simp only [labels, List.mem_cons, Prod.mk.injEq, List.not_mem_nil, or_false] at h
    omega
  rw [List.find?_cons_of_neg (by simpa using c3)]
  by_cases c4 : st.p25 ≤ i ∧ i < st.p25 + w
  · refine ⟨25, ?_, by rw [List.find?_cons_of_pos (by simpa using c4)]; rfl⟩
    simp only [labels, List.mem_cons, Prod.mk.injEq, List.not_mem_nil, or_false] at h
    omega
  exfalso
  simp only [labels, List.mem_cons, Prod.mk.injEq, List.not_mem_nil, or_false] at h
  omega

theorem label_le {E : FloatEnv K} {w : Int} {vs : List Int} {h : Histogram} (hh : HistogramOf w vs h)
    {st : HistogramStats} (hs : stats E h = ok st) {q : Nat} {y : Int} (hq : (q, y) ∈ labels st) : y ≤ st.p95 := by
  obtain ⟨h1, h2, h3, _⟩ := percentiles_ordered hh hs
  simp only [labels, List.mem_cons, Prod.mk.injEq, List.not_mem_nil, or_false] at hq
  omega

/-- C70 in part: if the bins are one second wide, labels are right: a bar that is labelled with a percentile is the bar of the bin in which the
percentile lies, and the bar of every percentile is labelled, with the highest percentile in it. What is missing is every other bin size, see
`labels_wrong`. -/
theorem labels_right_partial {E D : FloatEnv K} {vs : List Int} {h : Histogram} (hh : HistogramOf 1 vs h)
    {st : HistogramStats} (hs : stats E h = ok st) :
    ∃ (bins : List Bin) (bs : List (Bar K)), h.toList = ok bins ∧
      bars D 1 (bins.map fun b => (b.low, b.count)) st = ok bs ∧
      (∀ x ∈ bs, ∀ q, x.hint = some q → ∃ b ∈ bins, (q, b.middle) ∈ labels st ∧ x.key = b.low) ∧
      (∀ b ∈ bins, ∀ q, (q, b.middle) ∈ labels st → ∃ x ∈ bs, x.key = b.low ∧ ∃ q', q ≤ q' ∧ x.hint = some q') ∧
      ∃ x ∈ bs, x.hint = some 95 := by
  obtain ⟨bins, hl, hd, hne, hp⟩ := stats_bins hh hs
  obtain ⟨b₀, rest, hb, hbars⟩ := bars_eq (D := D) (w := 1) (st := st) hne
  have hfirst : ∀ b ∈ bins, b₀.low ≤ b.low := by
    intro b hbm
    have := hd.ascending
    rw [hb, List.pairwise_cons] at this
    rw [hb] at hbm
    rcases List.mem_cons.1 hbm with rfl | hbm
    · omega
    · have h1 := this.1 b hbm
      have h2 := (hd.width b₀ (by rw [hb]; simp)).1
      omega
  refine ⟨bins, _, hl, hbars, ?_, ?_, ?_⟩
  · intro x hx q hq
    obtain ⟨i, hi, rfl⟩ := List.mem_map.1 hx
    obtain ⟨y, hy, h1, h2⟩ := hintAt_some hq
    obtain ⟨b, hb, he, _⟩ := hp q y hy
    refine ⟨b, hb, ?_, ?_⟩
    · rw [hd.middle b hb, ← he]
      exact hy
    · change i = b.low
      omega
  · intro b hbm q hq
    have hle := label_le hh hs hq
    have hm := hd.middle b hbm
    have h0 := hfirst b hbm
    refine ⟨_, List.mem_map.2 ⟨b.low, (mem_range le_rfl).2 ⟨Int.one_dvd _, by omega, by omega⟩, rfl⟩, rfl, ?_⟩
    exact hintAt_ge hq (by omega) (by omega)
  · obtain ⟨b, hbm, he, _⟩ := hp 95 st.p95 (by simp [labels])
    refine ⟨_, List.mem_map.2 ⟨st.p95, (mem_range le_rfl).2 ⟨Int.one_dvd _, ?_, by omega⟩, rfl⟩, ?_⟩
    · have := hd.ascending
      rw [hb, List.pairwise_cons] at this
      rw [hb] at hbm
      rcases List.mem_cons.1 hbm with rfl | hbm
      · omega
      · have h1 := this.1 b hbm
        have := (hd.width b₀ (by rw [hb]; simp)).1
        omega
    · change hintAt 1 st st.p95 = some 95
      unfold hintAt
      rw [List.find?_cons_of_pos (by simp)]
      rfl

/-- C70 is false for all other bin sizes, and for all histograms: every label is on the bar after that of the bin in which the percentile lies,
and there is one for every percentile, unless a higher one has the same bin. -/
theorem labels_wrong {E D : FloatEnv K} {w : Int} (hw2 : 2 ≤ w) {vs : List Int} {h : Histogram} (hh : HistogramOf w vs h)
    {st : HistogramStats} (hs : stats E h = ok st) :
    ∃ (bins : List Bin) (bs : List (Bar K)), h.toList = ok bins ∧
      bars D w (bins.map fun b => (b.low, b.count)) st = ok bs ∧
      (∀ x ∈ bs, ∀ q, x.hint = some q → ∃ b ∈ bins, (q, b.middle) ∈ labels st ∧ x.key = b.high) ∧
      (∀ b ∈ bins, ∀ q, (q, b.middle) ∈ labels st → ∃ x ∈ bs, x.key = b.high ∧ ∃ q', q ≤ q' ∧ x.hint = some q') ∧
      ∃ x ∈ bs, x.hint = some 95 := by
  obtain ⟨bins, hl, hd, hne, hp⟩ := stats_bins hh hs
  obtain ⟨b₀, rest, hb, hbars⟩ := bars_eq (D := D) (w := w) (st := st) hne
  have hw : 1 ≤ w := by omega
  have hb0 := hd.width b₀ (by rw [hb]; simp)
  have hfirst : ∀ b ∈ bins, b₀.low ≤ b.low := by
    intro b hbm
    have := hd.ascending
    rw [hb, List.pairwise_cons] at this
    rw [hb] at hbm
    rcases List.mem_cons.1 hbm with rfl | hbm
    · omega
    · have h1 := this.1 b hbm
      have h2 := (hd.width b₀ (by rw [hb]; simp)).1
      omega
  refine ⟨bins, _, hl, hbars, ?_, ?_, ?_⟩
  · intro x hx q hq
    obtain ⟨i, hi, rfl⟩ := List.mem_map.1 hx
    obtain ⟨y, hy, h1, h2⟩ := hintAt_some hq
    obtain ⟨b, hbm, he, hbh⟩ := hp q y hy
    refine ⟨b, hbm, ?_, ?_⟩
    · rw [hd.middle b hbm, ← he]
      exact hy
    · change i = b.high
      have hdvd : w ∣ i := by
        have h3 := ((mem_range hw).1 hi).1
        have := Int.dvd_add h3 hb0.2
        simpa using this
      obtain ⟨x, hx⟩ := hdvd
      obtain ⟨z, hz⟩ := (hd.width b hbm).2
      have e1 : w * z < w * x := by omega
      have e2 : w * x < w * (z + 2) := by rw [Int.mul_add]; omega
      have e3 := Int.lt_of_mul_lt_mul_left e1 (by omega)
      have e4 := Int.lt_of_mul_lt_mul_left e2 (by omega)
      have : x = z + 1 := by omega
      rw [hx, this, Int.mul_add, hbh, hz]
      omega
  · intro b hbm q hq
    have hle := label_le hh hs hq
    have hm := hd.middle b hbm
    have h0 := hfirst b hbm
    have hbh := (hd.width b hbm).1
    refine ⟨_, List.mem_map.2 ⟨b.high, (mem_range hw).2 ⟨?_, by omega, by omega⟩, rfl⟩, rfl, ?_⟩
    · rw [hbh]
      exact Int.dvd_sub (Int.dvd_add (hd.width b hbm).2 (Int.dvd_refl _)) hb0.2
    · exact hintAt_ge hq (by omega) (by omega)
  · obtain ⟨b, hbm, he, hbh⟩ := hp 95 st.p95 (by simp [labels])
    refine ⟨_, List.mem_map.2 ⟨b.high, (mem_range hw).2 ⟨?_, ?_, by omega⟩, rfl⟩, ?_⟩
    · rw [hbh]
      exact Int.dvd_sub (Int.dvd_add (hd.width b hbm).2 (Int.dvd_refl _)) hb0.2
    · have := hd.ascending
      rw [hb, List.pairwise_cons] at this
      rw [hb] at hbm
      rcases List.mem_cons.1 hbm with rfl | hbm
      · omega
      · have h1 := this.1 b hbm
        omega
    · change hintAt w st b.high = some 95
      unfold hintAt
      rw [List.find?_cons_of_pos (by simp; omega)]
      rfl

/-- The histogram of the five values 10, 70, 130, 190 and 250 with bins of a minute: bars and labels. The 95th percentile is in the bin from 240 to 300, the label on the
bar at 300. -/
example : stats FloatEnv.rat ⟨60, [(0, 1), (1, 1), (2, 1), (3, 1), (4, 1)]⟩ = ok ⟨90, 150, 210, 270, 270⟩ ∧
    (bars FloatEnv.rat 60 [(0, 1), (60, 1), (120, 1), (180, 1), (240, 1)] ⟨90, 150, 210, 270, 270⟩ =
      ok [⟨0, some 100, 20, none⟩, ⟨60, some 100, 20, none⟩, ⟨120, some 100, 20, some 25⟩, ⟨180, some 100, 20, some 50⟩,
        ⟨240, some 100, 20, some 75⟩, ⟨300, none, 0, some 95⟩]) := by
  constructor <;> decide +kernel

example : HistogramOf 60 [10, 70, 130, 190, 250] ⟨60, [(0, 1), (1, 1), (2, 1), (3, 1), (4, 1)]⟩ :=
  ⟨by decide, [.add 10, .add 70, .add 130, .add 190, .add 250], by simp, rfl, by decide +kernel⟩

example : HistogramOf 1 [3, 5] ⟨1, [(3, 1), (5, 1)]⟩ := ⟨by decide, [.add 3, .add 5], by simp, rfl, by decide +kernel⟩

end Angonoka.Props
