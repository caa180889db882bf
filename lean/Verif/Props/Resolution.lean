import Verif.Props.Display
import Verif.Props.Estimate
import Mathlib.Algebra.Order.Group.Int

/-!
# C122: what the size of the bins changes
-/

set_option linter.unusedSectionVars false

namespace Angonoka.Props
open Outcome Stun Cli Doc

/-! ### Bins -/

/-- Values in one of several bins without overlap -/
theorem count_bins (vs : List Int) {bins : List Bin} (h : bins.Pairwise fun a b => a.high ≤ b.low) :
    ((vs.countP fun v => decide (∃ b ∈ bins, b.Contains v) : Nat) : Int) = (bins.map fun b => ((vs.countP fun v => b.Contains v : Nat) : Int)).sum := by
  induction bins with
  | nil => simp
  | cons a bins ih =>
    obtain ⟨h1, h2⟩ := List.pairwise_cons.1 h
    rw [List.map_cons, List.sum_cons, ← ih h2]
    clear ih
    induction vs with
    | nil => rfl
    | cons v vs ihv =>
      rw [List.countP_cons, List.countP_cons, List.countP_cons]
      by_cases ha : a.Contains v
      · have hno : ¬ ∃ b ∈ bins, b.Contains v := by
          rintro ⟨b, hb, hc⟩
          have := h1 b hb
          have := ha.2
          have := hc.1
          omega
        simp only [List.mem_cons, exists_eq_or_imp, ha, hno, or_false, decide_true, decide_false, if_true, Bool.false_eq_true, if_false] at ihv ⊢
        omega
      · by_cases hb : ∃ b ∈ bins, b.Contains v
        · simp only [List.mem_cons, exists_eq_or_imp, ha, hb, or_true, decide_true, decide_false, if_true, Bool.false_eq_true, if_false] at ihv ⊢
          omega
        · simp only [List.mem_cons, exists_eq_or_imp, ha, hb, or_false, decide_false, Bool.false_eq_true, if_false] at ihv ⊢
          omega

/-- Wider bins, in a multiple of the width, are sums of the narrower ones. -/
theorem wider_bins {w w' : Int} {vs : List Int} {bins bins' : List Bin} (hw : 1 ≤ w) (hd : Describes w vs bins) (hd' : Describes w' vs bins')
    (hdvd : w ∣ w') : ∀ b' ∈ bins', b'.count = ((bins.filter fun b => b'.low ≤ b.low ∧ b.high ≤ b'.high).map Bin.count).sum := by
  intro c hc
  have hmap : (bins.filter fun b => decide (c.low ≤ b.low ∧ b.high ≤ c.high)).map Bin.count
      = (bins.filter fun b => decide (c.low ≤ b.low ∧ b.high ≤ c.high)).map fun b => ((vs.countP fun v => b.Contains v : Nat) : Int) :=
    List.map_congr_left fun b hb => hd.counts b (List.mem_of_mem_filter hb)
  rw [hmap, ← count_bins vs (hd.ascending.filter _), hd'.counts c hc]
  congr 1
  refine List.countP_congr fun v hv => ?_
  simp only [decide_eq_true_eq]
  constructor
  · intro hcv
    obtain ⟨b, hb, hbv⟩ := hd.covers v hv
    refine ⟨b, List.mem_filter.2 ⟨hb, ?_⟩, hbv⟩
    obtain ⟨e1, d1⟩ := hd.width b hb
    obtain ⟨e2, d2⟩ := hd'.width c hc
    obtain ⟨x, hx⟩ := d1
    obtain ⟨y, hy⟩ := hdvd.trans d2
    obtain ⟨z, hz⟩ := hdvd
    have a1 := hbv.1
    have a2 := hbv.2
    have a3 := hcv.1
    have a4 := hcv.2
    have b1 : w * y < w * (x + 1) := by rw [mul_add, mul_one]; omega
    have b2 : w * x < w * (y + z) := by rw [mul_add]; omega
    have c1 : y ≤ x := by have := lt_of_mul_lt_mul_left b1 (by omega); omega
    have c2 : x + 1 ≤ y + z := by have := lt_of_mul_lt_mul_left b2 (by omega); omega
    have d1 := Int.mul_le_mul_of_nonneg_left c1 (by omega : 0 ≤ w)
    have d2 := Int.mul_le_mul_of_nonneg_left c2 (by omega : 0 ≤ w)
    rw [mul_add, mul_add, mul_one] at d2
    simp only [decide_eq_true_eq]
    omega
  · rintro ⟨b, hb, hbv⟩
    obtain ⟨hb, hin⟩ := List.mem_filter.1 hb
    simp only [decide_eq_true_eq] at hin
    exact ⟨le_trans hin.1 hbv.1, lt_of_lt_of_le hbv.2 hin.2⟩

variable {K : Type} [_root_.Field K] [LinearOrder K] [IsStrictOrderedRing K] [FloorRing K]
variable {E : FloatEnv K} {m : Machine K} {o : Cli.Options K} {p : Project} {s : List Item}

/-! ### Runs -/

theorem runs_take {vs : List Int} {zs rest : List K} (h : Runs E p s vs zs rest) (n : Nat) : ∃ rest', Runs E p s (vs.take n) zs rest' := by
  induction h with
  | nil => exact ⟨_, by simpa using Runs.nil⟩
  | @snoc vs v zs zs' rest sim sim' h hs hc ih =>
    by_cases hn : n ≤ vs.length
    · rw [List.take_append_of_le_length hn]
      exact ih
    · rw [List.take_of_length_le (by simp; omega)]
      exact ⟨_, h.snoc hs hc⟩

/-- The random numbers determine the results. -/
theorem runs_det {vs vs' : List Int} {zs rest rest' : List K} (h : Runs E p s vs zs rest) (h' : Runs E p s vs' zs rest')
    (hl : vs.length = vs'.length) : vs = vs' ∧ rest = rest' := by
  induction h generalizing vs' rest' with
  | nil =>
    cases h' with
    | nil => exact ⟨rfl, rfl⟩
    | snoc => simp at hl
  | @snoc vs v zs zs' rest sim sim' h hs hc ih =>
    cases h' with
    | nil => simp at hl
    | @snoc vs2 v2 _ zs2 _ sim2 sim2' h2 hs2 hc2 =>
      obtain ⟨rfl, rfl⟩ := ih h2 (by simpa using hl)
      rw [simulation_history_free hs2 hs] at hc2
      rw [hc] at hc2
      cases hc2
      exact ⟨rfl, rfl⟩

/-- The size of the bins has no influence on the results of the simulation, nor on their number. -/
theorem histogram_resolution {b b' : Option Int} {mk : Int} {more : List Int → Outcome Bool} {fuel fuel' : Nat} {zs : List K} {h h' : Histogram}
    (hh : histogram E p b s mk more fuel zs = ok (some h)) (hh' : histogram E p b' s mk more fuel' zs = ok (some h')) :
    ∃ vs, vs ≠ [] ∧ HistogramOf (resolutionOf b mk) vs h ∧ HistogramOf (resolutionOf b' mk) vs h' := by
  obtain ⟨w, vs, bins, rest, k, hk, hl, h1, h2, h3, h4, -⟩ := histogram_batches hh
  obtain ⟨w', vs', bins', rest', k', hk', hl', h1', h2', h3', h4', -⟩ := histogram_batches hh'
  have key : ∀ {vs vs' : List Int} {rest rest' : List K} {k k' : Nat}, 1 ≤ k → vs.length = 10000 * k → vs'.length = 10000 * k' →
      Runs E p s vs zs rest → Runs E p s vs' zs rest' →
      (∀ j ≥ 1, j ≤ k → more (vs.take (10000 * j)) = ok (decide (j < k))) →
      (∀ j ≥ 1, j ≤ k' → more (vs'.take (10000 * j)) = ok (decide (j < k'))) → ¬ k < k' := by
    intro vs vs' rest rest' k k' hk hl hl' h1 h1' h2 h2' hlt
    obtain ⟨r, ht⟩ := runs_take h1' (10000 * k)
    have he := (runs_det h1 ht (by rw [List.length_take, hl, hl']; omega)).1
    have a := h2 k hk le_rfl
    have b := h2' k hk hlt.le
    rw [← he] at b
    rw [List.take_of_length_le hl.le, b] at a
    simp only [ok.injEq, decide_eq_decide] at a
    omega
  have hkk : k = k' := by
    have a := key hk hl hl' h1 h1' h2 h2'
    have b := key hk' hl' hl h1' h1 h2' h2
    omega
  subst hkk
  obtain ⟨rfl, -⟩ := runs_det h1 h1' (by rw [hl, hl'])
  refine ⟨vs, List.ne_nil_of_length_pos (by omega), ?_, ?_⟩
  · rw [← parse_eq h3]; exact h4
  · rw [← parse_eq h3']; exact h4'

/-! ### The file -/

theorem binsJson_of_ok {bins : List Bin} (hpos : ∀ b ∈ bins, 0 < b.count) {es : List Json} (h : binsJson bins = ok es) :
    es = bins.map fun b => .arr [.int b.low, .int b.count] := by
  induction bins generalizing es with
  | nil => cases h; rfl
  | cons b bins ih =>
    rw [binsJson] at h
    obtain ⟨c, h1, h⟩ := bind_eq_ok.1 h
    have hc : c = b.count := by
      unfold narrowToInt at h1
      split at h1 <;> cases h1
      rfl
    subst hc
    rw [if_neg (by have := hpos b (by simp); omega)] at h
    obtain ⟨low, h2, h⟩ := bind_eq_ok.1 h
    have hl : low = b.low := by
      unfold safeToInt at h2
      split at h2 <;> cases h2
      rfl
    subst hl
    obtain ⟨es', h3, h⟩ := bind_eq_ok.1 h
    cases h
    rw [ih (fun b hb => hpos b (by simp [hb])) h3]
    rfl

theorem histogram_written {w : Int} {vs : List Int} {h : Histogram} {j : Json} (hh : HistogramOf w vs h) (hj : h.toJson = ok j) :
    ∃ bins, Describes w vs bins ∧ j = .obj [("bin_size", .int w), ("bins", .arr (bins.map fun b => .arr [.int b.low, .int b.count]))] := by
  obtain ⟨hw, hi⟩ := hh.inv
  have hd := hi.describes hw
  refine ⟨Histogram.binsOf w h, hd, ?_⟩
  unfold Histogram.toJson at hj
  obtain ⟨_, -, hj⟩ := bind_eq_ok.1 hj
  obtain ⟨bins, h1, hj⟩ := bind_eq_ok.1 hj
  rw [hi.toList hw] at h1
  cases h1
  obtain ⟨es, h2, hj⟩ := bind_eq_ok.1 hj
  obtain ⟨w', h3, hj⟩ := bind_eq_ok.1 hj
  cases hj
  have : w' = w := by
    unfold safeToInt at h3
    split at h3 <;> cases h3
    exact hi.size
  rw [this, binsJson_of_ok hd.positive h2]

theorem predicted_histogram {binSize : Option Int} {opt : OptParams K} {threads : Nat} {draws : Nat → Nat → Nat → Draws K} {fuel : Nat}
    {more : List Int → Outcome Bool} {fuel' : Nat} {zs : List K} {r : Prediction}
    (h : (Predict.predict E p binSize opt threads draws fuel more fuel' zs).result = ok (some r)) :
    histogram E p binSize r.schedule r.makespan more fuel' zs = ok (some r.histogram) := by
  unfold Predict.predict at h
  obtain ⟨_, -, h⟩ := run_bind_result h
  obtain ⟨sp, -, h⟩ := run_bind_result h
  obtain ⟨x, -, h⟩ := run_bind_result h
  cases x with
  | none => cases h
  | some x =>
    obtain ⟨_, -, h⟩ := run_bind_result h
    obtain ⟨_, -, h⟩ := run_bind_result h
    obtain ⟨g, h6, h⟩ := run_bind_result h
    cases g with
    | none => cases h
    | some g =>
      obtain ⟨st, -, h⟩ := run_bind_result h
      obtain ⟨_, -, h⟩ := run_bind_result h
      cases h
      exact h6

theorem prediction_fields {mk : Int} {ts st hj j1 j : Json} (h1 : setField (.obj [("makespan", .int mk), ("tasks", ts)]) "stats" st = ok j1)
    (h2 : setField j1 "histogram" hj = ok j) : j = .obj [("histogram", hj), ("makespan", .int mk), ("stats", st), ("tasks", ts)] := by
  cases h1
  cases h2
  simp [setKey, show ¬ ("stats" < "makespan") by decide, show "stats" < "tasks" by decide, show "histogram" < "makespan" by decide]

/-- C122. Two successful predictions that differ only in the size of the bins are about the same simulated runs: there are values that the bins of both describe. Schedule and
makespan are the same. If one size is a multiple of the other, the count of each of the wider bins is the sum of the counts of the narrower ones in it. -/
theorem bin_size_is_resolution {b' : Option Int} (hroom : m.room = true) (h : status (body E m .predict o).flow = .exit 0)
    (h' : status (body E m .predict { o with binSize := b' }).flow = .exit 0) :
    ∃ (values : List Int) (makespan w w' : Int) (bins bins' : List Bin) (tasks stats stats' : Json),
      files (body E m .predict o).effects = [(o.output, .obj [("histogram", .obj [("bin_size", .int w),
        ("bins", .arr (bins.map fun b => .arr [.int b.low, .int b.count]))]), ("makespan", .int makespan), ("stats", stats), ("tasks", tasks)])] ∧
      files (body E m .predict { o with binSize := b' }).effects = [(o.output, .obj [("histogram", .obj [("bin_size", .int w'),
        ("bins", .arr (bins'.map fun b => .arr [.int b.low, .int b.count]))]), ("makespan", .int makespan), ("stats", stats'), ("tasks", tasks)])] ∧
      w = resolutionOf o.binSize makespan ∧ w' = resolutionOf b' makespan ∧ values ≠ [] ∧
      Describes w values bins ∧ Describes w' values bins' ∧
      (w ∣ w' → ∀ b' ∈ bins', b'.count = ((bins.filter fun b => b'.low ≤ b.low ∧ b.high ≤ b'.high).map Bin.count).sum) := by
  obtain ⟨j, pre, h1, -⟩ := body_ok h
  obtain ⟨j', pre', h1', -⟩ := body_ok h'
  have f1 : (compute E m .predict o).flow = .ok j := by rw [h1]
  have f1' : (compute E m .predict { o with binSize := b' }).flow = .ok j' := by rw [h1']
  rw [body_files hroom h f1, body_files hroom h' f1']
  obtain ⟨p, r, j0, j1, j2, g1, -, -, g4, g5, g6, g7, g8⟩ := compute_predict f1
  obtain ⟨p', r', j0', j1', j2', k1, -, -, k4, k5, k6, k7, k8⟩ := compute_predict f1'
  obtain rfl : p' = p := by
    obtain ⟨_, a1, a2⟩ := parsed g1
    obtain ⟨_, b1, b2⟩ := parsed k1
    rw [a1] at b1; cases b1
    rw [a2] at b2; cases b2; rfl
  dsimp only at k4 k5
  obtain ⟨_, -, -, v⟩ := predict_run g4
  obtain ⟨_, -, -, v'⟩ := predict_run k4
  rw [v] at v'
  have e : OptimizedSchedule.mk r.schedule r.makespan = ⟨r'.schedule, r'.makespan⟩ := Option.some.inj (ok.inj v')
  have e1 : r.schedule = r'.schedule := congrArg OptimizedSchedule.schedule e
  have e2 : r.makespan = r'.makespan := congrArg OptimizedSchedule.makespan e
  have q := predicted_histogram g4
  have q' := predicted_histogram k4
  rw [← e1, ← e2] at q' k5
  rw [g5] at k5
  cases k5
  obtain ⟨vs, hne, d, d'⟩ := histogram_resolution q q'
  obtain ⟨bins, hd, rfl⟩ := histogram_written d g7
  obtain ⟨bins', hd', rfl⟩ := histogram_written d' k7
  obtain ⟨ts, rfl⟩ := toJson_makespan g5
  refine ⟨vs, r.makespan, _, _, bins, bins', ts, r.stats.toJson, r'.stats.toJson, ?_, ?_, rfl, rfl, hne, hd, hd', wider_bins d.1 hd hd'⟩
  · rw [prediction_fields g6 g8]
  · rw [prediction_fields k6 k8]

/-- C122 applies to the example document `certain` in single precision, with the usual bins and with bins of ten seconds. -/
example (draws : Nat → Nat → Nat → Draws ℚ) : ∃ N, ∀ fuel, N ≤ fuel → ∀ fuel', 16 ≤ fuel' → ∀ zs, ∃ (values : List Int) (bins bins' : List Bin) (w w' : Int),
    values ≠ [] ∧ Describes w values bins ∧ Describes w' values bins' ∧ w' = 10 ∧ ∃ c c',
    files (body ratFloat { exampleMachine draws with
      source := .doc Sample.certain, more := Stopping.more ratFloat (PSquare.quantiles ratFloat),
      fuel := fuel, fuel' := fuel', zs := zs } .predict cliOptions).effects = [("time_estimation.json", c)] ∧
    files (body ratFloat { exampleMachine draws with
      source := .doc Sample.certain, more := Stopping.more ratFloat (PSquare.quantiles ratFloat),
      fuel := fuel, fuel' := fuel', zs := zs } .predict { cliOptions with binSize := some 10 }).effects = [("time_estimation.json", c')] := by
  obtain ⟨N, hN⟩ := certain_float_sized draws (b := none) (by intro b hb; cases hb)
  obtain ⟨N', hN'⟩ := certain_float_sized draws (b := some 10) (by intro b hb; cases hb; decide)
  refine ⟨max N N', fun fuel hf fuel' hf' zs => ?_⟩
  obtain ⟨vs, mk, w, w', bins, bins', ts, st, st', f, f', -, h1, h2, h3, h4, -⟩ := bin_size_is_resolution (b' := some 10) rfl
    (hN fuel (le_trans (le_max_left _ _) hf) fuel' hf' zs) (hN' fuel (le_trans (le_max_right _ _) hf) fuel' hf' zs)
  exact ⟨vs, bins, bins', w, w', h2, h3, h4, h1, _, _, f, f'⟩

/-- Bins of a minute and of two minutes with the same four values -/
example : ∃ bins bins', Describes 60 [10, 70, 130, 190] bins ∧ Describes 120 [10, 70, 130, 190] bins' ∧
    bins'.map Bin.count = [2, 2] ∧ bins.map Bin.count = [1, 1, 1, 1] := by
  have h1 : HistogramOf 60 [10, 70, 130, 190] ⟨60, [(0, 1), (1, 1), (2, 1), (3, 1)]⟩ :=
    ⟨by decide, [.add 10, .add 70, .add 130, .add 190], by simp, rfl, by decide +kernel⟩
  have h2 : HistogramOf 120 [10, 70, 130, 190] ⟨120, [(0, 2), (1, 2)]⟩ :=
    ⟨by decide, [.add 10, .add 70, .add 130, .add 190], by simp, rfl, by decide +kernel⟩
  exact ⟨_, _, h1.inv.2.describes h1.inv.1, h2.inv.2.describes h2.inv.1, rfl, rfl⟩

end Angonoka.Props
