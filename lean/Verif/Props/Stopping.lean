import Verif.Model.Stopping
import Verif.Spec.Stopping
import Verif.Props.Simulation
import Verif.Spec.Json

/-!
# C65: when the simulation stops
-/

set_option linter.unusedSectionVars false

namespace Angonoka.Props
open Angonoka Outcome Stun

variable {K : Type} [Field K] [LinearOrder K] [IsStrictOrderedRing K] [FloorRing K]
variable {E : FloatEnv K} {q : List Int → List K}

theorem errorLoop_ok (hE : E.IsExact) {old new : List K} (hl : old.length ≤ new.length)
    (h0 : ∀ x ∈ old, x ≠ 0) (acc : K) :
    Stopping.errorLoop E old new acc = ok (acc + (List.zipWith (fun a b => |(a - b) / a|) old new).sum) := by
  induction old generalizing new acc with
  | nil => simp [Stopping.errorLoop]
  | cons a old ih =>
    cases new with
    | nil => simp at hl
    | cons b new =>
      rw [Stopping.errorLoop]
      change (expects _ _ >>= _) = _
      rw [expects_true (by simpa using h0 a (by simp)), ok_bind,
        ih (by simpa using hl) (fun x hx => h0 x (by simp [hx]))]
      simp [FloatEnv.add, FloatEnv.div, FloatEnv.sub, hE _, add_assoc]

theorem errorLoop_zero {old new : List K} (hl : old.length ≤ new.length)
    (h0 : (0 : K) ∈ old) (acc : K) : ∃ site, Stopping.errorLoop E old new acc = ub site := by
  induction old generalizing new acc with
  | nil => cases h0
  | cons a old ih =>
    cases new with
    | nil => simp at hl
    | cons b new =>
      rw [Stopping.errorLoop]
      change ∃ site, (expects _ _ >>= _) = _
      by_cases ha : a = 0
      · refine ⟨"mean_absolute_pct_error: error >= 0", ?_⟩
        unfold expects
        rw [if_neg (by simpa using ha)]
        rfl
      · rw [expects_true (by simpa using ha), ok_bind]
        refine ih (by simpa using hl) ?_ _
        rcases List.mem_cons.1 h0 with h | h
        · exact absurd h.symm ha
        · exact h

theorem change_nonneg (old new : List K) : 0 ≤ change old new := by
  apply div_nonneg
  · induction old generalizing new with
    | nil => simp
    | cons a old ih =>
      cases new with
      | nil => simp
      | cons b new =>
        rw [List.zipWith_cons_cons, List.sum_cons]
        exact add_nonneg (abs_nonneg _) (ih new)
  · norm_num

theorem meanAbsolutePctError_ok (hE : E.IsExact) {old new : List K} (ho : old.length = 5)
    (hn : new.length = 5) (h0 : ∀ x ∈ old, x ≠ 0) :
    Stopping.meanAbsolutePctError E new old = ok (change old new, new) := by
  unfold Stopping.meanAbsolutePctError
  have hne : old ≠ [] := by
    intro h
    simp [h] at ho
  have hnn := change_nonneg old new
  rw [expects_true (by simpa using hne), ok_bind, errorLoop_ok hE (by omega) h0, ok_bind, expects_true,
    ok_bind]
  · simp [FloatEnv.div, FloatEnv.ofInt, hE _, change, ho]
  · rw [decide_eq_true_eq, zero_add]
    unfold change at hnn
    by_contra hlt
    have := div_neg_of_neg_of_pos (not_le.1 hlt) (by norm_num : (0 : K) < 5)
    linarith

theorem after_ok (hE : E.IsExact) (hq : FiveQuantiles q) {vs : List Int} {n : Nat}
    (h0 : ∀ i, 1 ≤ i → i < n → ∀ x ∈ q (vs.take (10000 * i)), x ≠ 0) :
    Stopping.after E q vs n = ok {
      quantiles := if n = 0 then [1, 1, 1, 1, 1] else q (vs.take (10000 * n))
      errors := ((List.range n).map (changeAt q vs)).reverse } := by
  induction n with
  | zero => rfl
  | succ n ih =>
    rw [Stopping.after, ih (fun i h1 h2 => h0 i h1 (by omega)), ok_bind]
    unfold Stopping.step
    have hl : (if n = 0 then [(1 : K), 1, 1, 1, 1] else q (vs.take (10000 * n))).length = 5 := by
      split_ifs
      · rfl
      · exact hq _
    have hnz : ∀ x ∈ (if n = 0 then [(1 : K), 1, 1, 1, 1] else q (vs.take (10000 * n))), x ≠ 0 := by
      split_ifs with hn
      · simp
      · exact h0 n (by omega) (by omega)
    rw [meanAbsolutePctError_ok hE hl (hq _) hnz, ok_bind, if_neg (c := n + 1 = 0) (by omega)]
    simp only [pure_eq, Outcome.ok.injEq, Stopping.mk.injEq]
    refine ⟨rfl, ?_⟩
    rw [show change (if n = 0 then [(1 : K), 1, 1, 1, 1] else q (vs.take (10000 * n)))
      (q (vs.take (HistogramOp.batchSize * (n + 1)))) = changeAt q vs n from rfl, List.range_succ]
    simp

theorem more_eq {vs : List Int} {k : Nat} (hl : vs.length = 10000 * k) :
    Stopping.more E q vs = (do
      let st ← Stopping.after E q vs k
      return decide (E.rnd (1 / 100) < E.rolling Stopping.windowSize st.errors)) := by
  unfold Stopping.more
  rw [hl, show HistogramOp.batchSize = 10000 from rfl, Nat.mul_div_cancel_left _ (by norm_num)]

/-- C65, for exact arithmetic. After `k` batches the simulation goes on if and only if the average change of the quantiles
with the last 15 batches (or with all, if there are fewer) is more than one percent. -/
theorem stopping_rule_partial (hE : E.IsExact) (hq : FiveQuantiles q) {vs : List Int}
    {k : Nat} (hl : vs.length = 10000 * k)
    (h0 : ∀ i, 1 ≤ i → i < k → ∀ x ∈ q (vs.take (10000 * i)), x ≠ 0) :
    Stopping.more E q vs = ok (decide (1 / 100 < averageChange q vs k)) := by
  rw [more_eq hl, after_ok hE hq h0, ok_bind]
  simp only [pure_eq, Outcome.ok.injEq, hE _]
  unfold averageChange FloatEnv.rolling Stopping.windowSize
  rw [rollingMean_exact hE (by norm_num), List.length_reverse, List.length_map, List.length_range, List.take_reverse, List.sum_reverse,
    List.length_map, List.length_range, List.map_drop]

/-- C65: if a quantile after an earlier batch is zero, the next comparison violates a contract. -/
theorem stopping_rule_fails (hE : E.IsExact) (hq : FiveQuantiles q) {vs : List Int} {k i : Nat}
    (hl : vs.length = 10000 * k) (hi : 1 ≤ i) (hik : i < k) (h0 : (0 : K) ∈ q (vs.take (10000 * i))) :
    ∃ site, Stopping.more E q vs = ub site := by
  rw [more_eq hl]
  suffices h : ∃ site, Stopping.after E q vs k = ub site by
    obtain ⟨site, h⟩ := h
    exact ⟨site, by rw [h]; rfl⟩
  clear hl
  -- the first batch with a zero quantile
  have hex : ∃ j, 1 ≤ j ∧ (0 : K) ∈ q (vs.take (10000 * j)) := ⟨i, hi, h0⟩
  classical
  obtain ⟨hj1, hj0⟩ := Nat.find_spec hex
  have hjm : ∀ j', 1 ≤ j' → j' < Nat.find hex → ∀ x ∈ q (vs.take (10000 * j')), x ≠ 0 := by
    intro j' h1 h2 x hx hx0
    exact Nat.find_min hex h2 ⟨h1, hx0 ▸ hx⟩
  have hji : Nat.find hex ≤ i := Nat.find_min' hex ⟨hi, h0⟩
  generalize Nat.find hex = j at *
  have hfail : ∃ site, Stopping.after E q vs (j + 1) = ub site := by
    rw [Stopping.after, after_ok hE hq hjm, ok_bind]
    unfold Stopping.step Stopping.meanAbsolutePctError
    rw [if_neg (by omega)]
    obtain ⟨site, hs⟩ := errorLoop_zero (E := E) (old := q (vs.take (10000 * j)))
      (new := q (vs.take (HistogramOp.batchSize * (j + 1)))) (by rw [hq, hq]) hj0 0
    refine ⟨site, ?_⟩
    have hne : q (vs.take (10000 * j)) ≠ [] := by
      intro h
      rw [h] at hj0
      cases hj0
    dsimp only
    rw [expects_true (by simpa using hne), ok_bind, hs]
    rfl
  obtain ⟨d, rfl⟩ : ∃ d, k = j + 1 + d := ⟨k - (j + 1), by omega⟩
  clear hik hji
  induction d with
  | zero => exact hfail
  | succ d ih =>
    obtain ⟨site, h⟩ := ih
    exact ⟨site, by rw [← Nat.add_assoc, Stopping.after, h]; rfl⟩

theorem averageChange_first {vs : List Int} {k : Nat} (h1 : 1 ≤ k) (hk : k ≤ 15)
    (hc : 15 / 100 < changeAt q vs 0) : 1 / 100 < averageChange q vs k := by
  unfold averageChange
  rw [show k - 15 = 0 by omega, List.drop_zero, show min k 15 = k by omega]
  have hsum : changeAt q vs 0 ≤ ((List.range k).map (changeAt q vs)).sum := by
    obtain ⟨n, rfl⟩ : ∃ n, k = n + 1 := ⟨k - 1, by omega⟩
    rw [List.range_succ_eq_map, List.map_cons, List.sum_cons]
    have : 0 ≤ ((List.map Nat.succ (List.range n)).map (changeAt q vs)).sum := by
      apply List.sum_nonneg
      intro x hx
      obtain ⟨i, _, rfl⟩ := List.mem_map.1 hx
      exact change_nonneg _ _
    linarith
  have hk0 : (0 : K) < k := by exact_mod_cast h1
  have hk15 : (k : K) ≤ 15 := by exact_mod_cast hk
  rw [lt_div_iff₀ hk0]
  linarith

/-- C65. With this rule a histogram has at least 160000 runs, unless the quantiles after the first 10000 runs
are close to one second: they differ from it by 15 percent on average, or less. -/
theorem enough_runs (hE : E.IsExact) (hq : FiveQuantiles q) {p : Project}
    {binSize : Option Int} {s : List Item} {makespan : Int} {fuel : Nat} {zs : List K} {h : Histogram}
    (hh : histogram E p binSize s makespan (Stopping.more E q) fuel zs = ok (some h)) :
    ∃ w vs, HistogramOf w vs h ∧ ((changeAt q vs 0 ≤ 15 / 100) ∨ 160000 ≤ vs.length) := by
  obtain ⟨w, vs, bins, rest, k, hk, hl, hruns, hdec, _, hof, _⟩ := histogram_batches hh
  refine ⟨w, vs, hof, ?_⟩
  by_contra hno
  rw [not_or, not_le, not_le] at hno
  obtain ⟨hc, hlt⟩ := hno
  have hk15 : k ≤ 15 := by omega
  have hd := hdec k hk le_rfl
  rw [← hl, List.take_length] at hd
  by_cases h0 : ∀ i, 1 ≤ i → i < k → ∀ x ∈ q (vs.take (10000 * i)), x ≠ 0
  · rw [stopping_rule_partial hE hq hl h0] at hd
    have := (Outcome.ok.injEq ..).mp hd
    simp only [lt_self_iff_false, decide_false, decide_eq_false_iff_not] at this
    exact this (averageChange_first hk hk15 hc)
  · simp only [not_forall, not_not] at h0
    obtain ⟨i, h1, h2, x, hx, rfl⟩ := h0
    obtain ⟨site, hu⟩ := stopping_rule_fails hE hq hl h1 h2 hx
    rw [hu] at hd
    cases hd

/-- If all quantiles are at least two seconds, the first change is at least 100 percent. -/
theorem first_change {vs : List Int} (hq : FiveQuantiles q) (h2 : ∀ x ∈ q (vs.take 10000), 2 ≤ x) :
    1 ≤ changeAt q vs 0 := by
  unfold changeAt change
  rw [if_pos rfl, show 10000 * (0 + 1) = 10000 by norm_num]
  have h5 := hq (vs.take 10000)
  generalize q (vs.take 10000) = l at *
  match l, h5, h2 with
  | [a, b, c, d, e], _, h2 =>
    have key : ∀ x ∈ [a, b, c, d, e], 1 ≤ |(1 - x) / 1| := by
      intro x hx
      rw [div_one, abs_sub_comm]
      exact le_trans (by linarith [h2 x hx]) (le_abs_self _)
    have ha := key a (by simp)
    have hb := key b (by simp)
    have hc := key c (by simp)
    have hd := key d (by simp)
    have he := key e (by simp)
    simp only [List.zipWith, List.sum_cons, List.sum_nil]
    linarith

/-! ### Equal results -/

theorem take_replicate {v : Int} {n m : Nat} (h : n ≤ m) :
    (List.replicate m v).take n = List.replicate n v := by
  rw [List.take_replicate, Nat.min_eq_left h]

theorem constant_five (hc : ConstantQuantiles q) {v : Int} {n : Nat} (h : 13 ≤ n) :
    q (List.replicate n v) = [(v : K), v, v, v, v] := hc n v h

theorem change_constant {v : Int} {k : Nat} (hc : ConstantQuantiles q) (hv : 1 ≤ v) {i : Nat}
    (hi : i < k) : changeAt q (List.replicate (10000 * k) v) i = if i = 0 then (v : K) - 1 else 0 := by
  unfold changeAt
  rw [take_replicate (Nat.mul_le_mul_left _ hi), constant_five hc (by omega)]
  have hv' : (1 : K) ≤ v := by exact_mod_cast hv
  split_ifs with h
  · have : |(1 - (v : K)) / 1| = v - 1 := by
      rw [div_one, abs_sub_comm, abs_of_nonneg (by linarith)]
    simp only [change, List.zipWith, List.sum_cons, List.sum_nil, this]
    ring
  · rw [take_replicate (Nat.mul_le_mul_left _ hi.le), constant_five hc (by omega)]
    simp [change]

/-- C65: if all results are the same, of two seconds or more, exactly 16 batches are run; if they are all one second, one batch. -/
theorem stops_if_equal (hE : E.IsExact) (hq : FiveQuantiles q)
    (hc : ConstantQuantiles q) {v : Int} (hv : 1 ≤ v) {j : Nat} (hj : 1 ≤ j) (hj16 : j ≤ 16) :
    Stopping.more E q (List.replicate (10000 * j) v) = ok (decide (v ≠ 1 ∧ j < 16)) := by
  have hv' : (1 : K) ≤ v := by exact_mod_cast hv
  rw [stopping_rule_partial hE hq (k := j) (by simp)]
  · rw [Outcome.ok.injEq, decide_eq_decide]
    by_cases hj' : j = 16
    · subst hj'
      have h0 : averageChange q (List.replicate (10000 * 16) v) 16 = 0 := by
        unfold averageChange
        have : ((List.range 16).drop (16 - 15)).map (changeAt q (List.replicate (10000 * 16) v))
            = List.replicate 15 0 := by
          apply List.ext_getElem
          · rw [List.length_map, List.length_drop, List.length_range, List.length_replicate]
          · intro i h1 h2
            simp only [List.length_replicate] at h2
            rw [List.getElem_map, List.getElem_drop, List.getElem_range,
              change_constant hc hv (by omega), if_neg (by omega), List.getElem_replicate]
        rw [this]
        simp
      rw [h0]
      constructor
      · intro h
        norm_num at h
      · omega
    · constructor
      · intro h
        refine ⟨?_, by omega⟩
        rintro rfl
        unfold averageChange at h
        have : ((List.range j).drop (j - 15)).map (changeAt q (List.replicate (10000 * j) 1))
            = List.replicate (j - (j - 15)) 0 := by
          apply List.ext_getElem
          · rw [List.length_map, List.length_drop, List.length_range, List.length_replicate]
          · intro i h1 h2
            simp only [List.length_replicate] at h2
            rw [List.getElem_map, List.getElem_drop, List.getElem_range,
              change_constant hc hv (by omega), List.getElem_replicate, Int.cast_one,
              sub_self, ite_self]
        rw [this] at h
        simp at h
        norm_num at h
      · rintro ⟨h1, _⟩
        apply averageChange_first hj (by omega)
        rw [change_constant hc hv (by omega), if_pos rfl]
        have : (2 : K) ≤ v := by exact_mod_cast (by omega : (2 : Int) ≤ v)
        linarith
  · intro i h1 h2 x hx
    rw [take_replicate (Nat.mul_le_mul_left _ h2.le), constant_five hc (by omega)] at hx
    have : x = v := by simpa using hx
    rw [this]
    intro h0
    rw [h0] at hv'
    linarith

/-- For a project without spread, every run gives the whole part of the end of the fastest execution with the given
speeds and durations. -/
theorem deterministic_value {p : Project} (hp : p.Sound) (hf : p.FloatsIn E)
    {sp : ScheduleParams K} (hsp : toScheduleParams E p = ok sp) {s : List Item}
    (hs : ValidSchedule sp s) (hperf : ∀ a ∈ p.agents, a.perfMin = a.perfMax)
    (hdur : ∀ t ∈ p.tasks, t.durMin = t.durMax) {start finish : Nat → K} {V : K} {mk : Int}
    (hex : Earliest E (p.secondsParams E sp) s start finish) (hend : IsEnd s finish V)
    (hmk : IsWholePart mk V) {sim : Simulation K} (hsim : SimulationFor E p sim) (zs : List K) :
    ∃ sim', sim.call E s zs = ok (some (mk, zs, sim')) := by
  obtain ⟨v, hv⟩ := simulation_deterministic hp hf hsp hs hperf hdur
  obtain ⟨sim', hc⟩ := hv sim hsim zs
  refine ⟨sim', ?_⟩
  obtain ⟨bounds, hb, hall⟩ := simulation_feasible hp hf hsp hs hsim
  rcases hall zs with h | ⟨v', perf, dur, zs', rest, sim'', end_, hc', s1, s2, _, _, hv', st, fi, hex', hend', hleast⟩
  · rw [hc] at h
    cases h.1
  rw [hc] at hc'
  have hvv : v = v' := by
    have := (Outcome.ok.injEq ..).mp hc'
    simp only [Option.some.injEq, Prod.mk.injEq] at this
    exact this.1
  subst hvv
  -- the sampled values are the given ones
  have hbf : ∀ b ∈ bounds, b.1 = b.2 := by
    intro b hb'
    obtain ⟨i, hi, rfl⟩ := List.getElem_of_mem hb'
    have hi' : i < p.agents.length := by rw [hb.length_eq]; exact hi
    obtain ⟨lo, hi', hok, he⟩ := List.Forall₂.get hb hi' hi
    rw [List.get_eq_getElem] at he
    have := hperf _ (List.getElem_mem (by assumption) : p.agents[i] ∈ p.agents)
    have h7 := hok.1
    have h8 := hok.2.1
    rw [List.get_eq_getElem] at h7 h8
    rw [h7, h8] at this
    injection this with this
    rw [he, this]
  have hdf : ∀ b ∈ p.durationBounds E, b.1 = b.2 := by
    intro b hb'
    obtain ⟨t, ht, rfl⟩ := List.mem_map.1 hb'
    simp [hdur t ht]
  obtain ⟨rfl, rfl⟩ := Samples.unique s1 (samples_fixed hbf zs)
  obtain ⟨rfl, rfl⟩ := Samples.unique s2 (samples_fixed hdf _)
  have hpl := (params_faithful hp.agent_groups hp.task_groups hsp).2.1
  have e1 : bounds.map Prod.fst = sp.agentPerformance := by
    apply List.ext_getElem
    · rw [List.length_map, ← hb.length_eq]
      exact hpl.symm
    · intro i h1 h2
      rw [List.length_map] at h1
      have hi' : i < p.agents.length := by rw [hb.length_eq]; exact h1
      obtain ⟨lo, hi, hok, he⟩ := List.Forall₂.get hb hi' h1
      rw [List.get_eq_getElem] at he hok
      obtain ⟨x, hx, hx1, hx2⟩ := params_performance_between hsp hf (List.getElem?_eq_getElem hi') hok
      have heq := hperf _ (List.getElem_mem hi')
      rw [hok.1, hok.2.1] at heq
      injection heq with heq
      rw [List.getElem_map, he]
      rw [List.getElem?_eq_getElem h2] at hx
      have hx' := Option.some.inj hx
      rw [hx']
      rw [← heq] at hx2
      exact le_antisymm hx1 hx2
  have e2 : (p.durationBounds E).map Prod.fst = p.tasks.map fun t => E.ofInt t.meanDuration := by
    unfold Project.durationBounds
    rw [List.map_map]
    apply List.map_congr_left
    intro t ht
    have h1 := hdur t ht
    have h2 := (hp.durations t ht).1
    have : t.meanDuration = t.durMin := by
      unfold Task.meanDuration
      omega
    simp [this]
  have hpar : sp.sampled (bounds.map Prod.fst) ((p.durationBounds E).map Prod.fst) = p.secondsParams E sp := by
    rw [e1, e2]
    rfl
  change Execution E (sp.sampled _ _) s st fi at hex'
  change ∀ start' finish', Execution E (sp.sampled _ _) s start' finish' → _ at hleast
  rw [hpar] at hex' hleast
  have hV : end_ = V := by
    obtain ⟨it, hit, h1⟩ := hend.2
    obtain ⟨it', hit', h1'⟩ := hend'.2
    apply le_antisymm
    · rw [← h1']
      exact (hleast _ _ hex.1 it' hit').2.trans (hend.1 it' hit')
    · rw [← h1]
      exact (hex.2 _ _ hex' it hit).2.trans (hend'.1 it hit)
  rw [hV] at hv'
  have hvm : v = mk := by
    have h1 : (v : K) < ((mk + 1 : Int) : K) := by
      push_cast
      exact lt_of_le_of_lt hv'.2.1 hmk.2
    have h2 : (mk : K) < ((v + 1 : Int) : K) := by
      push_cast
      exact lt_of_le_of_lt hmk.1 hv'.2.2
    have h1 : v < mk + 1 := by exact_mod_cast h1
    have h2 : mk < v + 1 := by exact_mod_cast h2
    omega
  rw [hc, hvm]

end Angonoka.Props
