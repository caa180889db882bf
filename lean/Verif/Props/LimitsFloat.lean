import Verif.Props.DocumentedFloat
import Verif.Props.Bounds

/-!
# C106 in single precision

The bounds of predictions in terms of the document.
-/

set_option linter.unusedSectionVars false

namespace Angonoka.Props
open Angonoka Outcome
open Cli CommandLine Doc Stun

variable {K : Type} [_root_.Field K] [LinearOrder K] [IsStrictOrderedRing K] [FloorRing K]
  {rf : String → Option XFloat} {root : Yaml} {of : List Nat} {es : List TaskEntry}

/-- The random value in single precision is the exact one up to 2⁻²⁰ of the greater bound, within two standard deviations. -/
theorem roundedNormal_error {lo hi z : K} (h0 : 0 ≤ lo) (h1 : lo ≤ hi) (hhi : 1 / 2 ^ 60 ≤ hi) (hz : |z| ≤ 2) :
    |roundedNormal lo hi z - normal lo hi z| ≤ hi / 2 ^ 20 := by
  have hb : ∀ c : K, 1 ≤ c → (2 : K) ^ (-126 : Int) ≤ c * hi := by
    intro c hc
    have : (2 : K) ^ (-126 : Int) ≤ 1 / 2 ^ 60 := by norm_num
    have h2 : hi ≤ c * hi := le_mul_of_one_le_left (h0.trans h1) hc
    exact this.trans (hhi.trans h2)
  have err : ∀ (x c : K), 1 ≤ c → |x| ≤ c * hi → |Binary32.round x - x| ≤ c * hi / 2 ^ 24 := by
    intro x c hc hx
    have := Binary32.round_abs_error hx (hb c hc)
    rw [show (2 : K) ^ (-24 : Int) = 1 / 2 ^ 24 by norm_num] at this
    linarith
  unfold roundedNormal normal
  have hhi0 : 0 ≤ hi := h0.trans h1
  obtain ⟨hz1, hz2⟩ := abs_le.1 hz
  have e1 := abs_le.1 (err (hi - lo) 1 le_rfl (by rw [abs_le]; constructor <;> linarith))
  set d := Binary32.round (hi - lo)
  norm_num at e1
  have e2 := abs_le.1 (err (d / 4) 1 le_rfl (by rw [abs_le]; constructor <;> linarith [e1.1, e1.2]))
  set q := Binary32.round (d / 4)
  norm_num at e2
  have hq : |q| ≤ hi := by
    rw [abs_le]
    constructor <;> linarith [e1.1, e1.2, e2.1, e2.2]
  have hzq : |z * q| ≤ 2 * hi := by
    rw [abs_mul]
    exact mul_le_mul hz hq (abs_nonneg _) (by norm_num)
  have e3 := abs_le.1 (err (z * q) 2 (by norm_num) hzq)
  set t := Binary32.round (z * q)
  norm_num at e3
  have e4 := abs_le.1 (err (lo + hi) 2 (by norm_num) (by rw [abs_le]; constructor <;> linarith))
  set u := Binary32.round (lo + hi)
  norm_num at e4
  have e5 := abs_le.1 (err (u / 2) 2 (by norm_num) (by rw [abs_le]; constructor <;> linarith [e4.1, e4.2]))
  set w := Binary32.round (u / 2)
  norm_num at e5
  obtain ⟨hzq1, hzq2⟩ := abs_le.1 hzq
  have e6 := abs_le.1 (err (t + w) 6 (by norm_num) (by
    rw [abs_le]
    constructor <;> linarith [e3.1, e3.2, e4.1, e4.2, e5.1, e5.2]))
  set r := Binary32.round (t + w)
  norm_num at e6
  have hdiff : |q - (hi - lo) / 4| ≤ 2 * hi / 2 ^ 24 := by
    rw [abs_le]
    norm_num
    constructor <;> linarith [e1.1, e1.2, e2.1, e2.2]
  have hzd : |z * (q - (hi - lo) / 4)| ≤ 2 * (2 * hi / 2 ^ 24) := by
    rw [abs_mul]
    exact mul_le_mul hz hdiff (abs_nonneg _) (by norm_num)
  obtain ⟨f1, f2⟩ := abs_le.1 hzd
  rw [mul_sub] at f1 f2
  norm_num at f1 f2
  rw [abs_le]
  norm_num
  constructor <;> linarith [e3.1, e3.2, e4.1, e4.2, e5.1, e5.2, e6.1, e6.2]

/-- Within two standard deviations, random values in single precision are about between their bounds. -/
theorem sampledFloat_between {lo hi : K} {x : K × List K} (h : SampledFloat lo hi x) (h0 : 0 ≤ lo) (h1 : lo ≤ hi) (hhi : 1 / 2 ^ 60 ≤ hi)
    (hz : ∀ z ∈ x.2, |z| ≤ 2) : lo - hi / 2 ^ 20 ≤ x.1 ∧ x.1 ≤ hi + hi / 2 ^ 20 := by
  have hhi0 : 0 ≤ hi := h0.trans h1
  obtain ⟨_, ⟨rfl, rfl⟩ | ⟨_, r, z, rfl, _⟩⟩ := h
  · constructor <;> norm_num <;> linarith
  · have hz2 := hz z (by simp)
    obtain ⟨e1, e2⟩ := abs_le.1 (roundedNormal_error h0 h1 hhi hz2)
    obtain ⟨z1, z2⟩ := abs_le.1 hz2
    have n1 : lo ≤ normal lo hi z := by
      unfold normal
      nlinarith
    have n2 : normal lo hi z ≤ hi := by
      unfold normal
      nlinarith
    constructor <;> dsimp only <;> linarith

/-- Bounds of the times of entries in the best and in the worst case -/
def Between (rf : String → Option XFloat) (root : Yaml) (of : List Nat) (es : List TaskEntry) (best worst : Nat → K) : Prop :=
  ∀ (i k : Nat) e q w (lo hi : Nat) (slow fast : ℚ), of[i]? = some k → es[i]? = some e → (tasks root)[k]? = some q → w ∈ agents root →
    w.1 = .scalar e.agent → Duration q.2 lo hi → Performance rf w.2 (.fin slow) (.fin fast) → best i ≤ lo / fast ∧ hi / slow ≤ worst i

/-- If every entry takes at most `c` times as long, all entries finish after at most `c` times as long, if they finish as early as possible. -/
theorem execution_scaled {time time' finish start' finish' : Nat → K} {c : K} (hc : 0 ≤ c) (hle : ∀ i < es.length, time i ≤ c * time' i)
    (hmin : ∀ start' finish', Doc.Execution root of es time start' finish' → ∀ i < es.length, finish i ≤ finish' i)
    (h : Doc.Execution root of es time' start' finish') : ∀ i < es.length, finish i ≤ c * finish' i := by
  have hex : Doc.Execution root of es time (fun i => c * start' i) (fun i => c * start' i + time i) := by
    refine ⟨fun i hi => mul_nonneg hc (h.nonneg i hi), fun i _ => rfl, fun i hi j hj hw => ?_⟩
    have h1 := mul_le_mul_of_nonneg_left (h.waits i hi j hj hw) hc
    rw [h.time j hj, mul_add] at h1
    have := hle j hj
    linarith
  intro i hi
  have h1 := hmin _ _ hex i hi
  have h2 := hle i hi
  rw [h.time i hi, mul_add]
  linarith

variable {p : Project} {R : Int → ℚ → Prop}

/-- Runs between the best and the worst case -/
theorem runs_between_float (htab : Doc.Timetable rf root R of es) (hn : Narrow rf root) {best worst : Nat → K}
    (hbw : Between rf root of es best worst) {start finish start' finish' : Nat → K} {B W : K}
    (hB : Doc.Execution root of es best start finish)
    (hBmin : ∀ s f, Doc.Execution root of es best s f → ∀ i < es.length, finish i ≤ f i) (hBend : ∃ i < es.length, finish i = B)
    (hW : Doc.Execution root of es worst start' finish') (hWend : ∀ i < es.length, finish' i ≤ W)
    {zs : List K} (hz : ∀ z ∈ zs, |z| ≤ 2) {vs : List Int} (h : SimulationsFloat rf root of es zs vs) :
    ∀ v ∈ vs, B - B / 2 ^ 9 - 1 ≤ v ∧ v ≤ W + W / 2 ^ 9 + 1 := by
  obtain ⟨runs, hruns, rfl, hpre⟩ := h
  intro v hv
  obtain ⟨r, hr, rfl⟩ := List.mem_map.1 hv
  have hz' : ∀ z ∈ r.2, |z| ≤ 2 := fun z hz'' => hz z (hpre.subset (List.mem_flatMap.2 ⟨r, hr, hz''⟩))
  obtain ⟨perf, dur, time, st, fi, V, hperf, hdur, hzs, htime, hex, hmin, hV1, hV2, hv0, hclose⟩ := hruns r hr
  have hzp : ∀ y ∈ perf, ∀ z ∈ y.2, |z| ≤ 2 := by
    intro y hy z hz''
    exact hz' z (by rw [hzs]; exact List.mem_flatMap.2 ⟨y, List.mem_append_left _ hy, hz''⟩)
  have hzd : ∀ y ∈ dur, ∀ z ∈ y.2, |z| ≤ 2 := by
    intro y hy z hz''
    exact hz' z (by rw [hzs]; exact List.mem_flatMap.2 ⟨y, List.mem_append_right _ hy, hz''⟩)
  -- performances
  have P : ∀ (j : Nat) w y, (agents root)[j]? = some w → perf[j]? = some y → ∃ slow fast : ℚ, Performance rf w.2 (.fin slow) (.fin fast) ∧
      (0 : K) < slow ∧ (1 : K) / 2 ^ 39 ≤ slow ∧ (fast : K) ≤ 2 ^ 39 ∧ (slow : K) ≤ fast ∧ (slow : K) * (1 - 1 / 2 ^ 11) ≤ y.1 ∧ y.1 ≤ fast * (1 + 1 / 2 ^ 11) := by
    intro j w y hw hy
    obtain ⟨hj, rfl⟩ := List.getElem?_eq_some_iff.1 hw
    obtain ⟨hj', rfl⟩ := List.getElem?_eq_some_iff.1 hy
    obtain ⟨slow, fast, h1, h2⟩ := List.Forall₂.get hperf hj hj'
    obtain ⟨n1, n2, n3, n4⟩ := hn.performance _ (List.getElem_mem hj) slow fast h1
    have m1 : (1 : K) / 2 ^ 39 ≤ slow := by simpa using (Rat.cast_le (K := K)).2 n1
    have m2 : (slow : K) ≤ fast := by exact_mod_cast n2
    have m3 : (fast : K) ≤ 256 * slow := by exact_mod_cast (Rat.cast_le (K := K)).2 n3
    have m4 : (fast : K) ≤ 2 ^ 39 := by exact_mod_cast (Rat.cast_le (K := K)).2 n4
    have m0 : (0 : K) < slow := lt_of_lt_of_le (by positivity) m1
    obtain ⟨b1, b2⟩ := sampledFloat_between h2 m0.le m2 (by norm_num at m1 ⊢; linarith) (hzp _ (List.getElem_mem hj'))
    rw [List.get_eq_getElem] at b1 b2
    refine ⟨slow, fast, h1, m0, m1, m4, m2, ?_, ?_⟩
    · norm_num at b1 ⊢
      linarith
    · norm_num at b2 ⊢
      linarith
  -- durations
  have D : ∀ (k : Nat) q x, (tasks root)[k]? = some q → dur[k]? = some x → ∃ lo hi : Nat, Duration q.2 lo hi ∧
      (1 : K) ≤ lo ∧ (lo : K) ≤ hi ∧ (hi : K) < 2 ^ 60 ∧ (lo : K) * (1 - 1 / 2 ^ 11) ≤ x.1 ∧ x.1 ≤ hi * (1 + 1 / 2 ^ 11) := by
    intro k q x hq hx
    obtain ⟨hk, rfl⟩ := List.getElem?_eq_some_iff.1 hq
    obtain ⟨hk', rfl⟩ := List.getElem?_eq_some_iff.1 hx
    obtain ⟨lo, hi, h1, h2⟩ := List.Forall₂.get hdur hk hk'
    obtain ⟨n1, n2, n3, n4⟩ := hn.durations _ (List.getElem_mem hk) lo hi h1
    have m1 : (1 : K) ≤ lo := by exact_mod_cast n1
    have m2 : (lo : K) ≤ hi := by exact_mod_cast n2
    have m3 : (hi : K) ≤ 256 * lo := by exact_mod_cast n3
    have m4 : (hi : K) < 2 ^ 60 := by exact_mod_cast n4
    have rerr : ∀ x : K, 1 ≤ x → |Binary32.round x - x| ≤ x / 2 ^ 24 := by
      intro x hx
      have := Binary32.round_error (x := x) (by
        rw [abs_of_nonneg (by linarith)]
        exact le_trans (by norm_num) hx)
      rw [abs_of_nonneg (show 0 ≤ x by linarith), show (2 : K) ^ (-24 : Int) = 1 / 2 ^ 24 by norm_num] at this
      linarith
    obtain ⟨r1, r2⟩ := abs_le.1 (rerr lo m1)
    obtain ⟨r3, r4⟩ := abs_le.1 (rerr hi (m1.trans m2))
    norm_num at r1 r2 r3 r4
    obtain ⟨b1, b2⟩ := sampledFloat_between h2 (by linarith) (Binary32.round_mono m2) (by norm_num; linarith) (hzd _ (List.getElem_mem hk'))
    rw [List.get_eq_getElem] at b1 b2
    norm_num at b1 b2
    refine ⟨lo, hi, h1, m1, m2, m4, ?_, ?_⟩
    · norm_num
      linarith
    · norm_num
      linarith
  have hlp := hperf.length_eq
  have hld := hdur.length_eq
  -- the times of the entries
  have T : ∀ i < es.length, 0 < time i ∧ time i ≤ (1 + 1 / 2 ^ 9 - 1 / 2 ^ 11) * worst i ∧ best i ≤ (1 + 1 / 2 ^ 9 - 1 / 2 ^ 11) * time i := by
    intro i hi
    have he := List.getElem?_eq_getElem hi
    have hof : of[i]? = some (of[i]'(by rw [← htab.length]; exact hi)) := List.getElem?_eq_getElem _
    set k := of[i]'(by rw [← htab.length]; exact hi)
    have hk : k < (tasks root).length := List.mem_range.1 (htab.once.mem_iff.1 (List.mem_of_getElem? hof))
    have hq := List.getElem?_eq_getElem hk
    obtain ⟨w, hw, hname, _, _⟩ := htab.agent i k _ _ hof he hq
    obtain ⟨j, hj⟩ := List.mem_iff_getElem?.1 hw
    have hj' : j < perf.length := by
      rw [← hlp]
      exact (List.getElem?_eq_some_iff.1 hj).1
    have hy := List.getElem?_eq_getElem hj'
    have hx := List.getElem?_eq_getElem (show k < dur.length by rw [← hld]; exact hk)
    obtain ⟨slow, fast, p1, p2, _, _, p3, p4, p5⟩ := P j w _ hj hy
    obtain ⟨lo, hi, d1, d2, d3, _, d4, d5⟩ := D k _ _ hq hx
    have ht := htime i k j _ w _ _ he hof hx hj hname hy
    obtain ⟨q1, q2⟩ := hbw i k _ _ w lo hi slow fast hof he hq hw hname d1 p1
    set x := (dur[k]'(by rw [← hld]; exact hk)).1
    set y := (perf[j]).1
    have hy0 : 0 < y := lt_of_lt_of_le (mul_pos p2 (by norm_num)) p4
    have hx0 : 0 < x := lt_of_lt_of_le (mul_pos (by linarith) (by norm_num)) d4
    have hf0 : (0 : K) < fast := p2.trans_le p3
    rw [ht]
    refine ⟨div_pos hx0 hy0, ?_, ?_⟩
    · refine le_trans ?_ (mul_le_mul_of_nonneg_left q2 (by norm_num))
      rw [div_le_iff₀ hy0, mul_assoc, div_mul_eq_mul_div, mul_div_assoc']
      rw [le_div_iff₀ p2]
      have hhi : (0 : K) < hi := by linarith
      have e1 : x * slow ≤ hi * (1 + 1 / 2 ^ 11) * slow := mul_le_mul_of_nonneg_right d5 p2.le
      have e2 : (hi : K) * (slow * (1 - 1 / 2 ^ 11)) ≤ hi * y := mul_le_mul_of_nonneg_left p4 hhi.le
      have e3 : (0 : K) < hi * slow := mul_pos hhi p2
      norm_num at e1 e2 ⊢
      nlinarith
    · refine le_trans q1 ?_
      rw [div_le_iff₀ hf0, mul_assoc, div_mul_eq_mul_div, mul_div_assoc', le_div_iff₀ hy0]
      have e1 : (lo : K) * y ≤ lo * (fast * (1 + 1 / 2 ^ 11)) := mul_le_mul_of_nonneg_left p5 (by linarith)
      have e2 : (lo : K) * (1 - 1 / 2 ^ 11) * fast ≤ x * fast := mul_le_mul_of_nonneg_right d4 hf0.le
      have e3 : (0 : K) < lo * fast := mul_pos (by linarith) hf0
      norm_num at e1 e2 ⊢
      nlinarith
  have hcl : CloseTo r.1 V := by
    refine hclose ?_ ?_
    · intro y hy
      obtain ⟨j, hj, rfl⟩ := List.mem_iff_getElem.1 hy
      have hj' : j < (agents root).length := by rw [hlp]; exact hj
      obtain ⟨slow, fast, p1, p2, p6, p7, p3, p4, p5⟩ := P j _ _ (List.getElem?_eq_getElem hj') (List.getElem?_eq_getElem hj)
      norm_num at p4 p5 p6 p7 ⊢
      constructor <;> linarith
    · intro x hx
      obtain ⟨k, hk, rfl⟩ := List.mem_iff_getElem.1 hx
      have hk' : k < (tasks root).length := by rw [hld]; exact hk
      obtain ⟨lo, hi, d1, d2, d3, d6, d4, d5⟩ := D k _ _ (List.getElem?_eq_getElem hk') (List.getElem?_eq_getElem hk)
      norm_num at d4 d5 ⊢
      rw [show (2 : K) ^ 60 = 1152921504606846976 by norm_num] at d6
      constructor <;> linarith
  obtain ⟨c1, c2⟩ := abs_le.1 hcl
  have hup : V ≤ (1 + 1 / 2 ^ 9 - 1 / 2 ^ 11) * W := by
    obtain ⟨i, hi, rfl⟩ := hV2
    exact (execution_scaled (by norm_num) (fun i hi => (T i hi).2.1) hmin hW i hi).trans (mul_le_mul_of_nonneg_left (hWend i hi) (by norm_num))
  have hlow : B ≤ (1 + 1 / 2 ^ 9 - 1 / 2 ^ 11) * V := by
    obtain ⟨i, hi, rfl⟩ := hBend
    exact (execution_scaled (by norm_num) (fun i hi => (T i hi).2.2) hBmin hex i hi).trans (mul_le_mul_of_nonneg_left (hV1 i hi) (by norm_num))
  have hV0 : 0 ≤ V := by
    obtain ⟨i, hi, rfl⟩ := hV2
    rw [hex.time i hi]
    exact add_nonneg (hex.nonneg i hi) (T i hi).1.le
  norm_num at c1 c2 hup hlow ⊢
  constructor <;> linarith

/-- Entries one after the other, each of which takes at most `t i`, take at most the sum. -/
theorem execution_sequential (htab : Doc.Timetable rf root R of es) {time : Nat → K} (h0 : ∀ i, 0 ≤ time i) :
    Doc.Execution root of es time (fun i => ∑ j ∈ Finset.range i, time j) (fun i => ∑ j ∈ Finset.range (i + 1), time j) := by
  refine ⟨fun i _ => Finset.sum_nonneg fun j _ => h0 j, fun i _ => Finset.sum_range_succ _ _, fun i _ j _ hw => ?_⟩
  have hji : j < i := by
    rcases hw with ⟨k, d, hk, hd, hdep⟩ | ⟨hji, _⟩
    · exact htab.ordered i j k d hk hd hdep
    · exact hji
  exact Finset.sum_le_sum_of_subset_of_nonneg (Finset.range_subset_range.2 hji) fun k _ _ => h0 k

/-- The earliest start of entry `i` -/
noncomputable def earliestStart (root : Yaml) (of : List Nat) (es : List TaskEntry) (time : Nat → K) (i : Nat) : K := open Classical in
  ((List.range i).attach.map fun j => if MustWait root of es i j.1 then earliestStart root of es time j.1 + time j.1 else 0).foldr max 0
termination_by i
decreasing_by exact List.mem_range.1 j.2

/-- There is an execution in which all entries finish as early as possible. -/
theorem earliest_exists (htab : Doc.Timetable rf root R of es) (time : Nat → K) : ∃ start finish, Doc.Execution root of es time start finish ∧
    ∀ s f, Doc.Execution root of es time s f → ∀ i < es.length, finish i ≤ f i := by
  classical
  have hmax : ∀ (l : List K) (x : K), x ∈ l → x ≤ l.foldr max 0 := by
    intro l
    induction l with
    | nil => simp
    | cons y l ih =>
      intro x hx
      rcases List.mem_cons.1 hx with rfl | hx
      · exact le_max_left _ _
      · exact (ih x hx).trans (le_max_right _ _)
  have hle : ∀ (l : List K) (b : K), 0 ≤ b → (∀ x ∈ l, x ≤ b) → l.foldr max 0 ≤ b := by
    intro l b hb
    induction l with
    | nil => simpa using hb
    | cons y l ih => exact fun h => max_le (h y (by simp)) (ih fun x hx => h x (by simp [hx]))
  have hnn : ∀ l : List K, 0 ≤ l.foldr max 0 := by
    intro l
    induction l with
    | nil => exact le_rfl
    | cons y l ih => exact ih.trans (le_max_right _ _)
  refine ⟨earliestStart root of es time, fun i => earliestStart root of es time i + time i, ⟨?_, fun _ _ => rfl, ?_⟩, ?_⟩
  · intro i _
    rw [earliestStart]
    exact hnn _
  · intro i _ j _ hw
    have hji : j < i := by
      rcases hw with ⟨k, d, hk, hd, hdep⟩ | ⟨hji, _⟩
      · exact htab.ordered i j k d hk hd hdep
      · exact hji
    rw [earliestStart.eq_1 root of es time i]
    refine hmax _ _ (List.mem_map.2 ⟨⟨j, List.mem_range.2 hji⟩, List.mem_attach _ _, ?_⟩)
    rw [if_pos hw]
  · intro s f hx i
    induction i using Nat.strong_induction_on with
    | _ i ih =>
      intro hi
      rw [hx.time i hi]
      refine add_le_add_left ?_ _ 
      rw [earliestStart]
      refine hle _ _ (hx.nonneg i hi) ?_
      intro y hy
      obtain ⟨⟨j, hj⟩, _, rfl⟩ := List.mem_map.1 hy
      have hj := List.mem_range.1 hj
      dsimp only
      split_ifs with hw
      · exact (ih j hj (hj.trans hi)).trans (hx.waits i hi j (hj.trans hi) hw)
      · exact hx.nonneg i hi

/-- C106, in part, in single precision. As long as the random numbers are between -2 and 2 (in standard deviations), every run takes at least as long as in the best case, and at most as
long as in the worst case, up to 0.2 % and a second. Missing: the random numbers of the program are not between -2 and 2. -/
theorem runs_within_float_partial (hl : load rf root = ok p) (htab : Doc.Timetable rf root R of es) (hne : es ≠ []) (hn : Narrow rf root) :
    ∃ (best worst : Nat → K) (B W : K), CaseTimes rf root of es best worst ∧ EarliestEnd root of es best B ∧ EarliestEnd root of es worst W ∧
      ∀ zs : List K, (∀ z ∈ zs, |z| ≤ 2) → ∀ vs, SimulationsFloat rf root of es zs vs →
        ∀ v ∈ vs, B - B / 2 ^ 9 - 1 ≤ v ∧ v ≤ W + W / 2 ^ 9 + 1 := by
  have hL := (load_faithful hl).2
  obtain ⟨hdv, hpv⟩ := document_values hl
  have hex : ∀ i : Nat, ∃ x : K × K, ∀ (k : Nat) e q w (lo hi : Nat) (slow fast : ℚ), of[i]? = some k → es[i]? = some e → (tasks root)[k]? = some q →
      w ∈ agents root → w.1 = .scalar e.agent → Duration q.2 lo hi → Performance rf w.2 (.fin slow) (.fin fast) → x.1 = lo / fast ∧ x.2 = hi / slow := by
    intro i
    by_cases h : ∃ (k : Nat) (e : TaskEntry) (q : List Nat × Yaml) (w : Yaml × Yaml) (lo hi : Nat) (slow fast : ℚ), of[i]? = some k ∧ es[i]? = some e ∧
      (tasks root)[k]? = some q ∧ w ∈ agents root ∧ w.1 = .scalar e.agent ∧ Duration q.2 lo hi ∧ Performance rf w.2 (.fin slow) (.fin fast)
    · obtain ⟨k, e, q, w, lo, hi, slow, fast, h1, h2, h3, h4, h5, h6, h7⟩ := h
      refine ⟨(lo / fast, hi / slow), ?_⟩
      intro k' e' q' w' lo' hi' slow' fast' g1 g2 g3 g4 g5 g6 g7
      rw [h1] at g1
      cases g1
      rw [h2] at g2
      cases g2
      rw [h3] at g3
      cases g3
      have hk : k < p.tasks.length := by
        rw [hL.tasks_length]
        exact (List.getElem?_eq_some_iff.1 h3).1
      obtain ⟨d1, d2⟩ := hdv k q _ lo hi h3 (List.getElem?_eq_getElem hk) h6
      obtain ⟨d3, d4⟩ := hdv k q _ lo' hi' h3 (List.getElem?_eq_getElem hk) g6
      have index : ∀ v ∈ agents root, v.1 = .scalar e.agent → ∃ (j : Nat) (b : Agent), (agents root)[j]? = some v ∧ p.agents[j]? = some b ∧ b.name = e.agent := by
        intro v hv hv'
        obtain ⟨j, hj⟩ := List.mem_iff_getElem?.1 hv
        have hj' : j < p.agents.length := by
          rw [hL.agents_length]
          exact (List.getElem?_eq_some_iff.1 hj).1
        refine ⟨j, _, hj, List.getElem?_eq_getElem hj', ?_⟩
        have := (hL.agents_loaded j v _ hj (List.getElem?_eq_getElem hj')).name.symm.trans hv'
        injection this
      obtain ⟨j, b, a1, a2, a3⟩ := index w h4 h5
      obtain ⟨j', b', a4, a5, a6⟩ := index w' g4 g5
      have hjj : j = j' := same_agent hL (n := e.agent) (by rw [a2, Option.map_some, a3]) (by rw [a5, Option.map_some, a6])
      subst hjj
      obtain ⟨p1, p2⟩ := hpv j w b _ _ a1 a2 h7
      rw [a2] at a5
      cases a5
      obtain ⟨p3, p4⟩ := hpv j w' b _ _ a4 a2 g7
      rw [p1] at p3
      cases p3
      rw [p2] at p4
      cases p4
      have e1 : lo = lo' := by exact_mod_cast d1.symm.trans d3
      have e2 : hi = hi' := by exact_mod_cast d2.symm.trans d4
      rw [e1, e2]
      exact ⟨rfl, rfl⟩
    · refine ⟨(0, 0), ?_⟩
      intro k e q w lo hi slow fast h1 h2 h3 h4 h5 h6 h7
      exact absurd ⟨k, e, q, w, lo, hi, slow, fast, h1, h2, h3, h4, h5, h6, h7⟩ h
  choose x hx using hex
  have hend : ∀ time : Nat → K, ∃ V, EarliestEnd root of es time V := by
    intro time
    obtain ⟨s, f, h1, h2⟩ := earliest_exists htab time
    have hl0 : 0 < es.length := List.length_pos_iff.2 hne
    obtain ⟨i, hi, hmax⟩ := (Finset.range es.length).exists_max_image f ⟨0, Finset.mem_range.2 hl0⟩
    exact ⟨f i, s, f, h1, h2, fun j hj => hmax j (Finset.mem_range.2 hj), i, Finset.mem_range.1 hi, rfl⟩
  obtain ⟨B, hB⟩ := hend fun i => (x i).1
  obtain ⟨W, hW⟩ := hend fun i => (x i).2
  refine ⟨fun i => (x i).1, fun i => (x i).2, B, W, fun i => hx i, hB, hW, ?_⟩
  obtain ⟨s, f, h1, h2, _, h3⟩ := hB
  obtain ⟨s', f', g1, _, g2, _⟩ := hW
  intro zs hz vs hvs
  refine runs_between_float htab hn ?_ h1 h2 h3 g1 g2 hz hvs
  intro i k e q w lo hi slow fast a1 a2 a3 a4 a5 a6 a7
  obtain ⟨b1, b2⟩ := hx i k e q w lo hi slow fast a1 a2 a3 a4 a5 a6 a7
  exact ⟨b1.le, b2.ge⟩

/-- Runs fit an `int` within two standard deviations, if every agent could do all tasks in 2³⁰ seconds, even at its least performance and their greatest durations. -/
theorem runs_fit_float (hl : load rf root = ok p) (htab : Doc.Timetable rf root R of es) (hn : Narrow rf root)
    (hfit : ∀ his : List Nat, List.Forall₂ (fun q hi => ∃ lo, Duration q.2 lo hi) (tasks root) his →
      ∀ w ∈ agents root, ∀ (slow : ℚ) y, Performance rf w.2 (.fin slow) y → (his.sum : ℚ) ≤ 2 ^ 30 * slow)
    {zs : List K} (hz : ∀ z ∈ zs, |z| ≤ 2) {vs : List Int} (h : SimulationsFloat rf root of es zs vs) : ∀ v ∈ vs, v < 2 ^ 31 := by
  intro v hv
  have hL := (load_faithful hl).2
  obtain ⟨hdv, -⟩ := document_values hl
  have hne : 0 < es.length := by
    obtain ⟨runs, hruns, rfl, -⟩ := h
    obtain ⟨r, hr, -⟩ := List.mem_map.1 hv
    obtain ⟨_, _, _, _, _, _, _, _, _, _, _, _, _, ⟨i, hi, _⟩, _⟩ := hruns r hr
    omega
  have hno : (tasks root).length = es.length := by
    rw [htab.length, htab.once.length_eq, List.length_range]
  set his := p.tasks.map fun t => t.durMax.toNat with hhis
  have hlen : his.length = (tasks root).length := by rw [hhis, List.length_map, hL.tasks_length]
  have hget : ∀ (k : Nat) q lo hi, (tasks root)[k]? = some q → Duration q.2 lo hi → his.getD k 0 = hi := by
    intro k q lo hi hq hd
    have hk : k < p.tasks.length := by
      rw [hL.tasks_length]
      exact (List.getElem?_eq_some_iff.1 hq).1
    have := (hdv k q _ lo hi hq (List.getElem?_eq_getElem hk) hd).2
    simp [hhis, List.getD_eq_getElem?_getD, List.getElem?_eq_getElem hk, this]
  have hF : List.Forall₂ (fun q hi => ∃ lo, Duration q.2 lo hi) (tasks root) his := by
    rw [List.forall₂_iff_get]
    refine ⟨hlen.symm, fun k h1 h2 => ?_⟩
    have hk : k < p.tasks.length := by
      rw [hL.tasks_length]
      exact h1
    obtain ⟨lo, hi, hd, _⟩ := (hL.tasks_loaded k _ _ (List.getElem?_eq_getElem h1) (List.getElem?_eq_getElem hk)).duration
    refine ⟨lo, ?_⟩
    have := hget k _ lo hi (List.getElem?_eq_getElem h1) hd
    rw [List.getD_eq_getElem?_getD, List.getElem?_eq_getElem h2, Option.getD_some] at this
    rw [List.get_eq_getElem, List.get_eq_getElem, this]
    exact hd
  have hS : (0 : K) < ((his.sum : ℕ) : K) := by
    have h0 : 0 < (tasks root).length := by omega
    obtain ⟨lo, hd⟩ := List.Forall₂.get hF h0 (by omega)
    have h1 := hn.durations _ (List.getElem_mem h0) _ _ hd
    have h2 := List.single_le_sum (fun _ _ => Nat.zero_le _) _ (List.get_mem his ⟨0, by omega⟩)
    have : 0 < his.sum := by omega
    exact_mod_cast this
  set S : K := ((his.sum : ℕ) : K) with hSdef
  set worst : Nat → K := fun i => ((his.getD (of.getD i 0) 0 : ℕ) : K) * (2 ^ 30 / S) with hworst
  have hw0 : ∀ i, 0 ≤ worst i := fun i => mul_nonneg (Nat.cast_nonneg _) (by positivity)
  have htotal : ∑ j ∈ Finset.range es.length, worst j = 2 ^ 30 := by
    rw [hworst, ← Finset.sum_mul, ← Nat.cast_sum]
    have h1 : ∑ j ∈ Finset.range es.length, his.getD (of.getD j 0) 0 = his.sum := by
      have h2 : (of.map fun k => his.getD k 0).sum = his.sum := by
        rw [(htab.once.map fun k => his.getD k 0).sum_eq, ← hlen, sum_getD his]
        rfl
      rw [← h2, sum_getD, List.length_map, ← htab.length]
      refine Finset.sum_congr rfl fun j hj => ?_
      have hj' : j < of.length := by
        rw [← htab.length]
        exact Finset.mem_range.1 hj
      simp [List.getD_eq_getElem?_getD, List.getElem?_eq_getElem hj']
    rw [h1, ← hSdef, mul_div_assoc', mul_comm, mul_div_assoc, div_self hS.ne', mul_one]
  have hbw : Between rf root of es (fun _ => (0 : K)) worst := by
    intro i k e q w lo hi slow fast hof he hq hw _ hd hpf
    obtain ⟨n1, n2, _⟩ := hn.performance w hw slow fast hpf
    have hs0 : (0 : ℚ) < slow := lt_of_lt_of_le (by positivity) n1
    have hsK : (0 : K) < slow := by exact_mod_cast hs0
    have hfK : (0 : K) < fast := by exact_mod_cast hs0.trans_le n2
    refine ⟨div_nonneg (Nat.cast_nonneg _) hfK.le, ?_⟩
    have h1 := hfit his hF w hw slow _ hpf
    have h2 : S ≤ 2 ^ 30 * slow := by
      have := (Rat.cast_le (K := K)).2 h1
      rw [Rat.cast_natCast, Rat.cast_mul, Rat.cast_pow, Rat.cast_ofNat] at this
      exact this
    rw [hworst]
    dsimp only
    rw [show of.getD i 0 = k by simp [List.getD_eq_getElem?_getD, hof], hget k q lo hi hq hd, mul_div_assoc', div_le_div_iff₀ hsK hS, mul_assoc]
    exact mul_le_mul_of_nonneg_left h2 (Nat.cast_nonneg _)
  have hB : Doc.Execution root of es (fun _ => (0 : K)) (fun _ => 0) (fun _ => 0) :=
    ⟨fun _ _ => le_rfl, fun _ _ => (add_zero _).symm, fun _ _ _ _ _ => le_rfl⟩
  have := (runs_between_float htab hn hbw hB (fun s f hx i hi => by
    rw [hx.time i hi, add_zero]
    exact hx.nonneg i hi) ⟨0, hne, rfl⟩ (execution_sequential htab hw0) (W := 2 ^ 30) (fun i hi => by
      rw [← htotal]
      exact Finset.sum_le_sum_of_subset_of_nonneg (Finset.range_subset_range.2 hi) fun k _ _ => hw0 k) hz h v hv).2
  have h3 : (v : K) < ((2 ^ 31 : Int) : K) := by
    push_cast
    norm_num at this ⊢
    linarith
  exact_mod_cast h3

section
variable {E : FloatEnv K} {read : ReadReal} {isFile : String → Bool} {terminal : Bool} {a : Arguments} {o : Cli.Options K} {m : Machine K}

/-- C106, in part, in single precision: under the conditions of `document_to_prediction_float`, if the random numbers are between -2 and 2, the bounds in the document are not extreme, and every
agent could do all tasks in 2³⁰ seconds, even at its least performance and their greatest durations, the program without a command exits with 0 and writes the output file. Missing: the
random numbers of the program are not between -2 and 2; see `Month.float_month_aborts`. -/
theorem worst_case_fits_float_partial (hE : E.IsFloat) (hsig : SignsAgree read) (hnof : isFile "" = false)
    (h : parse E read isFile terminal .predict a = .accepted o)
    (hz : ∀ t, a.restartPeriod = some t → ¬ LeadingZero t)
    (hb : ∀ t q, a.betaScale = some t → read t = some (.fin q) → ModerateBeta E q)
    (hout : a.output ≠ some "") (hd : m.source = .doc root) (hl : load m.readFloat root = ok p)
    (hread : ∀ s (q : ℚ), m.readFloat s = some (.fin q) → E.rnd (q : K) = q)
    (hs : Schedulable m.readFloat root 2 (2 ^ 30)) (hr : Doc.InRange m.readFloat root) (hw : CanWrite m o) (ht : 0 < m.threads)
    {k : Nat} (hk : 1 ≤ k) (hk' : 10000 * k ≤ 2 ^ 24) (hn : Narrow m.readFloat root)
    (hfit : ∀ his : List Nat, List.Forall₂ (fun q hi => ∃ lo, Duration q.2 lo hi) (tasks root) his →
      ∀ w ∈ agents root, ∀ (slow : ℚ) y, Performance m.readFloat w.2 (.fin slow) y → (his.sum : ℚ) ≤ 2 ^ 30 * slow) :
    ∃ (N : Nat) (of : List Nat) (es : List TaskEntry), Doc.Timetable m.readFloat root CloseTo of es ∧
      ∀ fuel, N ≤ fuel → ∀ fuel', k ≤ fuel' → ∀ zs : List K, (∀ z ∈ zs, |z| ≤ 2) →
        10000 * k * ((agents root).length + (tasks root).length) ≤ (zs.countP fun z => 0 ≤ z) →
        (∀ vs, SimulationsFloat m.readFloat root of es zs vs → ∃ c, m.more vs = ok c) →
        (∀ vs, SimulationsFloat m.readFloat root of es zs vs → vs.length = 10000 * k → m.more vs = ok false) →
        status (body E { m with fuel := fuel, fuel' := fuel', zs := zs } .predict o).flow = .exit 0 ∧
        ∃ j, .file (a.output.getD "time_estimation.json") j ∈ (body E { m with fuel := fuel, fuel' := fuel', zs := zs } .predict o).effects := by
  obtain ⟨N, mk, of, es, h1, _, _, _, _, h2⟩ := document_to_prediction_float hE hsig hnof h hz hb hout hd hl hread hs hr hw ht hk hk'
  refine ⟨N, of, es, h1, fun fuel hN fuel' hf zs hz2 hzs hm1 hm2 => ?_⟩
  obtain ⟨vs, bins, st, g1, _, _, _, _, g5⟩ := h2 fuel hN fuel' hf zs hzs hm1 hm2
  obtain ⟨g6, pre, post, _, _, g7⟩ := g5 (runs_fit_float hl h1 hn hfit hz2 g1)
  rw [g7]
  exact ⟨g6, _, List.mem_append_left _ (List.mem_append_right _ (List.mem_singleton.2 rfl))⟩

end

/-! ### Example -/

/-- The bounds in the example document are not extreme. -/
theorem sample_narrow : Narrow Sample.number Sample.plan := by
  have hl := (load_faithful Sample.plan_loads).2
  obtain ⟨hdv, hpv⟩ := document_values Sample.plan_loads
  constructor
  · intro q hq lo hi hd
    obtain ⟨k, hk⟩ := List.mem_iff_getElem?.1 hq
    have hk' : k < Sample.project.tasks.length := by
      rw [hl.tasks_length]
      exact (List.getElem?_eq_some_iff.1 hk).1
    have h1 := hdv k q _ lo hi hk (List.getElem?_eq_getElem hk') hd
    have h2 : ∀ t ∈ Sample.project.tasks, 1 ≤ t.durMin ∧ t.durMin ≤ t.durMax ∧ t.durMax ≤ 256 * t.durMin ∧ t.durMax < 2 ^ 60 := by decide
    have h3 := h2 _ (List.getElem_mem hk')
    omega
  · intro w hw slow fast hpf
    obtain ⟨k, hk⟩ := List.mem_iff_getElem?.1 hw
    have hk' : k < Sample.project.agents.length := by
      rw [hl.agents_length]
      exact (List.getElem?_eq_some_iff.1 hk).1
    obtain ⟨h1, h2⟩ := hpv k w _ _ _ hk (List.getElem?_eq_getElem hk') hpf
    have h3 : ∀ a ∈ Sample.project.agents, ∀ slow fast : ℚ, a.perfMin = .fin slow → a.perfMax = .fin fast →
        1 / 2 ^ 39 ≤ slow ∧ slow ≤ fast ∧ fast ≤ 256 * slow ∧ fast ≤ 2 ^ 39 := by
      intro a ha slow fast e1 e2
      simp only [Sample.project, List.mem_cons, List.not_mem_nil, or_false] at ha
      rcases ha with rfl | rfl <;> · cases e1; cases e2; norm_num
    exact h3 _ (List.getElem_mem hk') slow fast h1 h2

/-- Every agent could do all tasks of the example document in 2³⁰ seconds, even in the worst case. -/
theorem sample_fits (his : List Nat) (hF : List.Forall₂ (fun q hi => ∃ lo, Duration q.2 lo hi) (tasks Sample.plan) his) (w) (hw : w ∈ agents Sample.plan)
    (slow : ℚ) (y) (hpf : Performance Sample.number w.2 (.fin slow) y) : (his.sum : ℚ) ≤ 2 ^ 30 * slow := by
  have hl := (load_faithful Sample.plan_loads).2
  obtain ⟨hdv, hpv⟩ := document_values Sample.plan_loads
  have hh : his = Sample.project.tasks.map fun t => t.durMax.toNat := by
    refine List.ext_getElem (by rw [← hF.length_eq, List.length_map, hl.tasks_length]) fun k h1 h2 => ?_
    have h3 : k < (tasks Sample.plan).length := by rw [hF.length_eq]; exact h1
    obtain ⟨lo, hd⟩ := List.Forall₂.get hF h3 h1
    have h4 : k < Sample.project.tasks.length := by simpa using h2
    have := (hdv k _ _ lo _ (List.getElem?_eq_getElem h3) (List.getElem?_eq_getElem h4) hd).2
    rw [List.get_eq_getElem] at this
    simp [this]
  obtain ⟨k, hk⟩ := List.mem_iff_getElem?.1 hw
  have hk' : k < Sample.project.agents.length := by
    rw [hl.agents_length]
    exact (List.getElem?_eq_some_iff.1 hk).1
  have h1 := (hpv k w _ _ _ hk (List.getElem?_eq_getElem hk') hpf).1
  have h3 : ∀ a ∈ Sample.project.agents, ∀ slow : ℚ, a.perfMin = .fin slow → 1 / 4 ≤ slow := by
    intro a ha slow e1
    simp only [Sample.project, List.mem_cons, List.not_mem_nil, or_false] at ha
    rcases ha with rfl | rfl <;> · cases e1; norm_num
  have h4 := h3 _ (List.getElem_mem hk') slow h1
  have h5 : his.sum ≤ 2 ^ 28 := by rw [hh]; decide
  have h6 : (his.sum : ℚ) ≤ 2 ^ 28 := by exact_mod_cast h5
  norm_num at h6 ⊢
  linarith

/-- `angonoka plan.yml` with the example document, a generator that always yields 1 and a rule that is satisfied with one batch, writes its file. -/
example (draws : Nat → Nat → Nat → Draws ℚ) : ∃ o N,
    parse ratFloat exampleRead (fun f => f == "plan.yml") true .predict { input := "plan.yml" } = .accepted o ∧
    ∀ fuel, N ≤ fuel → ∀ fuel', 1 ≤ fuel' → status (body ratFloat { exampleMachine draws with
      fuel := fuel, fuel' := fuel', zs := List.replicate 1000000 1 } .predict o).flow = .exit 0 := by
  have hpar := options_as_given (E := ratFloat) (isFile := fun f => f == "plan.yml") (terminal := true) (c := .predict)
    (a := { input := "plan.yml" }) exampleRead_naturals (by decide) (batch := 10000) (idle := 100000)
    (window := 100) (period := 256) (bin := none)
    (Or.inl ⟨rfl, rfl⟩) (Or.inl ⟨rfl, rfl⟩) (Or.inl ⟨rfl, rfl⟩) (Or.inl ⟨rfl, rfl⟩)
    (Or.inl ⟨rfl, rfl⟩) (Or.inl ⟨rfl, rfl⟩) (Or.inl ⟨rfl, rfl⟩)
  have hl := (load_faithful Sample.plan_loads).2
  obtain ⟨N, of, es, _, h⟩ := worst_case_fits_float_partial (m := exampleMachine draws) (k := 1) ratFloat_isFloat exampleRead_signs
    (by decide) hpar (by simp) (by simp) (by simp) rfl Sample.plan_loads (sample_reads_floats draws) plan_schedulable plan_document_inRange
    example_canWrite (by exact (by decide : 0 < 4)) le_rfl (by norm_num) sample_narrow sample_fits
  refine ⟨_, N, hpar, fun fuel hN fuel' hf => ?_⟩
  exact (h fuel hN fuel' hf (List.replicate 1000000 1) (by
    intro z hz
    rw [List.eq_of_mem_replicate hz]
    norm_num) (by
    rw [List.countP_replicate, if_pos (by decide), ← hl.agents_length, ← hl.tasks_length]
    exact (by decide : 10000 * 1 * (Sample.project.agents.length + Sample.project.tasks.length) ≤ 1000000))
    (fun _ _ => ⟨_, rfl⟩) (fun _ _ _ => rfl)).1

/-- Every timetable of the example document has a best and a worst case. -/
example {es : List TaskEntry} {of : List Nat} (h : Doc.Timetable Sample.number Sample.plan CloseTo of es) : ∃ (best worst : Nat → ℚ) (B W : ℚ),
    CaseTimes Sample.number Sample.plan of es best worst ∧ EarliestEnd Sample.plan of es best B ∧ EarliestEnd Sample.plan of es worst W ∧
    ∀ vs, SimulationsFloat Sample.number Sample.plan of es (List.replicate 1000000 (1 : ℚ)) vs → ∀ v ∈ vs, B - B / 2 ^ 9 - 1 ≤ v ∧ v ≤ W + W / 2 ^ 9 + 1 := by
  have hne : es ≠ [] := by
    have h1 := h.length
    rw [h.once.length_eq, List.length_range, ← (load_faithful Sample.plan_loads).2.tasks_length] at h1
    rintro rfl
    exact absurd h1 (by decide)
  obtain ⟨best, worst, B, W, h1, h2, h3, h4⟩ := runs_within_float_partial (K := ℚ) Sample.plan_loads h hne sample_narrow
  exact ⟨best, worst, B, W, h1, h2, h3, h4 _ fun z hz => by rw [List.eq_of_mem_replicate hz]; norm_num⟩

end Angonoka.Props
