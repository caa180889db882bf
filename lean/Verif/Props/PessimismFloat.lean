import Verif.Spec.PessimismDoc
import Verif.Props.LimitsFloat

/-!
# C114 in single precision, in terms of the document
-/

set_option linter.unusedSectionVars false

namespace Angonoka.Props
open Angonoka Outcome
open Cli CommandLine Doc Stun

variable {K : Type} [_root_.Field K] [LinearOrder K] [IsStrictOrderedRing K] [FloorRing K]
  {rf : String → Option XFloat} {root root' : Yaml} {of : List Nat} {es : List TaskEntry}

/-- Within two standard deviations no number is rejected: a sample takes no number if it is certain, and one otherwise. -/
theorem sampledFloat_cases {lo hi : K} {x : K × List K} (h : SampledFloat lo hi x) (h0 : 0 < lo) (h1 : lo ≤ hi) (h2 : hi ≤ 256 * lo) (hhi : 1 / 2 ^ 60 ≤ hi)
    (hz : ∀ z ∈ x.2, |z| ≤ 2) : lo = hi ∧ x = (lo, []) ∨ lo ≠ hi ∧ ∃ z, |z| ≤ 2 ∧ x = (roundedNormal lo hi z, [z]) := by
  obtain ⟨_, h | ⟨hne, r, z, rfl, hr⟩⟩ := h
  · exact Or.inl h
  · refine Or.inr ⟨hne, z, hz z (by simp), ?_⟩
    cases r with
    | nil => rfl
    | cons y l =>
      have hy := hz y (by simp)
      have e := abs_le.1 (roundedNormal_error h0.le h1 hhi hy)
      have n1 : lo ≤ normal lo hi y := by
        obtain ⟨z1, z2⟩ := abs_le.1 hy
        unfold normal
        nlinarith
      have := hr y (by simp)
      norm_num at e
      linarith [e.1]

/-- Two samples from the same random numbers, the second with greater bounds -/
theorem sampledFloat_aligned {lo hi lo' hi' : K} {x x' : K × List K} (h : SampledFloat lo hi x) (h' : SampledFloat lo' hi' x')
    (h0 : 0 < lo) (h1 : lo ≤ hi) (h2 : hi ≤ 256 * lo) (hhi : 1 / 2 ^ 60 ≤ hi)
    (h0' : 0 < lo') (h1' : lo' ≤ hi') (h2' : hi' ≤ 256 * lo') (hhi' : 1 / 2 ^ 60 ≤ hi')
    (hlo : lo ≤ lo') (hle : hi ≤ hi') (hcert : lo = hi ↔ lo' = hi')
    (hz : ∀ z ∈ x.2, |z| ≤ 2) (hz' : ∀ z ∈ x'.2, |z| ≤ 2) {r r' : List K} (hr : x.2 ++ r = x'.2 ++ r') :
    r = r' ∧ x.2 = x'.2 ∧ x.1 ≤ (1 + 1 / 2 ^ 10) * x'.1 := by
  rcases sampledFloat_cases h h0 h1 h2 hhi hz with ⟨c, rfl⟩ | ⟨c, z, hz2, rfl⟩
  · rcases sampledFloat_cases h' h0' h1' h2' hhi' hz' with ⟨c', rfl⟩ | ⟨c', _⟩
    · refine ⟨by simpa using hr, rfl, ?_⟩
      norm_num
      linarith
    · exact absurd (hcert.1 c) c'
  · rcases sampledFloat_cases h' h0' h1' h2' hhi' hz' with ⟨c', _⟩ | ⟨c', z', _, rfl⟩
    · exact absurd (hcert.2 c') c
    · simp only [List.cons_append, List.nil_append, List.cons.injEq] at hr
      obtain ⟨rfl, rfl⟩ := hr
      refine ⟨rfl, rfl, ?_⟩
      obtain ⟨e1, e2⟩ := abs_le.1 (roundedNormal_error h0.le h1 hhi hz2)
      obtain ⟨f1, f2⟩ := abs_le.1 (roundedNormal_error h0'.le h1' hhi' hz2)
      obtain ⟨z1, z2⟩ := abs_le.1 hz2
      have n1 : lo' ≤ normal lo' hi' z := by
        unfold normal
        nlinarith
      have n3 : lo ≤ normal lo hi z := by
        unfold normal
        nlinarith
      have n2 : normal lo hi z ≤ normal lo' hi' z := by
        unfold normal
        have e1 : 0 ≤ (lo' - lo) * (2 - z) := mul_nonneg (by linarith) (by linarith)
        have e2 : 0 ≤ (hi' - hi) * (z + 2) := mul_nonneg (by linarith) (by linarith)
        linarith
      dsimp only
      norm_num at e1 e2 f1 f2 ⊢
      linarith

/-- Lists of samples from the same random numbers -/
theorem samples_aligned {ι ι' : Type} {Rel : ι → ι' → Prop} {S : ι → K × List K → Prop} {S' : ι' → K × List K → Prop} {C : K × List K → K × List K → Prop}
    (hstep : ∀ a a' x x' r r', Rel a a' → S a x → S' a' x' → (∀ z ∈ x.2, |z| ≤ 2) → (∀ z ∈ x'.2, |z| ≤ 2) → x.2 ++ r = x'.2 ++ r' →
      r = r' ∧ x.2 = x'.2 ∧ C x x')
    {as : List ι} {as' : List ι'} (hrel : List.Forall₂ Rel as as') {xs xs' : List (K × List K)} (hS : List.Forall₂ S as xs) (hS' : List.Forall₂ S' as' xs')
    (hz : ∀ x ∈ xs, ∀ z ∈ x.2, |z| ≤ 2) (hz' : ∀ x ∈ xs', ∀ z ∈ x.2, |z| ≤ 2) {r r' : List K}
    (hr : xs.flatMap Prod.snd ++ r = xs'.flatMap Prod.snd ++ r') :
    r = r' ∧ xs.flatMap Prod.snd = xs'.flatMap Prod.snd ∧ List.Forall₂ C xs xs' := by
  induction hrel generalizing xs xs' with
  | nil =>
    cases hS
    cases hS'
    exact ⟨by simpa using hr, rfl, .nil⟩
  | cons ha _ ih =>
    cases hS with
    | cons s1 s2 =>
    cases hS' with
    | cons s1' s2' =>
    rw [List.flatMap_cons, List.flatMap_cons, List.append_assoc, List.append_assoc] at hr
    obtain ⟨g1, g2, g3⟩ := hstep _ _ _ _ _ _ ha s1 s1' (hz _ (by simp)) (hz' _ (by simp)) hr
    obtain ⟨i1, i2, i3⟩ := ih s2 s2' (fun x hx => hz x (by simp [hx])) (fun x hx => hz' x (by simp [hx])) g1
    exact ⟨i1, by rw [List.flatMap_cons, List.flatMap_cons, g2, i2], .cons g3 i3⟩

/-- Related elements are elements. -/
theorem forall₂_mem {α β : Type} {R : α → β → Prop} {l : List α} {l' : List β} (h : List.Forall₂ R l l') :
    List.Forall₂ (fun a b => R a b ∧ a ∈ l ∧ b ∈ l') l l' := by
  rw [List.forall₂_iff_get] at h ⊢
  exact ⟨h.1, fun i h1 h2 => ⟨h.2 i h1 h2, List.get_mem _ _, List.get_mem _ _⟩⟩

/-- The same entries have to wait for one another. -/
theorem gloomier_execution (h : Gloomier rf root root') {time start finish : Nat → K} :
    Doc.Execution root of es time start finish ↔ Doc.Execution root' of es time start finish := by
  have hw : ∀ i j, MustWait root of es i j ↔ MustWait root' of es i j := by
    intro i j
    unfold MustWait
    simp only [h.depends]
  exact ⟨fun ⟨a, b, c⟩ => ⟨a, b, fun i hi j hj hm => c i hi j hj ((hw i j).2 hm)⟩,
    fun ⟨a, b, c⟩ => ⟨a, b, fun i hi j hj hm => c i hi j hj ((hw i j).1 hm)⟩⟩

/-- Durations in whole seconds up to 2²⁴ are not rounded. -/
theorem round_seconds {n : Nat} (h : n ≤ 2 ^ 24) : Binary32.round (n : K) = n := by
  have := Binary32.round_int (K := K) (n := (n : Int)) (by
    rw [abs_of_nonneg (by omega)]
    exact_mod_cast h)
  exact_mod_cast this

variable {R : Int → ℚ → Prop}

/-- One run: with the same random numbers the gloomier document takes about at least as long. -/
theorem gloomier_run_float (hg : Gloomier rf root root') (htab : Doc.Timetable rf root R of es) (hn : Narrow rf root) (hn' : Narrow rf root')
    (hs : ShortTasks root) (hs' : ShortTasks root') {zs zs' r r' : List K} (hz : ∀ z ∈ zs, |z| ≤ 2) (hz' : ∀ z ∈ zs', |z| ≤ 2)
    (hr : zs ++ r = zs' ++ r') {v v' : Int} (h : SimulatedFloat rf root of es zs v) (h' : SimulatedFloat rf root' of es zs' v') :
    r = r' ∧ zs = zs' ∧ (v : K) ≤ v' + v' / 2 ^ 8 + 3 := by
  obtain ⟨perf, dur, time, st, fi, V, hperf, hdur, rfl, htime, hex, hmin, hV1, hV2, hv0, hclose⟩ := h
  obtain ⟨perf', dur', time', st', fi', V', hperf', hdur', rfl, htime', hex', hmin', hV1', hV2', hv0', hclose'⟩ := h'
  rw [List.flatMap_append, List.flatMap_append, List.append_assoc, List.append_assoc] at hr
  rw [List.flatMap_append, List.flatMap_append]
  have zp : ∀ {a b : List (K × List K)}, (∀ z ∈ (a ++ b).flatMap Prod.snd, |z| ≤ 2) → (∀ x ∈ a, ∀ z ∈ x.2, |z| ≤ 2) ∧ ∀ x ∈ b, ∀ z ∈ x.2, |z| ≤ 2 := by
    intro a b hz
    exact ⟨fun x hx z hz1 => hz z (List.mem_flatMap.2 ⟨x, List.mem_append_left _ hx, hz1⟩),
      fun x hx z hz1 => hz z (List.mem_flatMap.2 ⟨x, List.mem_append_right _ hx, hz1⟩)⟩
  obtain ⟨zp1, zd1⟩ := zp hz
  obtain ⟨zp2, zd2⟩ := zp hz'
  have hnp : ∀ {root : Yaml}, Narrow rf root → ∀ w ∈ agents root, ∀ slow fast : ℚ, Performance rf w.2 (.fin slow) (.fin fast) →
      (1 : K) / 2 ^ 39 ≤ slow ∧ (slow : K) ≤ fast ∧ (fast : K) ≤ 256 * slow ∧ (fast : K) ≤ 2 ^ 39 := by
    intro root hn w hw slow fast h1
    obtain ⟨n1, n2, n3, n4⟩ := hn.performance w hw slow fast h1
    exact ⟨by simpa using (Rat.cast_le (K := K)).2 n1, by exact_mod_cast n2, by exact_mod_cast (Rat.cast_le (K := K)).2 n3,
      by exact_mod_cast (Rat.cast_le (K := K)).2 n4⟩
  have hnd : ∀ {root : Yaml}, Narrow rf root → ∀ q ∈ tasks root, ∀ lo hi, Duration q.2 lo hi → (1 : K) ≤ lo ∧ (lo : K) ≤ hi ∧ (hi : K) ≤ 256 * lo := by
    intro root hn q hq lo hi h1
    obtain ⟨n1, n2, n3, n4⟩ := hn.durations q hq lo hi h1
    exact ⟨by exact_mod_cast n1, by exact_mod_cast n2, by exact_mod_cast n3⟩
  -- performances
  obtain ⟨hr, e1, CP⟩ := samples_aligned (C := fun x x' => x'.1 ≤ (1 + 1 / 2 ^ 10) * x.1 ∧ (1 / 2 ^ 40 ≤ x.1 ∧ x.1 ≤ 2 ^ 40) ∧ 1 / 2 ^ 40 ≤ x'.1 ∧ x'.1 ≤ 2 ^ 40) (by
    intro w w' x x' r r' hrel h1 h2 hz1 hz2 hr
    obtain ⟨⟨_, hrel⟩, hw, hw'⟩ := hrel
    obtain ⟨slow, fast, p1, s1⟩ := h1
    obtain ⟨slow', fast', p2, s2⟩ := h2
    obtain ⟨a1, a2, a3⟩ := hrel _ _ _ _ p1 p2
    obtain ⟨m1, m2, m3, m4⟩ := hnp hn w hw slow fast p1
    obtain ⟨m1', m2', m3', m4'⟩ := hnp hn' w' hw' slow' fast' p2
    have hp : (0 : K) < 1 / 2 ^ 39 := by positivity
    have hq : (1 : K) / 2 ^ 60 ≤ 1 / 2 ^ 39 := by norm_num
    obtain ⟨g1, g2, g3⟩ := sampledFloat_aligned s2 s1 (by linarith) m2' m3' (by linarith) (by linarith) m2 m3 (by linarith)
      (by exact_mod_cast a1) (by exact_mod_cast a2) (by rw [Rat.cast_inj, Rat.cast_inj, a3]) hz2 hz1 hr.symm
    obtain ⟨b1, b2⟩ := sampledFloat_between s1 (by linarith) m2 (by linarith) hz1
    obtain ⟨b1', b2'⟩ := sampledFloat_between s2 (by linarith) m2' (by linarith) hz2
    refine ⟨g1.symm, g2.symm, g3, ?_, ?_⟩
    · norm_num at b1 b2 m1 m4 ⊢
      constructor <;> linarith
    · norm_num at b1' b2' m1' m4' ⊢
      constructor <;> linarith) (forall₂_mem hg.agents) hperf hperf' zp1 zp2 hr
  -- durations
  obtain ⟨hr, e2, CD⟩ := samples_aligned (C := fun x x' => x.1 ≤ (1 + 1 / 2 ^ 10) * x'.1 ∧ (1 / 2 ^ 62 ≤ x.1 ∧ x.1 ≤ 2 ^ 62) ∧ 1 / 2 ^ 62 ≤ x'.1 ∧ x'.1 ≤ 2 ^ 62) (by
    intro q q' x x' r r' hrel h1 h2 hz1 hz2 hr
    obtain ⟨hrel, hq, hq'⟩ := hrel
    obtain ⟨lo, hi, p1, s1⟩ := h1
    obtain ⟨lo', hi', p2, s2⟩ := h2
    obtain ⟨a1, a2, a3⟩ := hrel _ _ _ _ p1 p2
    obtain ⟨m1, m2, m3⟩ := hnd hn q hq lo hi p1
    obtain ⟨m1', m2', m3'⟩ := hnd hn' q' hq' lo' hi' p2
    have l1 := hs q hq lo hi p1
    have l2 := hs' q' hq' lo' hi' p2
    have k1 : lo ≤ hi := by exact_mod_cast m2
    have k2 : lo' ≤ hi' := by exact_mod_cast m2'
    rw [round_seconds (by omega), round_seconds (by omega)] at s1 s2
    have c1 : (hi : K) ≤ 2 ^ 24 := by exact_mod_cast l1
    have c2 : (hi' : K) ≤ 2 ^ 24 := by exact_mod_cast l2
    have hq : (1 : K) / 2 ^ 60 ≤ 1 := by norm_num
    obtain ⟨g1, g2, g3⟩ := sampledFloat_aligned s1 s2 (by linarith) m2 m3 (by linarith) (by linarith) m2' m3' (by linarith)
      (by exact_mod_cast a1) (by exact_mod_cast a2) (by rw [Nat.cast_inj, Nat.cast_inj, a3]) hz1 hz2 hr
    obtain ⟨b1, b2⟩ := sampledFloat_between s1 (by linarith) m2 (by linarith) hz1
    obtain ⟨b1', b2'⟩ := sampledFloat_between s2 (by linarith) m2' (by linarith) hz2
    rw [show (2 : K) ^ 24 = 16777216 by norm_num] at c1 c2
    refine ⟨g1, g2, g3, ?_, ?_⟩
    · norm_num at b1 b2 ⊢
      constructor <;> linarith
    · norm_num at b1' b2' ⊢
      constructor <;> linarith) (forall₂_mem hg.tasks) hdur hdur' zd1 zd2 hr
  refine ⟨hr, by rw [e1, e2], ?_⟩
  have hlp := hperf.length_eq
  have hlp' := CP.length_eq
  have hld := hdur.length_eq
  have hld' := CD.length_eq
  -- the times of the entries
  have T : ∀ i < es.length, 0 < time i ∧ 0 < time' i ∧ time i ≤ (1 + 1 / 2 ^ 10) ^ 2 * time' i := by
    intro i hi
    have he := List.getElem?_eq_getElem hi
    have hof : of[i]? = some (of[i]'(by rw [← htab.length]; exact hi)) := List.getElem?_eq_getElem _
    set k := of[i]'(by rw [← htab.length]; exact hi)
    have hk : k < (tasks root).length := List.mem_range.1 (htab.once.mem_iff.1 (List.mem_of_getElem? hof))
    have hq := List.getElem?_eq_getElem hk
    obtain ⟨w, hw, hname, _, _⟩ := htab.agent i k _ _ hof he hq
    obtain ⟨j, hj⟩ := List.mem_iff_getElem?.1 hw
    have hj1 : j < (agents root).length := (List.getElem?_eq_some_iff.1 hj).1
    have hj2 : j < perf.length := by rw [← hlp]; exact hj1
    have hj3 : j < perf'.length := by rw [← hlp']; exact hj2
    have hj4 : j < (agents root').length := by rw [← hg.agents.length_eq]; exact hj1
    have hk2 : k < dur.length := by rw [← hld]; exact hk
    have hk3 : k < dur'.length := by rw [← hld']; exact hk2
    have hw' : ((agents root')[j]).1 = .scalar (es[i]).agent := by
      have := (List.Forall₂.get hg.agents hj1 hj4).1
      rw [List.get_eq_getElem, List.get_eq_getElem] at this
      rw [this, (List.getElem?_eq_some_iff.1 hj).2, hname]
    have ht := htime i k j _ w _ _ he hof (List.getElem?_eq_getElem hk2) hj hname (List.getElem?_eq_getElem hj2)
    have ht' := htime' i k j _ _ _ _ he hof (List.getElem?_eq_getElem hk3) (List.getElem?_eq_getElem hj4) hw' (List.getElem?_eq_getElem hj3)
    obtain ⟨p1, p2, p3⟩ := List.Forall₂.get CP hj2 hj3
    obtain ⟨d1, d2, d3⟩ := List.Forall₂.get CD hk2 hk3
    rw [List.get_eq_getElem] at p1 p2 p3 d1 d2 d3
    rw [List.get_eq_getElem] at p1 d1
    rw [ht, ht']
    have y0 : 0 < (perf[j]).1 := lt_of_lt_of_le (by positivity) p2.1
    have y0' : 0 < (perf'[j]).1 := lt_of_lt_of_le (by positivity) p3.1
    have x0 : 0 < (dur[k]).1 := lt_of_lt_of_le (by positivity) d2.1
    have x0' : 0 < (dur'[k]).1 := lt_of_lt_of_le (by positivity) d3.1
    refine ⟨div_pos x0 y0, div_pos x0' y0', ?_⟩
    rw [div_le_iff₀ y0, mul_assoc, div_mul_eq_mul_div, mul_div_assoc', le_div_iff₀ y0']
    calc (dur[k]).1 * (perf'[j]).1 ≤ ((1 + 1 / 2 ^ 10) * (dur'[k]).1) * ((1 + 1 / 2 ^ 10) * (perf[j]).1) :=
          mul_le_mul d1 p1 y0'.le (mul_nonneg (by norm_num) x0'.le)
      _ = _ := by ring
  have cl : ∀ {l l' : List (K × List K)} {P : K × List K → K × List K → Prop}, List.Forall₂ P l l' →
      (∀ x ∈ l, ∃ x' ∈ l', P x x') ∧ ∀ x' ∈ l', ∃ x ∈ l, P x x' := by
    intro l l' P h
    induction h with
    | nil => simp
    | cons h _ ih =>
      refine ⟨fun x hx => ?_, fun x hx => ?_⟩
      · rcases List.mem_cons.1 hx with rfl | hx
        · exact ⟨_, by simp, h⟩
        · obtain ⟨y, hy, hp⟩ := ih.1 x hx
          exact ⟨y, by simp [hy], hp⟩
      · rcases List.mem_cons.1 hx with rfl | hx
        · exact ⟨_, by simp, h⟩
        · obtain ⟨y, hy, hp⟩ := ih.2 x hx
          exact ⟨y, by simp [hy], hp⟩
  obtain ⟨c1, c2⟩ := abs_le.1 (hclose (fun y hy => by
    obtain ⟨_, _, h⟩ := (cl CP).1 y hy
    exact h.2.1) fun x hx => by
    obtain ⟨_, _, h⟩ := (cl CD).1 x hx
    exact h.2.1)
  obtain ⟨c1', c2'⟩ := abs_le.1 (hclose' (fun y hy => by
    obtain ⟨_, _, h⟩ := (cl CP).2 y hy
    exact h.2.2) fun x hx => by
    obtain ⟨_, _, h⟩ := (cl CD).2 x hx
    exact h.2.2)
  have hup : V ≤ (1 + 1 / 2 ^ 10) ^ 2 * V' := by
    obtain ⟨i, hi, rfl⟩ := hV2
    exact (execution_scaled (by norm_num) (fun i hi => (T i hi).2.2) hmin ((gloomier_execution hg).2 hex') i hi).trans
      (mul_le_mul_of_nonneg_left (hV1' i hi) (by norm_num))
  have hV0 : 0 ≤ V' := by
    obtain ⟨i, hi, rfl⟩ := hV2'
    rw [hex'.time i hi]
    exact add_nonneg (hex'.nonneg i hi) (T i hi).2.1.le
  norm_num at c1 c2 c1' c2' hup ⊢
  linarith

/-- C114, in part, in single precision. The second document expects agents to work at most as fast and tasks to take at least as long. Then for the same timetable and the
same random numbers, none of which is more than two standard deviations away from zero, each of the runs takes at least as long, up to 0.4 % and three seconds. The bounds are not
extreme and no task takes more than 194 days. Missing: other random numbers; see `Gloom.gloomier_not_longer`. -/
theorem gloomier_runs_float_partial (hg : Gloomier rf root root') (htab : Doc.Timetable rf root R of es) (hn : Narrow rf root) (hn' : Narrow rf root')
    (hs : ShortTasks root) (hs' : ShortTasks root') {zs : List K} (hz : ∀ z ∈ zs, |z| ≤ 2) {vs vs' : List Int}
    (h : SimulationsFloat rf root of es zs vs) (h' : SimulationsFloat rf root' of es zs vs') (hlen : vs'.length = vs.length) :
    List.Forall₂ (fun v v' : Int => (v : K) ≤ v' + v' / 2 ^ 8 + 3) vs vs' := by
  obtain ⟨runs, h1, rfl, h2⟩ := h
  obtain ⟨runs', h1', rfl, h2'⟩ := h'
  rw [List.length_map, List.length_map] at hlen
  induction runs generalizing runs' zs with
  | nil =>
    rw [List.length_nil, List.length_eq_zero_iff] at hlen
    subst hlen
    exact .nil
  | cons r runs ih =>
    cases runs' with
    | nil => simp at hlen
    | cons r' runs' =>
      rw [List.flatMap_cons] at h2 h2'
      obtain ⟨t, ht⟩ := h2
      obtain ⟨t', ht'⟩ := h2'
      rw [List.append_assoc] at ht ht'
      obtain ⟨g1, g2, g3⟩ := gloomier_run_float hg htab hn hn' hs hs' (fun z hz1 => hz z (by rw [← ht]; exact List.mem_append_left _ hz1))
        (fun z hz1 => hz z (by rw [← ht']; exact List.mem_append_left _ hz1)) (ht.trans ht'.symm) (h1 r (by simp)) (h1' r' (by simp))
      refine .cons g3 (ih (zs := runs.flatMap Prod.snd ++ t) (fun z hz1 => hz z (by rw [← ht]; exact List.mem_append_right _ hz1))
        (fun r hr => h1 r (by simp [hr])) ⟨t, rfl⟩ runs' (fun r hr => h1' r (by simp [hr])) ⟨t', g1.symm⟩ (by simpa using hlen))

/-! ### Exact arithmetic -/

/-- Two samples from the same random numbers, the second with greater bounds, in exact arithmetic -/
theorem sampled_aligned {lo hi lo' hi' : K} {x x' : K × List K} (h : Sampled lo hi x) (h' : Sampled lo' hi' x')
    (h0 : 0 < lo) (h1 : lo ≤ hi) (h1' : lo' ≤ hi') (hlo : lo ≤ lo') (hle : hi ≤ hi') (hcert : lo = hi ↔ lo' = hi')
    (hz : ∀ z ∈ x.2, |z| ≤ 2) (hz' : ∀ z ∈ x'.2, |z| ≤ 2) {r r' : List K} (hr : x.2 ++ r = x'.2 ++ r') :
    r = r' ∧ x.2 = x'.2 ∧ x.1 ≤ x'.1 := by
  have cases : ∀ {lo hi : K} {x : K × List K}, Sampled lo hi x → 0 < lo → lo ≤ hi → (∀ z ∈ x.2, |z| ≤ 2) →
      lo = hi ∧ x = (lo, []) ∨ lo ≠ hi ∧ ∃ z, |z| ≤ 2 ∧ x = (normal lo hi z, [z]) := by
    intro lo hi x h h0 h1 hz
    obtain ⟨_, h | ⟨hne, r, z, rfl, hr⟩⟩ := h
    · exact Or.inl h
    · refine Or.inr ⟨hne, z, hz z (by simp), ?_⟩
      cases r with
      | nil => rfl
      | cons y l =>
        obtain ⟨z1, z2⟩ := abs_le.1 (hz y (by simp))
        have n1 : lo ≤ normal lo hi y := by
          unfold normal
          nlinarith
        exact absurd (hr y (by simp)) (not_le.2 (h0.trans_le n1))
  rcases cases h h0 h1 hz with ⟨c, rfl⟩ | ⟨c, z, hz2, rfl⟩
  · rcases cases h' (h0.trans_le hlo) h1' hz' with ⟨c', rfl⟩ | ⟨c', _⟩
    · exact ⟨by simpa using hr, rfl, hlo⟩
    · exact absurd (hcert.1 c) c'
  · rcases cases h' (h0.trans_le hlo) h1' hz' with ⟨c', _⟩ | ⟨c', z', _, rfl⟩
    · exact absurd (hcert.2 c') c
    · simp only [List.cons_append, List.nil_append, List.cons.injEq] at hr
      obtain ⟨rfl, rfl⟩ := hr
      refine ⟨rfl, rfl, ?_⟩
      obtain ⟨z1, z2⟩ := abs_le.1 hz2
      have e1 : 0 ≤ (lo' - lo) * (2 - z) := mul_nonneg (by linarith) (by linarith)
      have e2 : 0 ≤ (hi' - hi) * (z + 2) := mul_nonneg (by linarith) (by linarith)
      unfold normal
      dsimp only
      linarith

/-- The bounds in a document that can be scheduled are positive and in the right order. -/
theorem bounds_positive {p : Project} (hl : load rf root = ok p) (hs : p.Sound) :
    (∀ q ∈ tasks root, ∀ lo hi : Nat, Duration q.2 lo hi → 0 < lo ∧ lo ≤ hi) ∧
    ∀ w ∈ agents root, ∀ slow fast : ℚ, Performance rf w.2 (.fin slow) (.fin fast) → 0 < slow ∧ slow ≤ fast := by
  have h := (load_faithful hl).2
  obtain ⟨d1, d2⟩ := document_values hl
  constructor
  · intro q hq lo hi hd
    obtain ⟨k, hk⟩ := List.mem_iff_getElem?.1 hq
    have hk' : k < p.tasks.length := by
      rw [h.tasks_length]
      exact (List.getElem?_eq_some_iff.1 hk).1
    have h1 := d1 k q _ lo hi hk (List.getElem?_eq_getElem hk') hd
    have h3 := hs.durations _ (List.getElem_mem hk')
    unfold Task.DurationOk at h3
    omega
  · intro w hw slow fast hpf
    obtain ⟨k, hk⟩ := List.mem_iff_getElem?.1 hw
    have hk' : k < p.agents.length := by
      rw [h.agents_length]
      exact (List.getElem?_eq_some_iff.1 hk).1
    obtain ⟨h1, h2⟩ := d2 k w _ _ _ hk (List.getElem?_eq_getElem hk') hpf
    obtain ⟨lo, hi, e1, e2, e3, e4⟩ := hs.performance _ (List.getElem_mem hk')
    rw [h1] at e1
    rw [h2] at e2
    cases e1
    cases e2
    exact ⟨e3, e4⟩

/-- One run in exact arithmetic -/
theorem gloomier_run_document {p p' : Project} (hl : load rf root = ok p) (hl' : load rf root' = ok p') (hp : p.Sound) (hp' : p'.Sound)
    (hg : Gloomier rf root root') (htab : Doc.Timetable rf root R of es)
    {zs zs' r r' : List K} (hz : ∀ z ∈ zs, |z| ≤ 2) (hz' : ∀ z ∈ zs', |z| ≤ 2)
    (hr : zs ++ r = zs' ++ r') {v v' : Int} (h : Simulated rf root of es zs v) (h' : Simulated rf root' of es zs' v') :
    r = r' ∧ v ≤ v' := by
  obtain ⟨perf, dur, time, st, fi, V, hperf, hdur, rfl, htime, hex, hmin, hV1, hV2, hv⟩ := h
  obtain ⟨perf', dur', time', st', fi', V', hperf', hdur', rfl, htime', hex', hmin', hV1', hV2', hv'⟩ := h'
  rw [List.flatMap_append, List.flatMap_append, List.append_assoc, List.append_assoc] at hr
  have zp : ∀ {a b : List (K × List K)}, (∀ z ∈ (a ++ b).flatMap Prod.snd, |z| ≤ 2) → (∀ x ∈ a, ∀ z ∈ x.2, |z| ≤ 2) ∧ ∀ x ∈ b, ∀ z ∈ x.2, |z| ≤ 2 := by
    intro a b hz
    exact ⟨fun x hx z hz1 => hz z (List.mem_flatMap.2 ⟨x, List.mem_append_left _ hx, hz1⟩),
      fun x hx z hz1 => hz z (List.mem_flatMap.2 ⟨x, List.mem_append_right _ hx, hz1⟩)⟩
  obtain ⟨zp1, zd1⟩ := zp hz
  obtain ⟨zp2, zd2⟩ := zp hz'
  obtain ⟨D, P⟩ := bounds_positive hl hp
  obtain ⟨D', P'⟩ := bounds_positive hl' hp'
  obtain ⟨hr, _, CP⟩ := samples_aligned (C := fun x x' => x'.1 ≤ x.1 ∧ 0 < x.1 ∧ 0 < x'.1) (by
    intro w w' x x' r r' hrel h1 h2 hz1 hz2 hr
    obtain ⟨⟨_, hrel⟩, hw, hw'⟩ := hrel
    obtain ⟨slow, fast, p1, s1⟩ := h1
    obtain ⟨slow', fast', p2, s2⟩ := h2
    obtain ⟨a1, a2, a3⟩ := hrel _ _ _ _ p1 p2
    obtain ⟨m1, m2⟩ := P w hw slow fast p1
    obtain ⟨m1', m2'⟩ := P' w' hw' slow' fast' p2
    obtain ⟨g1, g2, g3⟩ := sampled_aligned s2 s1 (by exact_mod_cast m1') (by exact_mod_cast m2') (by exact_mod_cast m2)
      (by exact_mod_cast a1) (by exact_mod_cast a2) (by rw [Rat.cast_inj, Rat.cast_inj, a3]) hz2 hz1 hr.symm
    exact ⟨g1.symm, g2.symm, g3, s1.1, s2.1⟩) (forall₂_mem hg.agents) hperf hperf' zp1 zp2 hr
  obtain ⟨hr, _, CD⟩ := samples_aligned (C := fun x x' => x.1 ≤ x'.1 ∧ 0 < x.1 ∧ 0 < x'.1) (by
    intro q q' x x' r r' hrel h1 h2 hz1 hz2 hr
    obtain ⟨hrel, hq, hq'⟩ := hrel
    obtain ⟨lo, hi, p1, s1⟩ := h1
    obtain ⟨lo', hi', p2, s2⟩ := h2
    obtain ⟨a1, a2, a3⟩ := hrel _ _ _ _ p1 p2
    obtain ⟨m1, m2⟩ := D q hq lo hi p1
    obtain ⟨m1', m2'⟩ := D' q' hq' lo' hi' p2
    obtain ⟨g1, g2, g3⟩ := sampled_aligned s1 s2 (by exact_mod_cast m1) (by exact_mod_cast m2) (by exact_mod_cast m2')
      (by exact_mod_cast a1) (by exact_mod_cast a2) (by rw [Nat.cast_inj, Nat.cast_inj, a3]) hz1 hz2 hr
    exact ⟨g1, g2, g3, s1.1, s2.1⟩) (forall₂_mem hg.tasks) hdur hdur' zd1 zd2 hr
  refine ⟨hr, ?_⟩
  have hlp := hperf.length_eq
  have hlp' := CP.length_eq
  have hld := hdur.length_eq
  have hld' := CD.length_eq
  have T : ∀ i < es.length, time i ≤ 1 * time' i := by
    intro i hi
    have he := List.getElem?_eq_getElem hi
    have hof : of[i]? = some (of[i]'(by rw [← htab.length]; exact hi)) := List.getElem?_eq_getElem _
    set k := of[i]'(by rw [← htab.length]; exact hi)
    have hk : k < (tasks root).length := List.mem_range.1 (htab.once.mem_iff.1 (List.mem_of_getElem? hof))
    have hq := List.getElem?_eq_getElem hk
    obtain ⟨w, hw, hname, _, _⟩ := htab.agent i k _ _ hof he hq
    obtain ⟨j, hj⟩ := List.mem_iff_getElem?.1 hw
    have hj1 : j < (agents root).length := (List.getElem?_eq_some_iff.1 hj).1
    have hj2 : j < perf.length := by rw [← hlp]; exact hj1
    have hj3 : j < perf'.length := by rw [← hlp']; exact hj2
    have hj4 : j < (agents root').length := by rw [← hg.agents.length_eq]; exact hj1
    have hk2 : k < dur.length := by rw [← hld]; exact hk
    have hk3 : k < dur'.length := by rw [← hld']; exact hk2
    have hw' : ((agents root')[j]).1 = .scalar (es[i]).agent := by
      have := (List.Forall₂.get hg.agents hj1 hj4).1
      rw [List.get_eq_getElem, List.get_eq_getElem] at this
      rw [this, (List.getElem?_eq_some_iff.1 hj).2, hname]
    have ht := htime i k j _ w _ _ he hof (List.getElem?_eq_getElem hk2) hj hname (List.getElem?_eq_getElem hj2)
    have ht' := htime' i k j _ _ _ _ he hof (List.getElem?_eq_getElem hk3) (List.getElem?_eq_getElem hj4) hw' (List.getElem?_eq_getElem hj3)
    obtain ⟨p1, p2, p3⟩ := List.Forall₂.get CP hj2 hj3
    obtain ⟨d1, d2, d3⟩ := List.Forall₂.get CD hk2 hk3
    simp only [List.get_eq_getElem] at p1 p2 p3 d1 d2 d3
    rw [ht, ht', one_mul]
    exact div_le_div₀ d3.le d1 p3 p1
  have hup : V ≤ V' := by
    obtain ⟨i, hi, rfl⟩ := hV2
    have := execution_scaled zero_le_one T hmin ((gloomier_execution hg).2 hex') i hi
    rw [one_mul] at this
    exact this.trans (hV1' i hi)
  have h1 : (v : K) < v' + 1 := lt_of_le_of_lt (hv.1.trans hup) hv'.2
  have h2 : v < v' + 1 := by exact_mod_cast h1
  omega

/-- C114, in part, in terms of the document, in exact arithmetic. The second document expects agents to work at most as fast and tasks to take at least as long. Then for the
same timetable and the same random numbers, none of which is more than two standard deviations away from zero, each of the runs takes at least as long. Missing: other random
numbers; see `Gloom.gloomier_not_longer`. -/
theorem gloomier_document_partial {p p' : Project} {c d c' d' : ℚ} (hl : load rf root = ok p) (hl' : load rf root' = ok p')
    (hs : Schedulable rf root c d) (hs' : Schedulable rf root' c' d')
    (hg : Gloomier rf root root') (htab : Doc.Timetable rf root R of es) {zs : List K} (hz : ∀ z ∈ zs, |z| ≤ 2) {vs vs' : List Int}
    (h : Simulations rf root of es zs vs) (h' : Simulations rf root' of es zs vs') (hlen : vs'.length = vs.length) :
    List.Forall₂ (· ≤ ·) vs vs' := by
  have hp := (schedulable_sound hl hs).1
  have hp' := (schedulable_sound hl' hs').1
  obtain ⟨runs, h1, rfl, h2⟩ := h
  obtain ⟨runs', h1', rfl, h2'⟩ := h'
  rw [List.length_map, List.length_map] at hlen
  induction runs generalizing runs' zs with
  | nil =>
    rw [List.length_nil, List.length_eq_zero_iff] at hlen
    subst hlen
    exact .nil
  | cons r runs ih =>
    cases runs' with
    | nil => simp at hlen
    | cons r' runs' =>
      rw [List.flatMap_cons] at h2 h2'
      obtain ⟨t, ht⟩ := h2
      obtain ⟨t', ht'⟩ := h2'
      rw [List.append_assoc] at ht ht'
      obtain ⟨g1, g3⟩ := gloomier_run_document hl hl' hp hp' hg htab (fun z hz1 => hz z (by rw [← ht]; exact List.mem_append_left _ hz1))
        (fun z hz1 => hz z (by rw [← ht']; exact List.mem_append_left _ hz1)) (ht.trans ht'.symm) (h1 r (by simp)) (h1' r' (by simp))
      refine .cons g3 (ih (zs := runs.flatMap Prod.snd ++ t) (fun z hz1 => hz z (by rw [← ht]; exact List.mem_append_right _ hz1))
        (fun r hr => h1 r (by simp [hr])) ⟨t, rfl⟩ runs' (fun r hr => h1' r (by simp [hr])) ⟨t', g1.symm⟩ (by simpa using hlen))

/-! ### Example -/

/-- Whether a document is gloomier can be seen from what is loaded. -/
theorem gloomier_loaded {p p' : Project} (hl : load rf root = ok p) (hl' : load rf root' = ok p')
    (ha : List.Forall₂ (fun a a' : Agent => a'.name = a.name ∧ ∀ slow fast slow' fast' : ℚ, a.perfMin = .fin slow → a.perfMax = .fin fast →
      a'.perfMin = .fin slow' → a'.perfMax = .fin fast' → slow' ≤ slow ∧ fast' ≤ fast ∧ (slow = fast ↔ slow' = fast')) p.agents p'.agents)
    (ht : List.Forall₂ (fun t t' : Task => t'.dependencies = t.dependencies ∧ t.durMin ≤ t'.durMin ∧ t.durMax ≤ t'.durMax ∧
      (t.durMin = t.durMax ↔ t'.durMin = t'.durMax)) p.tasks p'.tasks) : Gloomier rf root root' := by
  have h := (load_faithful hl).2
  have h' := (load_faithful hl').2
  obtain ⟨d1, d2⟩ := document_values hl
  obtain ⟨d1', d2'⟩ := document_values hl'
  rw [List.forall₂_iff_get] at ha ht
  refine ⟨?_, ?_, ?_⟩
  · rw [List.forall₂_iff_get]
    refine ⟨by rw [← h.agents_length, ← h'.agents_length]; exact ha.1, fun i h1 h2 => ?_⟩
    have k1 : i < p.agents.length := by rw [h.agents_length]; exact h1
    have k2 : i < p'.agents.length := by rw [h'.agents_length]; exact h2
    obtain ⟨g1, g2⟩ := ha.2 i k1 k2
    simp only [List.get_eq_getElem] at g1 g2 ⊢
    have n1 := (h.agents_loaded i _ _ (List.getElem?_eq_getElem h1) (List.getElem?_eq_getElem k1)).name
    have n2 := (h'.agents_loaded i _ _ (List.getElem?_eq_getElem h2) (List.getElem?_eq_getElem k2)).name
    refine ⟨by rw [n1, n2, g1], fun slow fast slow' fast' e1 e2 => ?_⟩
    obtain ⟨a1, a2⟩ := d2 i _ _ _ _ (List.getElem?_eq_getElem h1) (List.getElem?_eq_getElem k1) e1
    obtain ⟨a3, a4⟩ := d2' i _ _ _ _ (List.getElem?_eq_getElem h2) (List.getElem?_eq_getElem k2) e2
    exact g2 _ _ _ _ a1 a2 a3 a4
  · rw [List.forall₂_iff_get]
    refine ⟨by rw [← h.tasks_length, ← h'.tasks_length]; exact ht.1, fun i h1 h2 lo hi lo' hi' e1 e2 => ?_⟩
    have k1 : i < p.tasks.length := by rw [h.tasks_length]; exact h1
    have k2 : i < p'.tasks.length := by rw [h'.tasks_length]; exact h2
    obtain ⟨_, g2, g3, g4⟩ := ht.2 i k1 k2
    obtain ⟨a1, a2⟩ := d1 i _ _ _ _ (List.getElem?_eq_getElem h1) (List.getElem?_eq_getElem k1) e1
    obtain ⟨a3, a4⟩ := d1' i _ _ _ _ (List.getElem?_eq_getElem h2) (List.getElem?_eq_getElem k2) e2
    simp only [List.get_eq_getElem] at g2 g3 g4
    rw [a1, a2, a3, a4] at g4
    omega
  · intro k d
    constructor
    · intro hd
      obtain ⟨_, _, hq, _⟩ := id hd
      have k1 : k < p.tasks.length := by rw [h.tasks_length]; exact (List.getElem?_eq_some_iff.1 hq).1
      have k2 : k < p'.tasks.length := by rw [← ht.1]; exact k1
      have := (ht.2 k k1 k2).1
      simp only [List.get_eq_getElem] at this
      rw [← h'.deps k _ (List.getElem?_eq_getElem k2), this, h.deps k _ (List.getElem?_eq_getElem k1)]
      exact hd
    · intro hd
      obtain ⟨_, _, hq, _⟩ := id hd
      have k2 : k < p'.tasks.length := by rw [h'.tasks_length]; exact (List.getElem?_eq_some_iff.1 hq).1
      have k1 : k < p.tasks.length := by rw [ht.1]; exact k2
      have := (ht.2 k k1 k2).1
      simp only [List.get_eq_getElem] at this
      rw [← h.deps k _ (List.getElem?_eq_getElem k1), ← this, h'.deps k _ (List.getElem?_eq_getElem k2)]
      exact hd

/-- Bounds that are not extreme can be seen from what is loaded. -/
theorem narrow_loaded {p : Project} (hl : load rf root = ok p)
    (ht : ∀ t ∈ p.tasks, 1 ≤ t.durMin ∧ t.durMin ≤ t.durMax ∧ t.durMax ≤ 256 * t.durMin ∧ t.durMax ≤ 2 ^ 24)
    (ha : ∀ a ∈ p.agents, ∀ slow fast : ℚ, a.perfMin = .fin slow → a.perfMax = .fin fast →
      1 / 2 ^ 39 ≤ slow ∧ slow ≤ fast ∧ fast ≤ 256 * slow ∧ fast ≤ 2 ^ 39) : Narrow rf root ∧ ShortTasks root := by
  have h := (load_faithful hl).2
  obtain ⟨d1, d2⟩ := document_values hl
  have D : ∀ q ∈ tasks root, ∀ lo hi, Duration q.2 lo hi → 1 ≤ lo ∧ lo ≤ hi ∧ hi ≤ 256 * lo ∧ hi ≤ 2 ^ 24 := by
    intro q hq lo hi hd
    obtain ⟨k, hk⟩ := List.mem_iff_getElem?.1 hq
    have hk' : k < p.tasks.length := by
      rw [h.tasks_length]
      exact (List.getElem?_eq_some_iff.1 hk).1
    have h1 := d1 k q _ lo hi hk (List.getElem?_eq_getElem hk') hd
    have h3 := ht _ (List.getElem_mem hk')
    omega
  refine ⟨⟨fun q hq lo hi hd => ?_, fun w hw slow fast hpf => ?_⟩, fun q hq lo hi hd => (D q hq lo hi hd).2.2.2⟩
  · have := D q hq lo hi hd
    omega
  · obtain ⟨k, hk⟩ := List.mem_iff_getElem?.1 hw
    have hk' : k < p.agents.length := by
      rw [h.agents_length]
      exact (List.getElem?_eq_some_iff.1 hk).1
    obtain ⟨h1, h2⟩ := d2 k w _ _ _ hk (List.getElem?_eq_getElem hk') hpf
    exact ha _ (List.getElem_mem hk') slow fast h1 h2

namespace Gloom
open Sample

/-- The example document with longer durations and a slower agent -/
def plan : Yaml := obj [
  ("agents", obj [
    ("Bob", obj [("groups", .seq [str "A", str "B"]), ("performance", obj [("min", str "0.5"), ("max", str "2")])]),
    ("Jack", obj [("performance", str "0.5")])]),
  ("tasks", .seq [
    obj [("name", str "build"), ("id", str "b"), ("duration", str "3h"), ("group", str "B"),
      ("subtasks", .seq [
        obj [("name", str "walls"), ("duration", str "1h and 30m"), ("agent", str "Jack")],
        obj [("name", str "roof"), ("duration", obj [("min", str "30 minutes"), ("max", str "2h")]),
          ("groups", .seq [str "B", str "C"])]])],
    obj [("name", str "paint"), ("duration", str "45s"), ("depends_on", .seq [str "b"])]])]

/-- What it is loaded as. -/
def planProject : Project where
  groups := ["A", "B", "C"]
  agents := [
    { id := 0, name := "Bob", groupIds := [0, 1], perfMin := .fin (1 / 2), perfMax := .fin 2 },
    { id := 1, name := "Jack", perfMin := .fin (1 / 2), perfMax := .fin (1 / 2) }]
  tasks := [
    { name := "build", id := "b", groupIds := [1], dependencies := [1, 2], durMin := 10800, durMax := 10800 },
    { name := "walls", agentId := some 1, durMin := 5400, durMax := 5400 },
    { name := "roof", groupIds := [1, 2], durMin := 1800, durMax := 7200 },
    { name := "paint", dependencies := [0], durMin := 45, durMax := 45 }]

theorem plan_loads : load number plan = ok planProject := by
  rw [Load.load_eval 20 _ _ (by decide)]
  decide +kernel

/-- C114 applies to the example document and this one. -/
theorem plan_gloomier : Gloomier number Sample.plan plan ∧ (Narrow number Sample.plan ∧ ShortTasks Sample.plan) ∧ Narrow number plan ∧ ShortTasks plan := by
  refine ⟨gloomier_loaded Sample.plan_loads plan_loads ?_ ?_, narrow_loaded Sample.plan_loads (by decide) ?_, narrow_loaded plan_loads (by decide) ?_⟩
  · refine .cons ⟨rfl, ?_⟩ (.cons ⟨rfl, ?_⟩ .nil) <;>
      · intro _ _ _ _ e1 e2 e3 e4
        cases e1; cases e2; cases e3; cases e4
        norm_num
  · exact .cons (by decide) (.cons (by decide) (.cons (by decide) (.cons (by decide) .nil)))
  · intro a ha slow fast e1 e2
    simp only [Sample.project, List.mem_cons, List.not_mem_nil, or_false] at ha
    rcases ha with rfl | rfl <;> · cases e1; cases e2; norm_num
  · intro a ha slow fast e1 e2
    simp only [planProject, List.mem_cons, List.not_mem_nil, or_false] at ha
    rcases ha with rfl | rfl <;> · cases e1; cases e2; norm_num

/-- For every timetable of the example document and random numbers that are all 1 -/
example {of : List Nat} {es : List TaskEntry} (h : Doc.Timetable number Sample.plan CloseTo of es) {vs vs' : List Int}
    (h1 : SimulationsFloat number Sample.plan of es (List.replicate 1000000 (1 : ℚ)) vs)
    (h2 : SimulationsFloat number plan of es (List.replicate 1000000 (1 : ℚ)) vs') (h3 : vs'.length = vs.length) :
    List.Forall₂ (fun v v' : Int => (v : ℚ) ≤ v' + v' / 2 ^ 8 + 3) vs vs' := by
  obtain ⟨g1, ⟨g2, g3⟩, g4, g5⟩ := plan_gloomier
  exact gloomier_runs_float_partial g1 h g2 g4 g3 g5 (fun z hz => by rw [List.eq_of_mem_replicate hz]; norm_num) h1 h2 h3

/-- The gloomier document can be scheduled, too. -/
theorem plan_schedulable : Schedulable number plan 2 (2 ^ 30) := by
  refine sound_schedulable plan_loads (loaded_sound plan_loads (by decide) ?_ ?_) ⟨⟨_, List.mem_cons_self, ?_⟩, ?_⟩
  · intro a ha
    simp only [planProject, List.mem_cons, List.not_mem_nil, or_false] at ha
    rcases ha with rfl | rfl <;> exact ⟨_, _, rfl, rfl⟩
  · intro t ht
    simp only [planProject, List.mem_cons, List.not_mem_nil, or_false] at ht
    rcases ht with rfl | rfl | rfl | rfl <;> simp [planProject, Eligible]
  all_goals
    intro a ha q hq
    simp only [planProject, List.mem_cons, List.not_mem_nil, or_false] at ha
    rcases ha with rfl | rfl <;> (cases hq; decide +kernel)

/-- The same in exact arithmetic -/
example {of : List Nat} {es : List TaskEntry} (h : Doc.Timetable number Sample.plan CloseTo of es) {vs vs' : List Int}
    (h1 : Simulations number Sample.plan of es (List.replicate 1000000 (1 : ℚ)) vs)
    (h2 : Simulations number plan of es (List.replicate 1000000 (1 : ℚ)) vs') (h3 : vs'.length = vs.length) : List.Forall₂ (· ≤ ·) vs vs' :=
  gloomier_document_partial Sample.plan_loads plan_loads Props.plan_schedulable plan_schedulable plan_gloomier.1 h
    (fun z hz => by rw [List.eq_of_mem_replicate hz]; norm_num) h1 h2 h3

end Gloom

end Angonoka.Props
