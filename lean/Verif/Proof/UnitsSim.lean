import Verif.Proof.Units
import Verif.Proof.Simulation

/-! # Simulating a plan in which everything takes longer -/

set_option linter.unusedSectionVars false

namespace Angonoka
open Outcome Stun Doc

variable {K : Type} [Field K] [LinearOrder K] [IsStrictOrderedRing K]
variable {E : FloatEnv K} {c : K} {n : Nat}

/-- All elements from index `n` on are multiplied by `c`. -/
def stretch (c : K) (n : Nat) (b : List K) : List K := b.mapIdx fun i x => if i < n then x else c * x

theorem stretch_get (b : List K) (i : Nat) : (stretch c n b)[i]? = (b[i]?).map fun x => if i < n then x else c * x := by
  simp [stretch]

theorem stretch_set (b : List K) {i : Nat} (hi : n ≤ i) (x : K) : (stretch c n b).set i (c * x) = stretch c n (b.set i x) := by
  apply List.ext_getElem?
  intro j
  rw [stretch_get, List.getElem?_set, List.getElem?_set, stretch_get]
  split
  · rename_i h
    subst h
    simp only [stretch, List.length_mapIdx]
    split
    · simp [Nat.not_lt.2 hi]
    · rfl
  · rfl

theorem at_stretch (b : List K) {i : Nat} (hi : n ≤ i) (s : String) : at? (stretch c n b) i s = (c * ·) <$> at? b i s := by
  unfold at?
  rw [stretch_get]
  cases b[i]? with
  | none => rfl
  | some x => simp only [Option.map_some, Nat.not_lt.2 hi, if_false]; rfl

theorem get_stretch {s : Span} (hs : n ≤ s.offset) (b : List K) (i : Nat) (site : String) :
    s.get (stretch c n b) i site = (c * ·) <$> s.get b i site := by
  unfold Span.get
  exact bind_same fun _ => at_stretch b (by omega) site

theorem get_front {s : Span} (hs : s.offset + s.count ≤ n) (b : List K) (i : Nat) (site : String) :
    s.get (stretch c n b) i site = s.get b i site := by
  unfold Span.get
  by_cases hi : i < s.count
  · rw [expects_true (by simpa using hi), ok_bind, ok_bind]
    unfold at?
    rw [stretch_get]
    cases b[s.offset + i]? with
    | none => rfl
    | some x => simp [show s.offset + i < n by omega]
  · rw [show expects (decide (i < s.count)) site = ub site by simp [expects, hi]]
    rfl

theorem put_stretch {s : Span} (hs : n ≤ s.offset) (b : List K) (i : Nat) (x : K) (site : String) :
    s.put (stretch c n b) i (c * x) site = stretch c n <$> s.put b i x site := by
  unfold Span.put
  refine bind_same fun _ => map_bind' (at_stretch b (by omega) site) fun _ => ?_
  rw [stretch_set b (by omega)]
  rfl

theorem elems_stretch {s : Span} (hs : n ≤ s.offset) (b : List K) : s.elems (stretch c n b) = (s.elems b).map (c * ·) := by
  apply List.ext_getElem?
  intro i
  unfold Span.elems
  rw [List.getElem?_take, List.getElem?_map, List.getElem?_take]
  split
  · rw [List.getElem?_drop, List.getElem?_drop, stretch_get]
    simp [show ¬ s.offset + i < n by omega]
  · rfl

namespace Simulation

theorem normal_scaled (hE : ∀ x, E.rnd x = x) (lo hi z : K) : normalValue E (c * lo) (c * hi) z = c * normalValue E lo hi z := by
  simp only [normalValue, FloatEnv.add, FloatEnv.mul, FloatEnv.div, FloatEnv.sub, hE]
  ring

theorem redraw_scaled (hE : ∀ x, E.rnd x = x) (hc : 0 < c) (lo hi : K) (zs : List K) :
    redraw E (c * lo) (c * hi) zs = (redraw E lo hi zs).map fun r => (c * r.1, r.2) := by
  induction zs with
  | nil => rfl
  | cons z zs ih =>
    rw [redraw, redraw, normal_scaled hE, ih]
    by_cases h : normalValue E lo hi z ≤ 0
    · rw [if_pos h, if_pos (mul_nonpos_of_nonneg_of_nonpos hc.le h)]
    · rw [if_neg h, if_neg (not_le.2 (mul_pos hc (not_le.1 h)))]
      rfl

theorem sample_scaled (hE : ∀ x, E.rnd x = x) (hc : 0 < c) (lo hi : K) (zs : List K) :
    sample E (c * lo) (c * hi) zs = (Option.map fun r => (c * r.1, r.2)) <$> sample E lo hi zs := by
  unfold sample
  rw [redraw_scaled hE hc]
  by_cases h : lo = hi
  · rw [if_pos h, if_pos (by rw [h])]
    rfl
  · rw [if_neg h, if_neg (by rwa [mul_right_inj' hc.ne']), decide_eq_decide.2 (mul_lt_mul_iff_right₀ hc),
      decide_eq_decide.2 (mul_nonneg_iff_of_pos_left hc)]
    exact bind_same fun _ => bind_same fun _ => rfl

theorem sampleLoop_scaled (hE : ∀ x, E.rnd x = x) (hc : 0 < c) {dest : Span} (hd : n ≤ dest.offset) (bs : List (K × K)) (i : Nat)
    (b zs : List K) : sampleLoop E dest (bs.map fun x => (c * x.1, c * x.2)) i (stretch c n b) zs
      = (Option.map fun r => (stretch c n r.1, r.2)) <$> sampleLoop E dest bs i b zs := by
  induction bs generalizing i b zs with
  | nil => rfl
  | cons x rest ih =>
    obtain ⟨lo, hi⟩ := x
    rw [List.map_cons, sampleLoop, sampleLoop]
    refine map_bind' (sample_scaled hE hc lo hi zs) fun r => ?_
    cases r with
    | none => rfl
    | some r => exact map_bind' (put_stretch hd b i r.1 _) fun b => ih _ _ _

theorem sampleLoop_outside {dest : Span} {bs : List (K × K)} {i : Nat} {b zs b' zs' : List K}
    (h : sampleLoop E dest bs i b zs = ok (some (b', zs'))) (j : Nat) (hj : j < dest.offset ∨ dest.offset + dest.count ≤ j) :
    b'[j]? = b[j]? := by
  induction bs generalizing i b zs with
  | nil => cases h; rfl
  | cons x rest ih =>
    obtain ⟨lo, hi⟩ := x
    rw [sampleLoop] at h
    obtain ⟨r, _, h⟩ := bind_eq_ok.1 h
    cases r with
    | none => cases h
    | some r =>
      obtain ⟨b1, h1, h⟩ := bind_eq_ok.1 h
      rw [ih h]
      unfold Span.put at h1
      obtain ⟨_, h2, h1⟩ := bind_eq_ok.1 h1
      obtain ⟨_, _, h1⟩ := bind_eq_ok.1 h1
      cases h1
      have h2 : i < dest.count := by simpa using expects_eq_ok.1 h2
      rw [List.getElem?_set, if_neg (by omega)]

theorem mapM_get_scaled {s : Span} (hs : n ≤ s.offset) (b : List K) (ds : List Nat) (site : String) :
    (ds.mapM fun d => s.get (stretch c n b) d site) = List.map (c * ·) <$> ds.mapM fun d => s.get b d site := by
  induction ds with
  | nil => rfl
  | cons d rest ih =>
    rw [List.mapM_cons, List.mapM_cons]
    exact map_bind' (get_stretch hs b d site) fun x => map_bind' ih fun xs => rfl

variable {k : Nat}

/-- The simulation of the slower plan -/
def slower (k : Nat) (s : Simulation K) : Simulation K := { s with config := Doc.slower k s.config }

theorem dependencies_scaled {s : Simulation K} (hs : n ≤ s.taskDone.offset) (b : List K) (ds : List Nat) :
    (s.slower k).dependenciesDone (stretch (k : K) n b) ds = ((k : K) * ·) <$> s.dependenciesDone b ds := by
  unfold dependenciesDone
  rw [show (s.slower k).taskDone = s.taskDone from rfl]
  simp only [mapM_get_scaled hs]
  refine bind_same fun _ => ?_
  split
  · change ok _ = ok _
    simp
  · exact map_bind' rfl fun l => congrArg ok (maxOf_scale (Nat.cast_nonneg k) _)

theorem workTime_scaled (hE : ∀ x, E.rnd x = x) (hk : 0 < k) {s : Simulation K} (h1 : s.agentPerformance.offset + s.agentPerformance.count ≤ n)
    (h2 : n ≤ s.taskDuration.offset) (b : List K) (task agent : Nat) :
    (s.slower k).workTime E (stretch (k : K) n b) task agent = ((k : K) * ·) <$> s.workTime E b task agent := by
  have hk' : (0 : K) < k := by exact_mod_cast hk
  unfold workTime
  rw [show (s.slower k).config.tasks.length = s.config.tasks.length from List.length_map _,
    show (s.slower k).config.agents = s.config.agents from rfl,
    show (s.slower k).agentPerformance = s.agentPerformance from rfl, show (s.slower k).taskDuration = s.taskDuration from rfl,
    get_front h1]
  refine bind_same fun _ => bind_same fun _ => bind_same fun pf => map_bind' (get_stretch h2 b task _) fun d => bind_same fun _ => ?_
  rw [decide_eq_decide.2 (mul_pos_iff_of_pos_left hk')]
  refine bind_same fun _ => congrArg ok ?_
  simp only [FloatEnv.div, hE]
  rw [mul_div_assoc]

theorem loop_scaled (hE : ∀ x, E.rnd x = x) (hk : 0 < k) {s : Simulation K} (h1 : s.agentPerformance.offset + s.agentPerformance.count ≤ n)
    (h2 : n ≤ s.taskDuration.offset) (h3 : n ≤ s.agentWorkEnd.offset) (h4 : n ≤ s.taskDone.offset) (l : List Item) (b : List K) :
    (s.slower k).loop E l (stretch (k : K) n b) = stretch (k : K) n <$> s.loop E l b := by
  have hk' : (0 : K) < k := by exact_mod_cast hk
  induction l generalizing b with
  | nil => rfl
  | cons it rest ih =>
    obtain ⟨task, agent⟩ := it
    rw [loop, loop]
    refine map_bind' (at_map (Task.slower k) _ _ _) fun t => map_bind' (dependencies_scaled h4 b t.dependencies) fun x =>
      map_bind' (get_stretch h3 b agent _) fun y => map_bind' (workTime_scaled hE hk h1 h2 b task agent) fun z => ?_
    have : E.add (max ((k : K) * x) (k * y)) (k * z) = k * E.add (max x y) z := by
      rw [← mul_max_of_nonneg _ _ hk'.le]
      simp only [FloatEnv.add, hE]; ring
    dsimp only
    rw [this]
    exact map_bind' (put_stretch h4 b task _ _) fun b => map_bind' (put_stretch h3 b agent _ _) fun b => ih b

/-- All elements from index `a` on are nonnegative. -/
def TailNonneg (a : Nat) (b : List K) : Prop := ∀ i x, a ≤ i → b[i]? = some x → 0 ≤ x

theorem TailNonneg.put {a : Nat} {s : Span} {b b' : List K} (h : TailNonneg a b) {i : Nat} {x : K} {site : String} (hx : 0 ≤ x)
    (hp : s.put b i x site = ok b') : TailNonneg a b' := by
  unfold Span.put at hp
  obtain ⟨_, _, hp⟩ := bind_eq_ok.1 hp
  obtain ⟨_, _, hp⟩ := bind_eq_ok.1 hp
  cases hp
  intro j y hj hy
  rw [List.getElem?_set] at hy
  split at hy
  · split at hy
    · cases hy; exact hx
    · cases hy
  · exact h j y hj hy

theorem TailNonneg.loop {a : Nat} (hE : ∀ x, E.rnd x = x) {s : Simulation K} (hs : a ≤ s.agentWorkEnd.offset) {l : List Item} {b b' : List K}
    (h : TailNonneg a b) (hl : s.loop E l b = ok b') : TailNonneg a b' := by
  induction l generalizing b with
  | nil => cases hl; exact h
  | cons it rest ih =>
    obtain ⟨task, agent⟩ := it
    rw [Simulation.loop] at hl
    obtain ⟨t, _, hl⟩ := bind_eq_ok.1 hl
    obtain ⟨x, _, hl⟩ := bind_eq_ok.1 hl
    obtain ⟨y, hy, hl⟩ := bind_eq_ok.1 hl
    obtain ⟨z, hz, hl⟩ := bind_eq_ok.1 hl
    obtain ⟨b1, hb1, hl⟩ := bind_eq_ok.1 hl
    obtain ⟨b2, hb2, hl⟩ := bind_eq_ok.1 hl
    have hy0 : 0 ≤ y := by
      unfold Span.get at hy
      obtain ⟨_, _, hy⟩ := bind_eq_ok.1 hy
      exact h _ y (by omega) (at?_eq_ok.1 hy)
    have hz0 : 0 ≤ z := by
      unfold workTime at hz
      obtain ⟨_, _, hz⟩ := bind_eq_ok.1 hz
      obtain ⟨_, _, hz⟩ := bind_eq_ok.1 hz
      obtain ⟨u, _, hz⟩ := bind_eq_ok.1 hz
      obtain ⟨v, _, hz⟩ := bind_eq_ok.1 hz
      obtain ⟨_, h1, hz⟩ := bind_eq_ok.1 hz
      obtain ⟨_, h2, hz⟩ := bind_eq_ok.1 hz
      cases hz
      have h1 : 0 < u := by simpa using expects_eq_ok.1 h1
      have h2 : 0 < v := by simpa using expects_eq_ok.1 h2
      rw [FloatEnv.div, hE]
      exact div_nonneg h2.le h1.le
    have h0 : 0 ≤ E.add (max x y) z := by
      rw [FloatEnv.add, hE]
      exact add_nonneg (hy0.trans (le_max_right _ _)) hz0
    exact ih ((h.put h0 hb1).put h0 hb2) hl

theorem maxOf_nonneg' {l : List K} (h : ∀ x ∈ l, 0 ≤ x) : 0 ≤ maxOf l := by
  cases l with
  | nil => exact le_rfl
  | cons x xs =>
    have : ∀ (xs : List K) (x : K), 0 ≤ x → 0 ≤ xs.foldl max x := fun xs => by
      induction xs with
      | nil => exact fun _ h => h
      | cons y ys ih => exact fun x hx => ih _ (hx.trans (le_max_left _ _))
    exact this xs x (h x (by simp))

variable [FloorRing K]

theorem call_slower (hE : ∀ x, E.rnd x = x) (hk : 0 < k) {p : Project} {s s' : Simulation K} (h : SimShape p s)
    (h' : SimShape (Doc.slower k p) s') {l : List Item} {zs rest : List K} {v : Int} {t : Simulation K}
    (hc : s.call E l zs = ok (some (v, rest, t))) :
    ∃ v' t', s'.call E l zs = ok (some (v', rest, t')) ∧ Scaled k v v' := by
  have hk' : (0 : K) < k := by exact_mod_cast hk
  have hsl : SimShape (Doc.slower k p) (s.slower k) := by
    refine ⟨h.agents_ne, fun e => h.tasks_ne (List.map_eq_nil_iff.1 e), ?_, ?_, ?_, ?_, ?_, ?_⟩
    · rw [slower, h.config]
    · rw [slower, h.size]; simp [Doc.slower]
    · rw [slower, h.perf]; rfl
    · rw [slower, h.dur]; simp [Doc.slower]
    · rw [slower, h.work]; simp [Doc.slower]
    · rw [slower, h.done]; simp [Doc.slower]
  rw [h'.call_eq hsl]
  have hlen : (Doc.slower k p).tasks.length = p.tasks.length := List.length_map _
  unfold call at hc ⊢
  obtain ⟨_, e1, hc⟩ := bind_eq_ok.1 hc
  obtain ⟨_, e2, hc⟩ := bind_eq_ok.1 hc
  obtain ⟨_, e3, hc⟩ := bind_eq_ok.1 hc
  obtain ⟨_, e4, hc⟩ := bind_eq_ok.1 hc
  obtain ⟨_, e5, hc⟩ := bind_eq_ok.1 hc
  obtain ⟨_, e6, hc⟩ := bind_eq_ok.1 hc
  obtain ⟨_, e7, hc⟩ := bind_eq_ok.1 hc
  obtain ⟨r, hr, hc⟩ := bind_eq_ok.1 hc
  cases r with
  | none => cases hc
  | some r =>
  obtain ⟨b1, z1⟩ := r
  obtain ⟨r, hr2, hc⟩ := bind_eq_ok.1 hc
  cases r with
  | none => cases hc
  | some r =>
  obtain ⟨b2, z2⟩ := r
  obtain ⟨b3, hr3, hc⟩ := bind_eq_ok.1 hc
  cases hc
  dsimp only at hr hr2 hr3
  set na := p.agents.length with hna
  have hp1 : s.agentPerformance.offset + s.agentPerformance.count ≤ na := by rw [h.perf]; simp [hna]
  have hd1 : na ≤ s.taskDuration.offset := by rw [h.dur]
  have hw1 : na ≤ s.agentWorkEnd.offset := by rw [h.work]; exact Nat.le_add_right _ _
  have ht1 : na ≤ s.taskDone.offset := by rw [h.done]; dsimp only; omega
  -- performances
  have hr' : (({ s.slower k with buffer := s.buffer.map fun _ => (0 : K) } : Simulation K)).randomAgentPerformances E zs = ok (some (b1, z1)) := hr
  -- beyond the performances there are zeros
  have hz1 : ∀ j x, na ≤ j → b1[j]? = some x → x = 0 := by
    unfold randomAgentPerformances at hr
    obtain ⟨_, _, hr⟩ := bind_eq_ok.1 hr
    obtain ⟨_, _, hr⟩ := bind_eq_ok.1 hr
    obtain ⟨bs, _, hr⟩ := bind_eq_ok.1 hr
    intro j x hj hx
    have := sampleLoop_outside hr j (Or.inr (by dsimp only; omega))
    rw [this, List.getElem?_map] at hx
    cases hy : s.buffer[j]? <;> rw [hy] at hx <;> cases hx
    rfl
  have hst : stretch (k : K) na b1 = b1 := by
    apply List.ext_getElem?
    intro j
    rw [stretch_get]
    cases hy : b1[j]? with
    | none => rfl
    | some x =>
      by_cases hj : j < na
      · simp [hj]
      · simp [hj, hz1 j x (Nat.not_lt.1 hj) hy]
  have hr2' : ({ s.slower k with buffer := b1 } : Simulation K).randomTaskDurations E z1 = ok (some (stretch (k : K) na b2, rest)) := by
    unfold randomTaskDurations at hr2 ⊢
    obtain ⟨_, g1, hr2⟩ := bind_eq_ok.1 hr2
    obtain ⟨_, g2, hr2⟩ := bind_eq_ok.1 hr2
    dsimp only at g1 g2 hr2 ⊢
    rw [show (s.slower k).config.tasks = s.config.tasks.map (Task.slower k) from rfl, List.isEmpty_map, List.length_map,
      show (s.slower k).taskDuration = s.taskDuration from rfl, g1, ok_bind, g2, ok_bind]
    have hb : ((s.config.tasks.map (Task.slower k)).map fun t => (E.ofInt t.durMin, E.ofInt t.durMax))
        = (s.config.tasks.map fun t => (E.ofInt t.durMin, E.ofInt t.durMax)).map fun x => ((k : K) * x.1, (k : K) * x.2) := by
      rw [List.map_map, List.map_map]
      refine List.map_congr_left fun t _ => ?_
      simp [Task.slower, FloatEnv.ofInt, hE]
    rw [hb]
    conv_lhs => rw [← hst]
    rw [sampleLoop_scaled hE hk' hd1, hr2]
    rfl
  have htail : TailNonneg s.agentWorkEnd.offset b2 := by
    unfold randomTaskDurations at hr2
    obtain ⟨_, _, hr2⟩ := bind_eq_ok.1 hr2
    obtain ⟨_, _, hr2⟩ := bind_eq_ok.1 hr2
    intro j x hj hx
    rw [h.work] at hj
    dsimp only at hj
    have := sampleLoop_outside hr2 j (Or.inr (by dsimp only; rw [h.dur]; exact hj))
    rw [this] at hx
    exact (hz1 j x (by omega) hx).ge
  have hr3' : ({ s.slower k with buffer := b1 } : Simulation K).loop E l (stretch (k : K) na b2) = ok (stretch (k : K) na b3) := by
    have := loop_scaled (n := na) hE hk (s := { s with buffer := b1 }) hp1 hd1 hw1 ht1 l b2
    rw [hr3] at this
    exact this
  refine ⟨truncate (maxOf (s.agentWorkEnd.elems (stretch (k : K) na b3))), { s.slower k with buffer := stretch (k : K) na b3 }, ?_, ?_⟩
  · rw [show (s.slower k).buffer = s.buffer from rfl, show (s.slower k).agentPerformance = s.agentPerformance from rfl,
      show (s.slower k).taskDuration = s.taskDuration from rfl, show (s.slower k).agentWorkEnd = s.agentWorkEnd from rfl,
      show (s.slower k).taskDone = s.taskDone from rfl, e1, ok_bind, e2, ok_bind, e3, ok_bind, e4, ok_bind, e5, ok_bind, e6, ok_bind,
      e7, ok_bind]
    refine bind_eq_ok.2 ⟨_, hr', ?_⟩
    refine bind_eq_ok.2 ⟨_, hr2', ?_⟩
    refine bind_eq_ok.2 ⟨_, hr3', rfl⟩
  · rw [elems_stretch hw1, maxOf_scale hk'.le]
    refine truncate_scaled hk (maxOf_nonneg' fun x hx => ?_)
    have h3 : TailNonneg s.agentWorkEnd.offset b3 := TailNonneg.loop (s := { s with buffer := b1 }) hE le_rfl htail hr3
    unfold Span.elems at hx
    obtain ⟨i, hi⟩ := List.mem_iff_getElem?.1 hx
    rw [List.getElem?_take] at hi
    split at hi
    · rw [List.getElem?_drop] at hi
      exact h3 _ x (Nat.le_add_right _ _) hi
    · cases hi

end Simulation
end Angonoka
