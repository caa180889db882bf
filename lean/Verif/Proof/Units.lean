import Verif.Proof.Retimed
import Verif.Spec.Units
import Verif.Proof.Scaling

/-! # A plan in which everything takes longer -/

set_option linter.unusedSectionVars false

namespace Angonoka
open Outcome Stun Doc

/-- If both computations succeed, their results are related. -/
def Both {α β : Type} (R : α → β → Prop) (x : Outcome α) (y : Outcome β) : Prop := ∀ a b, x = ok a → y = ok b → R a b

namespace Both
variable {α β γ δ : Type} {R : α → β → Prop} {S : γ → δ → Prop}

theorem bind {x : Outcome α} {y : Outcome β} {f : α → Outcome γ} {f' : β → Outcome δ} (h : Both R x y)
    (hf : ∀ a b, R a b → Both S (f a) (f' b)) : Both S (x >>= f) (y >>= f') := by
  intro a b ha hb
  obtain ⟨u, hu, ha⟩ := bind_eq_ok.1 ha
  obtain ⟨v, hv, hb⟩ := bind_eq_ok.1 hb
  exact hf u v (h u v hu hv) a b ha hb

theorem triv {x : Outcome α} {y : Outcome β} : Both (fun _ _ => True) x y := fun _ _ _ _ => trivial

theorem skip {x : Outcome α} {y : Outcome β} {f : α → Outcome γ} {f' : β → Outcome δ}
    (hf : ∀ a b, Both S (f a) (f' b)) : Both S (x >>= f) (y >>= f') := triv.bind fun a b _ => hf a b

theorem same {x : Outcome α} {f : α → Outcome γ} {f' : α → Outcome δ}
    (hf : ∀ a, x = ok a → Both S (f a) (f' a)) : Both S (x >>= f) (x >>= f') := by
  intro c d hc hd
  obtain ⟨u, hu, hc⟩ := bind_eq_ok.1 hc
  obtain ⟨v, hv, hd⟩ := bind_eq_ok.1 hd
  obtain rfl : u = v := ok.inj (hu.symm.trans hv)
  exact hf u hu c d hc hd

theorem mapped {g : α → β} {x : Outcome α} {f : α → Outcome γ} {f' : β → Outcome δ}
    (hf : ∀ a, x = ok a → Both S (f a) (f' (g a))) : Both S (x >>= f) ((g <$> x) >>= f') := by
  cases x with
  | ok a => exact hf a rfl
  | throws e => rintro _ _ ⟨⟩
  | ub s => rintro _ _ ⟨⟩

theorem pure {a : α} {b : β} (h : R a b) : Both R (Pure.pure a) (Pure.pure b) := by
  rintro _ _ ⟨⟩ ⟨⟩
  exact h

theorem ok' {a : α} {b : β} (h : R a b) : Both R (ok a) (ok b) := by
  rintro _ _ ⟨⟩ ⟨⟩
  exact h

end Both

variable {K : Type} [Field K] [LinearOrder K] [IsStrictOrderedRing K]
variable {E : FloatEnv K} {k : Nat}

/-- A task that takes longer -/
def Task.slower (k : Nat) (t : Task) : Task := { t with durMin := k * t.durMin, durMax := k * t.durMax }

theorem slower_eq (p : Project) : slower k p = { p with tasks := p.tasks.map (Task.slower k) } := rfl

theorem average_slower {t : Task} (h : 2 ∣ t.durMin + t.durMax) :
    Both (fun d d' => 0 < d ∧ d' = (k : Int) * d) t.averageDuration (t.slower k).averageDuration := by
  unfold Task.averageDuration
  intro d d' hd hd'
  obtain ⟨_, g1, hd⟩ := bind_eq_ok.1 hd
  obtain ⟨_, g2, hd⟩ := bind_eq_ok.1 hd
  obtain ⟨_, _, hd'⟩ := bind_eq_ok.1 hd'
  obtain ⟨_, _, hd'⟩ := bind_eq_ok.1 hd'
  have g1 : 0 < t.durMin := by simpa using expects_eq_ok.1 g1
  have g2 : t.durMin ≤ t.durMax := by simpa using expects_eq_ok.1 g2
  split at hd
  · split at hd'
    · cases hd; cases hd'
      obtain ⟨c, hc⟩ := h
      refine ⟨by rw [hc, Int.mul_tdiv_cancel_left _ (by norm_num)]; omega, ?_⟩
      rw [hc, show (t.slower k).durMin + (t.slower k).durMax = 2 * (k * c) by
        simp only [Task.slower]; rw [← mul_add, hc]; ring, Int.mul_tdiv_cancel_left _ (by norm_num),
        Int.mul_tdiv_cancel_left _ (by norm_num)]
    · cases hd'
  · cases hd

/-- Rounding commutes with multiplication by `k`, at least for numbers from `lo` on. Exact arithmetic is like this for all `k`, `float` for powers of two
and normal numbers. -/
structure FloatEnv.Scales (E : FloatEnv K) (k : Nat) (lo : K) : Prop where
  pos : 0 < lo
  lt_one : lo < 1
  float : E.rnd lo = lo
  scale : ∀ x, lo ≤ x → E.rnd (k * x) = k * E.rnd x

theorem FloatEnv.scales_exact (hE : ∀ x, E.rnd x = x) {lo : K} (h0 : 0 < lo) (h1 : lo < 1) : E.Scales k lo :=
  ⟨h0, h1, hE _, fun x _ => by rw [hE, hE]⟩

/-- Zero or not too small -/
def Sizeable (lo x : K) : Prop := x = 0 ∨ lo ≤ x

variable {lo : K}

namespace FloatEnv.Scales
variable (hF : E.Scales k lo)
include hF

theorem rnd_scale {x : K} (h : Sizeable lo x) : E.rnd (k * x) = k * E.rnd x := by
  rcases h with rfl | h
  · simp [E.rnd_zero]
  · exact hF.scale x h

theorem sizeable_rnd {x : K} (h : Sizeable lo x) : Sizeable lo (E.rnd x) := by
  rcases h with rfl | h
  · exact .inl E.rnd_zero
  · exact .inr (by rw [← hF.float]; exact E.rnd_mono h)

theorem sizeable_nonneg {x : K} (h : Sizeable lo x) : 0 ≤ x := by
  rcases h with rfl | h
  · exact le_rfl
  · exact hF.pos.le.trans h

theorem sizeable_sum {x y : K} (hx : Sizeable lo x) (hy : Sizeable lo y) : Sizeable lo (x + y) := by
  rcases hx with rfl | hx
  · rwa [zero_add]
  · exact .inr (by linarith [hF.sizeable_nonneg hy])

theorem sizeable_ofInt {d : Int} (h : 0 < d) : Sizeable lo (d : K) :=
  .inr (hF.lt_one.le.trans (by exact_mod_cast h))

theorem ofInt_scale {d : Int} (h : 0 < d) : E.ofInt ((k : Int) * d) = k * E.ofInt d := by
  unfold FloatEnv.ofInt
  rw [← hF.rnd_scale (hF.sizeable_ofInt h)]
  push_cast
  rfl

theorem add_scale {x y : K} (hx : Sizeable lo x) (hy : Sizeable lo y) : E.add (k * x) (k * y) = k * E.add x y := by
  unfold FloatEnv.add
  rw [← hF.rnd_scale (hF.sizeable_sum hx hy), mul_add]

theorem sizeable_add {x y : K} (hx : Sizeable lo x) (hy : Sizeable lo y) : Sizeable lo (E.add x y) :=
  hF.sizeable_rnd (hF.sizeable_sum hx hy)

theorem one_le_ofInt {d : Int} (h : 0 < d) : 1 ≤ E.ofInt d := E.one_le_rnd (by exact_mod_cast h)

theorem sizeable_div {x y : K} (hx : Sizeable 1 x) (hy : 0 < y) (hl : lo * y ≤ 1) : Sizeable lo (x / y) := by
  rcases hx with rfl | hx
  · exact .inl (zero_div _)
  · exact .inr (by rw [le_div_iff₀ hy]; linarith)

theorem div_scale {x y : K} (hx : Sizeable 1 x) (hy : 0 < y) (hl : lo * y ≤ 1) : E.div (k * x) y = k * E.div x y := by
  unfold FloatEnv.div
  rw [mul_div_assoc, hF.rnd_scale (hF.sizeable_div hx hy hl)]

end FloatEnv.Scales

theorem sizeable_max {x y : K} (hx : Sizeable lo x) (hy : Sizeable lo y) : Sizeable lo (max x y) := by
  rcases max_choice x y with h | h <;> rw [h] <;> assumption

theorem durationLoop_slower (hF : E.Scales k lo) (l : List Task) (h : ∀ t ∈ l, 2 ∣ t.durMin + t.durMax) {x : K} (hx : Sizeable 1 x) :
    Both (fun r r' => Sizeable 1 r.2 ∧ r' = (r.1.map ((k : K) * ·), (k : K) * r.2)) (durationLoop E l x)
      (durationLoop E (l.map (Task.slower k)) (k * x)) := by
  induction l generalizing x with
  | nil => exact Both.ok' ⟨hx, rfl⟩
  | cons t rest ih =>
    rw [List.map_cons, durationLoop, durationLoop]
    refine (average_slower (h t (by simp))).bind ?_
    rintro d _ ⟨hd, rfl⟩
    have h1 := hF.ofInt_scale hd
    have hd' : (1 : K) ≤ E.ofInt d := hF.one_le_ofInt hd
    have hx' : 0 ≤ x := by rcases hx with rfl | hx <;> linarith
    have hs : Sizeable lo x := hx.imp_right fun h => hF.lt_one.le.trans h
    have h2 : E.add (k * x) (E.ofInt ((k : Int) * d)) = k * E.add x (E.ofInt d) := by
      rw [h1, hF.add_scale hs (.inr (hF.lt_one.le.trans hd'))]
    dsimp only
    rw [h2]
    refine (ih (fun t ht => h t (by simp [ht])) (.inr (E.one_le_rnd (by linarith)))).bind ?_
    rintro ⟨ds, t⟩ _ ⟨ht, rfl⟩
    exact Both.pure ⟨ht, by simp [h1]⟩

theorem taskDuration_slower (hF : E.Scales k lo) (hk : 0 < k) (l : List Task) (h : ∀ t ∈ l, 2 ∣ t.durMin + t.durMax) (n : Nat)
    (hn : lo * E.ofInt n ≤ 1) :
    Both (fun r r' => r' = (r.1, (k : K) * r.2)) (taskDuration E l n) (taskDuration E (l.map (Task.slower k)) n) := by
  have hk' : (k : K) ≠ 0 := by exact_mod_cast hk.ne'
  unfold taskDuration
  refine Both.skip fun _ _ => Both.same fun _ hpos => ?_
  have hpos : 0 < n := by simpa using expects_eq_ok.1 hpos
  have hn0 : (0 : K) < E.ofInt n := lt_of_lt_of_le one_pos (hF.one_le_ofInt (by exact_mod_cast hpos))
  have := durationLoop_slower (k := k) hF l h (x := 0) (.inl rfl)
  rw [mul_zero] at this
  refine this.bind ?_
  rintro ⟨ds, t⟩ _ ⟨ht, rfl⟩
  refine Both.pure ?_
  dsimp only at ht ⊢
  rw [hF.div_scale ht hn0 hn, List.map_map, Prod.mk.injEq]
  refine ⟨List.map_congr_left fun d _ => ?_, rfl⟩
  simp only [Function.comp]
  unfold FloatEnv.div
  rw [mul_div_mul_left _ _ hk']

theorem eligible_slower (t : Task) (i : Nat) (l : List Agent) : eligible (t.slower k) i l = eligible t i l := by
  induction l generalizing i with
  | nil => rfl
  | cons a rest ih =>
    rw [eligible, eligible, ih]
    rfl

theorem availableLoop_slower (agents : List Agent) (l : List Task) (data sizes : List Nat) :
    availableAgentsLoop agents (l.map (Task.slower k)) data sizes = availableAgentsLoop agents l data sizes := by
  induction l generalizing data sizes with
  | nil => rfl
  | cons t rest ih =>
    simp only [List.map_cons, availableAgentsLoop, eligible_slower]
    exact ih _ _

theorem dependenciesLoop_slower (l : List Task) (data sizes : List Nat) :
    dependenciesLoop (l.map (Task.slower k)) data sizes = dependenciesLoop l data sizes := by
  induction l generalizing data sizes with
  | nil => rfl
  | cons t rest ih =>
    simp only [List.map_cons, dependenciesLoop]
    exact ih _ _

theorem params_slower (hF : E.Scales k lo) (hk : 0 < k) {p : Project} (h : WholeMeans p) (hn : lo * E.ofInt p.agents.length ≤ 1) :
    Both (fun sp sp' => sp' = ScheduleParams.retimed ((k : K) * sp.durationMultiplier) sp)
      (toScheduleParams E p) (toScheduleParams E (slower k p)) := by
  rw [slower_eq]
  unfold toScheduleParams availableAgents dependencies
  dsimp only
  rw [availableLoop_slower, dependenciesLoop_slower, List.isEmpty_map]
  refine Both.skip fun _ _ => Both.skip fun _ _ => (taskDuration_slower hF hk _ h _ hn).bind ?_
  rintro ⟨ds, t⟩ _ rfl
  exact Both.same fun _ _ => Both.same fun _ _ => Both.same fun _ _ => Both.pure rfl

/-! ### Optimization -/

/-- If both computations succeed, their results are related. -/
def RunBoth {α β : Type} (R : α → β → Prop) (x : Run K α) (y : Run K β) : Prop := Both R x.result y.result

theorem run_bind_result {α β : Type} {x : Run K α} {f : α → Run K β} {b : β} (h : (x >>= f).result = ok b) :
    ∃ a, x.result = ok a ∧ (f a).result = ok b := by
  obtain ⟨es, r⟩ := x
  cases r with
  | ok a => exact ⟨a, rfl, h⟩
  | throws e => cases h
  | ub s => cases h

namespace RunBoth
variable {α β γ δ : Type} {R : α → β → Prop} {S : γ → δ → Prop}

theorem bind {x : Run K α} {y : Run K β} {f : α → Run K γ} {f' : β → Run K δ} (h : RunBoth R x y)
    (hf : ∀ a b, R a b → RunBoth S (f a) (f' b)) : RunBoth S (x >>= f) (y >>= f') := by
  intro a b ha hb
  obtain ⟨u, hu, ha⟩ := run_bind_result ha
  obtain ⟨v, hv, hb⟩ := run_bind_result hb
  exact hf u v (h u v hu hv) a b ha hb

theorem skip {x : Run K α} {y : Run K β} {f : α → Run K γ} {f' : β → Run K δ}
    (hf : ∀ a b, RunBoth S (f a) (f' b)) : RunBoth S (x >>= f) (y >>= f') :=
  bind (R := fun _ _ => True) (fun _ _ _ _ => trivial) fun a b _ => hf a b

theorem lift {x : Outcome α} {y : Outcome β} (h : Both R x y) : RunBoth R (Run.lift x : Run K α) (Run.lift y) := h

theorem pure {a : α} {b : β} (h : R a b) : RunBoth R (Pure.pure a : Run K α) (Pure.pure b) := Both.ok' h

end RunBoth

theorem Both.of_map {α β : Type} {g : α → β} {x : Outcome α} {y : Outcome β} (h : y = g <$> x) : Both (fun a b => b = g a) x y := by
  rintro a b rfl rfl
  cases h
  rfl

variable [FloorRing K]

theorem optimizeLoop_retimed (c : K) (sp sp' : ScheduleParams K) (draws : Nat → Nat → Nat → Draws K) (fuel n : Nat) (o : Optimizer K) :
    RunBoth (fun r r' => r' = r.map (Optimizer.retimed c)) (Predict.optimizeLoop E sp draws fuel n o)
      (Predict.optimizeLoop E sp' draws fuel n (o.retimed c)) := by
  induction fuel generalizing n o with
  | zero => exact RunBoth.pure rfl
  | succ fuel ih =>
    rw [Predict.optimizeLoop, Predict.optimizeLoop, show (o.retimed c).hasConverged = o.hasConverged from rfl]
    split
    · exact RunBoth.pure rfl
    · refine (RunBoth.lift (Both.of_map (update_retimed o _))).bind ?_
      rintro o _ rfl
      exact RunBoth.skip fun _ _ => RunBoth.skip fun _ _ => RunBoth.skip fun _ _ => ih _ _

/-- The whole seconds of a time and of `k` times the time -/
def WholeTimes (K : Type) [Field K] [LinearOrder K] [IsStrictOrderedRing K] [FloorRing K] (k : Nat) (a b : Int) : Prop :=
  ∃ x : K, a = Simulation.truncate x ∧ b = Simulation.truncate (k * x)

theorem makespan_slower (hF : E.Scales k lo) (sp : ScheduleParams K) (v : K) :
    Both (fun a b => 0 < a → WholeTimes K k a b) (Predict.makespan E sp v) (Predict.makespan E (ScheduleParams.retimed ((k : K) * sp.durationMultiplier) sp) v) := by
  unfold Predict.makespan
  refine Both.skip fun _ _ => Both.pure fun ha => ⟨E.mul v sp.durationMultiplier, rfl, ?_⟩
  have hy : lo ≤ v * sp.durationMultiplier := by
    by_contra hy
    have h1 : E.mul v sp.durationMultiplier ≤ lo := by
      rw [← hF.float]
      exact E.rnd_mono (not_le.1 hy).le
    have h2 := hF.lt_one
    unfold Simulation.truncate at ha
    split at ha
    · have := Int.floor_lt.2 (show E.mul v sp.durationMultiplier < ((1 : Int) : K) by push_cast; linarith)
      omega
    · rename_i h
      have := Int.ceil_le.2 (show E.mul v sp.durationMultiplier ≤ ((0 : Int) : K) by push_cast; linarith)
      omega
  unfold FloatEnv.mul
  rw [← hF.scale _ hy]
  simp only [ScheduleParams.retimed]
  congr 2
  ring

theorem optimize_slower (hF : E.Scales k lo) (sp : ScheduleParams K) (opt : OptParams K) (threads : Nat)
    (draws : Nat → Nat → Nat → Draws K) (fuel : Nat) :
    RunBoth (fun r r' => ∀ s s', r = some s → r' = some s' → s'.schedule = s.schedule ∧
      (0 < s.makespan → WholeTimes K k s.makespan s'.makespan))
      (Predict.optimize E sp opt threads draws fuel)
      (Predict.optimize E (ScheduleParams.retimed ((k : K) * sp.durationMultiplier) sp) opt threads draws fuel) := by
  unfold Predict.optimize
  refine RunBoth.skip fun _ _ => RunBoth.skip fun _ _ => RunBoth.skip fun _ _ => RunBoth.skip fun _ _ => ?_
  refine (RunBoth.lift (Both.of_map (new_retimed (opt.options sp) threads))).bind ?_
  rintro o _ rfl
  refine (optimizeLoop_retimed _ _ _ _ _ _ _).bind ?_
  rintro r _ rfl
  cases r with
  | none => exact RunBoth.pure fun _ _ h => by cases h
  | some o =>
    refine (RunBoth.lift (Both.of_map ((schedule_retimed o).trans (id_map _).symm))).bind ?_
    rintro s _ rfl
    refine (RunBoth.lift (Both.of_map ((normalized_retimed o).trans (id_map _).symm))).bind ?_
    rintro v v' hv
    obtain rfl : v = v' := hv.symm
    refine (RunBoth.lift (makespan_slower hF sp _)).bind fun mk mk' h => RunBoth.pure ?_
    rintro _ _ ⟨⟩ ⟨⟩
    exact ⟨rfl, h⟩

theorem schedule_slower (hF : E.Scales k lo) (hk : 0 < k) {p : Project} (h : WholeMeans p) (hn : lo * E.ofInt p.agents.length ≤ 1)
    (opt : OptParams K) (threads : Nat)
    (draws : Nat → Nat → Nat → Draws K) (fuel : Nat) :
    RunBoth (fun r r' => ∀ s s', r = some s → r' = some s' → s'.schedule = s.schedule ∧
      (0 < s.makespan → WholeTimes K k s.makespan s'.makespan))
      (Predict.schedule E p opt threads draws fuel) (Predict.schedule E (slower k p) opt threads draws fuel) := by
  unfold Predict.schedule
  refine RunBoth.skip fun _ _ => (RunBoth.lift (params_slower hF hk h hn)).bind ?_
  rintro sp _ rfl
  refine (optimize_slower hF sp opt threads draws fuel).bind fun r r' hr => ?_
  cases r with
  | none => 
    intro a b ha hb s s' hs hs'
    cases ha; cases hs
  | some r =>
    cases r' with
    | none =>
      intro a b ha hb s s' hs hs'
      cases hb; cases hs'
    | some r' =>
      refine RunBoth.skip fun _ _ => RunBoth.skip fun _ _ => RunBoth.pure ?_
      rintro _ _ ⟨⟩ ⟨⟩
      exact hr r r' rfl rfl

/-! ### The timetable -/

theorem truncate_scaled (hk : 0 < k) {x : K} (hx : 0 ≤ x) : Scaled k (Simulation.truncate x) (Simulation.truncate (k * x)) := by
  have hk' : (0 : K) < k := by exact_mod_cast hk
  unfold Simulation.truncate
  rw [if_pos hx, if_pos (mul_nonneg hk'.le hx)]
  refine ⟨Int.le_floor.2 ?_, Int.floor_lt.2 ?_⟩
  · push_cast
    exact mul_le_mul_of_nonneg_left (Int.floor_le x) hk'.le
  · push_cast
    exact mul_lt_mul_of_pos_left (Int.lt_floor_add_one x) hk'

theorem WholeTimes.scaled (hk : 0 < k) {a b : Int} (h : WholeTimes K k a b) (ha : 0 < a) : Scaled k a b := by
  obtain ⟨x, rfl, rfl⟩ := h
  refine truncate_scaled hk (not_lt.1 fun hx => ?_)
  unfold Simulation.truncate at ha
  rw [if_neg (not_le.2 hx)] at ha
  have : (0 : K) < x := Int.lt_ceil.1 ha |>.trans_le' (by simp)
  exact lt_asymm this hx

theorem mapM_at_scaled (c : K) (l : List K) (ds : List Nat) (s : String) :
    (ds.mapM fun d => at? (l.map (c * ·)) d s) = List.map (c * ·) <$> ds.mapM fun d => at? l d s := by
  induction ds with
  | nil => rfl
  | cons d rest ih =>
    rw [List.mapM_cons, List.mapM_cons]
    exact map_bind' (at_map _ _ _ _) fun x => map_bind' ih fun xs => rfl

namespace Timetable

/-- End times that are later -/
def Durations.slower (k : Nat) (d : Durations K) : Durations K := ⟨d.agentWorkEnd.map (k * ·), d.taskDone.map (k * ·)⟩

theorem dependencies_scaled (td : List K) (ds : List Nat) :
    dependenciesDone (td.map ((k : K) * ·)) ds = ((k : K) * ·) <$> dependenciesDone td ds := by
  unfold dependenciesDone
  rw [List.isEmpty_map, mapM_at_scaled]
  refine bind_same fun _ => ?_
  split
  · change ok _ = ok _
    simp
  · exact map_bind' rfl fun l => congrArg ok (maxOf_scale (Nat.cast_nonneg k) _)

theorem taskTime_slower (hF : E.Scales k lo) {t : Task} (h : 2 ∣ t.durMin + t.durMax) {a : Agent}
    (ha : ∀ v, a.averagePerformance E = ok v → lo * v ≤ 1) :
    Both (fun x x' => Sizeable lo x ∧ x' = (k : K) * x) (taskTime E t a) (taskTime E (t.slower k) a) := by
  unfold taskTime
  refine (average_slower h).bind ?_
  rintro d _ ⟨hd, rfl⟩
  intro x x' hx hx'
  obtain ⟨_, h1, hx⟩ := bind_eq_ok.1 hx
  obtain ⟨_, _, hx'⟩ := bind_eq_ok.1 hx'
  obtain ⟨pf, hpf, hx⟩ := bind_eq_ok.1 hx
  obtain ⟨pf', hpf', hx'⟩ := bind_eq_ok.1 hx'
  obtain rfl : pf = pf' := ok.inj (hpf.symm.trans hpf')
  obtain ⟨_, h2, hx⟩ := bind_eq_ok.1 hx
  obtain ⟨_, _, hx'⟩ := bind_eq_ok.1 hx'
  cases hx; cases hx'
  have h1 : 0 < d := by simpa using expects_eq_ok.1 h1
  have h2 : 0 < pf := by simpa using expects_eq_ok.1 h2
  have h3 : Sizeable 1 (E.ofInt d) := .inr (hF.one_le_ofInt h1)
  refine ⟨hF.sizeable_rnd (hF.sizeable_div h3 h2 (ha pf hpf)), ?_⟩
  rw [hF.ofInt_scale h1, hF.div_scale h3 h2 (ha pf hpf)]

theorem toInt_scaled (hk : 0 < k) {x : K} (hx : 0 ≤ x) : Both (Scaled k) (toInt x) (toInt (k * x)) := by
  unfold toInt
  exact Both.skip fun _ _ => Both.pure (truncate_scaled hk hx)

theorem mem_of_at {α : Type} {l : List α} {i : Nat} {s : String} {a : α} (h : at? l i s = ok a) : a ∈ l := by
  unfold at? at h
  split at h
  · cases h
    exact List.mem_of_getElem? (by assumption)
  · cases h

theorem sizeable_dependencies {td : List K} (h : ∀ x ∈ td, Sizeable lo x) {ds : List Nat} {v : K} (hv : dependenciesDone td ds = ok v) :
    Sizeable lo v := by
  unfold dependenciesDone at hv
  obtain ⟨_, _, hv⟩ := bind_eq_ok.1 hv
  split at hv
  · cases hv; exact .inl rfl
  · obtain ⟨l, hl, hv⟩ := bind_eq_ok.1 hv
    cases hv
    have hm : ∀ (ds : List Nat) (l : List K), (ds.mapM fun d => at? td d "dependencies_done: task_done") = ok l → ∀ x ∈ l, Sizeable lo x := by
      intro ds
      induction ds with
      | nil => intro l hl x hx; cases hl; cases hx
      | cons d rest ih =>
        intro l hl x hx
        rw [List.mapM_cons] at hl
        obtain ⟨y, hy, hl⟩ := bind_eq_ok.1 hl
        obtain ⟨ys, hys, hl⟩ := bind_eq_ok.1 hl
        cases hl
        rcases List.mem_cons.1 hx with rfl | hx
        · exact h _ (mem_of_at hy)
        · exact ih ys hys x hx
    have hf : ∀ (xs : List K) (x : K), Sizeable lo x → (∀ y ∈ xs, Sizeable lo y) → Sizeable lo (xs.foldl max x) := fun xs => by
      induction xs with
      | nil => exact fun _ h _ => h
      | cons y ys ih => exact fun x hx hy => ih _ (sizeable_max hx (hy y (by simp))) fun z hz => hy z (by simp [hz])
    have := hm ds l hl
    cases l with
    | nil => exact .inl rfl
    | cons x xs => exact hf xs x (this x (by simp)) fun y hy => this y (by simp [hy])

/-- No agent is so fast that times get too small. -/
def NotTooFast (E : FloatEnv K) (lo : K) (p : Project) : Prop := ∀ a ∈ p.agents, ∀ v, a.averagePerformance E = ok v → lo * v ≤ 1

theorem call_slower (hF : E.Scales k lo) (hk : 0 < k) {p : Project} (h : WholeMeans p) (hp : NotTooFast E lo p) (d : Durations K)
    (hd : ∀ x ∈ d.agentWorkEnd ++ d.taskDone, Sizeable lo x) (agent task : Nat) :
    Both (fun r r' => Scaled k r.1 r'.1 ∧ Scaled k r.2.1 r'.2.1 ∧ r'.2.2 = r.2.2.slower k ∧
        ∀ x ∈ r.2.2.agentWorkEnd ++ r.2.2.taskDone, Sizeable lo x)
      (d.call E p agent task) ((d.slower k).call E (slower k p) agent task) := by
  unfold Durations.call
  refine Both.skip fun _ _ => Both.skip fun _ _ => Both.same fun a ha => ?_
  rw [show (slower k p).tasks = p.tasks.map (Task.slower k) from rfl,
    show (d.slower k).agentWorkEnd = d.agentWorkEnd.map ((k : K) * ·) from rfl,
    show (d.slower k).taskDone = d.taskDone.map ((k : K) * ·) from rfl, at_map, at_map]
  refine Both.mapped fun t ht => (taskTime_slower hF (h t (mem_of_at ht)) (hp a (mem_of_at ha))).bind ?_
  rintro x _ ⟨hx, rfl⟩
  refine Both.mapped fun w hw => ?_
  rw [show (t.slower k).dependencies = t.dependencies from rfl, dependencies_scaled]
  refine Both.mapped fun e he => ?_
  have hs : Sizeable lo (max w e) := sizeable_max (hd w (by simp [mem_of_at hw])) (sizeable_dependencies (fun x hx => hd x (by simp [hx])) he)
  have hs0 := hF.sizeable_nonneg hs
  have hmax : max ((k : K) * w) (k * e) = k * max w e := (mul_max_of_nonneg _ _ (Nat.cast_nonneg k)).symm
  dsimp only
  rw [hmax]
  refine Both.skip fun _ _ => (toInt_scaled hk (hF.sizeable_nonneg hx)).bind fun u u' hu => (toInt_scaled hk hs0).bind fun v v' hv => Both.pure ?_
  have hdone : E.add (k * max w e) (k * x) = k * E.add (max w e) x := hF.add_scale hs hx
  have hnew := hF.sizeable_add hs hx
  refine ⟨hu, hv, ?_, fun y hy => ?_⟩
  · rw [hdone]
    simp [Durations.slower, List.map_set]
  · rcases List.mem_append.1 hy with hy | hy <;> rcases List.mem_or_eq_of_mem_set hy with hy | rfl
    · exact hd y (by simp [hy])
    · exact hnew
    · exact hd y (by simp [hy])
    · exact hnew

theorem entries_slower (hF : E.Scales k lo) (hk : 0 < k) {p : Project} (h : WholeMeans p) (hp : NotTooFast E lo p) (l : List Item)
    (d : Durations K) (hd : ∀ x ∈ d.agentWorkEnd ++ d.taskDone, Sizeable lo x) (prio : List Nat) :
    Both (List.Forall₂ (SameLine k)) (entries E p l d prio) (entries E (slower k p) l (d.slower k) prio) := by
  induction l generalizing d prio with
  | nil => exact Both.ok' .nil
  | cons it rest ih =>
    obtain ⟨task, agent⟩ := it
    rw [entries, entries]
    refine (call_slower hF hk h hp d hd agent task).bind ?_
    rintro ⟨du, st, d⟩ ⟨du', st', _⟩ ⟨h1, h2, rfl, h4⟩
    dsimp only at h1 h2 h4 ⊢
    rw [slower_eq]
    dsimp only
    rw [at_map]
    refine (Both.of_map rfl).bind ?_
    rintro t _ rfl
    refine Both.same fun a _ => Both.same fun n _ => (ih d h4 _).bind fun es es' hes => Both.pure (.cons ?_ hes)
    exact ⟨rfl, rfl, rfl, h1, h2⟩

/-- The two files -/
structure SameFile (k : Nat) (j j' : Json) : Prop where
  lines : ∃ (mk mk' : Int) (es es' : List TaskEntry), j = .obj [("makespan", .int mk), ("tasks", .arr (es.map TaskEntry.toJson))] ∧
    j' = .obj [("makespan", .int mk'), ("tasks", .arr (es'.map TaskEntry.toJson))] ∧ Scaled k mk mk' ∧ List.Forall₂ (SameLine k) es es'

theorem toJson_slower (hF : E.Scales k lo) (hk : 0 < k) {p : Project} (h : WholeMeans p) (hp : NotTooFast E lo p) (l : List Item)
    {mk mk' : Int} (hm : 0 < mk → WholeTimes K k mk mk') : Both (SameFile k) (toJson E p l mk) (toJson E (slower k p) l mk') := by
  unfold toJson Durations.new
  refine Both.skip fun _ _ => Both.skip fun _ _ => ?_
  refine Both.bind (R := fun d d' => d' = d.slower k ∧ ∀ x ∈ d.agentWorkEnd ++ d.taskDone, Sizeable lo x) ?_ ?_
  · refine Both.skip fun _ _ => Both.skip fun _ _ => Both.pure ⟨?_, ?_⟩
    · simp [Durations.slower, slower_eq]
    · intro x hx
      rcases List.mem_append.1 hx with hx | hx <;> exact .inl (List.eq_of_mem_replicate hx)
  · rintro d _ ⟨rfl, hd⟩
    refine (entries_slower hF hk h hp l d hd _).bind fun es es' hes => Both.skip fun _ _ => ?_
    intro j j' hj hj'
    obtain ⟨_, h1, hj⟩ := bind_eq_ok.1 hj
    obtain ⟨_, _, hj'⟩ := bind_eq_ok.1 hj'
    cases hj; cases hj'
    exact ⟨mk, mk', es, es', rfl, rfl, (hm (by simpa using expects_eq_ok.1 h1)).scaled hk (by simpa using expects_eq_ok.1 h1), hes⟩

end Timetable
end Angonoka
