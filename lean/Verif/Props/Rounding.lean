import Verif.Proof.RoundingParams

/-!
# C67: single precision
-/

set_option linter.unusedSectionVars false

namespace Angonoka.Props
open Angonoka Outcome Stun

variable {K : Type} [Field K] [LinearOrder K] [IsStrictOrderedRing K] [FloorRing K]

theorem unrounded_exact (E : FloatEnv K) : E.unrounded.IsExact := fun _ => rfl

/-- C67, the makespan. For a sound project without extreme numbers, single precision arithmetic computes the time the last task of
the earliest exact execution ends with a relative error of at most 2⁻¹⁴. -/
theorem makespan_rounding {E : FloatEnv K} (hE : E.IsFloat) {p : Project} (hp : p.Sound) (hr : p.InRange)
    (hf : p.FloatsIn E) {sp sp₀ : ScheduleParams K} (hsp : toScheduleParams E p = ok sp)
    (hsp₀ : toScheduleParams E.unrounded p = ok sp₀) {s : List Item} (hs : ValidSchedule sp s) {v : K}
    (hv : IsMakespan E sp s v) {start finish : Nat → K}
    (hx : Earliest E.unrounded (p.secondsParams E.unrounded sp₀) s start finish) {V : K} (hV : IsEnd s finish V) :
    Within (1 / 2 ^ 14) (E.mul v sp.durationMultiplier) V := by
  have hA := accurate_float hE
  have hE₀ := unrounded_exact E
  have hf₀ : p.FloatsIn E.unrounded := fun _ _ _ _ => rfl
  have hN := nearParams hA le_rfl ((pow_float_le le_rfl).trans (by norm_num)) hE₀ hp hr hf hsp hsp₀
  obtain ⟨sp', h', hw⟩ := params_wellFormed hp hf
  rw [hsp] at h'
  cases h'
  obtain ⟨sp', h', hw₀⟩ := params_wellFormed hp hf₀
  rw [hsp₀] at h'
  cases h'
  have hag : sp.agentCount = p.agents.length := (params_faithful hp.agent_groups hp.task_groups hsp).2.1
  have hag₀ : sp₀.agentCount = p.agents.length := (params_faithful hp.agent_groups hp.task_groups hsp₀).2.1
  have hs₀ : ValidSchedule sp₀ s :=
    ⟨by rw [hN.tasks₀, ← hN.tasks]; exact hs.complete, fun a b c h d hd => hs.ordered a b c h d (by rw [hN.deps]; exact hd),
      fun it hit => by rw [← hN.avail]; exact hs.eligible it hit⟩
  have hlen : s.length = p.tasks.length := by rw [hs.length, hN.tasks]
  have hz : ∀ i : Nat, Near (1 + 1 / 2 ^ 23 : K) (p.tasks.length + 8) 0 0 := fun _ => ⟨le_rfl, le_rfl, by simp, by simp⟩
  have htime : ∀ it ∈ s, it.task < p.tasks.length ∧ it.agent < p.agents.length := fun it hit => by
    have := hs.fits hw hit
    rw [hN.tasks, hag] at this
    exact ⟨this.task_n, this.agent_m⟩
  obtain ⟨_, _, _, _, _, _, hW⟩ := near_run (E := E) (E₀ := E.unrounded) (start := fun _ => 0) (f := fun _ => 0)
    (w := fun _ => 0) (start₀ := fun _ => 0) (f₀ := fun _ => 0) (w₀ := fun _ => 0) hA hE₀ hN.deps hw.perf_pos hw.dur_nonneg
    hw₀.perf_pos hw₀.dur_nonneg (runInv_nil E sp) (runInv_nil _ sp₀) hs.runnable
    (fun it hit => ⟨(hN.time it (htime it hit).1 (htime it hit).2).1,
      le_trans (by norm_num) (hN.time it (htime it hit).1 (htime it hit).2).2⟩) le_rfl hz hz hz
  -- the values
  have hval : Near (1 + 1 / 2 ^ 23 : K) (p.tasks.length + 8 + s.length) (valueOf E sp s) (valueOf E.unrounded sp₀ s) := by
    change Near _ _ (makespanValue E sp sp.agentCount s) (makespanValue E.unrounded sp₀ sp₀.agentCount s)
    unfold makespanValue
    rw [hag, hag₀]
    refine Near.maxOf hA.one_le ?_
    rw [List.forall₂_map_left_iff, List.forall₂_map_right_iff]
    exact List.forall₂_same.2 fun d _ => hW d
  have hv' := (isMakespan_iff (E := E) hw hs).1 hv
  -- the value is not tiny
  have hbig : 1 / 2 ^ 112 ≤ valueOf E sp s := by
    obtain ⟨st, fi, hex, hend, _, _⟩ := makespanValue_spec (E := E) hw hs
    obtain ⟨it, hit, _⟩ := hend.2
    have h1 := hend.1 it hit
    rw [hex.time it hit] at h1
    have h2 : sp.itemTime E it ≤ E.add (st it.task) (sp.itemTime E it) := by
      unfold FloatEnv.add
      have : E.rnd (sp.itemTime E it) = sp.itemTime E it := E.rnd_idem _
      calc sp.itemTime E it = E.rnd (sp.itemTime E it) := this.symm
        _ ≤ _ := E.rnd_mono (by linarith [hex.nonneg it hit])
    exact ((hN.time it (htime it hit).1 (htime it hit).2).2.trans h2).trans h1
  obtain ⟨hws₀, hc₀⟩ := secondsParams_wellFormed hp hf₀ hsp₀
  have hVeq := earliest_value hws₀ (secondsParams_valid hc₀ hs₀) hx.1 (fun a b h it hit => (hx.2 a b h it hit).2) hV
  have hsv := seconds_value hE₀ hp hsp₀ hs₀ ((isMakespan_iff (E := E.unrounded) hw₀ hs₀).2 rfl)
  have hmul : Near (1 + 1 / 2 ^ 23 : K) (3 * p.tasks.length + 12) (E.mul v sp.durationMultiplier) V := by
    rw [hVeq, ← hsv, hv']
    unfold FloatEnv.mul
    rw [hE₀]
    have hlo : (1 / 2 ^ 126 : K) ≤ valueOf E sp s * sp.durationMultiplier := by
      calc (1 / 2 ^ 126 : K) ≤ 1 / 2 ^ 112 * (1 / 2 ^ 9) := by norm_num
        _ ≤ _ := mul_le_mul hbig hN.multiplier_ge (by positivity) (le_trans (by positivity) hbig)
    exact (Near.rnd hA (Near.mul hA.one_le hval hN.multiplier) hlo).mono hA.one_le (by omega)
  refine hmul.within hA.one_le (pow_float_le ?_)
  have := hr.tasks
  omega

/-- C67, the timetable. Starts, ends and durations of the tasks differ from the exact ones by a relative error of at most 2⁻¹⁴. -/
theorem timetable_rounding {E : FloatEnv K} (hE : E.IsFloat) {p : Project} (hp : p.Sound) (hr : p.InRange)
    (hf : p.FloatsIn E) {sp sp₀ : ScheduleParams K} (hsp : toScheduleParams E p = ok sp)
    (hsp₀ : toScheduleParams E.unrounded p = ok sp₀) {s : List Item} (hs : ValidSchedule sp s)
    {start finish start₀ finish₀ : Nat → K} (hx : Earliest E (p.secondsParams E sp) s start finish)
    (hx₀ : Earliest E.unrounded (p.secondsParams E.unrounded sp₀) s start₀ finish₀) :
    ∀ it ∈ s, Within (1 / 2 ^ 14) (start it.task) (start₀ it.task) ∧ Within (1 / 2 ^ 14) (finish it.task) (finish₀ it.task) ∧
      Within (1 / 2 ^ 14) ((p.secondsParams E sp).itemTime E it)
        ((p.secondsParams E.unrounded sp₀).itemTime E.unrounded it) ∧ 0 < (p.secondsParams E sp).itemTime E it := by
  have hA := accurate_float hE
  have hE₀ := unrounded_exact E
  have hf₀ : p.FloatsIn E.unrounded := fun _ _ _ _ => rfl
  have hN := nearParams hA le_rfl ((pow_float_le le_rfl).trans (by norm_num)) hE₀ hp hr hf hsp hsp₀
  obtain ⟨hw, hc⟩ := secondsParams_wellFormed hp hf hsp
  obtain ⟨hw₀, hc₀⟩ := secondsParams_wellFormed hp hf₀ hsp₀
  have hv := secondsParams_valid hc hs
  have hag : sp.agentCount = p.agents.length := (params_faithful hp.agent_groups hp.task_groups hsp).2.1
  have hlen : s.length = p.tasks.length := by rw [hs.length, hN.tasks]
  have hz : ∀ i : Nat, Near (1 + 1 / 2 ^ 23 : K) 4 0 0 := fun _ => ⟨le_rfl, le_rfl, by simp, by simp⟩
  have htime : ∀ it ∈ s, it.task < p.tasks.length ∧ it.agent < p.agents.length := fun it hit => by
    have := hv.fits hw hit
    rw [hc, hN.tasks] at this
    exact ⟨this.task_n, hag ▸ this.agent_m⟩
  obtain ⟨st, st₀, r1, r2, hS, hF, _⟩ := near_run (E := E) (E₀ := E.unrounded) (start := fun _ => 0) (f := fun _ => 0)
    (w := fun _ => 0) (start₀ := fun _ => 0) (f₀ := fun _ => 0) (w₀ := fun _ => 0) hA hE₀
    (p := p.secondsParams E sp) (p₀ := p.secondsParams E.unrounded sp₀) hN.deps hw.perf_pos hw.dur_nonneg
    hw₀.perf_pos hw₀.dur_nonneg (runInv_nil E _) (runInv_nil _ _) hv.runnable
    (fun it hit => ⟨(hN.seconds it (htime it hit).1 (htime it hit).2).1,
      le_trans (by norm_num) (hN.seconds it (htime it hit).1 (htime it hit).2).2⟩) le_rfl hz hz hz
  rw [List.nil_append] at r1 r2
  have hk : (1 + 1 / 2 ^ 23 : K) ^ (4 + s.length) ≤ 1 + 1 / 2 ^ 14 := pow_float_le (by have := hr.tasks; omega)
  intro it hit
  have e1 : start it.task = st it.task :=
    le_antisymm (hx.2 _ _ r1.exec it hit).1 (r1.least _ _ hx.1 it hit).1
  have e2 := le_antisymm (hx.2 _ _ r1.exec it hit).2 (r1.least _ _ hx.1 it hit).2
  have e3 : start₀ it.task = st₀ it.task :=
    le_antisymm (hx₀.2 _ _ r2.exec it hit).1 (r2.least _ _ hx₀.1 it hit).1
  have e4 := le_antisymm (hx₀.2 _ _ r2.exec it hit).2 (r2.least _ _ hx₀.1 it hit).2
  have hsec := hN.seconds it (htime it hit).1 (htime it hit).2
  rw [e1, e2, e3, e4]
  exact ⟨(hS _).within hA.one_le hk, (hF _).within hA.one_le hk, hsec.1.within hA.one_le (pow_float_le (by omega)),
    lt_of_lt_of_le (by positivity) hsec.2⟩

theorem closeTo_of {i : Int} {x y : K} (h : IsWholePart i x) (hw : Within (1 / 2 ^ 14) x y) : CloseTo i y := by
  obtain ⟨h1, h2⟩ := h
  unfold Within at hw
  unfold CloseTo
  rw [abs_le] at hw ⊢
  constructor <;> linarith [hw.1, hw.2]

/-- C67. For a sound project without extreme numbers and a valid schedule whose exact execution ends after two seconds or
later, and before 2³⁰ seconds, the JSON computed with single precision arithmetic has one entry per item with the right name and priority. Its
starts, durations and makespan are those of the exact earliest execution, up to a relative error of 2⁻¹⁴ and one second; and tasks end
no later than the makespan, up to twice that error. -/
theorem float_json {E : FloatEnv K} (hE : E.IsFloat) {p : Project} (hp : p.Sound) (hr : p.InRange)
    (hf : p.FloatsIn E) {sp sp₀ : ScheduleParams K} (hsp : toScheduleParams E p = ok sp)
    (hsp₀ : toScheduleParams E.unrounded p = ok sp₀) {s : List Item} (hs : ValidSchedule sp s) {v : K}
    (hv : IsMakespan E sp s v) {start₀ finish₀ : Nat → K}
    (hx₀ : Earliest E.unrounded (p.secondsParams E.unrounded sp₀) s start₀ finish₀) {V : K} (hV : IsEnd s finish₀ V)
    (h2 : 2 ≤ V) (hb : V < 2 ^ 30) :
    ∃ (m : Int) (es : List TaskEntry) (start finish : Nat → K), Predict.makespan E sp v = ok m ∧
      Timetable.toJson E p s m
        = ok (.obj [("makespan", .int m), ("tasks", .arr (es.map TaskEntry.object))]) ∧
      es.length = s.length ∧ CloseTo m V ∧ Earliest E (p.secondsParams E sp) s start finish ∧
      (∀ (i : Nat) (it : Item) (e : TaskEntry), s[i]? = some it → es[i]? = some e →
        e.Correct E p (p.secondsParams E sp) s start i it ∧ CloseTo e.start (start₀ it.task) ∧
        CloseTo e.duration ((p.secondsParams E.unrounded sp₀).itemTime E.unrounded it) ∧
        ((e.start + e.duration : Int) : K) ≤ m + 2 * (V / 2 ^ 14) + 1) := by
  obtain ⟨hw, hc⟩ := secondsParams_wellFormed hp hf hsp
  have hs' := secondsParams_valid hc hs
  -- the makespan
  have hm := makespan_rounding hE hp hr hf hsp hsp₀ hs hv hx₀ hV
  have hm' := hm
  unfold Within at hm'
  rw [abs_le] at hm'
  have hmul0 : 0 ≤ E.mul v sp.durationMultiplier := by norm_num at hm' ⊢; linarith [hm'.1]
  have hmul31 : E.mul v sp.durationMultiplier < 2 ^ 31 := by norm_num at hm' hb ⊢; linarith [hm'.2]
  have hmul1 : 1 ≤ E.mul v sp.durationMultiplier := by norm_num at hm' ⊢; linarith [hm'.1]
  have hmk : Predict.makespan E sp v = ok ⌊E.mul v sp.durationMultiplier⌋ := by
    unfold Predict.makespan
    dsimp only
    rw [truncate_of_nonneg hmul0, expects_true, ok_bind]
    · rfl
    · simp only [decide_eq_true_eq]
      have h1 : 0 ≤ ⌊E.mul v sp.durationMultiplier⌋ := Int.floor_nonneg.2 hmul0
      have h2 : ⌊E.mul v sp.durationMultiplier⌋ < (2 : Int) ^ 63 := by
        rw [Int.floor_lt]
        refine hmul31.trans ?_
        norm_num
      omega
  have hwp := isWholePart_floor (E.mul v sp.durationMultiplier)
  -- the timetable
  obtain ⟨st, fi, hex, hend, _, hl⟩ := makespanValue_spec (E := E) hw hs'
  have ht := timetable_rounding hE hp hr hf hsp hsp₀ hs (start := st) (finish := fi) ⟨hex, hl⟩ hx₀
  have hfin : ∀ it ∈ s, fi it.task < 2 ^ 31 := by
    intro it hit
    have h1 := (ht it hit).2.1
    have h3 := hV.1 it hit
    unfold Within at h1
    rw [abs_le] at h1
    norm_num at h1 hb ⊢
    linarith [h1.2]
  obtain ⟨es, start, finish, hj, hlen, hcor, hx, hleast⟩ := schedule_json hp hf hsp hs
    (fun it hit => (ht it hit).2.2.2) ⟨st, fi, hex, hfin⟩ (makespan := ⌊E.mul v sp.durationMultiplier⌋)
    (Int.floor_pos.2 hmul1)
  have ht' := timetable_rounding hE hp hr hf hsp hsp₀ hs ⟨hx, hleast⟩ hx₀
  refine ⟨_, es, start, finish, hmk, hj, hlen, closeTo_of hwp hm, ⟨hx, hleast⟩, ?_⟩
  intro i it e hi he
  have hcr := hcor i it e hi he
  have hit := List.mem_of_getElem? hi
  obtain ⟨t1, t2, t3, _⟩ := ht' it hit
  refine ⟨hcr, closeTo_of hcr.start t1, closeTo_of hcr.duration t3, ?_⟩
  have h3 := hV.1 it hit
  have h4 : finish₀ it.task = start₀ it.task + (p.secondsParams E.unrounded sp₀).itemTime E.unrounded it :=
    hx₀.1.time it hit
  unfold Within at t1 t3
  rw [abs_le] at t1 t3
  push_cast
  have h5 := hcr.start.1
  have h6 := hcr.duration.1
  have h7 := hwp.2
  norm_num at t1 t3 hm' ⊢
  linarith [t1.2, t3.2, hm'.1]

/-! ### Example and counterexample -/

/-- Three tasks of 20, 1 and 2 seconds, one agent -/
def threeTasks : Project where
  groups := []
  agents := [{ id := 0, name := "a" }]
  tasks := [{ name := "x", durMin := 20, durMax := 20 }, { name := "y", durMin := 1, durMax := 1 },
    { name := "z", durMin := 2, durMax := 2 }]

theorem threeTasks_sound : threeTasks.Sound where
  agents_ne := by decide
  tasks_ne := by decide
  ids := by
    intro i a h
    match i, h with
    | 0, h => cases h; rfl
    | i + 1, h => cases h
  agent_groups := by unfold IndexSet.Sorted; decide
  task_groups := by unfold IndexSet.Sorted; decide
  performance := by
    intro a ha
    simp only [threeTasks, List.mem_cons, List.not_mem_nil, or_false] at ha
    subst ha
    exact ⟨1, 1, rfl, rfl, by norm_num, by norm_num⟩
  durations := by unfold Task.DurationOk; decide
  deps_sorted := by unfold IndexSet.Sorted; decide
  deps_lt := by decide
  acyclic := by
    intro i h
    have : ∀ i d, ¬ threeTasks.DependsOn i d := by
      rintro i d ⟨t, ht, hd⟩
      match i, ht with
      | 0, ht => cases ht; cases hd
      | 1, ht => cases ht; cases hd
      | 2, ht => cases ht; cases hd
      | i + 3, ht => cases ht
    cases h with
    | single h => exact this _ _ h
    | tail _ h => exact this _ _ h
  assignable := by
    intro t ht
    refine ⟨_, List.mem_cons_self, ?_⟩
    simp only [threeTasks, List.mem_cons, List.not_mem_nil, or_false] at ht
    rcases ht with rfl | rfl | rfl <;> exact Or.inr ⟨rfl, Or.inl rfl⟩

theorem threeTasks_inRange : threeTasks.InRange where
  tasks := by decide
  agents := by decide
  durations := by decide
  performance := by
    intro a ha q hq
    simp only [threeTasks, List.mem_cons, List.not_mem_nil, or_false] at ha
    subst ha
    rcases hq with hq | hq <;> cases hq <;> norm_num

/-- One after the other -/
def threeItems : List Item := [⟨0, 0⟩, ⟨1, 0⟩, ⟨2, 0⟩]

/-- Rational numbers, rounded to single precision -/
def ratFloat : FloatEnv ℚ := FloatEnv.rat.binary32

theorem ratFloat_isFloat : ratFloat.IsFloat := fun _ => rfl

theorem threeTasks_floats : threeTasks.FloatsIn ratFloat := by
  intro a ha q hq
  simp only [threeTasks, List.mem_cons, List.not_mem_nil, or_false] at ha
  subst ha
  rcases hq with hq | hq <;> cases hq <;> exact ratFloat.rnd_one

/-- The parameters in single precision; the normalised durations are rounded. -/
def threeSp : ScheduleParams ℚ where
  agentPerformance := [1]
  taskDuration := [14588883 / 16777216, 11671107 / 268435456, 11671107 / 134217728]
  availableAgents := Vector2D.ofSizes [0, 0, 0] [1, 1, 1]
  dependencies := Vector2D.ofSizes [] [0, 0, 0]
  durationMultiplier := 23

/-- The exact parameters -/
def threeSp₀ : ScheduleParams ℚ where
  agentPerformance := [1]
  taskDuration := [20 / 23, 1 / 23, 2 / 23]
  availableAgents := Vector2D.ofSizes [0, 0, 0] [1, 1, 1]
  dependencies := Vector2D.ofSizes [] [0, 0, 0]
  durationMultiplier := 23

theorem threeSp_eq : toScheduleParams ratFloat threeTasks = ok threeSp := by decide +kernel

theorem threeSp₀_eq : toScheduleParams ratFloat.unrounded threeTasks = ok threeSp₀ := by decide +kernel

theorem threeItems_valid : ValidSchedule threeSp threeItems := by
  apply validSchedule_of_check <;> decide

theorem threeItems_makespan : IsMakespan ratFloat threeSp threeItems (16777215 / 16777216) :=
  ⟨⟨threeSp, [0, 0, 0], [0]⟩, ⟨threeSp, [14588883 / 16777216, 15318327 / 16777216, 16777215 / 16777216],
    [16777215 / 16777216]⟩, by decide +kernel, by decide +kernel⟩

/-- The hypotheses of `float_json` hold for the three tasks: executed exactly, they end after 23 seconds. -/
example : ∃ start finish : Nat → ℚ, Earliest ratFloat.unrounded
    (threeTasks.secondsParams ratFloat.unrounded threeSp₀) threeItems start finish ∧ IsEnd threeItems finish 23 := by
  refine ⟨fun i => [0, 20, 21].getD i 0, fun i => [20, 21, 23].getD i 0, ⟨⟨?_, ?_, ?_, ?_⟩, ?_⟩, ?_, ?_⟩
  · decide +kernel
  · decide +kernel
  · decide +kernel
  · decide +kernel
  · intro st fi h
    have n0 := h.nonneg ⟨0, 0⟩ (by decide)
    have t0 := h.time ⟨0, 0⟩ (by decide)
    have t1 := h.time ⟨1, 0⟩ (by decide)
    have t2 := h.time ⟨2, 0⟩ (by decide)
    have i0 : (threeTasks.secondsParams ratFloat.unrounded threeSp₀).itemTime ratFloat.unrounded ⟨0, 0⟩ = 20 := by decide +kernel
    have i1 : (threeTasks.secondsParams ratFloat.unrounded threeSp₀).itemTime ratFloat.unrounded ⟨1, 0⟩ = 1 := by decide +kernel
    have i2 : (threeTasks.secondsParams ratFloat.unrounded threeSp₀).itemTime ratFloat.unrounded ⟨2, 0⟩ = 2 := by decide +kernel
    have ha := h.agents
    simp only [threeItems, List.pairwise_cons, List.mem_cons, List.not_mem_nil, or_false, forall_eq_or_imp, forall_eq,
      true_imp_iff] at ha
    obtain ⟨⟨a1, a2⟩, a3, _⟩ := ha
    rw [i0] at t0
    rw [i1] at t1
    rw [i2] at t2
    change _ = _ + _ at t0 t1 t2
    dsimp only at *
    intro it hit
    simp only [threeItems, List.mem_cons, List.not_mem_nil, or_false] at hit
    rcases hit with rfl | rfl | rfl <;> simp <;> constructor <;> linarith
  · decide +kernel
  · decide +kernel

/-- C67: in single precision the makespan in the JSON can be earlier than the end of a task in the same JSON, although all numbers of the
project are small integers. Here the last task starts at 21 and takes 2 seconds; the makespan is 22. -/
theorem float_makespan_early :
    Predict.makespan ratFloat threeSp (16777215 / 16777216) = ok 22 ∧
    ∃ es : List TaskEntry, Timetable.toJson ratFloat threeTasks threeItems 22
        = ok (.obj [("makespan", .int 22), ("tasks", .arr (es.map TaskEntry.object))]) ∧
      es[2]? = some { task := "z", agent := "a", priority := 2, start := 21, duration := 2 } := by
  refine ⟨by decide +kernel, [⟨"x", "a", 0, 20, 0⟩, ⟨"y", "a", 1, 1, 20⟩, ⟨"z", "a", 2, 2, 21⟩], ?_, rfl⟩
  unfold Timetable.toJson Timetable.Durations.new
  have h : Timetable.entries ratFloat threeTasks threeItems ⟨[0], [0, 0, 0]⟩ [0]
      = ok [⟨"x", "a", 0, 20, 0⟩, ⟨"y", "a", 1, 1, 20⟩, ⟨"z", "a", 2, 2, 21⟩] := by decide +kernel
  change (Timetable.entries ratFloat threeTasks threeItems ⟨[0], [0, 0, 0]⟩ [0] >>= _) = _
  rw [h]
  rfl

end Angonoka.Props
