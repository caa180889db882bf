import Verif.Proof.Json
import Verif.Model.Predict
import Verif.Props.Params
import Verif.Props.Histogram
import Verif.Spec.Tunneling
import Verif.Proof.Stun

/-!
# C55-C57: the JSON output
-/

set_option linter.unusedSectionVars false

namespace Angonoka.Props
open Angonoka Outcome Stun

variable {K : Type} [Field K] [LinearOrder K] [IsStrictOrderedRing K]

theorem secondsParams_for {E : FloatEnv K} {p : Project} {sp : ScheduleParams K} (hp : p.Sound)
    (h : toScheduleParams E p = ok sp) : TimetableFor E p (p.secondsParams E sp) := by
  obtain ⟨_, _, hdur, hperf, _⟩ := toScheduleParams_ok h
  obtain ⟨_, h2, _, _, h5, _⟩ := params_faithful hp.agent_groups hp.task_groups h
  exact ⟨by simp [Project.secondsParams, ScheduleParams.taskCount], h2, hdur, rfl, hperf,
    fun i t ht => (h5 i t ht).2.2⟩

theorem secondsParams_wellFormed {E : FloatEnv K} {p : Project} {sp : ScheduleParams K} (hp : p.Sound)
    (hf : p.FloatsIn E) (h : toScheduleParams E p = ok sp) :
    WellFormed (p.secondsParams E sp) ∧ (p.secondsParams E sp).taskCount = sp.taskCount := by
  obtain ⟨sp', h', hw⟩ := params_wellFormed hp hf
  rw [h] at h'
  cases h'
  have hc : (p.secondsParams E sp).taskCount = sp.taskCount := by
    rw [(params_faithful hp.agent_groups hp.task_groups h).1]
    simp [Project.secondsParams, ScheduleParams.taskCount]
  refine ⟨⟨hc ▸ hw.tasks_pos, ?_, ?_, ?_, ?_, ?_, ?_, ?_, hw.perf_pos, ?_⟩, hc⟩
  · rw [hc]; exact hw.deps_size
  · rw [hc]; exact hw.avail_size
  · rw [hc]; exact hw.deps_lt
  · rw [hc]; exact hw.deps_sorted
  · intro t ht
    refine hw.acyclic t (Relation.TransGen.mono (fun a b hab => ?_) t t ht)
    exact ⟨hc ▸ hab.1, hab.2⟩
  · rw [hc]; exact hw.avail_ne
  · rw [hc]; exact hw.avail_lt
  · intro x hx
    obtain ⟨t, ht, rfl⟩ := List.mem_map.1 hx
    apply E.rnd_nonneg
    exact_mod_cast (meanDuration_pos (hp.durations t ht)).le

theorem secondsParams_valid {E : FloatEnv K} {p : Project} {sp : ScheduleParams K} {s : List Item}
    (hc : (p.secondsParams E sp).taskCount = sp.taskCount) (hs : ValidSchedule sp s) :
    ValidSchedule (p.secondsParams E sp) s :=
  ⟨hc ▸ hs.complete, hs.ordered, hs.eligible⟩

section
variable [FloorRing K]

/-- C55, for every rounding. For a sound project, a valid schedule that can be executed in less than 2³¹
seconds and in which no item takes zero time, the JSON lists one entry per item, in order; the entries have the right
names and priorities, and the whole parts of the times of an execution at average speeds with durations in
seconds. No execution starts a task earlier. -/
theorem schedule_json {E : FloatEnv K} {p : Project} (hp : p.Sound) (hf : p.FloatsIn E)
    {sp : ScheduleParams K} (hsp : toScheduleParams E p = ok sp) {s : List Item}
    (hs : ValidSchedule sp s) (hpos : ∀ it ∈ s, 0 < (p.secondsParams E sp).itemTime E it)
    (hb : ∃ start finish, Execution E (p.secondsParams E sp) s start finish ∧
      ∀ it ∈ s, finish it.task < 2 ^ 31)
    {makespan : Int} (hm : 0 < makespan) :
    ∃ (es : List TaskEntry) (start finish : Nat → K), Timetable.toJson E p s makespan
        = ok (.obj [("makespan", .int makespan), ("tasks", .arr (es.map TaskEntry.object))]) ∧
      es.length = s.length ∧
      (∀ (i : Nat) (it : Item) (e : TaskEntry), s[i]? = some it → es[i]? = some e →
        e.Correct E p (p.secondsParams E sp) s start i it) ∧
      Execution E (p.secondsParams E sp) s start finish ∧
      ∀ start' finish', Execution E (p.secondsParams E sp) s start' finish' →
        ∀ it ∈ s, start it.task ≤ start' it.task ∧ finish it.task ≤ finish' it.task := by
  have hq := secondsParams_for hp hsp
  obtain ⟨hw, hc⟩ := secondsParams_wellFormed hp hf hsp
  have hv := secondsParams_valid hc hs
  obtain ⟨es, start, he, hlen, hinv, _, hcor⟩ := entries_spec hq hw.perf_pos hw.dur_nonneg
    (runInv_nil E (p.secondsParams E sp)) hv.runnable (by simp)
    (fun it hit => by
      have := hv.fits hw hit
      rwa [hq.tasks, hq.agents] at this)
    hpos (by simpa using hb)
    (d := ⟨List.replicate p.agents.length 0, List.replicate p.tasks.length 0⟩)
    (prio := List.replicate p.agents.length 0)
    (by intro i hi; simp at hi; simp [hi]) (by simp) (by intro i hi; simp at hi; simp [hi]) (by simp)
    (by intro a ha; simp [ha])
  rw [List.nil_append] at hinv hcor
  have hne : es ≠ [] := by
    intro h0
    rw [h0] at hlen
    have := hv.length
    have := hw.tasks_pos
    simp at hlen
    omega
  refine ⟨es, start, _, ?_, hlen, ?_, hinv.exec, hinv.least⟩
  · unfold Timetable.toJson Timetable.Durations.new
    rw [expects_true (by simpa using hp.tasks_ne), ok_bind, expects_true (by simpa using hp.agents_ne),
      ok_bind, expects_true (by simpa using hp.tasks_ne), ok_bind,
      expects_true (by simpa using hp.agents_ne), ok_bind]
    simp only [pure_eq, ok_bind]
    rw [he, ok_bind, expects_true (by simpa using hne), ok_bind, expects_true (by simpa using hm), ok_bind]
    rfl
  · intro i it e h1 h2
    simpa using hcor i it e h1 h2

/-- In exact arithmetic every item takes time. -/
theorem itemTime_pos {E : FloatEnv K} (hE : E.IsExact) {p : Project} (hp : p.Sound)
    {sp : ScheduleParams K} (hsp : toScheduleParams E p = ok sp) {s : List Item}
    (hs : ValidSchedule sp s) :
    ∀ it ∈ s, 0 < (p.secondsParams E sp).itemTime E it := by
  have hf : p.FloatsIn E := fun _ _ _ _ => hE _
  obtain ⟨hw, hc⟩ := secondsParams_wellFormed hp hf hsp
  have hv := secondsParams_valid hc hs
  intro it hit
  have hfit := hv.fits hw hit
  unfold ScheduleParams.itemTime FloatEnv.div
  rw [hE]
  apply div_pos
  · refine getD_pos ?_ hfit.task_dur
    intro x hx
    obtain ⟨t, ht, rfl⟩ := List.mem_map.1 hx
    unfold FloatEnv.ofInt
    rw [hE]
    exact_mod_cast meanDuration_pos (hp.durations t ht)
  · exact getD_pos hw.perf_pos hfit.agent_perf

/-- In exact arithmetic the normalised makespan times the multiplier is the makespan in seconds. -/
theorem seconds_value {E : FloatEnv K} (hE : E.IsExact) {p : Project} (hp : p.Sound)
    {sp : ScheduleParams K} (hsp : toScheduleParams E p = ok sp) {s : List Item}
    (hs : ValidSchedule sp s) {v : K} (hv : IsMakespan E sp s v) :
    E.mul v sp.durationMultiplier = valueOf E (p.secondsParams E sp) s := by
  have hf : p.FloatsIn E := fun _ _ _ _ => hE _
  obtain ⟨hw, hc⟩ := secondsParams_wellFormed hp hf hsp
  have hs' := secondsParams_valid hc hs
  have hsec : p.secondsParams E sp = inSeconds p sp := by
    simp [Project.secondsParams, inSeconds, FloatEnv.ofInt, hE _]
  obtain ⟨m₀, m₁, hnew, hcall⟩ := hv
  -- an estimator in seconds
  obtain ⟨n₀, n₁, hnew', hcall'⟩ := (isMakespan_iff (E := E) hw hs').2 rfl
  have key := normalised_makespan hE hsp (.new hnew) (n := n₀) (by rw [← hsec]; exact .new hnew') s
  rw [hcall, hcall', ok_bind, ok_bind, Outcome.ok.injEq] at key
  unfold FloatEnv.mul
  rw [hE, mul_comm]
  exact key

/-- Earliest executions end at the same time. -/
theorem earliest_value {E : FloatEnv K} {q : ScheduleParams K} (hw : WellFormed q) {s : List Item} (hs : ValidSchedule q s)
    {start finish : Nat → K} (hx : Execution E q s start finish)
    (hleast : ∀ start' finish', Execution E q s start' finish' → ∀ it ∈ s, finish it.task ≤ finish' it.task)
    {V : K} (hV : IsEnd s finish V) : V = valueOf E q s := by
  obtain ⟨st, fi, hex, hend, _, hl⟩ := makespanValue_spec (E := E) hw hs
  change V = makespanValue E _ _ s
  apply le_antisymm
  · obtain ⟨it, hit, rfl⟩ := hV.2
    exact (hleast st fi hex it hit).trans (hend.1 it hit)
  · obtain ⟨it, hit, he⟩ := hend.2
    rw [← he]
    exact (hl start finish hx it hit).2.trans (hV.1 it hit)

/-- C56, for exact arithmetic. The makespan in seconds that is computed from the optimizer's normalised makespan is
the whole part of the time the last task of the earliest execution of the timetable ends. -/
theorem json_makespan {E : FloatEnv K} (hE : E.IsExact) {p : Project} (hp : p.Sound)
    {sp : ScheduleParams K} (hsp : toScheduleParams E p = ok sp) {s : List Item}
    (hs : ValidSchedule sp s) {v : K} (hv : IsMakespan E sp s v)
    {start finish : Nat → K} (hx : Execution E (p.secondsParams E sp) s start finish)
    (hleast : ∀ start' finish', Execution E (p.secondsParams E sp) s start' finish' →
      ∀ it ∈ s, finish it.task ≤ finish' it.task)
    {V : K} (hV : IsEnd s finish V) (hb : V < 2 ^ 63) :
    ∃ m, Predict.makespan E sp v = ok m ∧ IsWholePart m V := by
  have hf : p.FloatsIn E := fun _ _ _ _ => hE _
  obtain ⟨hw, hc⟩ := secondsParams_wellFormed hp hf hsp
  have hs' := secondsParams_valid hc hs
  have hVeq := earliest_value hw hs' hx hleast hV
  have hV0 : 0 ≤ V := by
    rw [hVeq]
    exact makespanValue_nonneg hw hs'
  have hmul : E.mul v sp.durationMultiplier = V := by
    rw [hVeq]
    exact seconds_value hE hp hsp hs hv
  refine ⟨⌊V⌋, ?_, isWholePart_floor V⟩
  unfold Predict.makespan
  dsimp only
  rw [hmul, truncate_of_nonneg hV0, expects_true, ok_bind]
  · rfl
  · simp only [decide_eq_true_eq]
    have h1 : 0 ≤ ⌊V⌋ := Int.floor_nonneg.2 hV0
    have h2 : ⌊V⌋ < (2 : Int) ^ 63 := by
      rw [Int.floor_lt]
      exact_mod_cast hb
    omega

/-- C55 and C56 together, for exact arithmetic: the timetable that goes with the optimizer's makespan is consistent;
no task's start plus duration exceeds the makespan, which is the whole part of the end of the timetable. -/
theorem schedule_json_exact {E : FloatEnv K} (hE : E.IsExact) {p : Project} (hp : p.Sound)
    {sp : ScheduleParams K} (hsp : toScheduleParams E p = ok sp) {s : List Item}
    (hs : ValidSchedule sp s) {v : K} (hv : IsMakespan E sp s v)
    (hb : ∃ start finish, Execution E (p.secondsParams E sp) s start finish ∧
      ∀ it ∈ s, finish it.task < 2 ^ 31)
    (h1 : ∀ start finish, Execution E (p.secondsParams E sp) s start finish →
      ∃ it ∈ s, 1 ≤ finish it.task) :
    ∃ (m : Int) (es : List TaskEntry) (start finish : Nat → K), Predict.makespan E sp v = ok m ∧
      Timetable.toJson E p s m
        = ok (.obj [("makespan", .int m), ("tasks", .arr (es.map TaskEntry.object))]) ∧
      es.length = s.length ∧
      (∀ (i : Nat) (it : Item) (e : TaskEntry), s[i]? = some it → es[i]? = some e →
        e.Correct E p (p.secondsParams E sp) s start i it ∧ e.start + e.duration ≤ m) ∧
      Earliest E (p.secondsParams E sp) s start finish ∧
      ∃ V, IsEnd s finish V ∧ IsWholePart m V := by
  have hf : p.FloatsIn E := fun _ _ _ _ => hE _
  obtain ⟨hw, hc⟩ := secondsParams_wellFormed hp hf hsp
  have hs' := secondsParams_valid hc hs
  obtain ⟨st, fi, hex, hend, _, hl⟩ := makespanValue_spec (E := E) hw hs'
  have hVb : makespanValue E (p.secondsParams E sp) (p.secondsParams E sp).agentCount s < 2 ^ 31 := by
    obtain ⟨start, finish, hx, hlt⟩ := hb
    obtain ⟨it, hit, he⟩ := hend.2
    rw [← he]
    exact lt_of_le_of_lt (hl start finish hx it hit).2 (hlt it hit)
  obtain ⟨m, hm, hmV⟩ := json_makespan hE hp hsp hs hv hex (fun a b h it hit => (hl a b h it hit).2) hend
    (hVb.trans (by norm_num))
  have hm0 : 0 < m := by
    obtain ⟨it, hit, h⟩ := h1 st fi hex
    have h2 := lt_of_le_of_lt (h.trans (hend.1 it hit)) hmV.2
    have : (0 : K) < m := by linarith
    exact_mod_cast this
  obtain ⟨es, start, finish, hj, hlen, hcor, hx, hleast⟩ := schedule_json hp hf hsp hs
    (itemTime_pos hE hp hsp hs) hb hm0
  have hfin : ∀ it ∈ s, finish it.task = fi it.task := fun it hit =>
    le_antisymm (hleast st fi hex it hit).2 (hl start finish hx it hit).2
  refine ⟨m, es, start, finish, hm, hj, hlen, ?_, ⟨hx, hleast⟩, _, ⟨?_, ?_⟩, hmV⟩
  · intro i it e hi he
    have hc' := hcor i it e hi he
    have hit := List.mem_of_getElem? hi
    refine ⟨hc', ?_⟩
    have ht := hx.time it hit
    unfold FloatEnv.add at ht
    rw [hE] at ht
    have h2 := hend.1 it hit
    rw [← hfin it hit, ht] at h2
    have h3 : ((e.start + e.duration : Int) : K) < ((m + 1 : Int) : K) := by
      push_cast
      have := hc'.start.1
      have := hc'.duration.1
      have := hmV.2
      linarith
    have h4 : e.start + e.duration < m + 1 := by exact_mod_cast h3
    omega
  · intro it hit
    rw [hfin it hit]
    exact hend.1 it hit
  · obtain ⟨it, hit, he⟩ := hend.2
    exact ⟨it, hit, by rw [hfin it hit]; exact he⟩

end

/-! ### Example and counterexample -/

/-- Task 0 by agent 0 (15 s at speed 2), then task 1 by agent 1 (5 s). -/
def exampleItems : List Item := [⟨0, 0⟩, ⟨1, 1⟩]

example : Timetable.entries FloatEnv.rat exampleProject exampleItems ⟨[0, 0], [0, 0]⟩ [0, 0]
    = ok [⟨"s", "a", 0, 7, 0⟩, ⟨"t", "b", 0, 5, 7⟩] := by decide +kernel

/-- The parameters of the example project. -/
def exampleSp : ScheduleParams ℚ where
  agentPerformance := [2, 1]
  taskDuration := [3/2, 1/2]
  availableAgents := Vector2D.ofSizes [0, 0, 1] [1, 2]
  dependencies := Vector2D.ofSizes [0] [0, 1]
  durationMultiplier := 10

/-- The hypotheses of `schedule_json_exact` hold for the example: it ends after 12.5 seconds. -/
example : ∃ v : ℚ, toScheduleParams FloatEnv.rat exampleProject = ok exampleSp ∧
    ValidSchedule exampleSp exampleItems ∧ IsMakespan FloatEnv.rat exampleSp exampleItems v ∧
    (∃ start finish, Execution FloatEnv.rat (exampleProject.secondsParams FloatEnv.rat exampleSp)
      exampleItems start finish ∧ ∀ it ∈ exampleItems, finish it.task < 2 ^ 31) ∧
    (∀ start finish, Execution FloatEnv.rat (exampleProject.secondsParams FloatEnv.rat exampleSp)
      exampleItems start finish → ∃ it ∈ exampleItems, 1 ≤ finish it.task) ∧
    Predict.makespan FloatEnv.rat exampleSp v = ok 12 := by
  refine ⟨5 / 4, by decide +kernel, by apply validSchedule_of_check <;> decide, ?_, ?_, ?_,
    by decide +kernel⟩
  · exact ⟨⟨exampleSp, [0, 0], [0, 0]⟩, ⟨exampleSp, [3 / 4, 5 / 4], [3 / 4, 5 / 4]⟩,
      by decide +kernel, by decide +kernel⟩
  · refine ⟨fun i => if i = 0 then 0 else 15 / 2, fun i => if i = 0 then 15 / 2 else 25 / 2,
      ⟨?_, ?_, ?_, ?_⟩, ?_⟩ <;> decide +kernel
  · intro start finish h
    refine ⟨⟨0, 0⟩, by decide, ?_⟩
    have h1 := h.nonneg ⟨0, 0⟩ (by decide)
    have h2 := h.time ⟨0, 0⟩ (by decide)
    have h3 : (exampleProject.secondsParams FloatEnv.rat exampleSp).itemTime FloatEnv.rat ⟨0, 0⟩
        = 15 / 2 := by decide +kernel
    rw [h3] at h2
    dsimp only at *
    rw [h2]
    change (1 : ℚ) ≤ start 0 + 15 / 2
    linarith

/-- One task of one second, done by an agent of speed 2. -/
def shortProject : Project where
  groups := []
  agents := [{ id := 0, name := "a", perfMin := .fin 2, perfMax := .fin 2 }]
  tasks := [{ name := "t", durMin := 1, durMax := 1 }]

/-- C55: a project that takes less than a second has makespan 0, and writing its JSON violates a contract. -/
theorem short_schedule_violates :
    ∃ (sp : ScheduleParams ℚ) (s : List Item) (v : ℚ),
      toScheduleParams FloatEnv.rat shortProject = ok sp ∧ ValidSchedule sp s ∧
      IsMakespan FloatEnv.rat sp s v ∧ Predict.makespan FloatEnv.rat sp v = ok 0 ∧
      Timetable.toJson FloatEnv.rat shortProject s 0 = ub "to_json: makespan > 0" := by
  let sp : ScheduleParams ℚ :=
    { agentPerformance := [2], taskDuration := [1],
      availableAgents := Vector2D.ofSizes [0] [1],
      dependencies := Vector2D.ofSizes [] [0], durationMultiplier := 1 }
  refine ⟨sp, [⟨0, 0⟩], 1 / 2, by decide +kernel,
    validSchedule_of_check (by decide) (by decide) (by decide), ?_, by decide +kernel, ?_⟩
  · exact ⟨⟨sp, [0], [0]⟩, ⟨sp, [1 / 2], [1 / 2]⟩, by decide +kernel, by decide +kernel⟩
  · have h : Timetable.entries FloatEnv.rat shortProject [⟨0, 0⟩] ⟨[0], [0]⟩ [0]
        = ok [⟨"t", "a", 0, 0, 0⟩] := by decide +kernel
    change (do
      let es ← Timetable.entries FloatEnv.rat shortProject [⟨0, 0⟩] ⟨[0], [0]⟩ [0]
      expects (!es.isEmpty) _
      expects (decide ((0 : Int) < 0)) "to_json: makespan > 0"
      return Json.obj [("makespan", .int 0), ("tasks", .arr (es.map TaskEntry.toJson))]) = _
    rw [h]
    rfl

/-! ### C57 -/

theorem binsJson_ok {bins : List Bin}
    (h : ∀ b ∈ bins, 0 < b.count ∧ b.count < 2 ^ 31 ∧ 0 ≤ b.low ∧ b.low < 2 ^ 31) :
    binsJson bins = ok (bins.map fun b => .arr [.int b.low, .int b.count]) := by
  induction bins with
  | nil => rfl
  | cons b bins ih =>
    obtain ⟨h1, h2, h3, h4⟩ := h b (by simp)
    have e1 : narrowToInt b.count = ok b.count := if_pos ⟨by omega, h2⟩
    have e2 : safeToInt b.low = ok b.low := if_pos ⟨by omega, h4⟩
    rw [binsJson, e1, ok_bind, if_neg (by omega), e2, ok_bind,
      ih (fun b hb => h b (by simp [hb])), ok_bind]
    rfl

theorem binsJson_throws {bins : List Bin} (h : ∀ b ∈ bins, 0 < b.count ∧ b.count < 2 ^ 31 ∧ 0 ≤ b.low) (hb : ∃ b ∈ bins, 2 ^ 31 ≤ b.low) :
    binsJson bins = throws .range := by
  induction bins with
  | nil => simp at hb
  | cons b bins ih =>
    obtain ⟨h1, h2, h3⟩ := h b (by simp)
    have e1 : narrowToInt b.count = ok b.count := if_pos ⟨by omega, h2⟩
    rw [binsJson, e1, ok_bind, if_neg (by omega)]
    by_cases h4 : b.low < 2 ^ 31
    · have e2 : safeToInt b.low = ok b.low := if_pos ⟨by omega, h4⟩
      rw [e2, ok_bind, ih (fun b hb => h b (by simp [hb])) ?_]
      · rfl
      · obtain ⟨b', hb', hl⟩ := hb
        rcases List.mem_cons.1 hb' with rfl | hb'
        · omega
        · exact ⟨b', hb', hl⟩
    · have e2 : safeToInt b.low = throws .range := if_neg (by omega)
      rw [e2]
      rfl

/-- C57. The JSON of a histogram of one or more values that fit an `int` lists the bins that describe the values, all
of them, in ascending order, each with lower bound and count. -/
theorem histogram_json {w : Int} {vs : List Int} {h : Histogram} (hh : HistogramOf w vs h)
    (hne : vs ≠ []) (hv : ∀ v ∈ vs, v < 2 ^ 31) (hw : w < 2 ^ 31) (hlen : vs.length < 2 ^ 31) :
    ∃ bins, Describes w vs bins ∧ h.toJson = ok (.obj [("bin_size", .int w),
      ("bins", .arr (bins.map fun b => .arr [.int b.low, .int b.count]))]) := by
  obtain ⟨hw1, hi⟩ := hh.inv
  have hd := hi.describes hw1
  refine ⟨Histogram.binsOf w h, hd, ?_⟩
  have hbne := hh.ne_nil hne
  have hsize : 1 ≤ h.size := by
    have : h.bins ≠ [] := by
      intro h0
      apply hbne
      simp [Histogram.binsOf, h0]
    exact List.length_pos_iff.2 this
  have hbin : h.binSize = w := hi.size
  unfold Histogram.toJson
  rw [expects_true (by simpa using hsize), ok_bind, hi.toList hw1, ok_bind, binsJson_ok, ok_bind, hbin]
  · have : safeToInt w = ok w := if_pos ⟨by omega, hw⟩
    rw [this]
    rfl
  · intro b hb
    have hpos := hd.positive b hb
    have hcount := hd.counts b hb
    have hle : b.count ≤ vs.length := by
      rw [hcount]
      exact_mod_cast List.countP_le_length
    have h2 := hpos
    rw [hcount] at h2
    obtain ⟨v, hvm, hbv⟩ := List.countP_pos_iff.1 (by omega : 0 < vs.countP fun v => b.Contains v)
    simp only [decide_eq_true_eq] at hbv
    have hv1 := hv v hvm
    have hv0 := hi.nonneg v hvm
    refine ⟨hpos, by omega, ?_, lt_of_le_of_lt hbv.1 hv1⟩
    obtain ⟨h4, k, hk⟩ := hd.width b hb
    have h5 := hbv.2
    have : 0 ≤ k := by
      by_contra hneg
      have : b.low ≤ -w := by
        rw [hk]
        nlinarith
      omega
    rw [hk]
    exact Int.mul_nonneg (by omega) this

/-- A histogram with a run of more than 2³¹ seconds and a bin cannot be written as JSON. -/
theorem histogram_json_throws {w : Int} {vs : List Int} {h : Histogram} (hh : HistogramOf w vs h) (hv : ∃ v ∈ vs, 2 ^ 31 + w ≤ v)
    (hlen : vs.length < 2 ^ 31) : h.toJson = throws .range := by
  obtain ⟨hw1, hi⟩ := hh.inv
  have hd := hi.describes hw1
  obtain ⟨v, hvm, hv⟩ := hv
  have hbne := hh.ne_nil (List.ne_nil_of_mem hvm)
  have hsize : 1 ≤ h.size := by
    have : h.bins ≠ [] := by
      intro h0
      apply hbne
      simp [Histogram.binsOf, h0]
    exact List.length_pos_iff.2 this
  unfold Histogram.toJson
  rw [expects_true (by simpa using hsize), ok_bind, hi.toList hw1, ok_bind, binsJson_throws]
  · rfl
  · intro b hb
    have hpos := hd.positive b hb
    have hcount := hd.counts b hb
    have hle : b.count ≤ vs.length := by
      rw [hcount]
      exact_mod_cast List.countP_le_length
    have h2 := hpos
    rw [hcount] at h2
    obtain ⟨u, hum, hbu⟩ := List.countP_pos_iff.1 (by omega : 0 < vs.countP fun v => b.Contains v)
    simp only [decide_eq_true_eq] at hbu
    have hu0 := hi.nonneg u hum
    refine ⟨hpos, by omega, ?_⟩
    obtain ⟨e1, c, e2⟩ := hd.width b hb
    have := hbu.2
    rw [e1, e2] at this
    rw [e2]
    have hc : 0 ≤ c := by
      by_contra hneg
      have : w * c ≤ w * (-1) := mul_le_mul_of_nonneg_left (by omega) (by omega)
      omega
    exact mul_nonneg (by omega) hc
  · obtain ⟨b, hb, hbv⟩ := hd.covers v hvm
    have := (hd.width b hb).1
    exact ⟨b, hb, by have := hbv.2; omega⟩

example : HistogramOf 60 [130, 0, 179] ⟨60, [(0, 1), (2, 2)]⟩ :=
  ⟨by decide, [.add 130, .add 0, .add 179], by simp, rfl, by decide +kernel⟩

end Angonoka.Props
