import Mathlib.Data.List.Forall2
import Verif.Props.Loading
import Verif.Props.Rounding
import Verif.Spec.Visualizer

/-!
# C69, C70: the visualizer
-/

set_option linter.unusedSectionVars false

namespace Angonoka.Props
open Angonoka Outcome Stun Visualizer

variable {K : Type} [Field K] [LinearOrder K] [IsStrictOrderedRing K]

/-! ### Rows -/

theorem mem_uniq {l : List String} {x : String} : x ∈ uniq l ↔ x ∈ l := by
  induction l with
  | nil => simp [uniq]
  | cons y l ih =>
    simp only [uniq, List.mem_cons, List.mem_filter, ih, bne_iff_ne]
    by_cases h : x = y <;> simp [h]

theorem uniq_nodup (l : List String) : (uniq l).Nodup := by
  induction l with
  | nil => simp [uniq]
  | cons y l ih => simp [uniq, ih.filter]

theorem agentNames_sorted (es : List TaskEntry) : (agentNames es).Pairwise (· < ·) := by
  have h1 : (agentNames es).Pairwise (· ≤ ·) := List.pairwise_insertionSort _ _
  have h2 : (agentNames es).Nodup := (List.perm_insertionSort _ _).nodup_iff.2 (uniq_nodup _)
  exact (h1.and h2).imp fun h => lt_of_le_of_ne h.1 h.2

theorem mem_agentNames {es : List TaskEntry} {v : String} : v ∈ agentNames es ↔ ∃ e ∈ es, e.agent = v := by
  unfold agentNames
  rw [List.mem_insertionSort, mem_uniq, List.mem_map]

section
variable {E : FloatEnv K} {p : Project} {q : ScheduleParams K} {s : List Item} {es : List TaskEntry} {start finish : Nat → K}

/-- Entries of the same agent are in order. -/
theorem entries_ordered (hn : NamesDiffer p) (hlen : es.length = s.length)
    (hcor : ∀ (i : Nat) (it : Item) (e : TaskEntry), s[i]? = some it → es[i]? = some e → e.Correct E p q s start i it)
    (hx : Execution E q s start finish) {N : Int} (hN : CountsExact E N) (hb : ∀ it ∈ s, finish it.task < N)
    (hpos : ∀ it ∈ s, 0 ≤ q.itemTime E it) :
    es.Pairwise fun a b => a.agent = b.agent → a.priority < b.priority ∧ a.start + a.duration ≤ b.start := by
  rw [List.pairwise_iff_getElem]
  intro i j hi hj hij hag
  have hi' : i < s.length := by omega
  have hj' : j < s.length := by omega
  have ci := hcor i s[i] es[i] (by simp) (by simp)
  have cj := hcor j s[j] es[j] (by simp) (by simp)
  -- the same agent
  have hagent : s[i].agent = s[j].agent := by
    have a1 := ci.agent
    have a2 := cj.agent
    rw [Option.map_eq_some_iff] at a1 a2
    obtain ⟨x, hx1, hx2⟩ := a1
    obtain ⟨y, hy1, hy2⟩ := a2
    exact hn _ _ x y hx1 hy1 (by rw [hx2, hy2, hag])
  constructor
  · rw [ci.priority, cj.priority, hagent]
    have h1 : s.take (i + 1) <+: s.take j := by
      rw [List.prefix_take_iff]
      exact ⟨List.take_prefix _ _, by simp; omega⟩
    have h2 := h1.sublist.countP_le (p := fun x => decide (x.agent = s[j].agent))
    rw [List.take_add_one, List.countP_append] at h2
    have h3 : ((s[i]?).toList).countP (fun x => decide (x.agent = s[j].agent)) = 1 := by
      simp [hi', hagent]
    omega
  · have hpair := (List.pairwise_iff_getElem.1 hx.agents) i j hi' hj' hij hagent
    have hmem : s[i] ∈ s := List.getElem_mem _
    rw [hx.time _ hmem] at hpair
    have h1 := ci.start.1
    have h2 := ci.duration.1
    have h3 := cj.start.2
    have h0 := hx.nonneg _ hmem
    have hp0 := hpos _ hmem
    have hbi := hb _ hmem
    rw [hx.time _ hmem] at hbi
    have hs0 : 0 ≤ es[i].start := by
      have := ci.start.2
      have : (0 : K) < ((es[i].start + 1 : Int) : K) := by push_cast; linarith
      have : 0 < es[i].start + 1 := by exact_mod_cast this
      omega
    have hd0 : 0 ≤ es[i].duration := by
      have := ci.duration.2
      have : (0 : K) < ((es[i].duration + 1 : Int) : K) := by push_cast; linarith
      have : 0 < es[i].duration + 1 := by exact_mod_cast this
      omega
    have hle : ((es[i].start + es[i].duration : Int) : K) ≤ start s[i].task + q.itemTime E s[i] := by
      push_cast
      linarith
    have hr := E.rnd_mono hle
    have hnN : es[i].start + es[i].duration ≤ N := by
      by_contra hc
      have hc' : N ≤ es[i].start + es[i].duration := by omega
      have hN0 : 0 ≤ N := by
        by_contra hneg
        have : (N : K) < 0 := by exact_mod_cast not_le.1 hneg
        have : 0 ≤ E.add (start s[i].task) (q.itemTime E s[i]) := E.rnd_nonneg (by linarith)
        linarith
      have h5 : (N : K) ≤ start s[i].task + q.itemTime E s[i] :=
        le_trans (by exact_mod_cast hc') hle
      have h6 := E.rnd_mono h5
      rw [hN N hN0 le_rfl] at h6
      exact absurd h6 (not_le.2 hbi)
    rw [hN _ (by omega) hnN] at hr
    have h7 : ((es[i].start + es[i].duration : Int) : K) < ((es[j].start + 1 : Int) : K) := by
      push_cast at hr ⊢
      refine lt_of_le_of_lt (hr.trans hpair) h3
    have h8 : es[i].start + es[i].duration < es[j].start + 1 := by exact_mod_cast h7
    omega

theorem agentTasks_eq (h : es.Pairwise fun a b => a.agent = b.agent → a.priority < b.priority ∧ a.start + a.duration ≤ b.start)
    (v : String) : agentTasks es v = es.filter fun e => e.agent == v := by
  unfold agentTasks
  apply List.Pairwise.insertionSort_eq
  rw [List.pairwise_filter]
  refine h.imp fun h ha hb => ?_
  simp only [beq_iff_eq] at ha hb
  exact (h (ha.trans hb.symm)).1.le

/-- Correct entries are shown as they should be. -/
theorem timelines_show {D : FloatEnv K} (hD : D.IsExact) (hn : NamesDiffer p) (hlen : es.length = s.length)
    (hcor : ∀ (i : Nat) (it : Item) (e : TaskEntry), s[i]? = some it → es[i]? = some e → e.Correct E p q s start i it)
    (hx : Execution E q s start finish) {N : Int} (hN : CountsExact E N) (hb : ∀ it ∈ s, finish it.task < N)
    (hpos : ∀ it ∈ s, 0 ≤ q.itemTime E it) {m : Int} (hm : 0 < m) :
    ShowsSchedule E p q start m s (timelines D es m) := by
  have hord := entries_ordered hn hlen hcor hx hN hb hpos
  have hmK : (0 : K) < m := by exact_mod_cast hm
  have hfst : (timelines D es m).map Prod.fst = agentNames es := by
    simp [timelines, Function.comp_def]
  have hrel : List.Forall₂ (fun it e => it ∈ s ∧ agentOf p it = some e.agent ∧ e ∈ es ∧ Shows E p q start m it (strip D m e)) s es := by
    rw [List.forall₂_iff_get]
    refine ⟨hlen.symm, fun i hi hj => ?_⟩
    have c := hcor i s[i] es[i] (by simp) (by simp)
    refine ⟨List.get_mem _ _, c.agent, List.get_mem _ _, c.task, es[i].start, es[i].duration, c.start, c.duration, ?_, ?_⟩
    · simp [strip, FloatEnv.mul, FloatEnv.div, hD _]
    · simp [strip, FloatEnv.mul, FloatEnv.div, hD _]
  have hrow : ∀ r ∈ timelines D es m, r.2 = (es.filter fun e => e.agent == r.1).map (strip D m) := by
    intro r hr
    unfold timelines at hr
    obtain ⟨v, _, rfl⟩ := List.mem_map.1 hr
    rw [agentTasks_eq hord]
  have hnn : ∀ e ∈ es, 0 ≤ e.start ∧ 0 ≤ e.duration := by
    intro e he
    obtain ⟨i, hi, rfl⟩ := List.getElem_of_mem he
    have hi' : i < s.length := by omega
    have c := hcor i s[i] es[i] (by simp) (by simp)
    have hmem : s[i] ∈ s := List.getElem_mem _
    have h0 := hx.nonneg _ hmem
    have hp0 := hpos _ hmem
    constructor
    · have := c.start.2
      have : (0 : K) < ((es[i].start + 1 : Int) : K) := by push_cast; linarith
      have : 0 < es[i].start + 1 := by exact_mod_cast this
      omega
    · have := c.duration.2
      have : (0 : K) < ((es[i].duration + 1 : Int) : K) := by push_cast; linarith
      have : 0 < es[i].duration + 1 := by exact_mod_cast this
      omega
  refine ⟨?_, ?_, ?_, ?_, ?_⟩
  · rw [hfst]
    exact agentNames_sorted es
  · intro v
    rw [hfst, mem_agentNames]
    constructor
    · rintro ⟨e, he, rfl⟩
      obtain ⟨i, hi, rfl⟩ := List.getElem_of_mem he
      have hi' : i < s.length := by omega
      exact ⟨s[i], List.getElem_mem _, (hcor i s[i] es[i] (by simp) (by simp)).agent⟩
    · rintro ⟨it, hit, hv⟩
      obtain ⟨i, hi, rfl⟩ := List.getElem_of_mem hit
      have hi' : i < es.length := by omega
      refine ⟨es[i], List.getElem_mem _, ?_⟩
      have := (hcor i s[i] es[i] (by simp) (by simp)).agent
      unfold agentOf at hv
      rw [hv] at this
      exact (Option.some.inj this).symm
  · intro r hr
    rw [hrow r hr, List.forall₂_map_right_iff]
    refine (List.rel_filter (R := fun it e => it ∈ s ∧ agentOf p it = some e.agent ∧ e ∈ es ∧ Shows E p q start m it (strip D m e))
      ?_ hrel).imp fun it e h => h.2.2.2
    rintro it e ⟨_, h, _⟩
    simp [h]
  · intro r hr x hx
    rw [hrow r hr] at hx
    obtain ⟨e, he, rfl⟩ := List.mem_map.1 hx
    obtain ⟨h1, h2⟩ := hnn e (List.mem_of_mem_filter he)
    have h1' : (0 : K) ≤ e.start := by exact_mod_cast h1
    have h2' : (0 : K) ≤ e.duration := by exact_mod_cast h2
    simp only [strip, FloatEnv.mul, FloatEnv.div, hD _]
    constructor <;> positivity
  · intro r hr
    rw [hrow r hr, List.pairwise_map, List.pairwise_filter]
    refine hord.imp fun h ha hb => ?_
    simp only [beq_iff_eq] at ha hb
    have h1 := (h (ha.trans hb.symm)).2
    simp only [strip, FloatEnv.mul, FloatEnv.div, hD _]
    rw [← add_mul, ← add_div]
    apply mul_le_mul_of_nonneg_right _ (by norm_num)
    apply div_le_div_of_nonneg_right _ hmK.le
    exact_mod_cast h1

end

variable [FloorRing K]

/-- C69, for exact arithmetic. For the JSON of a valid schedule of a sound project with different agent names, the visualizer draws one row for each agent
that works, with all its tasks in order, side by side without overlap, each at its time, and no task sticks out at the end. -/
theorem timeline_exact {E D : FloatEnv K} (hE : E.IsExact) (hD : D.IsExact) {p : Project} (hp : p.Sound) (hn : NamesDiffer p)
    {sp : ScheduleParams K} (hsp : toScheduleParams E p = ok sp) {s : List Item}
    (hs : ValidSchedule sp s) {v : K} (hv : IsMakespan E sp s v)
    (hb : ∃ start finish, Execution E (p.secondsParams E sp) s start finish ∧
      ∀ it ∈ s, finish it.task < 2 ^ 31)
    (h1 : ∀ start finish, Execution E (p.secondsParams E sp) s start finish →
      ∃ it ∈ s, 1 ≤ finish it.task) :
    ∃ (m : Int) (es : List TaskEntry) (start finish : Nat → K), Predict.makespan E sp v = ok m ∧
      Timetable.toJson E p s m = ok (.obj [("makespan", .int m), ("tasks", .arr (es.map TaskEntry.object))]) ∧
      Earliest E (p.secondsParams E sp) s start finish ∧
      ShowsSchedule E p (p.secondsParams E sp) start m s (timelines D es m) ∧
      ∀ r ∈ timelines D es m, ∀ x ∈ r.2, x.left + x.width ≤ 100 := by
  obtain ⟨m, es, start, finish, hm, hj, hlen, hcor, hex, V, hV, hmV⟩ := schedule_json_exact hE hp hsp hs hv hb h1
  have hm0 : 0 < m := by
    obtain ⟨it, hit, h⟩ := h1 start finish hex.1
    have h2 := lt_of_le_of_lt (h.trans (hV.1 it hit)) hmV.2
    have : (0 : K) < m := by linarith
    exact_mod_cast this
  have hfin : ∀ it ∈ s, finish it.task < ((2 ^ 31 : Int) : K) := by
    obtain ⟨st, fi, hx, hlt⟩ := hb
    intro it hit
    have := lt_of_le_of_lt (hex.2 st fi hx it hit).2 (hlt it hit)
    exact_mod_cast this
  have hshow := timelines_show hD hn hlen (fun i it e h h' => (hcor i it e h h').1) hex.1 (fun n _ _ => hE _) hfin
    (fun it hit => (itemTime_pos hE hp hsp hs it hit).le) hm0
  refine ⟨m, es, start, finish, hm, hj, hex, hshow, ?_⟩
  intro r hr x hx
  unfold timelines at hr
  obtain ⟨w, _, rfl⟩ := List.mem_map.1 hr
  obtain ⟨e, he, rfl⟩ := List.mem_map.1 hx
  have he' : e ∈ es := by
    unfold agentTasks at he
    exact List.mem_of_mem_filter ((List.mem_insertionSort _).1 he)
  obtain ⟨i, hi, rfl⟩ := List.getElem_of_mem he'
  have hi' : i < s.length := by omega
  have hc := (hcor i s[i] es[i] (by simp) (by simp)).2
  have hmK : (0 : K) < m := by exact_mod_cast hm0
  simp only [strip, FloatEnv.mul, FloatEnv.div, hD _]
  rw [← add_mul, ← add_div]
  have : ((es[i].start : K) + es[i].duration) / m ≤ 1 := by
    rw [div_le_one hmK]
    exact_mod_cast hc
  linarith

/-- C69 in part, for single precision: the same, for executions that end within 2²⁴ seconds (194 days) and in which every item takes
time, with any positive makespan. What is missing is that tasks do not stick out at the end of the timeline, see `strip_sticks_out`. -/
theorem timeline_float_partial {E D : FloatEnv K} (hE : E.IsFloat) (hD : D.IsExact) {p : Project} (hp : p.Sound) (hn : NamesDiffer p)
    (hf : p.FloatsIn E) {sp : ScheduleParams K} (hsp : toScheduleParams E p = ok sp) {s : List Item}
    (hs : ValidSchedule sp s) (hpos : ∀ it ∈ s, 0 < (p.secondsParams E sp).itemTime E it)
    (hb : ∃ start finish, Execution E (p.secondsParams E sp) s start finish ∧
      ∀ it ∈ s, finish it.task < 2 ^ 24) {m : Int} (hm : 0 < m) :
    ∃ (es : List TaskEntry) (start finish : Nat → K),
      Timetable.toJson E p s m = ok (.obj [("makespan", .int m), ("tasks", .arr (es.map TaskEntry.object))]) ∧
      Earliest E (p.secondsParams E sp) s start finish ∧
      ShowsSchedule E p (p.secondsParams E sp) start m s (timelines D es m) := by
  obtain ⟨st, fi, hx, hlt⟩ := hb
  obtain ⟨es, start, finish, hj, hlen, hcor, hex, hleast⟩ := schedule_json hp hf hsp hs hpos
    ⟨st, fi, hx, fun it hit => (hlt it hit).trans (by norm_num)⟩ hm
  refine ⟨es, start, finish, hj, ⟨hex, hleast⟩, timelines_show hD hn hlen hcor hex (N := 2 ^ 24) ?_ ?_ (fun it hit => (hpos it hit).le) hm⟩
  · intro n h0 hle
    rw [hE]
    exact Binary32.round_int (by rwa [abs_of_nonneg h0])
  · intro it hit
    have := lt_of_le_of_lt (hleast st fi hx it hit).2 (hlt it hit)
    exact_mod_cast this

theorem sum_durations_le {l : List TaskEntry} (h : l.Pairwise fun a b => a.start + a.duration ≤ b.start) {m c : Int}
    (h0 : ∀ e ∈ l, c ≤ e.start) (hm : ∀ e ∈ l, e.start + e.duration ≤ m) (hc : c ≤ m) :
    c + (l.map TaskEntry.duration).sum ≤ m := by
  induction l generalizing c with
  | nil => simpa using hc
  | cons e l ih =>
    rw [List.pairwise_cons] at h
    have h1 := h0 e (by simp)
    have h2 := ih h.2 (c := e.start + e.duration) h.1 (fun x hx => hm x (by simp [hx])) (hm e (by simp))
    simp only [List.map_cons, List.sum_cons]
    omega

theorem foldl_durations (l : List TaskEntry) (a : Int) :
    l.foldl (fun a v => a + v.duration) a = a + (l.map TaskEntry.duration).sum := by
  induction l generalizing a with
  | nil => simp
  | cons e l ih =>
    rw [List.foldl_cons, ih]
    simp only [List.map_cons, List.sum_cons]
    omega

/-- C69, the panel of an agent, for exact arithmetic: the number of tasks is that of the agent, busy and idle time add up to the makespan, neither is
negative, and the utilization is from 0 to 100 percent. -/
theorem agent_info_exact {E D : FloatEnv K} (hE : E.IsExact) (hD : D.IsExact) {p : Project} (hp : p.Sound) (hn : NamesDiffer p)
    {sp : ScheduleParams K} (hsp : toScheduleParams E p = ok sp) {s : List Item}
    (hs : ValidSchedule sp s) {v : K} (hv : IsMakespan E sp s v)
    (hb : ∃ start finish, Execution E (p.secondsParams E sp) s start finish ∧
      ∀ it ∈ s, finish it.task < 2 ^ 31)
    (h1 : ∀ start finish, Execution E (p.secondsParams E sp) s start finish →
      ∃ it ∈ s, 1 ≤ finish it.task) :
    ∃ (m : Int) (es : List TaskEntry), Predict.makespan E sp v = ok m ∧
      Timetable.toJson E p s m = ok (.obj [("makespan", .int m), ("tasks", .arr (es.map TaskEntry.object))]) ∧
      ∀ name, ∀ info, info = agentInfo D (agentTasks es name) m →
        info.tasks = s.countP (fun it => agentOf p it = some name) ∧ info.busy + info.idle = m ∧
        0 ≤ info.busy ∧ 0 ≤ info.idle ∧ info.utilization = 100 * (info.busy : K) / m ∧
        0 ≤ info.utilization ∧ info.utilization ≤ 100 := by
  obtain ⟨m, es, start, finish, hm, hj, hlen, hcor, hex, V, hV, hmV⟩ := schedule_json_exact hE hp hsp hs hv hb h1
  have hm0 : 0 < m := by
    obtain ⟨it, hit, h⟩ := h1 start finish hex.1
    have h2 := lt_of_le_of_lt (h.trans (hV.1 it hit)) hmV.2
    have : (0 : K) < m := by linarith
    exact_mod_cast this
  have hmK : (0 : K) < m := by exact_mod_cast hm0
  have hfin : ∀ it ∈ s, finish it.task < ((2 ^ 31 : Int) : K) := by
    obtain ⟨st, fi, hx, hlt⟩ := hb
    intro it hit
    have := lt_of_le_of_lt (hex.2 st fi hx it hit).2 (hlt it hit)
    exact_mod_cast this
  have hord := entries_ordered hn hlen (fun i it e h h' => (hcor i it e h h').1) hex.1 (fun n _ _ => hE _) hfin
    (fun it hit => (itemTime_pos hE hp hsp hs it hit).le)
  have hent : ∀ e ∈ es, 0 ≤ e.start ∧ 0 ≤ e.duration ∧ e.start + e.duration ≤ m := by
    intro e he
    obtain ⟨i, hi, rfl⟩ := List.getElem_of_mem he
    have hi' : i < s.length := by omega
    obtain ⟨c, hc⟩ := hcor i s[i] es[i] (by simp) (by simp)
    have hmem : s[i] ∈ s := List.getElem_mem _
    have h0 := hex.1.nonneg _ hmem
    have hp0 := itemTime_pos hE hp hsp hs _ hmem
    refine ⟨?_, ?_, hc⟩
    · have := c.start.2
      have : (0 : K) < ((es[i].start + 1 : Int) : K) := by push_cast; linarith
      have : 0 < es[i].start + 1 := by exact_mod_cast this
      omega
    · have := c.duration.2
      have : (0 : K) < ((es[i].duration + 1 : Int) : K) := by push_cast; linarith
      have : 0 < es[i].duration + 1 := by exact_mod_cast this
      omega
  refine ⟨m, es, hm, hj, ?_⟩
  rintro name info rfl
  have hcount : (es.filter fun e => e.agent == name).length = s.countP (fun it => agentOf p it = some name) := by
    have hrel : List.Forall₂ (fun it e => agentOf p it = some e.agent) s es := by
      rw [List.forall₂_iff_get]
      refine ⟨hlen.symm, fun i hi hj => ?_⟩
      exact (hcor i s[i] es[i] (by simp) (by simp)).1.agent
    rw [List.countP_eq_length_filter]
    refine (List.Forall₂.length_eq (List.rel_filter (R := fun it e => agentOf p it = some e.agent) ?_ hrel)).symm
    intro it e h
    simp [h]
  have hbusy : 0 ≤ ((es.filter fun e => e.agent == name).map TaskEntry.duration).sum := by
    apply List.sum_nonneg
    intro x hx
    obtain ⟨e, he, rfl⟩ := List.mem_map.1 hx
    exact (hent e (List.mem_of_mem_filter he)).2.1
  have hle := sum_durations_le (l := es.filter fun e => e.agent == name) (m := m) (c := 0) (by
      rw [List.pairwise_filter]
      refine hord.imp fun h ha hb => ?_
      simp only [beq_iff_eq] at ha hb
      exact (h (ha.trans hb.symm)).2)
    (fun e he => (hent e (List.mem_of_mem_filter he)).1) (fun e he => (hent e (List.mem_of_mem_filter he)).2.2) hm0.le
  unfold agentInfo
  rw [agentTasks_eq hord, foldl_durations]
  dsimp only
  set b := ((es.filter fun e => e.agent == name).map TaskEntry.duration).sum
  have hbK : (0 : K) ≤ b := by exact_mod_cast hbusy
  have hbm : (b : K) ≤ m := by
    have : b ≤ m := by omega
    exact_mod_cast this
  simp only [FloatEnv.div, hD _, zero_add]
  push_cast
  refine ⟨hcount, by omega, hbusy, by omega, rfl, by positivity, ?_⟩
  rw [div_le_iff₀ hmK]
  linarith

/-- The names of the agents of a document that loads differ. -/
theorem loaded_names {rf : Load.ReadFloat} {root : Yaml} {p : Project} (h : load rf root = ok p) : NamesDiffer p :=
  (agents_keep_identity.1 p h).2.2

example : NamesDiffer exampleProject := by
  intro i j a b hi hj h
  match i, j, hi, hj with
  | 0, 0, _, _ => rfl
  | 1, 1, _, _ => rfl
  | 0, 1, hi, hj => cases hi; cases hj; simp at h
  | 1, 0, hi, hj => cases hi; cases hj; simp at h
  | i + 2, _, hi, _ => cases hi
  | _, j + 2, _, hj => cases hj

/-- The timeline of the example project -/
example : timelines FloatEnv.rat [⟨"s", "a", 0, 7, 0⟩, ⟨"t", "b", 0, 5, 7⟩] 12
    = [("a", [⟨"s", 0, 175 / 3⟩]), ("b", [⟨"t", 175 / 3, 125 / 3⟩])] := by decide +kernel

/-- C69 is false for single precision: the last of the three tasks of `float_makespan_early` sticks out at the end of the timeline. -/
theorem strip_sticks_out :
    ∃ (es : List TaskEntry) (r : String × List (Strip ℚ)) (x : Strip ℚ),
      Predict.makespan ratFloat threeSp (16777215 / 16777216) = ok 22 ∧
      Timetable.toJson ratFloat threeTasks threeItems 22
        = ok (.obj [("makespan", .int 22), ("tasks", .arr (es.map TaskEntry.object))]) ∧
      r ∈ timelines FloatEnv.rat es 22 ∧ x ∈ r.2 ∧ 100 < x.left + x.width := by
  refine ⟨[⟨"x", "a", 0, 20, 0⟩, ⟨"y", "a", 1, 1, 20⟩, ⟨"z", "a", 2, 2, 21⟩],
    ("a", [⟨"x", 0, 1000 / 11⟩, ⟨"y", 1000 / 11, 50 / 11⟩, ⟨"z", 1050 / 11, 100 / 11⟩]), ⟨"z", 1050 / 11, 100 / 11⟩,
    by decide +kernel, ?_, by decide +kernel, by decide +kernel, by decide +kernel⟩
  unfold Timetable.toJson Timetable.Durations.new
  have h : Timetable.entries ratFloat threeTasks threeItems ⟨[0], [0, 0, 0]⟩ [0]
      = ok [⟨"x", "a", 0, 20, 0⟩, ⟨"y", "a", 1, 1, 20⟩, ⟨"z", "a", 2, 2, 21⟩] := by decide +kernel
  change (Timetable.entries ratFloat threeTasks threeItems ⟨[0], [0, 0, 0]⟩ [0] >>= _) = _
  rw [h]
  rfl

/-- A task of 2²⁴ seconds (194 days) and two of one second, one agent -/
def longTasks : Project where
  groups := []
  agents := [{ id := 0, name := "a" }]
  tasks := [{ name := "x", durMin := 2 ^ 24, durMax := 2 ^ 24 }, { name := "y", durMin := 1, durMax := 1 },
    { name := "z", durMin := 1, durMax := 1 }]

/-- C69 is false for single precision: beyond 2²⁴ seconds tasks of the same agent can overlap. Here the second task begins at the same time as the
last one and takes a second. -/
theorem strips_overlap :
    ∃ (es : List TaskEntry) (r : String × List (Strip ℚ)) (x y : Strip ℚ),
      Timetable.toJson ratFloat longTasks threeItems (2 ^ 24)
        = ok (.obj [("makespan", .int (2 ^ 24)), ("tasks", .arr (es.map TaskEntry.object))]) ∧
      timelines FloatEnv.rat es (2 ^ 24) = [r] ∧ r.2[1]? = some x ∧ r.2[2]? = some y ∧ y.left < x.left + x.width := by
  refine ⟨[⟨"x", "a", 0, 2 ^ 24, 0⟩, ⟨"y", "a", 1, 1, 2 ^ 24⟩, ⟨"z", "a", 2, 1, 2 ^ 24⟩],
    ("a", [⟨"x", 0, 100⟩, ⟨"y", 100, 25 / 4194304⟩, ⟨"z", 100, 25 / 4194304⟩]), ⟨"y", 100, 25 / 4194304⟩,
    ⟨"z", 100, 25 / 4194304⟩, ?_, by decide +kernel, rfl, rfl, by norm_num⟩
  unfold Timetable.toJson Timetable.Durations.new
  have h : Timetable.entries ratFloat longTasks threeItems ⟨[0], [0, 0, 0]⟩ [0]
      = ok [⟨"x", "a", 0, 2 ^ 24, 0⟩, ⟨"y", "a", 1, 1, 2 ^ 24⟩, ⟨"z", "a", 2, 1, 2 ^ 24⟩] := by decide +kernel
  change (Timetable.entries ratFloat longTasks threeItems ⟨[0], [0, 0, 0]⟩ [0] >>= _) = _
  rw [h]
  rfl

end Angonoka.Props
