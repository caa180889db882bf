import Verif.Spec.Json
import Verif.Proof.Makespan
import Verif.Proof.Params
import Verif.Proof.MakespanBounds
import Mathlib.Algebra.Order.Floor.Ring
import Mathlib.Tactic.Linarith

/-!
# The timetable's loop is the makespan recurrence
-/

set_option linter.unusedSectionVars false

namespace Angonoka
open Outcome Stun Timetable

variable {K : Type} [Field K] [LinearOrder K] [IsStrictOrderedRing K]

/-- What the timetable needs to know about a project and parameters. -/
structure TimetableFor (E : FloatEnv K) (p : Project) (q : ScheduleParams K) : Prop where
  tasks : q.taskCount = p.tasks.length
  agents : q.agentCount = p.agents.length
  dur : ∀ t ∈ p.tasks, t.DurationOk
  durations : q.taskDuration = p.tasks.map fun t => E.ofInt t.meanDuration
  performance : p.agents.mapM (Agent.averagePerformance E) = ok q.agentPerformance
  deps : ∀ (i : Nat) (t : Task), p.tasks[i]? = some t → q.deps i = t.dependencies

theorem TimetableFor.taskTime {E : FloatEnv K} {p : Project} {q : ScheduleParams K}
    (h : TimetableFor E p q) (hp : ∀ x ∈ q.agentPerformance, 0 < x) {it : Item} {t : Task} {a : Agent}
    (ht : p.tasks[it.task]? = some t) (ha : p.agents[it.agent]? = some a) :
    taskTime E t a = ok (q.itemTime E it) := by
  have hd := h.dur t (List.mem_of_getElem? ht)
  have hpos : 0 < t.meanDuration := by
    have h1 := hd.1
    have h2 := hd.2
    unfold Task.meanDuration
    omega
  have hperf := mapM_eq_ok h.performance
  obtain ⟨hlt, hka⟩ := List.getElem?_eq_some_iff.1 ha
  have hlt' : it.agent < q.agentPerformance.length := hperf.length_eq ▸ hlt
  have hget := List.Forall₂.get hperf hlt hlt'
  rw [List.get_eq_getElem, List.get_eq_getElem, hka] at hget
  unfold Timetable.taskTime
  rw [averageDuration_eq hd, ok_bind, expects_true (by simpa using hpos), ok_bind, hget, ok_bind,
    expects_true (by simpa using hp _ (List.getElem_mem hlt')), ok_bind]
  simp [ScheduleParams.itemTime, h.durations, List.getD_eq_getElem?_getD, ht, hlt']

theorem timetable_deps_ok {td : List K} {f : Nat → K} {deps : List Nat} (hne : td ≠ [])
    (hf : Holds td f) (hd : ∀ d ∈ deps, d < td.length) :
    Timetable.dependenciesDone td deps = ok (maxOf (deps.map f)) := by
  unfold Timetable.dependenciesDone
  rw [expects_true (by simpa using hne), ok_bind]
  split
  · next h =>
    have h' : deps = [] := by simpa using h
    simp [h', maxOf]
  · rw [mapM_eq_ok_of_forall (g := f), ok_bind]
    · rfl
    · intro d hd'
      rw [at?_eq_ok]
      exact hf d (hd d hd')

section
variable [FloorRing K]

theorem truncate_of_nonneg {x : K} (h : 0 ≤ x) : Simulation.truncate x = ⌊x⌋ := if_pos h

theorem toInt_ok {x : K} (h0 : 0 ≤ x) (h : x < 2 ^ 31) : toInt x = ok ⌊x⌋ := by
  unfold toInt
  rw [truncate_of_nonneg h0, expects_true, ok_bind]
  · rfl
  · simp only [decide_eq_true_eq]
    have h1 : 0 ≤ ⌊x⌋ := Int.floor_nonneg.2 h0
    have h2 : ⌊x⌋ < (2 : Int) ^ 31 := by
      rw [Int.floor_lt]
      exact_mod_cast h
    omega

theorem isWholePart_floor (x : K) : IsWholePart ⌊x⌋ x := ⟨Int.floor_le x, Int.lt_floor_add_one x⟩

theorem entries_spec {E : FloatEnv K} {p : Project} {q : ScheduleParams K} (hq : TimetableFor E p q)
    (hp : ∀ x ∈ q.agentPerformance, 0 < x) (hd : ∀ x ∈ q.taskDuration, 0 ≤ x)
    {s pre : List Item} {start f w : Nat → K} (h : RunInv E q pre start f w)
    (hs : Runnable q pre s) (hf0 : ∀ t, t ∉ pre.map Item.task → f t = 0)
    (hfit : ∀ it ∈ s, Fits q p.tasks.length p.agents.length it)
    (hpos : ∀ it ∈ s, 0 < q.itemTime E it)
    (hb : ∃ start' finish', Execution E q (pre ++ s) start' finish' ∧
      ∀ it ∈ pre ++ s, finish' it.task < 2 ^ 31)
    {d : Durations K} {prio : List Nat}
    (htd : Holds d.taskDone f) (htl : d.taskDone.length = p.tasks.length)
    (hwd : Holds d.agentWorkEnd w) (hwl : d.agentWorkEnd.length = p.agents.length)
    (hprio : ∀ a < p.agents.length, prio[a]? = some (pre.countP fun x => x.agent = a)) :
    ∃ es start', entries E p s d prio = ok es ∧ es.length = s.length ∧
      RunInv E q (pre ++ s) start' (runF E q s f w).1 (runF E q s f w).2 ∧
      (∀ it ∈ pre, start' it.task = start it.task) ∧
      ∀ (i : Nat) (it : Item) (e : TaskEntry), s[i]? = some it → es[i]? = some e →
        e.Correct E p q (pre ++ s) start' (pre.length + i) it := by
  induction s generalizing pre start f w d prio with
  | nil => exact ⟨[], start, rfl, rfl, by simpa [runF] using h, fun _ _ => rfl, by simp⟩
  | cons it s ih =>
    obtain ⟨h1, h2⟩ := hs [] it s rfl
    rw [List.append_nil] at h1 h2
    have hit := hfit it (by simp)
    have hstep := runInv_step hp hd h (it := it) h1 h2
    obtain ⟨tk, htk⟩ : ∃ t, p.tasks[it.task]? = some t := ⟨_, List.getElem?_eq_getElem hit.task_n⟩
    obtain ⟨ag, hag⟩ : ∃ a, p.agents[it.agent]? = some a := ⟨_, List.getElem?_eq_getElem hit.agent_m⟩
    have hdeps : q.deps it.task = tk.dependencies := hq.deps _ _ htk
    have hitpos := hpos it (by simp)
    -- bounds
    have hstart0 : 0 ≤ startTime q f w it := le_max_of_le_right (h.nonneg _)
    have hitem_le : q.itemTime E it ≤ endTime E q f w it := by
      have h3 : E.rnd (q.itemTime E it) = q.itemTime E it := E.rnd_idem _
      rw [← h3]
      exact E.rnd_mono (by linarith)
    have hendpos : 0 < endTime E q f w it := lt_of_lt_of_le hitpos hitem_le
    have hend_lt : endTime E q f w it < 2 ^ 31 ∧ startTime q f w it ≤ endTime E q f w it := by
      obtain ⟨start', finish', hex, hlt⟩ := hb
      have hex' : Execution E q (pre ++ [it]) start' finish' := by
        have : pre ++ it :: s = (pre ++ [it]) ++ s := by simp
        rw [this] at hex
        exact hex.prefix
      have h4 := (hstep.least start' finish' hex' it (by simp)).2
      have h5 := hstep.startEnd it (by simp)
      rw [Function.update_self] at h4
      rw [Function.update_self, Function.update_self] at h5
      exact ⟨lt_of_le_of_lt h4 (hlt it (by simp)), h5⟩
    have htdne : d.taskDone ≠ [] := by
      intro h0
      rw [h0] at htl
      have := hit.task_n
      simp at htl
      omega
    have hcall : d.call E p it.agent it.task = ok (⌊q.itemTime E it⌋, ⌊startTime q f w it⌋,
        ⟨d.agentWorkEnd.set it.agent (endTime E q f w it),
          d.taskDone.set it.task (endTime E q f w it)⟩) := by
      have hmax : max (w it.agent) (maxOf (tk.dependencies.map f)) = startTime q f w it := by
        unfold startTime depsEnd
        rw [hdeps, max_comm]
      unfold Durations.call
      rw [at?_eq_ok.2 (htd it.task (htl ▸ hit.task_n)), ok_bind,
        expects_true (by simpa using hf0 _ h1), ok_bind, at?_eq_ok.2 hag, ok_bind,
        at?_eq_ok.2 htk, ok_bind, hq.taskTime hp htk hag, ok_bind,
        at?_eq_ok.2 (hwd it.agent (hwl ▸ hit.agent_m)), ok_bind,
        timetable_deps_ok htdne htd (by rw [← hdeps, htl]; exact hit.deps_n), ok_bind]
      dsimp only
      rw [hmax]
      change (do
        expects (decide (0 < endTime E q f w it)) _
        let duration ← toInt (q.itemTime E it)
        let start ← toInt (startTime q f w it)
        pure (duration, start, (⟨d.agentWorkEnd.set it.agent (endTime E q f w it),
          d.taskDone.set it.task (endTime E q f w it)⟩ : Durations K))) = _
      rw [expects_true (by simpa using hendpos), ok_bind,
        toInt_ok hitpos.le (lt_of_le_of_lt hitem_le hend_lt.1), ok_bind,
        toInt_ok hstart0 (lt_of_le_of_lt hend_lt.2 hend_lt.1), ok_bind]
      rfl
    obtain ⟨es, start', he, hlen, hinv, hagree, hcor⟩ := ih hstep
      (by
        intro s₁ x s₂ hx
        have := hs (it :: s₁) x s₂ (by rw [hx]; rfl)
        simpa using this)
      (by
        intro t ht
        simp only [List.map_append, List.map_cons, List.map_nil, List.mem_append, not_or,
          List.mem_singleton] at ht
        rw [Function.update_of_ne ht.2]
        exact hf0 t ht.1)
      (fun x hx => hfit x (List.mem_cons_of_mem _ hx))
      (fun x hx => hpos x (List.mem_cons_of_mem _ hx))
      (by simpa using hb)
      (d := ⟨d.agentWorkEnd.set it.agent (endTime E q f w it),
          d.taskDone.set it.task (endTime E q f w it)⟩)
      (prio := prio.set it.agent ((pre.countP fun x => x.agent = it.agent) + 1))
      (htd.set it.task _) (by simpa using htl) (hwd.set it.agent _) (by simpa using hwl)
      (by
        intro a ha
        rw [List.getElem?_set]
        have hl : it.agent < prio.length :=
          (List.getElem?_eq_some_iff.1 (hprio it.agent hit.agent_m)).1
        by_cases hia : it.agent = a
        · subst hia
          simp [hl, List.countP_append]
        · rw [if_neg hia, hprio a ha]
          simp [List.countP_append, hia])
    have happ : pre ++ [it] ++ s = pre ++ it :: s := by simp
    rw [happ] at hinv hcor
    have hstart' : start' it.task = startTime q f w it := by
      rw [hagree it (by simp), Function.update_self]
    refine ⟨⟨tk.name, ag.name, pre.countP fun x => x.agent = it.agent, ⌊q.itemTime E it⌋,
      ⌊startTime q f w it⌋⟩ :: es, start', ?_, ?_, hinv, ?_, ?_⟩
    · obtain ⟨task, agent⟩ := it
      rw [entries, hcall, ok_bind]
      dsimp only at *
      rw [at?_eq_ok.2 htk, ok_bind, at?_eq_ok.2 hag, ok_bind, at?_eq_ok.2 (hprio _ hit.agent_m),
        ok_bind, he, ok_bind]
      rfl
    · simp [hlen]
    · intro x hx
      rw [hagree x (by simp [hx]), Function.update_of_ne]
      intro hx'
      exact h1 (hx' ▸ List.mem_map_of_mem hx)
    · intro i x e hi hei
      cases i with
      | zero =>
        simp only [List.getElem?_cons_zero, Option.some.injEq] at hi hei
        subst hi hei
        refine ⟨by simp [htk], by simp [hag], ?_, ?_, isWholePart_floor _⟩
        · simp
        · rw [hstart']
          exact isWholePart_floor _
      | succ i =>
        simp only [List.getElem?_cons_succ] at hi hei
        have := hcor i x e hi hei
        rw [List.length_append, List.length_singleton] at this
        rwa [show pre.length + (i + 1) = pre.length + 1 + i by omega]

end

end Angonoka
