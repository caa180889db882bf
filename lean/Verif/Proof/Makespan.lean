import Verif.Proof.Lists
import Verif.Spec.Schedule
import Mathlib.Data.List.GetD
import Mathlib.Logic.Function.Basic

/-!
# The makespan recurrence

The estimator's loop, re-stated on functions instead of arrays, and its invariant.
-/

set_option linter.unusedSectionVars false

namespace Angonoka
open Outcome Stun

variable {K : Type} [Field K] [LinearOrder K] [IsStrictOrderedRing K]

/-- End of the dependencies of a task, given the end times so far. -/
def depsEnd (p : ScheduleParams K) (f : Nat → K) (t : Nat) : K := maxOf ((p.deps t).map f)

/-- Start time the recurrence gives to an item. -/
def startTime (p : ScheduleParams K) (f w : Nat → K) (it : Item) : K :=
  max (depsEnd p f it.task) (w it.agent)

/-- End time the recurrence gives to an item. -/
def endTime (E : FloatEnv K) (p : ScheduleParams K) (f w : Nat → K) (it : Item) : K :=
  E.add (startTime p f w it) (p.itemTime E it)

/-- The recurrence on functions: `f` end times by task, `w` end times by agent. -/
def runF (E : FloatEnv K) (p : ScheduleParams K) :
    List Item → (Nat → K) → (Nat → K) → (Nat → K) × (Nat → K)
  | [], f, w => (f, w)
  | it :: rest, f, w =>
    runF E p rest (Function.update f it.task (endTime E p f w it))
      (Function.update w it.agent (endTime E p f w it))

theorem runF_append (E : FloatEnv K) (p : ScheduleParams K) (s s' : List Item) (f w : Nat → K) :
    runF E p (s ++ s') f w = runF E p s' (runF E p s f w).1 (runF E p s f w).2 := by
  induction s generalizing f w with
  | nil => rfl
  | cons it s ih => simp only [List.cons_append, runF, ih]

/-- An array holds the first values of a function. -/
def Holds (l : List K) (f : Nat → K) : Prop := ∀ i < l.length, l[i]? = some (f i)

omit [Field K] [LinearOrder K] [IsStrictOrderedRing K] in
theorem Holds.set {l : List K} {f : Nat → K} (h : Holds l f) (i : Nat) (x : K) :
    Holds (l.set i x) (Function.update f i x) := by
  intro j hj
  rw [List.length_set] at hj
  rw [List.getElem?_set]
  by_cases hij : i = j
  · subst hij
    simp [hj]
  · rw [if_neg hij, Function.update_of_ne (Ne.symm hij)]
    exact h j hj

omit [LinearOrder K] [IsStrictOrderedRing K] in
theorem holds_map_zero (l : List K) : Holds (l.map fun _ => (0 : K)) (fun _ => 0) := by
  intro i hi
  rw [List.length_map] at hi
  simp [hi]

/-- Items whose indices fit the arrays. -/
structure Fits (p : ScheduleParams K) (n m : Nat) (it : Item) : Prop where
  task_n : it.task < n
  task_dur : it.task < p.taskDuration.length
  agent_m : it.agent < m
  agent_perf : it.agent < p.agentPerformance.length
  deps_n : ∀ d ∈ p.deps it.task, d < n

theorem dependenciesDone_ok {m : Makespan K} {td : List K} {f : Nat → K} {t : Nat}
    (ht : t < m.params.taskDuration.length) (hf : Holds td f)
    (hd : ∀ d ∈ m.params.deps t, d < td.length) :
    dependenciesDone m td t = ok (depsEnd m.params f t) := by
  unfold dependenciesDone
  rw [expects_true (by simpa using ht), ok_bind]
  dsimp only
  split
  · next h =>
    have h' : m.params.deps t = [] := by simpa [ScheduleParams.deps] using h
    simp [depsEnd, h', maxOf]
  · rw [mapM_eq_ok_of_forall (g := f), ok_bind]
    · rfl
    · intro d hd'
      rw [at?_eq_ok]
      exact hf d (hd d hd')

theorem workTime_ok {E : FloatEnv K} {m : Makespan K} {it : Item}
    (ht : it.task < m.params.taskDuration.length)
    (ha : it.agent < m.params.agentPerformance.length) :
    workTime E m it.task it.agent = ok (m.params.itemTime E it) := by
  unfold workTime
  rw [at?_ok ht, ok_bind, at?_ok ha, ok_bind]
  simp [ScheduleParams.itemTime, ht, ha]

theorem makespanLoop_ok {E : FloatEnv K} {m : Makespan K} {s : List Item} {td wd : List K}
    {f w : Nat → K} (hf : Holds td f) (hw : Holds wd w)
    (hs : ∀ it ∈ s, Fits m.params td.length wd.length it) :
    ∃ td' wd', makespanLoop E m s td wd = ok (td', wd') ∧
      td'.length = td.length ∧ wd'.length = wd.length ∧
      Holds td' (runF E m.params s f w).1 ∧ Holds wd' (runF E m.params s f w).2 := by
  induction s generalizing td wd f w with
  | nil => exact ⟨td, wd, rfl, rfl, rfl, hf, hw⟩
  | cons it s ih =>
    have hit := hs it (by simp)
    have hstep : makespanLoop E m (it :: s) td wd
        = makespanLoop E m s (td.set it.task (endTime E m.params f w it))
            (wd.set it.agent (endTime E m.params f w it)) := by
      rw [makespanLoop, dependenciesDone_ok hit.task_dur hf hit.deps_n, ok_bind,
        at?_eq_ok.2 (hw _ hit.agent_m), ok_bind, workTime_ok hit.task_dur hit.agent_perf, ok_bind,
        at?_eq_ok.2 (hf _ hit.task_n), ok_bind]
      rfl
    obtain ⟨td', wd', h1, h2, h3, h4, h5⟩ :=
      ih (hf.set it.task (endTime E m.params f w it))
        (hw.set it.agent (endTime E m.params f w it))
        (by simpa using fun x hx => hs x (List.mem_cons_of_mem _ hx))
    refine ⟨td', wd', ?_, ?_, ?_, h4, h5⟩
    · rw [hstep, h1]
    · simpa using h2
    · simpa using h3

/-- Value of the recurrence for a schedule: the greatest end time by agent. -/
def makespanValue (E : FloatEnv K) (p : ScheduleParams K) (m : Nat) (s : List Item) : K :=
  maxOf ((List.range m).map (runF E p s (fun _ => 0) (fun _ => 0)).2)

omit [Field K] [LinearOrder K] [IsStrictOrderedRing K] in
theorem Holds.eq_map {l : List K} {f : Nat → K} (h : Holds l f) :
    l = (List.range l.length).map f := by
  apply List.ext_getElem?
  intro i
  by_cases hi : i < l.length
  · rw [h i hi]
    simp [hi]
  · rw [List.getElem?_eq_none (by omega), List.getElem?_eq_none (by simp; omega)]

/-- The estimator computes the recurrence, whatever its buffers contained. -/
theorem call_ok {E : FloatEnv K} {m : Makespan K} {s : List Item} (hs : s ≠ [])
    (hlen : s.length = m.taskDone.length)
    (hfit : ∀ it ∈ s, Fits m.params m.taskDone.length m.workDone.length it) :
    ∃ m', m.call E s = ok (makespanValue E m.params m.workDone.length s, m') ∧
      m'.params = m.params ∧ m'.taskDone.length = m.taskDone.length ∧
      m'.workDone.length = m.workDone.length := by
  obtain ⟨td', wd', h1, h2, h3, _, h5⟩ :=
    makespanLoop_ok (E := E) (m := m) (s := s) (holds_map_zero m.taskDone)
      (holds_map_zero m.workDone) (by simpa using hfit)
  refine ⟨{ m with taskDone := td', workDone := wd' }, ?_, rfl, ?_, ?_⟩
  · unfold Makespan.call
    have hne : m.taskDone ≠ [] := by
      intro h0
      rw [h0] at hlen
      exact hs (List.length_eq_zero_iff.1 hlen)
    rw [expects_true (by simpa using hs), ok_bind, expects_true (by simpa using hlen), ok_bind,
      expects_true (by simp [hne]), ok_bind, h1, ok_bind]
    have : maxOf wd' = makespanValue E m.params m.workDone.length s := by
      rw [h5.eq_map, h3, List.length_map]
      rfl
    simp only [this, pure_eq]
  · simpa using h2
  · simpa using h3

/-! ### The invariant of the recurrence -/

/-- Times of the recurrence after processing `pre`. -/
structure RunInv (E : FloatEnv K) (p : ScheduleParams K) (pre : List Item) (start f w : Nat → K) :
    Prop where
  exec : Execution E p pre start f
  closed : ∀ it ∈ pre, ∀ d ∈ p.deps it.task, d ∈ pre.map Item.task
  nonneg : ∀ a, 0 ≤ w a
  le : ∀ it ∈ pre, f it.task ≤ w it.agent
  att : ∀ a, w a = 0 ∨ ∃ it ∈ pre, it.agent = a ∧ f it.task = w a
  fixed : ∀ a, E.rnd (w a) = w a
  fixedF : ∀ it ∈ pre, E.rnd (f it.task) = f it.task
  fnonneg : ∀ it ∈ pre, 0 ≤ f it.task
  startEnd : ∀ it ∈ pre, start it.task ≤ f it.task
  least : ∀ start' finish', Execution E p pre start' finish' →
    ∀ it ∈ pre, start it.task ≤ start' it.task ∧ f it.task ≤ finish' it.task

omit [IsStrictOrderedRing K] in
theorem depsEnd_congr {p : ScheduleParams K} {f g : Nat → K} {t : Nat}
    (h : ∀ d ∈ p.deps t, f d = g d) : depsEnd p f t = depsEnd p g t := by
  unfold depsEnd
  rw [List.map_congr_left h]

theorem itemTime_nonneg {E : FloatEnv K} {p : ScheduleParams K} (it : Item)
    (hp : ∀ x ∈ p.agentPerformance, 0 < x) (hd : ∀ x ∈ p.taskDuration, 0 ≤ x) :
    0 ≤ p.itemTime E it := by
  apply E.rnd_nonneg
  apply div_nonneg
  · rw [List.getD_eq_getElem?_getD]
    cases h : p.taskDuration[it.task]? with
    | none => simp
    | some x => simpa using hd x (List.mem_of_getElem? h)
  · rw [List.getD_eq_getElem?_getD]
    cases h : p.agentPerformance[it.agent]? with
    | none => simp
    | some x => simpa using (hp x (List.mem_of_getElem? h)).le

theorem add_mono (E : FloatEnv K) {a b c d : K} (h1 : a ≤ b) (h2 : c ≤ d) :
    E.add a c ≤ E.add b d := E.rnd_mono (add_le_add h1 h2)

theorem runInv_nil (E : FloatEnv K) (p : ScheduleParams K) :
    RunInv E p [] (fun _ => 0) (fun _ => 0) (fun _ => 0) where
  exec := ⟨by simp, by simp, by simp, by simp⟩
  closed := by simp
  nonneg := by simp
  le := by simp
  att := by simp
  fixed := by simp [E.rnd_zero]
  fixedF := by simp
  fnonneg := by simp
  startEnd := by simp
  least := by simp

theorem Execution.prefix {E : FloatEnv K} {p : ScheduleParams K} {s s' : List Item}
    {start finish : Nat → K} (h : Execution E p (s ++ s') start finish) :
    Execution E p s start finish where
  nonneg it hit := h.nonneg it (List.mem_append_left _ hit)
  time it hit := h.time it (List.mem_append_left _ hit)
  deps it hit := h.deps it (List.mem_append_left _ hit)
  agents := (List.pairwise_append.1 h.agents).1

theorem runInv_step {E : FloatEnv K} {p : ScheduleParams K} {pre : List Item} {start f w : Nat → K}
    (hp : ∀ x ∈ p.agentPerformance, 0 < x) (hd : ∀ x ∈ p.taskDuration, 0 ≤ x)
    (h : RunInv E p pre start f w) {it : Item} (hnew : it.task ∉ pre.map Item.task)
    (hdeps : ∀ d ∈ p.deps it.task, d ∈ pre.map Item.task) :
    RunInv E p (pre ++ [it]) (Function.update start it.task (startTime p f w it))
      (Function.update f it.task (endTime E p f w it))
      (Function.update w it.agent (endTime E p f w it)) := by
  -- old tasks differ from the new one
  have hne : ∀ x ∈ pre, x.task ≠ it.task := by
    intro x hx hx'
    exact hnew (hx' ▸ List.mem_map_of_mem hx)
  have hdne : ∀ d, d ∈ pre.map Item.task → d ≠ it.task := by
    intro d hd hd'
    exact hnew (hd' ▸ hd)
  have hsf : ∀ d ∈ pre.map Item.task, Function.update f it.task (endTime E p f w it) d = f d :=
    fun d hd => Function.update_of_ne (hdne d hd) _ _
  have hss : ∀ x ∈ pre, Function.update start it.task (startTime p f w it) x.task = start x.task :=
    fun x hx => Function.update_of_ne (hne x hx) _ _
  have hsf' : ∀ x ∈ pre, Function.update f it.task (endTime E p f w it) x.task = f x.task :=
    fun x hx => Function.update_of_ne (hne x hx) _ _
  have hstart0 : 0 ≤ startTime p f w it := le_max_of_le_right (h.nonneg _)
  have htime := itemTime_nonneg (E := E) (p := p) it hp hd
  -- start times are floats
  have hfixd : E.rnd (depsEnd p f it.task) = depsEnd p f it.task := by
    unfold depsEnd
    by_cases h0 : p.deps it.task = []
    · simp [h0, maxOf, E.rnd_zero]
    · have := maxOf_mem (l := (p.deps it.task).map f) (by simpa using h0)
      obtain ⟨d, hd1, hd2⟩ := List.mem_map.1 this
      rw [← hd2]
      obtain ⟨x, hx, rfl⟩ := List.mem_map.1 (hdeps d hd1)
      exact h.fixedF x hx
  have hfixs : E.rnd (startTime p f w it) = startTime p f w it := by
    unfold startTime
    rcases max_choice (depsEnd p f it.task) (w it.agent) with h' | h' <;> rw [h']
    · exact hfixd
    · exact h.fixed _
  have hse : startTime p f w it ≤ endTime E p f w it := by
    have := E.rnd_mono (le_add_of_nonneg_right htime : startTime p f w it ≤ _)
    rwa [hfixs] at this
  have hwe : w it.agent ≤ endTime E p f w it := le_trans (le_max_right _ _) hse
  have he0 : 0 ≤ endTime E p f w it := hstart0.trans hse
  refine ⟨⟨?_, ?_, ?_, ?_⟩, ?_, ?_, ?_, ?_, ?_, ?_, ?_, ?_, ?_⟩
  · intro x hx
    rcases List.mem_append.1 hx with hx | hx
    · rw [hss x hx]
      exact h.exec.nonneg x hx
    · rw [List.mem_singleton.1 hx]
      simpa using hstart0
  · intro x hx
    rcases List.mem_append.1 hx with hx | hx
    · rw [hss x hx, hsf' x hx]
      exact h.exec.time x hx
    · rw [List.mem_singleton.1 hx]
      simp [endTime]
  · intro x hx d hd
    rcases List.mem_append.1 hx with hx | hx
    · rw [hss x hx, hsf d (h.closed x hx d hd)]
      exact h.exec.deps x hx d hd
    · rw [List.mem_singleton.1 hx] at hd ⊢
      rw [hsf d (hdeps d hd), Function.update_self]
      exact le_trans (le_maxOf (List.mem_map_of_mem hd)) (le_max_left _ _)
  · refine List.pairwise_append.2 ⟨?_, by simp, ?_⟩
    · refine h.exec.agents.imp_of_mem ?_
      intro a b ha hb hab he
      rw [hss b hb, hsf' a ha]
      exact hab he
    · intro a ha b hb hab
      rw [List.mem_singleton.1 hb] at hab ⊢
      rw [hsf' a ha, Function.update_self]
      exact le_trans (le_trans (h.le a ha) (by rw [hab])) (le_max_right _ _)
  · intro x hx d hd
    rw [List.map_append, List.mem_append]
    rcases List.mem_append.1 hx with hx | hx
    · exact Or.inl (h.closed x hx d hd)
    · rw [List.mem_singleton.1 hx] at hd
      exact Or.inl (hdeps d hd)
  · intro a
    by_cases ha : a = it.agent
    · subst ha
      simpa using he0
    · rw [Function.update_of_ne ha]
      exact h.nonneg a
  · intro x hx
    rcases List.mem_append.1 hx with hx | hx
    · rw [hsf' x hx]
      by_cases ha : x.agent = it.agent
      · rw [ha, Function.update_self]
        exact le_trans (le_trans (h.le x hx) (by rw [ha])) hwe
      · rw [Function.update_of_ne ha]
        exact h.le x hx
    · rw [List.mem_singleton.1 hx]
      simp
  · intro a
    by_cases ha : a = it.agent
    · right
      exact ⟨it, by simp, ha.symm, by rw [ha]; simp⟩
    · rw [Function.update_of_ne ha]
      rcases h.att a with h' | ⟨x, hx, hxa, hxw⟩
      · exact Or.inl h'
      · exact Or.inr ⟨x, List.mem_append_left _ hx, hxa, by rw [hsf' x hx]; exact hxw⟩
  · intro a
    by_cases ha : a = it.agent
    · rw [ha, Function.update_self]
      exact E.rnd_idem _
    · rw [Function.update_of_ne ha]
      exact h.fixed a
  · intro x hx
    rcases List.mem_append.1 hx with hx | hx
    · rw [hsf' x hx]
      exact h.fixedF x hx
    · rw [List.mem_singleton.1 hx, Function.update_self]
      exact E.rnd_idem _
  · intro x hx
    rcases List.mem_append.1 hx with hx | hx
    · rw [hsf' x hx]
      exact h.fnonneg x hx
    · rw [List.mem_singleton.1 hx, Function.update_self]
      exact he0
  · intro x hx
    rcases List.mem_append.1 hx with hx | hx
    · rw [hsf' x hx, hss x hx]
      exact h.startEnd x hx
    · rw [List.mem_singleton.1 hx, Function.update_self, Function.update_self]
      exact hse
  · intro start' finish' hex x hx
    have hpre := h.least start' finish' hex.prefix
    rcases List.mem_append.1 hx with hx | hx
    · rw [hss x hx, hsf' x hx]
      exact hpre x hx
    · have hit : it ∈ pre ++ [it] := by simp
      rw [List.mem_singleton.1 hx, Function.update_self, Function.update_self]
      have hs' : startTime p f w it ≤ start' it.task := by
        apply max_le
        · apply maxOf_le (hex.nonneg it hit)
          intro v hv
          obtain ⟨d, hd1, rfl⟩ := List.mem_map.1 hv
          obtain ⟨y, hy, hyd⟩ := List.mem_map.1 (hdeps d hd1)
          have h1 := (hpre y hy).2
          rw [hyd] at h1
          exact h1.trans (hex.deps it hit d hd1)
        · rcases h.att it.agent with h' | ⟨y, hy, hya, hyw⟩
          · rw [h']
            exact hex.nonneg it hit
          · rw [← hyw]
            exact ((hpre y hy).2).trans
              ((List.pairwise_append.1 hex.agents).2.2 y hy it (by simp) hya)
      refine ⟨hs', ?_⟩
      rw [hex.time it hit]
      exact add_mono E hs' le_rfl

/-- A list of items that can be executed in this order: no task twice, dependencies first. -/
def Runnable (p : ScheduleParams K) (pre s : List Item) : Prop :=
  ∀ s₁ it s₂, s = s₁ ++ it :: s₂ → it.task ∉ (pre ++ s₁).map Item.task ∧
    ∀ d ∈ p.deps it.task, d ∈ (pre ++ s₁).map Item.task

theorem runInv_run {E : FloatEnv K} {p : ScheduleParams K}
    (hp : ∀ x ∈ p.agentPerformance, 0 < x) (hd : ∀ x ∈ p.taskDuration, 0 ≤ x)
    {s pre : List Item} {start f w : Nat → K} (h : RunInv E p pre start f w)
    (hs : Runnable p pre s) :
    ∃ start', RunInv E p (pre ++ s) start' (runF E p s f w).1 (runF E p s f w).2 := by
  induction s generalizing pre start f w with
  | nil => exact ⟨start, by simpa [runF] using h⟩
  | cons it s ih =>
    obtain ⟨h1, h2⟩ := hs [] it s rfl
    have hstep := runInv_step hp hd h (it := it) (by simpa using h1) (by simpa using h2)
    obtain ⟨start', h'⟩ := ih hstep (by
      intro s₁ x s₂ hx
      have := hs (it :: s₁) x s₂ (by rw [hx]; rfl)
      simpa using this)
    exact ⟨start', by simpa [runF] using h'⟩

omit [LinearOrder K] [IsStrictOrderedRing K] in
theorem ValidSchedule.nodup {p : ScheduleParams K} {s : List Item} (h : ValidSchedule p s) :
    (s.map Item.task).Nodup := h.complete.nodup_iff.2 List.nodup_range

omit [LinearOrder K] [IsStrictOrderedRing K] in
theorem ValidSchedule.length {p : ScheduleParams K} {s : List Item} (h : ValidSchedule p s) :
    s.length = p.taskCount := by
  have := h.complete.length_eq
  simpa using this

omit [LinearOrder K] [IsStrictOrderedRing K] in
theorem ValidSchedule.task_lt {p : ScheduleParams K} {s : List Item} (h : ValidSchedule p s)
    {it : Item} (hit : it ∈ s) : it.task < p.taskCount := by
  have := h.complete.mem_iff.1 (List.mem_map_of_mem (f := Item.task) hit)
  simpa using this

omit [LinearOrder K] [IsStrictOrderedRing K] in
theorem ValidSchedule.runnable {p : ScheduleParams K} {s : List Item} (h : ValidSchedule p s) :
    Runnable p [] s := by
  intro s₁ it s₂ hs
  refine ⟨?_, by simpa using h.ordered s₁ it s₂ hs⟩
  have := h.nodup
  rw [hs, List.map_append, List.map_cons, List.nodup_append] at this
  intro hmem
  exact this.2.2 _ (by simpa using hmem) _ (by simp) rfl

theorem ValidSchedule.fits {p : ScheduleParams K} (hw : WellFormed p) {s : List Item}
    (h : ValidSchedule p s) {it : Item} (hit : it ∈ s) :
    Fits p p.taskCount p.agentCount it := by
  have ht := h.task_lt hit
  have ha := hw.avail_lt it.task ht _ (h.eligible it hit)
  exact ⟨ht, ht, ha, ha, hw.deps_lt it.task ht⟩

/-- For a valid schedule the recurrence is an execution, the least one, and its last end time is the
makespan. -/
theorem makespanValue_spec {E : FloatEnv K} {p : ScheduleParams K} (hw : WellFormed p)
    {s : List Item} (h : ValidSchedule p s) :
    ∃ start finish, Execution E p s start finish ∧
      IsEnd s finish (makespanValue E p p.agentCount s) ∧
      (∀ it ∈ s, start it.task ≤ finish it.task) ∧
      (∀ start' finish', Execution E p s start' finish' →
        ∀ it ∈ s, start it.task ≤ start' it.task ∧ finish it.task ≤ finish' it.task) := by
  obtain ⟨start, hinv⟩ := runInv_run (E := E) hw.perf_pos hw.dur_nonneg (runInv_nil E p) h.runnable
  rw [List.nil_append] at hinv
  refine ⟨start, _, hinv.exec, ⟨?_, ?_⟩, hinv.startEnd, hinv.least⟩
  · intro it hit
    refine (hinv.le it hit).trans (le_maxOf (List.mem_map_of_mem ?_))
    rw [List.mem_range]
    exact hw.avail_lt it.task (h.task_lt hit) _ (h.eligible it hit)
  · have hmne : (List.range p.agentCount).map (runF E p s (fun _ => 0) (fun _ => 0)).2 ≠ [] := by
      have hpos := hw.tasks_pos
      have hne := hw.avail_ne 0 hpos
      obtain ⟨a, ha⟩ := List.exists_mem_of_ne_nil _ hne
      have := hw.avail_lt 0 hpos a ha
      simp only [ne_eq, List.map_eq_nil_iff, List.range_eq_nil]
      omega
    obtain ⟨a, ha, hav⟩ := List.mem_map.1 (maxOf_mem hmne)
    rcases hinv.att a with h0 | ⟨it, hit, _, hitw⟩
    · -- everything ends at 0
      have hsne : s ≠ [] := by
        intro hs
        have := h.length
        rw [hs] at this
        have := hw.tasks_pos
        simp at *
        omega
      obtain ⟨it, hit⟩ := List.exists_mem_of_ne_nil _ hsne
      refine ⟨it, hit, le_antisymm ?_ ?_⟩
      · refine (hinv.le it hit).trans (le_maxOf (List.mem_map_of_mem ?_))
        rw [List.mem_range]
        exact hw.avail_lt it.task (h.task_lt hit) _ (h.eligible it hit)
      · unfold makespanValue
        rw [← hav, h0]
        exact hinv.fnonneg it hit
    · exact ⟨it, hit, by unfold makespanValue; rw [hitw, hav]⟩

end Angonoka
