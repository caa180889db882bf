import Verif.Proof.Makespan
import Verif.Spec.Estimator

/-!
# Estimator histories, bounds, monotonicity
-/

set_option linter.unusedSectionVars false

namespace Angonoka
open Outcome Stun

variable {K : Type} [Field K] [LinearOrder K] [IsStrictOrderedRing K]

/-! ### Histories -/

theorem makespanLoop_length {E : FloatEnv K} {m : Makespan K} {s : List Item} {td wd td' wd' : List K}
    (h : makespanLoop E m s td wd = ok (td', wd')) :
    td'.length = td.length ∧ wd'.length = wd.length := by
  induction s generalizing td wd with
  | nil =>
    rw [makespanLoop] at h
    cases h
    exact ⟨rfl, rfl⟩
  | cons it s ih =>
    obtain ⟨t, a⟩ := it
    simp only [makespanLoop, bind_eq_ok] at h
    obtain ⟨_, _, _, _, _, _, _, _, h⟩ := h
    simpa using ih h

/-- Shape of the buffers of an estimator. -/
structure MakespanShape (p : ScheduleParams K) (m : Makespan K) : Prop where
  params : m.params = p
  tasks : m.taskDone.length = p.taskDuration.length
  agents : m.workDone.length = p.agentPerformance.length

theorem MakespanShape.call {E : FloatEnv K} {p : ScheduleParams K} {m m' : Makespan K}
    {s : List Item} {v : K} (h : MakespanShape p m) (hc : m.call E s = ok (v, m')) :
    MakespanShape p m' := by
  simp only [Makespan.call, bind_eq_ok, Prod.exists] at hc
  obtain ⟨_, _, _, _, _, _, td, wd, hl, hc⟩ := hc
  cases hc
  have := makespanLoop_length hl
  exact ⟨h.params, by simpa [h.tasks] using this.1, by simpa [h.agents] using this.2⟩

theorem MakespanShape.new {p : ScheduleParams K} {m : Makespan K} (h : Makespan.new p = ok m) :
    MakespanShape p m := by
  simp only [Makespan.new, bind_eq_ok] at h
  obtain ⟨_, _, _, _, h⟩ := h
  cases h
  exact ⟨rfl, by simp, by simp⟩

theorem Makespan.copy_eq_new {m m' : Makespan K} (h : m.copy = ok m') :
    Makespan.new m.params = ok m' := by
  simp only [Makespan.copy, bind_eq_ok] at h
  obtain ⟨c, hc, _, _, h⟩ := h
  cases h
  exact hc

theorem MakespanShape.copy {p : ScheduleParams K} {m m' : Makespan K} (h : MakespanShape p m)
    (hc : m.copy = ok m') : MakespanShape p m' := by
  have := Makespan.copy_eq_new hc
  rw [h.params] at this
  exact .new this

theorem EstimatorFor.shape {E : FloatEnv K} {p : ScheduleParams K} {m : Makespan K}
    (h : EstimatorFor E p m) : MakespanShape p m := by
  induction h with
  | new h => exact .new h
  | call _ hc ih => exact ih.call hc
  | copy _ hc ih => exact ih.copy hc

/-- Estimators of the same shape give the same results. -/
theorem MakespanShape.call_eq {E : FloatEnv K} {p : ScheduleParams K} {m₁ m₂ : Makespan K}
    (h₁ : MakespanShape p m₁) (h₂ : MakespanShape p m₂) (s : List Item) :
    m₁.call E s = m₂.call E s := by
  have hz : ∀ {l l' : List K}, l.length = l'.length → l.map (fun _ => (0 : K)) = l'.map fun _ => 0 := by
    intro l l' h
    rw [List.map_const', List.map_const', h]
  have ht := h₁.tasks.trans h₂.tasks.symm
  have ha := h₁.agents.trans h₂.agents.symm
  have hp := h₁.params.trans h₂.params.symm
  have hloop : ∀ (s : List Item) (td wd : List K),
      makespanLoop E m₁ s td wd = makespanLoop E m₂ s td wd := by
    intro s
    induction s with
    | nil => intros; rfl
    | cons it s ih =>
      intro td wd
      simp only [makespanLoop, dependenciesDone, workTime, hp, ih]
  have he : (!(m₁.taskDone ++ m₁.workDone).isEmpty) = (!(m₂.taskDone ++ m₂.workDone).isEmpty) := by
    congr 1
    rw [Bool.eq_iff_iff, List.isEmpty_iff_length_eq_zero, List.isEmpty_iff_length_eq_zero,
      List.length_append, List.length_append, ht, ha]
  unfold Makespan.call
  rw [ht, he, hz ht, hz ha, hloop, hp]

theorem call_valid {E : FloatEnv K} {p : ScheduleParams K} (hw : WellFormed p) {m : Makespan K}
    (hm : MakespanShape p m) {s : List Item} (hs : ValidSchedule p s) :
    ∃ m', m.call E s = ok (makespanValue E p p.agentCount s, m') ∧ MakespanShape p m' := by
  have hne : s ≠ [] := by
    intro h0
    have := hs.length
    rw [h0] at this
    have := hw.tasks_pos
    simp at *
    omega
  obtain ⟨m', h1, _⟩ := call_ok (E := E) (m := m) hne (by rw [hm.tasks]; exact hs.length)
    (by
      intro it hit
      have := hs.fits hw hit
      rw [hm.params, hm.tasks, hm.agents]
      exact this)
  rw [hm.params, hm.agents] at h1
  exact ⟨m', h1, hm.call h1⟩

theorem makespanValue_nonneg {E : FloatEnv K} {p : ScheduleParams K} (hw : WellFormed p)
    {s : List Item} (h : ValidSchedule p s) : 0 ≤ makespanValue E p p.agentCount s := by
  obtain ⟨start, finish, hex, hend, hse, _⟩ := makespanValue_spec (E := E) hw h
  obtain ⟨it, hit, hv⟩ := hend.2
  rw [← hv]
  exact (hex.nonneg it hit).trans (hse it hit)

/-! ### Bounds -/

theorem foldl_add_le {E : FloatEnv K} {p : ScheduleParams K} {start finish : Nat → K} {V acc : K}
    {s l : List Item} (hex : Execution E p s start finish) (hl : ∀ it ∈ l, it ∈ s)
    (hV : ∀ it ∈ s, finish it.task ≤ V)
    (hc : l.IsChain fun a b => finish a.task ≤ start b.task)
    (hacc : acc ≤ V) (hhead : ∀ it ∈ l.head?, acc ≤ start it.task) :
    (l.map (p.itemTime E)).foldl E.add acc ≤ V := by
  induction l generalizing acc with
  | nil => simpa using hacc
  | cons it l ih =>
    rw [List.map_cons, List.foldl_cons]
    have h1 : E.add acc (p.itemTime E it) ≤ finish it.task := by
      rw [hex.time it (hl it (by simp))]
      exact add_mono E (hhead it (by simp)) le_rfl
    apply ih (fun x hx => hl x (by simp [hx])) (List.IsChain.tail hc)
      (h1.trans (hV it (hl it (by simp))))
    intro y hy
    rw [List.isChain_cons] at hc
    exact h1.trans (hc.1 y hy)

/-- All the end times of the recurrence are below the running sum. -/
theorem runF_le_sum {E : FloatEnv K} {p : ScheduleParams K}
    (hp : ∀ x ∈ p.agentPerformance, 0 < x) (hd : ∀ x ∈ p.taskDuration, 0 ≤ x)
    {s : List Item} {f w : Nat → K} {acc : K} (hacc0 : 0 ≤ acc) (hfix : E.rnd acc = acc)
    (hf : ∀ t, f t ≤ acc) (hw : ∀ a, w a ≤ acc) :
    (∀ t, (runF E p s f w).1 t ≤ (s.map (p.itemTime E)).foldl E.add acc) ∧
    (∀ a, (runF E p s f w).2 a ≤ (s.map (p.itemTime E)).foldl E.add acc) := by
  induction s generalizing f w acc with
  | nil => exact ⟨hf, hw⟩
  | cons it s ih =>
    rw [List.map_cons, List.foldl_cons]
    have htime := itemTime_nonneg (E := E) (p := p) it hp hd
    have hge : acc ≤ E.add acc (p.itemTime E it) := by
      have := E.rnd_mono (le_add_of_nonneg_right htime : acc ≤ _)
      rwa [hfix] at this
    have hend : endTime E p f w it ≤ E.add acc (p.itemTime E it) := by
      apply add_mono E _ le_rfl
      apply max_le _ (hw _)
      apply maxOf_le hacc0
      intro v hv
      obtain ⟨d, _, rfl⟩ := List.mem_map.1 hv
      exact hf d
    apply ih (hacc0.trans hge) (E.rnd_idem _)
    · intro t
      by_cases ht : t = it.task
      · rw [ht, Function.update_self]
        exact hend
      · rw [Function.update_of_ne ht]
        exact (hf t).trans hge
    · intro a
      by_cases ha : a = it.agent
      · rw [ha, Function.update_self]
        exact hend
      · rw [Function.update_of_ne ha]
        exact (hw a).trans hge

theorem FloatEnv.IsExact.sum_eq {E : FloatEnv K} (h : E.IsExact) (l : List K) : E.sum l = l.sum := by
  have : ∀ (l : List K) (acc : K), l.foldl E.add acc = acc + l.sum := by
    intro l
    induction l with
    | nil => simp
    | cons a l ih =>
      intro acc
      rw [List.foldl_cons, ih, List.sum_cons]
      unfold FloatEnv.add
      rw [h, add_assoc]
  rw [FloatEnv.sum, this, zero_add]

/-! ### Monotonicity -/

theorem getD_mono {l l' : List K} (h : List.Forall₂ (· ≤ ·) l l') (i : Nat) :
    l.getD i 0 ≤ l'.getD i 0 := by
  induction h generalizing i with
  | nil => simp
  | cons h _ ih =>
    cases i with
    | zero => simpa using h
    | succ i => simpa using ih i

theorem getD_pos {l : List K} (h : ∀ x ∈ l, 0 < x) {i : Nat} (hi : i < l.length) :
    0 < l.getD i 0 := by
  simpa [hi] using h _ (List.getElem_mem hi)

theorem itemTime_slower {E : FloatEnv K} {p p' : ScheduleParams K} (h : p.Slower p')
    (hd : ∀ x ∈ p.taskDuration, 0 ≤ x) (hp' : ∀ x ∈ p'.agentPerformance, 0 < x) {it : Item}
    (ha : it.agent < p'.agentPerformance.length) :
    p.itemTime E it ≤ p'.itemTime E it := by
  apply E.rnd_mono
  have h1 := getD_mono h.durations it.task
  have h2 := getD_mono (l := p'.agentPerformance) (l' := p.agentPerformance)
    (by simpa using h.performance.flip) it.agent
  have h3 := getD_pos hp' ha
  have h0 : 0 ≤ p.taskDuration.getD it.task 0 := by
    by_cases hi : it.task < p.taskDuration.length
    · simpa [hi] using hd _ (List.getElem_mem hi)
    · simp [hi]
  exact div_le_div₀ (h0.trans h1) h1 h3 h2

theorem maxOf_map_le {l : List Nat} {f g : Nat → K} (h : ∀ x ∈ l, f x ≤ g x) :
    maxOf (l.map f) ≤ maxOf (l.map g) := by
  by_cases h0 : l = []
  · simp [h0]
  · have := maxOf_mem (l := l.map f) (by simpa using h0)
    obtain ⟨x, hx, hxe⟩ := List.mem_map.1 this
    rw [← hxe]
    exact (h x hx).trans (le_maxOf (List.mem_map_of_mem hx))

theorem runF_slower {E : FloatEnv K} {p p' : ScheduleParams K} (h : p.Slower p')
    (hd : ∀ x ∈ p.taskDuration, 0 ≤ x) (hp' : ∀ x ∈ p'.agentPerformance, 0 < x) {s : List Item}
    (hs : ∀ it ∈ s, it.agent < p'.agentPerformance.length) {f w f' w' : Nat → K}
    (hf : ∀ t, f t ≤ f' t) (hw : ∀ a, w a ≤ w' a) :
    (∀ t, (runF E p s f w).1 t ≤ (runF E p' s f' w').1 t) ∧
    (∀ a, (runF E p s f w).2 a ≤ (runF E p' s f' w').2 a) := by
  induction s generalizing f w f' w' with
  | nil => exact ⟨hf, hw⟩
  | cons it s ih =>
    have hdeps : p'.deps it.task = p.deps it.task := by
      unfold ScheduleParams.deps
      rw [h.deps]
    have hend : endTime E p f w it ≤ endTime E p' f' w' it := by
      apply add_mono E
      · apply max_le_max _ (hw _)
        unfold depsEnd
        rw [hdeps]
        exact maxOf_map_le fun x _ => hf x
      · exact itemTime_slower h hd hp' (hs it (by simp))
    apply ih (fun x hx => hs x (by simp [hx]))
    · intro t
      by_cases ht : t = it.task
      · rw [ht, Function.update_self, Function.update_self]
        exact hend
      · rw [Function.update_of_ne ht, Function.update_of_ne ht]
        exact hf t
    · intro a
      by_cases ha : a = it.agent
      · rw [ha, Function.update_self, Function.update_self]
        exact hend
      · rw [Function.update_of_ne ha, Function.update_of_ne ha]
        exact hw a

theorem WellFormed.slower {p p' : ScheduleParams K} (hw : WellFormed p) (h : p.Slower p')
    (hp' : ∀ x ∈ p'.agentPerformance, 0 < x) : WellFormed p' := by
  have hd : ∀ t, p'.deps t = p.deps t := fun t => by unfold ScheduleParams.deps; rw [h.deps]
  have ha : ∀ t, p'.avail t = p.avail t := fun t => by unfold ScheduleParams.avail; rw [h.avail]
  have hn : p'.taskCount = p.taskCount := h.durations.length_eq.symm
  have hm : p'.agentCount = p.agentCount := h.performance.length_eq.symm
  have hneeds : p'.Needs = p.Needs := by
    funext t d
    unfold ScheduleParams.Needs
    rw [hn, hd]
  constructor
  · rw [hn]; exact hw.tasks_pos
  · rw [hn, h.deps]; exact hw.deps_size
  · rw [hn, h.avail]; exact hw.avail_size
  · simp only [hn, hd]; exact hw.deps_lt
  · simp only [hn, hd]; exact hw.deps_sorted
  · rw [hneeds]; exact hw.acyclic
  · simp only [hn, ha]; exact hw.avail_ne
  · simp only [hn, ha, hm]; exact hw.avail_lt
  · exact hp'
  · intro x hx
    obtain ⟨i, hi, rfl⟩ := List.getElem_of_mem hx
    have hi' : i < p.taskDuration.length := by rw [h.durations.length_eq]; exact hi
    exact (hw.dur_nonneg _ (List.getElem_mem hi')).trans (h.durations.get hi' hi)

theorem ValidSchedule.slower {p p' : ScheduleParams K} (h : p.Slower p') {s : List Item}
    (hs : ValidSchedule p s) : ValidSchedule p' s := by
  have hd : ∀ t, p'.deps t = p.deps t := fun t => by unfold ScheduleParams.deps; rw [h.deps]
  have ha : ∀ t, p'.avail t = p.avail t := fun t => by unfold ScheduleParams.avail; rw [h.avail]
  have hn : p'.taskCount = p.taskCount := h.durations.length_eq.symm
  constructor
  · rw [hn]; exact hs.complete
  · simp only [hd]; exact hs.ordered
  · simp only [ha]; exact hs.eligible

end Angonoka
