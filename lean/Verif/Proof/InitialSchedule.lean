import Verif.Proof.Makespan
import Mathlib.Data.Finset.Card
import Mathlib.Data.Finset.Range

/-!
# The initial schedule

`push_task` on acyclic dependencies: enough recursion depth, and the invariant of the partially
formed schedule.
-/

set_option linter.unusedSectionVars false

namespace Angonoka
open Outcome Stun

variable {K : Type} [Field K] [LinearOrder K] [IsStrictOrderedRing K]

/-! ### Rank of a task: number of tasks it needs, directly or not -/

open Classical in
/-- Number of tasks that task `t` needs. -/
noncomputable def rank (p : ScheduleParams K) (t : Nat) : Nat :=
  ((Finset.range p.taskCount).filter fun d => Relation.TransGen p.Needs t d).card

theorem rank_le (p : ScheduleParams K) (t : Nat) : rank p t ≤ p.taskCount := by
  classical
  have := Finset.card_filter_le (Finset.range p.taskCount) fun d => Relation.TransGen p.Needs t d
  simpa [rank] using this

theorem rank_lt {p : ScheduleParams K} (hw : WellFormed p) {t d : Nat} (h : p.Needs t d) :
    rank p d < rank p t := by
  classical
  apply Finset.card_lt_card
  rw [Finset.ssubset_iff_of_subset]
  · refine ⟨d, ?_, ?_⟩
    · simp only [Finset.mem_filter, Finset.mem_range]
      exact ⟨hw.deps_lt t h.1 d h.2, .single h⟩
    · simp only [Finset.mem_filter, not_and]
      exact fun _ => hw.acyclic d
  · intro x hx
    simp only [Finset.mem_filter] at hx ⊢
    exact ⟨hx.1, .head h hx.2⟩

/-! ### The invariant -/

/-- Invariant of the partially formed schedule. -/
structure PushInv (p : ScheduleParams K) (st : PushState) : Prop where
  perm : (st.schedule.map Item.task ++ st.tasks).Perm (List.range p.taskCount)
  ordered : ∀ pre it post, st.schedule = pre ++ it :: post →
    ∀ d ∈ p.deps it.task, d ∈ pre.map Item.task
  eligible : ∀ it ∈ st.schedule, it.agent ∈ p.avail it.task

theorem PushInv.sizes {p : ScheduleParams K} {st : PushState} (h : PushInv p st) :
    st.tasks.length + st.schedule.length = p.taskDuration.length := by
  have := h.perm.length_eq
  simp [ScheduleParams.taskCount] at this
  omega

theorem PushInv.mem {p : ScheduleParams K} {st : PushState} (h : PushInv p st) {t : Nat}
    (ht : t < p.taskCount) (hn : t ∉ st.tasks) : t ∈ st.schedule.map Item.task := by
  have := h.perm.mem_iff.2 (List.mem_range.2 ht)
  rcases List.mem_append.1 this with h | h
  · exact h
  · exact absurd h hn

theorem PushInv.nodup {p : ScheduleParams K} {st : PushState} (h : PushInv p st) :
    st.tasks.Nodup := by
  have := h.perm.nodup_iff.2 List.nodup_range
  exact (List.nodup_append.1 this).2.1

theorem PushInv.push {p : ScheduleParams K} {st : PushState} (h : PushInv p st) {i a : Nat}
    (hi : i ∈ st.tasks) (ha : a ∈ p.avail i)
    (hd : ∀ d ∈ p.deps i, d ∈ st.schedule.map Item.task) :
    PushInv p { schedule := st.schedule ++ [⟨i, a⟩], tasks := st.tasks.erase i } := by
  refine ⟨?_, ?_, ?_⟩
  · refine List.Perm.trans ?_ h.perm
    simp only [List.map_append, List.map_cons, List.map_nil, List.append_assoc]
    exact List.Perm.append_left _ (List.perm_cons_erase hi).symm
  · intro pre it post heq d hdm
    have heq' : st.schedule ++ [⟨i, a⟩] = pre ++ it :: post := heq
    rw [List.append_eq_append_iff] at heq'
    rcases heq' with ⟨l, h1, h2⟩ | ⟨l, h1, h2⟩
    · -- the new item is `it` (`l = []`)
      cases l with
      | nil =>
        simp only [List.nil_append, List.cons.injEq] at h2
        rw [← h2.1] at hdm
        rw [h1, List.append_nil]
        exact hd d hdm
      | cons x l =>
        simp at h2
    · cases l with
      | nil =>
        simp only [List.nil_append, List.cons.injEq] at h2
        rw [h2.1] at hdm
        rw [← List.append_nil pre, ← h1]
        exact hd d hdm
      | cons x l =>
        simp only [List.cons_append, List.cons.injEq] at h2
        obtain ⟨rfl, h2⟩ := h2
        exact h.ordered pre it l h1 d hdm
  · intro it hit
    rcases List.mem_append.1 hit with hit | hit
    · exact h.eligible it hit
    · rw [List.mem_singleton.1 hit]
      exact ha

/-- What a call of `push_task` achieves. -/
structure Pushed (p : ScheduleParams K) (st st' : PushState) (R : Nat → Prop) : Prop where
  inv : PushInv p st'
  sub : ∀ x ∈ st'.tasks, x ∈ st.tasks
  new : ∀ x ∈ st.tasks, x ∉ st'.tasks → R x

theorem pushTasks_ok {p : ScheduleParams K} (hw : WellFormed p) {fuel i : Nat} (hi : i < p.taskCount)
    (ih : ∀ t st, t < p.taskCount → rank p t < fuel → PushInv p st → st.tasks ≠ [] →
      ∃ st', pushTask p fuel st t = ok st' ∧ t ∉ st'.tasks ∧
        Pushed p st st' (Relation.ReflTransGen p.Needs t))
    (l : List Nat) (hl : ∀ d ∈ l, d ∈ p.deps i) (hr : ∀ d ∈ l, rank p d < fuel)
    (st : PushState) (hst : PushInv p st) (hmem : i ∈ st.tasks) :
    ∃ st', pushTasks p fuel st l = ok st' ∧ (∀ d ∈ l, d ∉ st'.tasks) ∧ i ∈ st'.tasks ∧
      Pushed p st st' (Relation.TransGen p.Needs i) := by
  induction l generalizing st with
  | nil =>
    refine ⟨st, by rw [pushTasks], by simp, hmem, hst, fun _ h => h, ?_⟩
    intro x h1 h2
    exact absurd h1 h2
  | cons d l ihl =>
    have hneed : p.Needs i d := ⟨hi, hl d (by simp)⟩
    obtain ⟨st₁, h1, h2, h3⟩ := ih d st (hw.deps_lt i hi d hneed.2) (hr d (by simp)) hst
      (List.ne_nil_of_mem hmem)
    have hmem₁ : i ∈ st₁.tasks := by
      by_contra hn
      exact hw.acyclic i (Relation.TransGen.head' hneed (h3.new i hmem hn))
    obtain ⟨st₂, h4, h5, h6, h7⟩ := ihl (fun x hx => hl x (by simp [hx]))
      (fun x hx => hr x (by simp [hx])) st₁ h3.inv hmem₁
    refine ⟨st₂, ?_, ?_, h6, h7.inv, fun x hx => h3.sub x (h7.sub x hx), ?_⟩
    · rw [pushTasks, h1, ok_bind, h4]
    · intro x hx
      rcases List.mem_cons.1 hx with rfl | hx
      · exact fun h => h2 (h7.sub x h)
      · exact h5 x hx
    · intro x hx hn
      by_cases hx₁ : x ∈ st₁.tasks
      · exact h7.new x hx₁ hn
      · exact Relation.TransGen.head' hneed (h3.new x hx hx₁)

theorem pushTask_ok {p : ScheduleParams K} (hw : WellFormed p) (fuel : Nat) :
    ∀ t st, t < p.taskCount → rank p t < fuel → PushInv p st → st.tasks ≠ [] →
      ∃ st', pushTask p fuel st t = ok st' ∧ t ∉ st'.tasks ∧
        Pushed p st st' (Relation.ReflTransGen p.Needs t) := by
  induction fuel with
  | zero => intro t st _ h; omega
  | succ fuel ih =>
    intro t st ht hrank hst hne
    rw [pushTask]
    rw [expects_true (by simpa using hne), ok_bind, expects_true (by simpa using hst.sizes), ok_bind]
    by_cases hmem : t ∈ st.tasks
    · rw [if_neg (by simpa using hmem)]
      obtain ⟨st₁, h1, h2, h3, h4⟩ := pushTasks_ok hw ht ih (p.deps t) (fun _ h => h)
        (fun d hd => by
          have := rank_lt hw (⟨ht, hd⟩ : p.Needs t d)
          omega) st hst hmem
      have h1' : pushTasks p fuel st (p.dependencies.row t) = ok st₁ := h1
      rw [h1', ok_bind]
      obtain ⟨a, as, ha⟩ := List.exists_cons_of_ne_nil (hw.avail_ne t ht)
      have ha' : (p.availableAgents.row t)[0]? = some a := by
        have : p.availableAgents.row t = a :: as := ha
        rw [this]
        rfl
      rw [ha']
      have hinv : PushInv p { schedule := st₁.schedule ++ [⟨t, a⟩], tasks := st₁.tasks.erase t } := by
        apply h4.inv.push h3 (by rw [ha]; simp)
        intro d hd
        exact h4.inv.mem (hw.deps_lt t ht d hd) (h2 d hd)
      refine ⟨{ schedule := st₁.schedule ++ [⟨t, a⟩], tasks := st₁.tasks.erase t }, ?_, ?_, hinv,
        ?_, ?_⟩
      · dsimp only
        rw [expects_true (by simpa using hinv.sizes), ok_bind]
        rfl
      · exact h4.inv.nodup.not_mem_erase
      · intro x hx
        exact h4.sub x (List.mem_of_mem_erase hx)
      · intro x hx hn
        by_cases hxt : x = t
        · rw [hxt]
        · by_cases hx₁ : x ∈ st₁.tasks
          · exact absurd ((List.mem_erase_of_ne hxt).2 hx₁) hn
          · exact (h4.new x hx hx₁).to_reflTransGen
    · rw [if_pos (by simpa using hmem)]
      exact ⟨st, rfl, hmem, hst, fun _ h => h, fun x h1 h2 => absurd h1 h2⟩

theorem initialLoop_ok {p : ScheduleParams K} (hw : WellFormed p) (k : Nat) (st : PushState)
    (hst : PushInv p st) (hk : st.tasks.length ≤ k) :
    ∃ st', initialLoop p k st = ok st' ∧ PushInv p st' ∧ st'.tasks = [] := by
  induction k generalizing st with
  | zero =>
    have h0 : st.tasks = [] := List.length_eq_zero_iff.1 (by omega)
    exact ⟨st, by simp [initialLoop, h0], hst, h0⟩
  | succ k ih =>
    rw [initialLoop]
    cases hts : st.tasks with
    | nil => exact ⟨st, rfl, hst, hts⟩
    | cons i rest =>
      dsimp only
      have hmem : i ∈ st.tasks := by rw [hts]; simp
      have hlt : i < p.taskCount := by
        have := hst.perm.mem_iff.1 (List.mem_append_right _ hmem)
        simpa using this
      obtain ⟨st₁, h1, h2, h3⟩ := pushTask_ok hw (p.taskDuration.length + 1) i st hlt
        (by have := rank_le p i; unfold ScheduleParams.taskCount at this; omega) hst
        (List.ne_nil_of_mem hmem)
      rw [h1, ok_bind]
      apply ih st₁ h3.inv
      have hsub : st₁.tasks.Subperm (st.tasks.erase i) := by
        apply List.subperm_of_subset h3.inv.nodup
        intro x hx
        rw [List.Nodup.mem_erase_iff hst.nodup]
        refine ⟨?_, h3.sub x hx⟩
        rintro rfl
        exact h2 hx
      have h4 := hsub.length_le
      rw [List.length_erase_of_mem hmem] at h4
      omega

theorem initialSchedule_ok {p : ScheduleParams K} (hw : WellFormed p) :
    ∃ s, initialSchedule p = ok s ∧ ValidSchedule p s := by
  obtain ⟨st, h1, h2, h3⟩ := initialLoop_ok hw p.taskCount
    { schedule := [], tasks := List.range p.taskCount }
    ⟨by simp, by simp, by simp⟩ (by simp)
  refine ⟨st.schedule, ?_, ?_, h2.ordered, h2.eligible⟩
  · unfold initialSchedule
    have hne : p.taskDuration ≠ [] := by
      intro h
      have := hw.tasks_pos
      simp [ScheduleParams.taskCount, h] at this
    have h1' : initialLoop p p.taskDuration.length
      { schedule := [], tasks := List.range p.taskDuration.length } = ok st := h1
    rw [expects_true (by simpa using hne), ok_bind]
    dsimp only
    rw [h1', ok_bind, expects_true, ok_bind]
    · rfl
    · have := h2.sizes
      simp [h3] at this
      simpa using this
  · have := h2.perm
    rwa [h3, List.append_nil] at this

end Angonoka
