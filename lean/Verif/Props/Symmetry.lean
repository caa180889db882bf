import Mathlib.Algebra.Order.BigOperators.Ring.Finset
import Mathlib.Data.Set.Finite.List
import Verif.Proof.Symmetry
import Verif.Spec.Symmetry
import Verif.Props.Params
import Verif.Props.Schedule

/-!
# C89: mutation favours no schedule
-/

set_option linter.unusedSectionVars false

namespace Angonoka.Props
open Angonoka Angonoka.Stun Outcome Finset

variable {K : Type} [Field K] [LinearOrder K] [IsStrictOrderedRing K]

/-- What one swap attempt makes of a valid schedule -/
private theorem attempt {p : ScheduleParams K} (hw : WellFormed p) (x : Nat) {L : Nat} {s t : List Item} (hs : ValidSchedule p s)
    (ht : ValidSchedule p t) : ∃ s' t', trySwap p x s = ok s' ∧ trySwap p x t = ok t' ∧ ValidSchedule p s' ∧ ValidSchedule p t' ∧
      (open Classical in (∑ k ∈ range p.taskCount, if Same k s' t then share p L s' k else 0)
        = ∑ k ∈ range p.taskCount, if Same k t' s then share p L t' k else 0) := by
  rcases Nat.lt_or_ge 1 p.taskCount with h2 | h1
  · obtain ⟨s', h1, h3, h4⟩ := trySwap_swapped hw hs h2 x
    obtain ⟨t', h5, h6, h7⟩ := trySwap_swapped hw ht h2 x
    obtain ⟨s'', _, _, hs''⟩ := trySwap_swapped hw h3 h2 x
    obtain ⟨t'', _, _, ht''⟩ := trySwap_swapped hw h6 h2 x
    obtain rfl := h4.back hs hs''
    obtain rfl := h7.back ht ht''
    refine ⟨s', t', h1, h5, h3, h6, ?_⟩
    rw [count_swapped (by have := Nat.mod_lt x (show 0 < p.taskCount - 1 by omega); omega) h3 ht hs h6 hs'' h7 h4 ht'', count_symm]
  · have h1 : p.taskCount = 1 := by have := hw.tasks_pos; omega
    exact ⟨s, t, trySwap_one (by rw [hs.length, h1]) x, trySwap_one (by rw [ht.length, h1]) x, hs, ht, count_symm s t⟩

open Classical in
private theorem ways_sum (p : ScheduleParams K) (L : Nat) (s t : List Item) :
    ways p L s t = ∑ x ∈ range L, ∑ y ∈ range L, ∑ z ∈ range L, if mutate p ⟨x, y, z, 0⟩ s = ok t then 1 else 0 := by
  unfold ways
  rw [Finset.card_filter, Finset.sum_product]
  refine Finset.sum_congr rfl fun x _ => ?_
  rw [Finset.sum_product]

private theorem mutate_of {p : ScheduleParams K} {s s' : List Item} (hs : s ≠ []) {d : Draws K} (h : trySwap p d.swap s = ok s') :
    mutate p d s = updateAgent p d.task d.agent s' := by
  unfold mutate
  rw [expects_true (by rw [Bool.not_eq_true', List.isEmpty_eq_false_iff]; exact hs), ok_bind, h, ok_bind]

private theorem valid_ne {p : ScheduleParams K} (hw : WellFormed p) {s : List Item} (hs : ValidSchedule p s) : s ≠ [] := by
  rintro rfl
  have := hs.length
  have := hw.tasks_pos
  simp_all

/-- C89. A mutation leads from one schedule to another exactly as often as back: of the equally
likely draws, as many turn `s` into `t` as turn `t` into `s`. -/
theorem mutation_symmetric {p : ScheduleParams K} (hw : WellFormed p) (hn : ∀ t < p.taskCount, (p.avail t).Nodup)
    {L : Nat} (hL : Stun.Even p L) {s t : List Item} (hs : ValidSchedule p s) (ht : ValidSchedule p t) :
    ways p L s t = ways p L t s := by
  classical
  rw [ways_sum, ways_sum]
  refine Finset.sum_congr rfl fun x _ => ?_
  obtain ⟨s', t', h1, h2, h3, h4, h5⟩ := attempt hw x (L := L) hs ht
  have e1 : ∀ y z, mutate p ⟨x, y, z, 0⟩ s = updateAgent p y z s' := fun y z => mutate_of (valid_ne hw hs) h1
  have e2 : ∀ y z, mutate p ⟨x, y, z, 0⟩ t = updateAgent p y z t' := fun y z => mutate_of (valid_ne hw ht) h2
  simp only [e1, e2]
  rw [count_update hw hn hL.task hL.agent h3 ht, count_update hw hn hL.task hL.agent h4 hs, h5]

/-- C89. Only valid schedules follow: out of `s`, all the chances go to valid schedules. -/
theorem chances_complete {p : ScheduleParams K} (hw : WellFormed p) {L : Nat} {s : List Item} (hs : ValidSchedule p s)
    {V : Finset (List Item)} (hV : ∀ t, t ∈ V ↔ ValidSchedule p t) : ∑ t ∈ V, ways p L s t = L ^ 3 := by
  classical
  unfold ways
  simp only [Finset.card_filter]
  rw [Finset.sum_comm]
  have : ∀ x ∈ range L ×ˢ range L ×ˢ range L, (∑ t ∈ V, if mutate p ⟨x.1, x.2.1, x.2.2, 0⟩ s = ok t then 1 else 0) = 1 := by
    intro x _
    obtain ⟨t, h1, h2⟩ := mutate_valid hw hs ⟨x.1, x.2.1, x.2.2, 0⟩
    rw [Finset.sum_eq_single t]
    · rw [if_pos h1]
    · intro t' _ hne
      rw [if_neg]
      intro h
      rw [h1] at h
      exact hne (Outcome.ok.inj h).symm
    · intro h
      exact absurd ((hV t).2 h2) h
  rw [Finset.sum_congr rfl this]
  simp [pow_succ, mul_assoc]

/-- C89. If every valid schedule is equally likely before a mutation, every valid schedule is
equally likely after it: the chances that lead to `t` sum up to one. -/
theorem uniform_preserved {p : ScheduleParams K} (hw : WellFormed p) (hn : ∀ t < p.taskCount, (p.avail t).Nodup)
    {L : Nat} (hL : Stun.Even p L) {V : Finset (List Item)} (hV : ∀ s, s ∈ V ↔ ValidSchedule p s) {t : List Item} (ht : ValidSchedule p t) :
    ∑ s ∈ V, ways p L s t = L ^ 3 := by
  rw [Finset.sum_congr rfl fun s hs => mutation_symmetric hw hn hL ((hV s).1 hs) ht]
  exact chances_complete hw ht hV

/-- There are finitely many valid schedules. -/
theorem valid_finite (p : ScheduleParams K) : ∃ V : Finset (List Item), ∀ s, s ∈ V ↔ ValidSchedule p s := by
  classical
  have hfin : {s : List Item | ValidSchedule p s}.Finite := by
    let A : Finset Nat := (List.range p.taskCount).toFinset.biUnion fun t => (p.avail t).toFinset
    let I : Finset Item := (range p.taskCount ×ˢ A).image fun x => ⟨x.1, x.2⟩
    have hI : {l : List {x : Item // x ∈ I} | l.length = p.taskCount}.Finite := List.finite_length_eq _ _
    refine (hI.image (List.map Subtype.val)).subset ?_
    intro s hs
    have hmem : ∀ x ∈ s, x ∈ I := by
      intro x hx
      refine Finset.mem_image.2 ⟨(x.task, x.agent), Finset.mem_product.2 ⟨Finset.mem_range.2 (hs.task_lt hx), ?_⟩, rfl⟩
      exact Finset.mem_biUnion.2 ⟨x.task, by simpa using hs.task_lt hx, List.mem_toFinset.2 (hs.eligible x hx)⟩
    refine ⟨s.attach.map fun x => ⟨x.1, hmem x.1 x.2⟩, ?_, ?_⟩
    · simpa using hs.length
    · simp [Function.comp_def]
  exact ⟨hfin.toFinset, fun s => by simp⟩

/-- There is always a number of raw numbers for which all draws are even. -/
theorem even_exists {p : ScheduleParams K} (hw : WellFormed p) : ∃ L, Stun.Even p L := by
  refine ⟨p.taskCount * (if p.taskCount - 1 = 0 then 1 else p.taskCount - 1) * ∏ t ∈ range p.taskCount, (p.avail t).length, ?_, ?_, ?_, ?_⟩
  · refine Nat.mul_pos (Nat.mul_pos hw.tasks_pos (by split <;> omega)) (Finset.prod_pos fun t ht => ?_)
    exact List.length_pos_iff.2 (hw.avail_ne _ (Finset.mem_range.1 ht))
  · intro h
    rw [if_neg h]
    exact Dvd.dvd.mul_right (Dvd.intro_left _ rfl) _
  · rw [mul_assoc]
    exact Dvd.intro _ rfl
  · intro t ht
    exact Dvd.dvd.mul_left (Finset.dvd_prod_of_mem _ (Finset.mem_range.2 ht)) _

/-- C89. For a project: the agents of a task are listed once, so mutation favours no schedule. -/
theorem project_mutation_symmetric {E : FloatEnv K} {q : Project} (hq : q.Sound) (hf : q.FloatsIn E) :
    ∃ p, toScheduleParams E q = ok p ∧ ∃ L, Stun.Even p L ∧ ∀ s t, ValidSchedule p s → ValidSchedule p t → ways p L s t = ways p L t s := by
  obtain ⟨p, hp, hw⟩ := params_wellFormed hq hf
  obtain ⟨h1, -, -, -, h5, -⟩ := params_faithful hq.agent_groups hq.task_groups hp
  obtain ⟨L, hL⟩ := even_exists hw
  refine ⟨p, hp, L, hL, fun s t hs ht => mutation_symmetric hw (fun i hi => ?_) hL hs ht⟩
  rw [h1] at hi
  exact (h5 i _ (List.getElem?_eq_getElem hi)).2.1.imp Nat.ne_of_lt

/-- For the example project 12 raw numbers make all draws even. -/
theorem example_even : Stun.Even Example.params 12 := by
  refine ⟨by decide, fun _ => by decide, by decide, ?_⟩
  decide +kernel

/-- There and back between two schedules of the example project -/
example : ways Example.params 12 Example.schedule [⟨0, 1⟩, ⟨1, 1⟩, ⟨2, 0⟩] = ways Example.params 12 [⟨0, 1⟩, ⟨1, 1⟩, ⟨2, 0⟩] Example.schedule :=
  mutation_symmetric Example.params_wellFormed (by decide +kernel) example_even Example.schedule_valid (by apply validSchedule_of_check <;> decide)

/-- ... and it does happen: swap the first two, then give task 0 to agent 1. -/
example : 0 < ways Example.params 12 Example.schedule [⟨0, 1⟩, ⟨1, 1⟩, ⟨2, 0⟩] := by
  unfold ways
  refine Finset.card_pos.2 ⟨(0, 0, 1), Finset.mem_filter.2 ⟨by decide, ?_⟩⟩
  have h := trySwap_at (pre := []) (post := [⟨2, 0⟩]) (a := ⟨0, 0⟩) (b := ⟨1, 1⟩) (raw := 0) Example.params_wellFormed
    Example.schedule_valid (by decide)
  rw [if_neg (by decide +kernel)] at h
  rw [mutate_of (s' := [⟨0, 0⟩, ⟨1, 1⟩, ⟨2, 0⟩]) (by decide) h]
  decide +kernel

end Angonoka.Props
