import Mathlib.Algebra.BigOperators.Group.Finset.Basic
import Mathlib.Algebra.BigOperators.Ring.Finset
import Mathlib.Logic.Equiv.Basic
import Verif.Proof.Mutator

/-!
# Counting mutations

Lemmas for the symmetry of mutations.
-/

namespace Angonoka.Stun
open Angonoka Outcome Finset

set_option linter.unusedSectionVars false

variable {K : Type} [Field K] [LinearOrder K] [IsStrictOrderedRing K]

/-! ### Sums over residues -/

theorem sum_mod_mul (f : Nat → Nat) (m q : Nat) : ∑ z ∈ range (m * q), f (z % m) = q * ∑ r ∈ range m, f r := by
  induction q with
  | zero => simp
  | succ q ih =>
    rw [Nat.mul_succ, Finset.sum_range_add, ih, Nat.succ_mul]
    congr 1
    refine Finset.sum_congr rfl fun j hj => ?_
    rw [Nat.mul_add_mod, Nat.mod_eq_of_lt (Finset.mem_range.1 hj)]

theorem sum_mod (f : Nat → Nat) {m L : Nat} (h : m ∣ L) : ∑ z ∈ range L, f (z % m) = L / m * ∑ r ∈ range m, f r := by
  obtain ⟨q, rfl⟩ := h
  rcases Nat.eq_zero_or_pos m with rfl | hm
  · simp
  · rw [sum_mod_mul, Nat.mul_div_cancel_left _ hm]

/-! ### Updating an agent -/

/-- `u` and `t` are the same but for the agent at position `k`. -/
def Same (k : Nat) (u t : List Item) : Prop := (∀ j, j ≠ k → u[j]? = t[j]?) ∧ u[k]?.map Item.task = t[k]?.map Item.task

theorem Same.symm {k : Nat} {u t : List Item} (h : Same k u t) : Same k t u := ⟨fun j hj => (h.1 j hj).symm, h.2.symm⟩

theorem Same.tasks {k : Nat} {u t : List Item} (h : Same k u t) (j : Nat) : u[j]?.map Item.task = t[j]?.map Item.task := by
  by_cases hj : j = k
  · rw [hj]; exact h.2
  · rw [h.1 j hj]

open Classical in
/-- How many agents the task at position `k` can be given to, the number of raw numbers for each of them -/
noncomputable def share (p : ScheduleParams K) (L : Nat) (u : List Item) (k : Nat) : Nat :=
  L / (p.avail ((u[k]?.map Item.task).getD 0)).length

open Classical in
/-- The number of raw numbers for which updating an agent turns `u` into `t` -/
theorem count_update {p : ScheduleParams K} (hw : WellFormed p) (hn : ∀ t < p.taskCount, (p.avail t).Nodup) {L : Nat}
    (hL : p.taskCount ∣ L) (hA : ∀ t < p.taskCount, (p.avail t).length ∣ L) {u t : List Item} (hu : ValidSchedule p u) (ht : ValidSchedule p t) :
    (∑ y ∈ range L, ∑ z ∈ range L, if updateAgent p y z u = ok t then 1 else 0)
      = L / p.taskCount * ∑ k ∈ range p.taskCount, if Same k u t then share p L u k else 0 := by
  have hlen := hu.length
  have hlent := ht.length
  rw [← sum_mod _ hL]
  refine Finset.sum_congr rfl fun y _ => ?_
  have hk : y % p.taskCount < u.length := by rw [hlen]; exact Nat.mod_lt _ hw.tasks_pos
  generalize hky : y % p.taskCount = k at hk ⊢
  have hdec := decompose hk
  have hit := hu.task_lt (List.getElem_mem hk)
  have hapos : 0 < (p.avail u[k].task).length := List.length_pos_iff.2 (hw.avail_ne _ hit)
  have hupd : ∀ z, updateAgent p y z u = ok (u.set k ⟨u[k].task, (p.avail u[k].task)[z % (p.avail u[k].task).length]'(Nat.mod_lt _ hapos)⟩) := by
    intro z
    have h1 : (u.take k).length = k := by simp; omega
    have h2 : (u.drop (k + 1)).length = u.length - (k + 1) := by simp
    have hu' := hu
    rw [hdec] at hu'
    have := updateAgent_at hw hu' (rt := y) (ra := z)
      (by rw [h1, h2, show k + (u.length - (k + 1)) + 1 = u.length by omega, hlen, hky])
      (List.getElem?_eq_getElem (Nat.mod_lt _ hapos))
    rw [← hdec] at this
    rw [this]
    congr 1
    rw [List.set_eq_take_append_cons_drop, if_pos hk]
  have hshare : share p L u k = L / (p.avail u[k].task).length := by
    unfold share
    rw [List.getElem?_eq_getElem hk]
    rfl
  rw [hshare]
  have hstep : ∀ z, (if updateAgent p y z u = ok t then 1 else 0)
      = (fun r => if ∃ h : r < (p.avail u[k].task).length, u.set k ⟨u[k].task, (p.avail u[k].task)[r]⟩ = t then 1 else 0)
          (z % (p.avail u[k].task).length) := by
    intro z
    rw [hupd]
    have hz := Nat.mod_lt z hapos
    simp only [Outcome.ok.injEq, hz, exists_true_left]
  rw [Finset.sum_congr rfl fun z _ => hstep z, sum_mod (fun r => if ∃ h : r < (p.avail u[k].task).length, u.set k ⟨u[k].task, (p.avail u[k].task)[r]⟩ = t then 1 else 0) (hA _ hit)]
  have hsum : (∑ r ∈ range (p.avail u[k].task).length,
      if ∃ h : r < (p.avail u[k].task).length, u.set k ⟨u[k].task, (p.avail u[k].task)[r]⟩ = t then 1 else 0)
      = if Same k u t then 1 else 0 := by
    by_cases hsame : Same k u t
    · rw [if_pos hsame]
      have hkt : k < t.length := by rw [hlent, ← hlen]; exact hk
      have htask : u[k].task = t[k].task := by
        have := hsame.2
        rw [List.getElem?_eq_getElem hk, List.getElem?_eq_getElem hkt] at this
        simpa using this
      have hmem : t[k].agent ∈ p.avail u[k].task := by
        rw [htask]
        exact ht.eligible _ (List.getElem_mem hkt)
      obtain ⟨r, hr, hrg⟩ := List.getElem_of_mem hmem
      have hset : ∀ r' (h : r' < (p.avail u[k].task).length), u.set k ⟨u[k].task, (p.avail u[k].task)[r']⟩ = t ↔ r' = r := by
        intro r' h
        constructor
        · intro heq
          have h1 : (u.set k ⟨u[k].task, (p.avail u[k].task)[r']⟩)[k]? = t[k]? := by rw [heq]
          rw [List.getElem?_set_self hk, List.getElem?_eq_getElem hkt] at h1
          have h2 := congrArg Item.agent (Option.some.inj h1)
          dsimp only at h2
          rw [← hrg] at h2
          exact (hn _ hit).getElem_inj_iff.1 h2
        · rintro rfl
          apply List.ext_getElem?
          intro j
          by_cases hj : j = k
          · subst hj
            rw [List.getElem?_set_self hk, List.getElem?_eq_getElem hkt, hrg, htask]
          · rw [List.getElem?_set_ne (Ne.symm hj)]
            exact hsame.1 j hj
      rw [Finset.sum_eq_single r]
      · rw [if_pos ⟨hr, (hset r hr).2 rfl⟩]
      · intro r' _ hne
        rw [if_neg]
        rintro ⟨h, h'⟩
        exact hne ((hset r' h).1 h')
      · intro h
        exact absurd (Finset.mem_range.2 hr) h
    · rw [if_neg hsame]
      apply Finset.sum_eq_zero
      intro r _
      rw [if_neg]
      rintro ⟨h, rfl⟩
      apply hsame
      refine ⟨fun j hj => ?_, ?_⟩
      · rw [List.getElem?_set_ne (Ne.symm hj)]
      · rw [List.getElem?_set_self hk, List.getElem?_eq_getElem hk]
        rfl
  rw [hsum]
  split <;> simp

/-! ### Swapping -/

/-- What a swap attempt does: nothing, or exchange positions `i` and `i + 1`. -/
inductive Swapped (p : ScheduleParams K) (i : Nat) (u v : List Item) : Prop
  | blocked {a b : Item} (hb : u[i]? = some b) (ha : u[i + 1]? = some a) (h : b.task ∈ p.deps a.task) (hv : v = u)
  | free {a b : Item} (hb : u[i]? = some b) (ha : u[i + 1]? = some a) (h : b.task ∉ p.deps a.task)
      (hv : ∀ j : Nat, v[j]? = u[Equiv.swap i (i + 1) j]?)

theorem trySwap_one {p : ScheduleParams K} {s : List Item} (h : s.length = 1) (raw : Nat) : trySwap p raw s = ok s := by
  unfold trySwap
  rw [expects_true (by rw [Bool.not_eq_true', List.isEmpty_eq_false_iff]; rintro rfl; simp at h), ok_bind, if_pos h]
  rfl

theorem swapped_get (pre post : List Item) (a b : Item) (j : Nat) :
    (pre ++ a :: b :: post)[j]? = (pre ++ b :: a :: post)[Equiv.swap pre.length (pre.length + 1) j]? := by
  by_cases h1 : j = pre.length
  · subst h1
    rw [Equiv.swap_apply_left]
    simp
  · by_cases h2 : j = pre.length + 1
    · subst h2
      rw [Equiv.swap_apply_right]
      simp
    · rw [Equiv.swap_apply_of_ne_of_ne h1 h2]
      rcases Nat.lt_or_ge j pre.length with h | h
      · rw [List.getElem?_append_left h, List.getElem?_append_left h]
      · obtain ⟨d, rfl⟩ : ∃ d, j = pre.length + (d + 2) := ⟨j - pre.length - 2, by omega⟩
        rw [List.getElem?_append_right (by omega), List.getElem?_append_right (by omega)]
        simp

theorem trySwap_swapped {p : ScheduleParams K} (hw : WellFormed p) {u : List Item} (hu : ValidSchedule p u) (h2 : 2 ≤ p.taskCount) (raw : Nat) :
    ∃ v, trySwap p raw u = ok v ∧ ValidSchedule p v ∧ Swapped p (raw % (p.taskCount - 1)) u v := by
  have hlen := hu.length
  generalize hi : raw % (p.taskCount - 1) = i
  have hil : i < p.taskCount - 1 := by rw [← hi]; exact Nat.mod_lt _ (by omega)
  have hi1 : i + 1 < u.length := by omega
  have hdec : u = u.take i ++ u[i] :: u[i + 1] :: u.drop (i + 2) := by
    conv_lhs => rw [decompose (s := u) (i := i) (by omega), List.drop_eq_getElem_cons hi1]
  have htake : (u.take i).length = i := by simp; omega
  have hdrop : (u.drop (i + 2)).length = u.length - (i + 2) := by simp
  have hu' := hu
  rw [hdec] at hu'
  have := trySwap_at hw hu' (raw := raw) (by rw [htake, hdrop, show i + (u.length - (i + 2)) + 1 = p.taskCount - 1 by omega, hi])
  rw [← hdec] at this
  rw [this]
  have hb : u[i]? = some u[i] := List.getElem?_eq_getElem (by omega)
  have ha : u[i + 1]? = some u[i + 1] := List.getElem?_eq_getElem hi1
  by_cases h : u[i].task ∈ p.deps u[i + 1].task
  · rw [if_pos h]
    exact ⟨u, rfl, hu, .blocked hb ha h rfl⟩
  · rw [if_neg h]
    refine ⟨_, rfl, hu'.swap h, .free hb ha h fun j => ?_⟩
    have := swapped_get (u.take i) (u.drop (i + 2)) u[i + 1] u[i] j
    rw [← hdec, htake] at this
    exact this

/-- Two attempts at the same place cancel each other. -/
theorem Swapped.back {p : ScheduleParams K} {i : Nat} {u v w : List Item} (hu : ValidSchedule p u) (h1 : Swapped p i u v) (h2 : Swapped p i v w) :
    w = u := by
  cases h1 with
  | blocked hb ha h hv =>
    subst hv
    cases h2 with
    | blocked _ _ _ hv => exact hv
    | free hb' ha' h' _ =>
      rw [hb] at hb'
      rw [ha] at ha'
      cases hb'
      cases ha'
      exact absurd h h'
  | free hb ha h hv =>
    have hvi : v[i]? = u[i + 1]? := by rw [hv, Equiv.swap_apply_left]
    have hvi1 : v[i + 1]? = u[i]? := by rw [hv, Equiv.swap_apply_right]
    cases h2 with
    | @blocked a' b' hb' ha' h' hw =>
      -- the earlier task would need the later one
      exfalso
      rw [hvi, ha] at hb'
      rw [hvi1, hb] at ha'
      cases hb'
      cases ha'
      obtain ⟨hil, hbi⟩ := List.getElem?_eq_some_iff.1 hb
      obtain ⟨hil1, hai⟩ := List.getElem?_eq_some_iff.1 ha
      have := hu.ordered _ _ _ (decompose hil) _ (by rw [hbi]; exact h')
      obtain ⟨it, hit, hit'⟩ := List.mem_map.1 this
      have hnd := hu.nodup
      rw [decompose hil1, List.map_append, List.nodup_append] at hnd
      refine hnd.2.2 it.task (List.mem_map_of_mem ?_) _ (List.mem_map_of_mem (List.mem_cons_self ..)) (by rw [hai]; exact hit')
      exact (List.take_subset_take_left u (Nat.le_succ i)) hit
    | free _ _ _ hw =>
      apply List.ext_getElem?
      intro j
      rw [hw, hv, Equiv.swap_apply_self]

/-- Attempts at the same place in two schedules with the same order of tasks do the same. -/
theorem Swapped.same {p : ScheduleParams K} {i : Nat} {u v t w : List Item} (h1 : Swapped p i u v) (h2 : Swapped p i t w)
    (hut : ∀ j : Nat, u[j]?.map Item.task = t[j]?.map Item.task) :
    (v = u ∧ w = t) ∨ ((∀ j : Nat, v[j]? = u[Equiv.swap i (i + 1) j]?) ∧ ∀ j : Nat, w[j]? = t[Equiv.swap i (i + 1) j]?) := by
  have hi := hut i
  have hi1 := hut (i + 1)
  cases h1 with
  | blocked hb ha h hv =>
    cases h2 with
    | blocked _ _ _ hw => exact Or.inl ⟨hv, hw⟩
    | free hb' ha' h' _ =>
      rw [hb, hb'] at hi
      rw [ha, ha'] at hi1
      simp only [Option.map_some, Option.some.injEq] at hi hi1
      rw [hi, hi1] at h
      exact absurd h h'
  | free hb ha h hv =>
    cases h2 with
    | blocked hb' ha' h' _ =>
      rw [hb, hb'] at hi
      rw [ha, ha'] at hi1
      simp only [Option.map_some, Option.some.injEq] at hi hi1
      rw [hi, hi1] at h
      exact absurd h' h
    | free _ _ _ hw => exact Or.inr ⟨hv, hw⟩

theorem Same.swap {i k : Nat} {u v t w : List Item} (hv : ∀ j : Nat, v[j]? = u[Equiv.swap i (i + 1) j]?)
    (hw : ∀ j : Nat, w[j]? = t[Equiv.swap i (i + 1) j]?) : Same (Equiv.swap i (i + 1) k) v w ↔ Same k u t := by
  unfold Same
  rw [hv, hw, Equiv.swap_apply_self]
  refine and_congr_left fun _ => ?_
  constructor
  · intro h j hj
    have := h (Equiv.swap i (i + 1) j) (fun h => hj ((Equiv.swap i (i + 1)).injective h))
    rw [hv, hw, Equiv.swap_apply_self] at this
    exact this
  · intro h j hj
    rw [hv, hw]
    exact h _ (fun h' => hj (by rw [← h', Equiv.swap_apply_self]))

open Classical in
/-- The number of ways to update an agent does not change if the same swap attempt is made before and after. -/
theorem count_swapped {p : ScheduleParams K} {L i : Nat} (hi : i + 1 < p.taskCount) {u v t w : List Item} (hu : ValidSchedule p u)
    (ht : ValidSchedule p t) (hv : ValidSchedule p v) (hw : ValidSchedule p w)
    (h1 : Swapped p i u v) (h2 : Swapped p i t w) (h3 : Swapped p i v u) (h4 : Swapped p i w t) :
    (∑ k ∈ range p.taskCount, if Same k u t then share p L u k else 0) = ∑ k ∈ range p.taskCount, if Same k v w then share p L v k else 0 := by
  by_cases hut : ∀ j : Nat, u[j]?.map Item.task = t[j]?.map Item.task
  · rcases h1.same h2 hut with ⟨rfl, rfl⟩ | ⟨hv, hw⟩
    · rfl
    · refine Finset.sum_equiv (Equiv.swap i (i + 1)) ?_ ?_
      · intro k
        simp only [Finset.mem_range]
        by_cases e1 : k = i
        · subst e1
          rw [Equiv.swap_apply_left]
          omega
        · by_cases e2 : k = i + 1
          · subst e2
            rw [Equiv.swap_apply_right]
            omega
          · rw [Equiv.swap_apply_of_ne_of_ne e1 e2]
      · intro k _
        have hsh : share p L v (Equiv.swap i (i + 1) k) = share p L u k := by
          unfold share
          rw [hv, Equiv.swap_apply_self]
        rw [hsh]
        exact if_congr (Same.swap hv hw).symm rfl rfl
  · -- then there is no way on either side
    have hz : ∀ k, ¬ Same k u t := fun k h => hut h.tasks
    have hz' : ∀ k, ¬ Same k v w := by
      intro k h
      rcases h3.same h4 h.tasks with ⟨rfl, rfl⟩ | ⟨hv', hw'⟩
      · exact hz k h
      · exact hz _ ((Same.swap (k := k) hv' hw').2 h)
    rw [Finset.sum_eq_zero fun k _ => if_neg (hz k), Finset.sum_eq_zero fun k _ => if_neg (hz' k)]

open Classical in
theorem count_symm {p : ScheduleParams K} {L : Nat} (u t : List Item) :
    (∑ k ∈ range p.taskCount, if Same k u t then share p L u k else 0) = ∑ k ∈ range p.taskCount, if Same k t u then share p L t k else 0 := by
  refine Finset.sum_congr rfl fun k _ => ?_
  by_cases h : Same k u t
  · rw [if_pos h, if_pos h.symm]
    unfold share
    rw [h.2]
  · rw [if_neg h, if_neg fun h' => h h'.symm]

end Angonoka.Stun
