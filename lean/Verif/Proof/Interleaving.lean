import Verif.Spec.Optimizer
import Mathlib.Logic.Relation

/-!
# Interleavings of the jobs' batches
-/

set_option linter.unusedSectionVars false

namespace Angonoka
open Outcome Stun

variable {K : Type} [Field K] [LinearOrder K] [IsStrictOrderedRing K] {E : FloatEnv K}

theorem step_batch {j j' : Job K} {d : Draws K} (h : j.step E d = ok j') :
    j'.batchSize = j.batchSize := by
  simp only [Job.step, bind_eq_ok] at h
  obtain ⟨⟨_, _, _⟩, _, h⟩ := h
  cases h
  rfl

theorem steps_snoc (ds : List (Draws K)) (d : Draws K) :
    ∀ (j : Job K), j.steps E (ds ++ [d]) = (j.steps E ds >>= fun j' => j'.step E d) := by
  induction ds with
  | nil =>
    intro j
    simp only [List.nil_append, Job.steps, ok_bind]
    cases j.step E d <;> rfl
  | cons a ds ih =>
    intro j
    simp only [List.cons_append, Job.steps]
    cases j.step E a with
    | ok j' => simp only [ok_bind]; exact ih j'
    | throws e => rfl
    | ub s => rfl

/-- What every interleaving preserves: job `k` has done its own first iterations. -/
def Interleaved (E : FloatEnv K) (draws : Nat → Nat → Draws K) (jobs : List (Job K))
    (l : List (Job K × Nat)) : Prop :=
  l.length = jobs.length ∧ ∀ (k : Nat) (j : Job K) (x : Job K × Nat), jobs[k]? = some j →
    l[k]? = some x →
    j.steps E ((List.range x.2).map (draws k)) = ok x.1 ∧ x.1.batchSize = j.batchSize

theorem interleaved_of_steps {draws : Nat → Nat → Draws K} {jobs : List (Job K)}
    {l : List (Job K × Nat)}
    (h : Relation.ReflTransGen (ParallelStep E draws) (jobs.map fun j => (j, 0)) l) :
    Interleaved E draws jobs l := by
  induction h with
  | refl =>
    refine ⟨by simp, ?_⟩
    intro k j x hj hx
    rw [List.getElem?_map, hj] at hx
    cases hx
    exact ⟨rfl, rfl⟩
  | tail _ hst ih =>
    cases hst with
    | @step pre j i post j' hi hs =>
      obtain ⟨ih1, ih2⟩ := ih
      refine ⟨by simpa using ih1, ?_⟩
      intro k a x ha hx
      by_cases hk : k = pre.length
      · subst hk
        have h0 := ih2 pre.length a (j, i) ha (by simp)
        simp only [List.getElem?_append_right (le_refl _), Nat.sub_self, List.getElem?_cons_zero,
          Option.some.injEq] at hx
        subst hx
        refine ⟨?_, (step_batch hs).trans h0.2⟩
        rw [List.range_succ, List.map_append, List.map_singleton, steps_snoc, h0.1, ok_bind]
        exact hs
      · refine ih2 k a x ha ?_
        rw [← hx]
        rcases Nat.lt_or_gt_of_ne hk with hk | hk
        · rw [List.getElem?_append_left hk, List.getElem?_append_left hk]
        · rw [List.getElem?_append_right (by omega), List.getElem?_append_right (by omega)]
          obtain ⟨m, hm⟩ : ∃ m, k - pre.length = m + 1 := ⟨k - pre.length - 1, by omega⟩
          rw [hm, List.getElem?_cons_succ, List.getElem?_cons_succ]

theorem updateJobs_of_forall {draws : Nat → Nat → Draws K} :
    ∀ {jobs : List (Job K)} {res : List (Job K)} (k : Nat), res.length = jobs.length →
    (∀ (i : Nat) (j r : Job K), jobs[i]? = some j → res[i]? = some r → j.update E (draws (k + i)) = ok r) →
    updateJobs E draws k jobs = ok res := by
  intro jobs
  induction jobs with
  | nil =>
    intro res k hl _
    rw [List.length_eq_zero_iff.1 hl]
    rfl
  | cons j rest ih =>
    intro res k hl h
    cases res with
    | nil => simp at hl
    | cons r rs =>
      have h0 := h 0 j r rfl rfl
      rw [Nat.add_zero] at h0
      have h1 := ih (res := rs) (k + 1) (by simpa using hl) (by
        intro i a b ha hb
        have := h (i + 1) a b (by simpa using ha) (by simpa using hb)
        rwa [show k + (i + 1) = k + 1 + i by omega] at this)
      simp only [updateJobs, h0, ok_bind, h1]
      rfl

end Angonoka
