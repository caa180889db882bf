import Verif.Proof.Optimizer
import Mathlib.Data.Fintype.BigOperators
import Mathlib.Data.Fintype.Prod
import Mathlib.Data.Finset.Card

/-!
# The optimizer stops

There are finitely many valid schedules, hence finitely many makespans; every epoch lowers
the makespan, and between two epochs there are boundedly many rounds.
-/

set_option linter.unusedSectionVars false

namespace Angonoka
open Outcome Stun

variable {K : Type} [Field K] [LinearOrder K] [IsStrictOrderedRing K]

/-- All lists of items of the right length with indices in range. -/
def candidate (p : ScheduleParams K)
    (f : Fin p.taskCount → Fin p.taskCount × Fin p.agentCount) : List Item :=
  List.ofFn fun i => ⟨(f i).1, (f i).2⟩

theorem ValidSchedule.candidate {p : ScheduleParams K} (hw : WellFormed p) {s : List Item}
    (hs : ValidSchedule p s) : ∃ f, candidate p f = s := by
  have hlen := hs.length
  have ht : ∀ it ∈ s, it.task < p.taskCount := by
    intro it hit
    have : it.task ∈ List.range p.taskCount := hs.complete.mem_iff.1 (List.mem_map_of_mem hit)
    simpa using this
  refine ⟨fun i => (⟨(s[i.1]'(by omega)).task, ht _ (List.getElem_mem _)⟩,
    ⟨(s[i.1]'(by omega)).agent, hw.avail_lt _ (ht _ (List.getElem_mem _)) _
      (hs.eligible _ (List.getElem_mem _))⟩), ?_⟩
  unfold Angonoka.candidate
  apply List.ext_getElem
  · simp [hlen]
  · intro i h1 h2
    simp

open Classical in
/-- The makespans of all candidates. -/
noncomputable def makespans (E : FloatEnv K) (p : ScheduleParams K) : Finset K :=
  Finset.univ.image fun f => valueOf E p (candidate p f)

theorem makespans_card (E : FloatEnv K) (p : ScheduleParams K) :
    (makespans E p).card ≤ (p.taskCount * p.agentCount) ^ p.taskCount := by
  classical
  unfold makespans
  refine Finset.card_image_le.trans ?_
  simp

theorem ValidSchedule.mem_makespans {E : FloatEnv K} {p : ScheduleParams K} (hw : WellFormed p)
    {s : List Item} (hs : ValidSchedule p s) : valueOf E p s ∈ makespans E p := by
  classical
  obtain ⟨f, hf⟩ := hs.candidate hw
  unfold makespans
  rw [Finset.mem_image]
  exact ⟨f, by simp, by rw [hf]⟩

section
variable {E : FloatEnv K} {opts : Options K} {threads : Nat} {ms : List K} {o : Optimizer K} {v : K}

open Classical in
/-- Upper bound on the number of epochs that can still happen. -/
noncomputable def epochsLeft (E : FloatEnv K) (opts : Options K) (ms : List K) (v : K) : Nat :=
  ((makespans E opts.params).filter (· < v)).card + if recorded ms = v then 0 else 1

theorem OptInv.mem_makespans (ho : ValidOptions E opts) (h : OptInv E opts threads ms o v) :
    v ∈ makespans E opts.params := by
  obtain ⟨s, _, h1, h2⟩ := h.schedule_eq ho
  rw [h2]
  exact h1.mem_makespans ho.wellFormed

theorem epochsLeft_le (ho : ValidOptions E opts) (h : OptInv E opts threads ms o v) :
    epochsLeft E opts ms v ≤
      (opts.params.taskCount * opts.params.agentCount) ^ opts.params.taskCount := by
  classical
  refine le_trans ?_ (makespans_card E opts.params)
  have h1 : ((makespans E opts.params).filter (· < v)).card < (makespans E opts.params).card := by
    apply Finset.card_lt_card
    rw [Finset.ssubset_iff_of_subset (Finset.filter_subset _ _)]
    exact ⟨v, h.mem_makespans ho, by simp⟩
  unfold epochsLeft
  split <;> omega

/-- Without a change of the makespan the number of epochs left does not grow; with one it
decreases. -/
theorem epochsLeft_update (ho : ValidOptions E opts) (h : OptInv E opts threads ms o v)
    {o' : Optimizer K} {v' : K} (h' : OptInv E opts threads (v' :: ms) o' v') (hle : v' ≤ v) :
    epochsLeft E opts (v' :: ms) v' + (if v' = recorded ms then 0 else 1) ≤
      epochsLeft E opts ms v := by
  classical
  have hsub : ((makespans E opts.params).filter (· < v')) ⊆
      ((makespans E opts.params).filter (· < v)) := by
    intro x hx
    rw [Finset.mem_filter] at hx ⊢
    exact ⟨hx.1, hx.2.trans_le hle⟩
  have hcard := Finset.card_le_card hsub
  have hrec : recorded (v' :: ms) = v' := rfl
  unfold epochsLeft
  rw [hrec, if_pos rfl, Nat.add_zero]
  by_cases h1 : v' = recorded ms
  · rw [if_pos h1]
    omega
  · rw [if_neg h1]
    by_cases h2 : recorded ms = v
    · rw [if_pos h2]
      have hlt : v' < v := lt_of_le_of_ne hle (by rwa [← h2])
      have : ((makespans E opts.params).filter (· < v')).card <
          ((makespans E opts.params).filter (· < v)).card := by
        apply Finset.card_lt_card
        rw [Finset.ssubset_iff_of_subset hsub]
        exact ⟨v', by
          rw [Finset.mem_filter]
          exact ⟨h'.mem_makespans ho, hlt⟩, by simp⟩
      omega
    · rw [if_neg h2]
      omega

/-- Rounds needed to make `n` idle iterations. -/
def roundsFor (n batch : Nat) : Nat := (n + batch - 1) / batch

theorem roundsFor_sub {n batch : Nat} (hb : 0 < batch) (hn : 0 < n) :
    roundsFor (n - batch) batch + 1 ≤ roundsFor n batch := by
  unfold roundsFor
  rcases Nat.lt_or_ge n batch with h | h
  · rw [show n - batch + batch - 1 = batch - 1 by omega, Nat.div_eq_of_lt (by omega)]
    exact Nat.le_div_iff_mul_le hb |>.2 (by omega)
  · rw [show n + batch - 1 = (n - batch + batch - 1) + batch by omega, Nat.add_div_right _ hb]

theorem roundsFor_pos {n batch : Nat} (hb : 0 < batch) (hn : 0 < n) : 0 < roundsFor n batch :=
  Nat.div_pos (by omega) hb

/-- The loop ends: by induction on a bound of the number of rounds. -/
theorem converges (ho : ValidOptions E opts) (draws : Nat → Nat → Nat → Draws K)
    {o₀ : Optimizer K} (fuel : Nat) :
    ∀ (k : Nat) {ms : List K} {o : Optimizer K} {v : K}, OptInv E opts threads ms o v →
    o₀.rounds E draws k = ok o →
    epochsLeft E opts ms v * roundsFor opts.maxIdleIters opts.batchSize
      + roundsFor (opts.maxIdleIters - o.idleIters) opts.batchSize ≤ fuel →
    ∃ n o', n ≤ fuel ∧ o₀.rounds E draws (k + n) = ok o' ∧ o'.hasConverged = true ∧
      ∀ m < n, ∃ o₁, o₀.rounds E draws (k + m) = ok o₁ ∧ o₁.hasConverged = false := by
  induction fuel with
  | zero =>
    intro k ms o v h hk hf
    refine ⟨0, o, le_rfl, hk, ?_, by simp⟩
    unfold Optimizer.hasConverged
    by_contra hc
    have h1 : 0 < opts.maxIdleIters - o.idleIters := by
      simp only [h.maxIdle, decide_eq_true_eq] at hc
      omega
    have := roundsFor_pos ho.batch_pos h1
    omega
  | succ fuel ih =>
    intro k ms o v h hk hf
    by_cases hc : o.hasConverged = true
    · exact ⟨0, o, by omega, hk, hc, by simp⟩
    · have h1 : 0 < opts.maxIdleIters - o.idleIters := by
        simp only [Optimizer.hasConverged, h.maxIdle, decide_eq_true_eq] at hc
        omega
      obtain ⟨o', v', _, h2, h3, h4, _⟩ := Optimizer.update_ok ho h (draws k)
      have hk' : o₀.rounds E draws (k + 1) = ok o' := by
        simp only [Optimizer.rounds, hk, ok_bind, h2]
      have hep := epochsLeft_update ho h h3 h4
      have hb := ho.batch_pos
      have hrs := roundsFor_sub hb h1
      have hle : epochsLeft E opts (v' :: ms) v' * roundsFor opts.maxIdleIters opts.batchSize
          + roundsFor (opts.maxIdleIters - o'.idleIters) opts.batchSize ≤ fuel := by
        rw [h3.idle, unchanged_cons]
        by_cases hv : v' = recorded ms
        · rw [if_pos hv] at hep ⊢
          have e1 : opts.maxIdleIters - opts.batchSize * (unchanged (ms ++ [0]) + 1) =
              opts.maxIdleIters - o.idleIters - opts.batchSize := by
            rw [h.idle, Nat.mul_add]; omega
          rw [e1]
          have := Nat.mul_le_mul_right (roundsFor opts.maxIdleIters opts.batchSize) hep
          simp only [Nat.add_zero] at this
          omega
        · rw [if_neg hv] at hep ⊢
          have := Nat.mul_le_mul_right (roundsFor opts.maxIdleIters opts.batchSize) hep
          rw [Nat.add_mul, Nat.one_mul] at this
          simp only [Nat.mul_zero, Nat.sub_zero]
          omega
      obtain ⟨n, o'', g1, g2, g3, g4⟩ := ih (k + 1) h3 hk' hle
      refine ⟨n + 1, o'', by omega, by rw [← g2]; congr 1; omega, g3, ?_⟩
      intro m hm
      cases m with
      | zero => exact ⟨o, hk, by simpa using hc⟩
      | succ m =>
        obtain ⟨o₁, e1, e2⟩ := g4 m (by omega)
        exact ⟨o₁, by rw [← e1]; congr 1; omega, e2⟩

end
end Angonoka
