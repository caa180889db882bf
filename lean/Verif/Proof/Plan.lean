import Verif.Spec.Plan
import Mathlib.Data.List.Sort

/-!
# Every plan is the execution of a schedule
-/

namespace Angonoka

variable {K : Type} [Field K] [LinearOrder K] [IsStrictOrderedRing K]
variable {E : FloatEnv K} {p : ScheduleParams K} {agent : Nat → Nat} {start finish : Nat → K}

theorem Plan.schedule (hp : WellFormed p) (h : Plan E p agent start finish)
    (hpos : ∀ t < p.taskCount, start t < finish t) :
    ∃ s, ValidSchedule p s ∧ (∀ it ∈ s, it.agent = agent it.task) ∧ Execution E p s start finish := by
  let ts := (List.range p.taskCount).insertionSort fun a b => start a ≤ start b
  have hperm : ts.Perm (List.range p.taskCount) := List.perm_insertionSort _ _
  have hsorted : ts.Pairwise fun a b => start a ≤ start b := by
    have : Std.Total fun a b => start a ≤ start b := ⟨fun a b => le_total _ _⟩
    have : IsTrans Nat fun a b => start a ≤ start b := ⟨fun a b c => le_trans⟩
    exact List.pairwise_insertionSort _ _
  have hmem : ∀ t ∈ ts, t < p.taskCount := fun t ht => by simpa using hperm.mem_iff.1 ht
  have hnodup : ts.Nodup := hperm.nodup_iff.2 List.nodup_range
  have hmap : (ts.map fun t => (⟨t, agent t⟩ : Item)).map Item.task = ts := by
    rw [List.map_map]
    exact List.map_id _
  have hitem : ∀ it ∈ ts.map fun t => (⟨t, agent t⟩ : Item), it.task ∈ ts ∧ it = ⟨it.task, agent it.task⟩ := by
    intro it hit
    obtain ⟨t, ht, rfl⟩ := List.mem_map.1 hit
    exact ⟨ht, rfl⟩
  refine ⟨ts.map fun t => ⟨t, agent t⟩, ⟨by rw [hmap]; exact hperm, ?_, ?_⟩, ?_, ?_⟩
  · intro pre it post heq d hd
    have hts : ts = pre.map Item.task ++ it.task :: post.map Item.task := by
      rw [← hmap, heq]
      simp
    have hlt := hmem it.task (by rw [hts]; simp)
    have hdlt := hp.deps_lt _ hlt d hd
    have hdm : d ∈ ts := hperm.mem_iff.2 (by simpa using hdlt)
    have hbefore : start d < start it.task := (hpos d hdlt).trans_le (h.deps _ hlt d hd)
    rw [hts] at hdm hsorted
    rcases List.mem_append.1 hdm with h1 | h1
    · exact h1
    · exfalso
      rcases List.mem_cons.1 h1 with rfl | h1
      · exact lt_irrefl _ hbefore
      · exact absurd ((List.pairwise_cons.1 (List.pairwise_append.1 hsorted).2.1).1 d h1) (not_le.2 hbefore)
  · intro it hit
    obtain ⟨h1, h2⟩ := hitem it hit
    rw [h2]
    exact h.eligible _ (hmem _ h1)
  · intro it hit
    rw [(hitem it hit).2]
  · constructor
    · exact fun it hit => h.nonneg _ (hmem _ (hitem it hit).1)
    · intro it hit
      obtain ⟨h1, h2⟩ := hitem it hit
      rw [h.time _ (hmem _ h1), ← h2]
    · exact fun it hit => h.deps _ (hmem _ (hitem it hit).1)
    · rw [List.pairwise_map]
      refine (hsorted.and hnodup).imp_of_mem ?_
      intro a b ha hb hab hag
      rcases h.alone a (hmem a ha) b (hmem b hb) hab.2 hag with h1 | h1
      · exact h1
      · exact absurd (h1.trans hab.1) (not_le.2 (hpos b (hmem b hb)))

end Angonoka
