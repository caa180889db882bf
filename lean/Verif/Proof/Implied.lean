import Verif.Proof.Stun
import Verif.Spec.Implied

/-! # Dependencies that follow from others -/

set_option linter.unusedSectionVars false

namespace Angonoka
open Outcome Stun

variable {K : Type} [Field K] [LinearOrder K] [IsStrictOrderedRing K]
variable {E : FloatEnv K} {p p' : ScheduleParams K} {s : List Item}

namespace ScheduleParams.SameConstraints

theorem symm (h : p.SameConstraints p') : p'.SameConstraints p :=
  ⟨h.performance.symm, h.durations.symm, h.avail.symm, fun t d => (h.deps t d).symm⟩

theorem taskCount (h : p.SameConstraints p') : p'.taskCount = p.taskCount := by
  unfold ScheduleParams.taskCount; rw [h.durations]

theorem agentCount (h : p.SameConstraints p') : p'.agentCount = p.agentCount := by
  unfold ScheduleParams.agentCount; rw [h.performance]

theorem avail_eq (h : p.SameConstraints p') (t : Nat) : p'.avail t = p.avail t := by
  unfold ScheduleParams.avail; rw [h.avail]

theorem itemTime (h : p.SameConstraints p') (it : Item) : p'.itemTime E it = p.itemTime E it := by
  unfold ScheduleParams.itemTime; rw [h.performance, h.durations]

end ScheduleParams.SameConstraints

/-- In a valid schedule a task comes after all the tasks it depends on, directly or not. -/
theorem ValidSchedule.before (h : ValidSchedule p s) {t d : Nat} (hd : Relation.TransGen p.Needs t d) :
    ∀ pre it post, s = pre ++ it :: post → it.task = t → d ∈ pre.map Item.task := by
  induction hd using Relation.TransGen.head_induction_on with
  | @single t hn =>
    rintro pre it post rfl rfl
    exact h.ordered pre it post rfl d hn.2
  | @head t c hn _ ih =>
    rintro pre it post rfl rfl
    have hc := h.ordered pre it post rfl c hn.2
    obtain ⟨jt, hjt, rfl⟩ := List.mem_map.1 hc
    obtain ⟨pre₁, post₁, rfl⟩ := List.append_of_mem hjt
    have := ih pre₁ jt (post₁ ++ it :: post) (by simp) rfl
    rw [List.map_append]
    exact List.mem_append_left _ this

theorem ScheduleParams.SameConstraints.valid (h : p.SameConstraints p') (hs : ValidSchedule p s) : ValidSchedule p' s where
  complete := by rw [h.taskCount]; exact hs.complete
  ordered := by
    intro pre it post e d hd
    have hlt : it.task < p.taskCount := hs.task_lt (it := it) (by rw [e]; simp)
    have : Relation.TransGen p'.Needs it.task d := .single ⟨by rw [h.taskCount]; exact hlt, hd⟩
    exact hs.before ((h.deps _ _).1 this) pre it post e rfl
  eligible := by
    intro it hit
    rw [h.avail_eq]
    exact hs.eligible it hit

/-- In an execution a task starts after all the tasks it depends on, directly or not, have ended. -/
theorem Execution.after {start finish : Nat → K} (hs : ValidSchedule p s) (hx : Execution E p s start finish)
    (hle : ∀ it ∈ s, start it.task ≤ finish it.task) {t d : Nat} (hd : Relation.TransGen p.Needs t d) : finish d ≤ start t := by
  have item : ∀ {t : Nat}, t < p.taskCount → ∃ it ∈ s, it.task = t := by
    intro t ht
    have : t ∈ s.map Item.task := hs.complete.mem_iff.2 (List.mem_range.2 ht)
    exact List.mem_map.1 this
  induction hd using Relation.TransGen.head_induction_on with
  | single hn =>
    obtain ⟨it, hit, rfl⟩ := item hn.1
    exact hx.deps it hit d hn.2
  | head hn hrest ih =>
    obtain ⟨it, hit, rfl⟩ := item hn.1
    obtain ⟨jt, hjt, rfl⟩ : ∃ jt ∈ s, jt.task = _ := by
      rcases Relation.TransGen.head'_iff.1 hrest with ⟨c, hc, -⟩
      exact item hc.1
    exact ih.trans ((hle jt hjt).trans (hx.deps it hit _ hn.2))

theorem ScheduleParams.SameConstraints.value (h : p.SameConstraints p') (hw : WellFormed p) (hw' : WellFormed p') (hs : ValidSchedule p s) :
    makespanValue E p' p'.agentCount s = makespanValue E p p.agentCount s := by
  have one : ∀ {q q' : ScheduleParams K}, q.SameConstraints q' → WellFormed q → WellFormed q' → ValidSchedule q s →
      makespanValue E q' q'.agentCount s ≤ makespanValue E q q.agentCount s := by
    intro q q' h hw hw' hs
    have hs' := h.valid hs
    obtain ⟨start, finish, hx, hend, hle, -⟩ := makespanValue_spec (E := E) hw hs
    obtain ⟨start', finish', hx', hend', hle', hleast⟩ := makespanValue_spec (E := E) hw' hs'
    have hx2 : Execution E q' s start finish := by
      refine ⟨hx.nonneg, ?_, ?_, hx.agents⟩
      · intro it hit
        rw [h.itemTime]
        exact hx.time it hit
      · intro it hit d hd
        refine hx.after hs hle ((h.deps _ _).1 (.single ⟨?_, hd⟩))
        rw [h.taskCount]
        exact hs.task_lt hit
    obtain ⟨it, hit, e⟩ := hend'.2
    rw [← e]
    exact (hleast _ _ hx2 it hit).2.trans (hend.1 it hit)
  exact le_antisymm (one h hw hw' hs) (one h.symm hw' hw (h.valid hs))

theorem ScheduleParams.SameConstraints.neighbour (h : p.SameConstraints p') (hw : WellFormed p) {pre post : List Item} {a b : Item}
    (hs : ValidSchedule p (pre ++ b :: a :: post)) (hd : b.task ∈ p'.deps a.task) : b.task ∈ p.deps a.task := by
  have ha : a.task < p.taskCount := hs.task_lt (it := a) (by simp)
  have ht : Relation.TransGen p.Needs a.task b.task := (h.deps _ _).1 (.single ⟨by rw [h.taskCount]; exact ha, hd⟩)
  rcases Relation.TransGen.head'_iff.1 ht with ⟨c, hc, hcb⟩
  rcases Relation.reflTransGen_iff_eq_or_transGen.1 hcb with e | hcb
  · rw [e]; exact hc.2
  exfalso
  have hm := hs.ordered (pre ++ [b]) a post (by simp) c hc.2
  simp only [List.map_append, List.map_cons, List.map_nil, List.mem_append, List.mem_singleton] at hm
  rcases hm with hm | rfl
  · obtain ⟨jt, hjt, rfl⟩ := List.mem_map.1 hm
    obtain ⟨pre₁, post₁, rfl⟩ := List.append_of_mem hjt
    have hb := hs.before hcb pre₁ jt (post₁ ++ b :: a :: post) (by simp) rfl
    have hn := hs.nodup
    simp only [List.map_append, List.map_cons, List.append_assoc] at hn
    rw [List.nodup_append] at hn
    exact hn.2.2 _ hb b.task (by simp) rfl
  · exact hw.acyclic _ hcb

theorem ScheduleParams.SameConstraints.trySwap (h : p.SameConstraints p') (hw : WellFormed p) (hw' : WellFormed p') (hs : ValidSchedule p s)
    (raw : Nat) : Stun.trySwap p' raw s = Stun.trySwap p raw s := by
  have hs' := h.valid hs
  rcases Nat.lt_or_ge s.length 2 with h2 | h2
  · have h1 : s.length = 1 := by
      have := List.length_pos_iff.2 (hs.ne_nil hw)
      omega
    unfold Stun.trySwap
    rw [if_pos h1, if_pos h1]
  · obtain ⟨i, hi⟩ : ∃ i, i = raw % (s.length - 1) := ⟨_, rfl⟩
    have hlt : i < s.length - 1 := by rw [hi]; exact Nat.mod_lt _ (by omega)
    have e1 : s = s.take i ++ s[i] :: s[i + 1] :: s.drop (i + 2) := by
      conv_lhs => rw [decompose (show i < s.length by omega), List.drop_eq_getElem_cons (show i + 1 < s.length by omega)]
    have hl : (s.take i).length = i := by simp; omega
    have hl2 : (s.drop (i + 2)).length = s.length - (i + 2) := by simp
    revert e1 hl hl2
    generalize s.take i = pre
    generalize s[i] = b
    generalize s[i + 1] = a
    generalize s.drop (i + 2) = post
    intro e1 hl hl2
    have hraw : raw % (pre.length + post.length + 1) = pre.length := by
      rw [hl, hl2, show i + (s.length - (i + 2)) + 1 = s.length - 1 by omega, ← hi]
    subst e1
    rw [trySwap_at hw hs hraw, trySwap_at hw' hs' hraw]
    congr 1
    by_cases hd : b.task ∈ p.deps a.task
    · rw [if_pos hd, if_pos (h.symm.neighbour hw' hs' hd)]
    · rw [if_neg hd, if_neg fun hd' => hd (h.neighbour hw hs hd')]

theorem ScheduleParams.SameConstraints.mutate (h : p.SameConstraints p') (hw : WellFormed p) (hw' : WellFormed p') (hs : ValidSchedule p s)
    (d : Draws K) : Stun.mutate p' d s = Stun.mutate p d s := by
  unfold Stun.mutate updateAgent
  rw [h.trySwap hw hw' hs, h.avail]

section
variable {t t' : Tunneling K} {m m' n : Makespan K} {temp temp' : Temperature K} {d : Draws K}

theorem ScheduleParams.SameConstraints.inv (h : p.SameConstraints p') (hw : WellFormed p) (hw' : WellFormed p') (ht : TunnelInv E p t) :
    TunnelInv E p' t where
  n_eq := by rw [h.taskCount]; exact ht.n_eq
  len := by rw [h.taskCount]; exact ht.len
  best0 := ht.best0
  views := by rw [h.taskCount]; exact ht.views
  bestValid := h.valid ht.bestValid
  curValid := h.valid ht.curValid
  tgtValid := by rw [h.taskCount]; exact fun e => h.valid (ht.tgtValid e)
  lowest := ht.lowest.trans (h.value hw hw' ht.bestValid).symm
  le := ht.le
  s0 := ht.s0
  s1 := ht.s1
  gamma0 := ht.gamma0

theorem ScheduleParams.SameConstraints.getNewNeighbor (h : p.SameConstraints p') (hw : WellFormed p) (hw' : WellFormed p') (ht : TunnelInv E p t)
    (hm : MakespanShape p m) (hm' : MakespanShape p' m') (hu : Stun.getNewNeighbor E p d m t = ok (n, t')) :
    ∃ n', Stun.getNewNeighbor E p' d m' t = ok (n', t') ∧ MakespanShape p' n' := by
  obtain ⟨m₁, t₁, s, h1, -, hN⟩ := getNewNeighbor_ok (E := E) hw ht hm d
  obtain ⟨m₂, t₂, s₂, h2, h3, -⟩ := getNewNeighbor_ok (E := E) hw' (h.inv hw hw' ht) hm' d
  rw [hu] at h1
  cases h1
  refine ⟨m₂, ?_, h3⟩
  rw [h2]
  unfold Stun.getNewNeighbor at hu h2
  obtain ⟨_, -, hu⟩ := bind_eq_ok.1 hu
  obtain ⟨_, -, hu⟩ := bind_eq_ok.1 hu
  obtain ⟨s₃, a1, hu⟩ := bind_eq_ok.1 hu
  obtain ⟨⟨e, k⟩, a2, hu⟩ := bind_eq_ok.1 hu
  obtain ⟨_, -, hu⟩ := bind_eq_ok.1 hu
  obtain ⟨_, -, h2⟩ := bind_eq_ok.1 h2
  obtain ⟨_, -, h2⟩ := bind_eq_ok.1 h2
  obtain ⟨s₄, b1, h2⟩ := bind_eq_ok.1 h2
  obtain ⟨⟨e', k'⟩, b2, h2⟩ := bind_eq_ok.1 h2
  obtain ⟨_, -, h2⟩ := bind_eq_ok.1 h2
  have htgt : t.target + t.n ≤ t.buffer.length := by
    have := ht.n_eq
    have := ht.len
    rcases ht.views with h | h <;> omega
  have hcv : (t.write t.target t.currentSchedule).targetSchedule = t.currentSchedule :=
    view_write_same (by rw [ht.n_eq]; exact ht.curValid.length) htgt
  rw [hcv] at a1 b1
  rw [h.mutate hw hw' ht.curValid, a1] at b1
  cases b1
  obtain rfl : s₃ = s := by
    have := hN.mutated
    rw [a1] at this
    exact ok.inj this
  have hu' := ok.inj hu
  have ev : ((t.write t.target t.currentSchedule).write (t.write t.target t.currentSchedule).target s₃).targetSchedule = s₃ := by
    have e : _ = t' := congrArg Prod.snd hu'
    have := hN.target
    rw [← e] at this
    exact this
  rw [ev] at a2 b2
  obtain ⟨_, c1, -⟩ := call_valid (E := E) hw hm hN.valid
  obtain ⟨_, c2, -⟩ := call_valid (E := E) hw' hm' (h.valid hN.valid)
  rw [c1] at a2
  rw [c2] at b2
  obtain ⟨rfl, -⟩ := Prod.mk.inj (ok.inj a2)
  obtain ⟨rfl, -⟩ := Prod.mk.inj (ok.inj b2)
  rw [h.value hw hw' hN.valid] at h2
  have e1 : _ = t' := congrArg Prod.snd hu'
  have e2 : _ = t₂ := congrArg Prod.snd (ok.inj h2)
  rw [← e1, ← e2]

theorem ScheduleParams.SameConstraints.update (h : p.SameConstraints p') (hw : WellFormed p) (hw' : WellFormed p') (ht : TunnelInv E p t)
    (hm : MakespanShape p m) (hm' : MakespanShape p' m') (hu : tunnelingUpdate E p d m temp t = ok (n, temp', t')) :
    ∃ n', tunnelingUpdate E p' d m' temp t = ok (n', temp', t') := by
  unfold tunnelingUpdate at *
  obtain ⟨_, h1, hu⟩ := bind_eq_ok.1 hu
  obtain ⟨_, h2, hu⟩ := bind_eq_ok.1 hu
  obtain ⟨⟨m₁, t₁⟩, h3, hu⟩ := bind_eq_ok.1 hu
  obtain ⟨⟨b, t₂⟩, h4, hu⟩ := bind_eq_ok.1 hu
  obtain ⟨n', h5, -⟩ := h.getNewNeighbor hw hw' ht hm hm' h3
  rw [h1, ok_bind, h2, ok_bind, h5, ok_bind]
  dsimp only
  rw [h4, ok_bind]
  dsimp only at hu ⊢
  cases b with
  | true =>
    rw [if_pos rfl] at hu ⊢
    cases hu
    exact ⟨_, rfl⟩
  | false =>
    rw [if_neg (by simp)] at hu ⊢
    obtain ⟨⟨temp₁, t₃⟩, h6, hu⟩ := bind_eq_ok.1 hu
    rw [h6, ok_bind]
    cases hu
    exact ⟨_, rfl⟩

end

end Angonoka
