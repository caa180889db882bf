import Verif.Proof.Makespan
import Verif.Model.Mutator

/-!
# Mutation: preservation of validity, reachability
-/

set_option linter.unusedSectionVars false

namespace Angonoka
open Outcome Stun

variable {K : Type} [Field K] [LinearOrder K] [IsStrictOrderedRing K]

/-! ### Binary search -/

theorem lowerBound_spec {l : List Nat} (hs : l.Pairwise (· < ·)) (x first count : Nat)
    (hlen : first + count ≤ l.length)
    (hlo : ∀ j (h : j < l.length), j < first → l[j] < x)
    (hhi : ∀ j (h : j < l.length), first + count ≤ j → x ≤ l[j]) :
    (∀ j (h : j < l.length), j < lowerBound l x first count → l[j] < x) ∧
    (∀ j (h : j < l.length), lowerBound l x first count ≤ j → x ≤ l[j]) := by
  induction count using Nat.strong_induction_on generalizing first with
  | _ count ih =>
    rw [lowerBound]
    split
    · next h0 =>
      subst h0
      exact ⟨hlo, by simpa using hhi⟩
    · next h0 =>
      have hmid : first + count / 2 < l.length := by omega
      have hget : l.getD (first + count / 2) 0 = l[first + count / 2] := by simp [hmid]
      dsimp only
      rw [hget]
      have hmono : ∀ i j (hi : i < l.length) (hj : j < l.length), i ≤ j → l[i] ≤ l[j] := by
        intro i j hi hj hij
        rcases Nat.lt_or_ge i j with h | h
        · exact le_of_lt (List.pairwise_iff_getElem.1 hs i j hi hj h)
        · have : i = j := by omega
          subst this
          exact le_rfl
      split
      · next hlt =>
        apply ih (count - count / 2 - 1) (by omega)
        · omega
        · intro j hj hjm
          exact lt_of_le_of_lt (hmono j _ hj hmid (by omega)) hlt
        · intro j hj hjm
          exact hhi j hj (by omega)
      · next hge =>
        apply ih (count / 2) (by omega)
        · omega
        · exact hlo
        · intro j hj hjm
          exact le_trans (by omega) (hmono _ j hmid hj hjm)

theorem binarySearch_iff {l : List Nat} (hs : l.Pairwise (· < ·)) (x : Nat) :
    binarySearch l x = true ↔ x ∈ l := by
  obtain ⟨h1, h2⟩ := lowerBound_spec hs x 0 l.length (by omega) (by intros; omega)
    (by intros; omega)
  unfold binarySearch
  rcases Nat.lt_or_ge (lowerBound l x 0 l.length) l.length with h | h
  · rw [List.getElem?_eq_getElem h]
    simp only [Bool.not_eq_true', decide_eq_false_iff_not, not_lt]
    constructor
    · intro hle
      have := h2 _ h le_rfl
      have heq : l[lowerBound l x 0 l.length] = x := by omega
      rw [← heq]
      exact List.getElem_mem h
    · intro hx
      obtain ⟨j, hj, hjx⟩ := List.getElem_of_mem hx
      rcases Nat.lt_or_ge j (lowerBound l x 0 l.length) with hlt | hge
      · have := h1 j hj hlt
        omega
      · rcases Nat.lt_or_ge (lowerBound l x 0 l.length) j with hlt | hge'
        · have := List.pairwise_iff_getElem.1 hs _ j h hj hlt
          omega
        · have : j = lowerBound l x 0 l.length := by omega
          subst this
          omega
  · rw [List.getElem?_eq_none h]
    simp only [Bool.false_eq_true, false_iff]
    intro hx
    obtain ⟨j, hj, hjx⟩ := List.getElem_of_mem hx
    have := h1 j hj (by omega)
    omega

/-! ### Validity of the two edits -/

theorem decompose {α : Type} {s : List α} {i : Nat} (h : i < s.length) :
    s = s.take i ++ s[i] :: s.drop (i + 1) := by
  rw [← List.drop_eq_getElem_cons h, List.take_append_drop]

theorem ValidSchedule.swap {p : ScheduleParams K} {pre post : List Item} {a b : Item}
    (h : ValidSchedule p (pre ++ b :: a :: post)) (hab : b.task ∉ p.deps a.task) :
    ValidSchedule p (pre ++ a :: b :: post) where
  complete := by
    refine List.Perm.trans ?_ h.complete
    simp only [List.map_append, List.map_cons]
    exact List.Perm.append_left _ (List.Perm.swap _ _ _)
  ordered := by
    intro l it l' heq d hd
    rw [List.append_eq_append_iff] at heq
    rcases heq with ⟨m, rfl, h2⟩ | ⟨m, h1, h2⟩
    · match m with
      | [] =>
        simp only [List.nil_append, List.cons.injEq] at h2
        obtain ⟨rfl, rfl⟩ := h2
        have := h.ordered (pre ++ [b]) a post (by simp) d hd
        rw [List.map_append, List.mem_append] at this
        rcases this with h' | h'
        · simpa using h'
        · simp only [List.map_cons, List.map_nil, List.mem_singleton] at h'
          exact absurd (h' ▸ hd) hab
      | [x] =>
        simp only [List.cons_append, List.nil_append, List.cons.injEq] at h2
        obtain ⟨rfl, rfl, rfl⟩ := h2
        have := h.ordered pre b (a :: post) rfl d hd
        rw [List.map_append, List.mem_append]
        exact Or.inl this
      | x :: y :: m =>
        simp only [List.cons_append, List.cons.injEq] at h2
        obtain ⟨rfl, rfl, h2⟩ := h2
        have := h.ordered (pre ++ b :: a :: m) it l' (by rw [h2]; simp) d hd
        simp only [List.map_append, List.map_cons, List.mem_append, List.mem_cons] at this ⊢
        tauto
    · cases m with
      | nil =>
        simp only [List.nil_append, List.cons.injEq] at h2
        obtain ⟨rfl, rfl⟩ := h2
        rw [List.append_nil] at h1
        subst h1
        have := h.ordered (pre ++ [b]) it post (by simp) d hd
        rw [List.map_append, List.mem_append] at this
        rcases this with h' | h'
        · exact h'
        · simp only [List.map_cons, List.map_nil, List.mem_singleton] at h'
          exact absurd (h' ▸ hd) hab
      | cons x m =>
        simp only [List.cons_append, List.cons.injEq] at h2
        obtain ⟨rfl, rfl⟩ := h2
        exact h.ordered l it (m ++ b :: a :: post) (by rw [h1]; simp) d hd
  eligible := by
    intro it hit
    apply h.eligible
    simp only [List.mem_append, List.mem_cons] at hit ⊢
    tauto

theorem ValidSchedule.setAgent {p : ScheduleParams K} {pre post : List Item} {it : Item} {g : Nat}
    (h : ValidSchedule p (pre ++ it :: post)) (hg : g ∈ p.avail it.task) :
    ValidSchedule p (pre ++ { it with agent := g } :: post) := by
  have hmap : (pre ++ { it with agent := g } :: post).map Item.task
      = (pre ++ it :: post).map Item.task := by simp
  refine ⟨by rw [hmap]; exact h.complete, ?_, ?_⟩
  · intro l x l' heq d hd
    -- the same decomposition of the old schedule
    have hlen : l.length < (pre ++ it :: post).length := by
      have := congrArg List.length heq
      simp at this ⊢
      omega
    have hdec := decompose hlen
    have htask : (pre ++ it :: post)[l.length].task = x.task := by
      have h1 : ((pre ++ { it with agent := g } :: post).map Item.task)[l.length]?
          = some x.task := by
        rw [heq]
        simp
      rw [hmap, List.getElem?_map, List.getElem?_eq_getElem hlen] at h1
      simpa using h1
    have := h.ordered _ _ _ hdec d (by rw [htask]; exact hd)
    rw [List.map_take, ← hmap, heq, ← List.map_take] at this
    simpa using this
  · intro x hx
    simp only [List.mem_append, List.mem_cons] at hx
    rcases hx with hx | rfl | hx
    · exact h.eligible x (by simp [hx])
    · exact hg
    · exact h.eligible x (by simp [hx])

/-! ### The mutator's steps -/

theorem uniformInt_ok {raw : Nat} {n : Nat} : uniformInt raw (n : Int) = ok (raw % (n + 1)) := by
  simp [uniformInt, expects]

theorem set_append_cons {α : Type} (pre post : List α) (a b : α) :
    (pre ++ a :: post).set pre.length b = pre ++ b :: post := by simp

theorem swapAt_eq (pre post : List Item) (a b : Item) :
    swapAt (pre ++ b :: a :: post) (1 + pre.length) a b = pre ++ a :: b :: post := by
  unfold swapAt
  have h1 : (pre ++ b :: a :: post).set (1 + pre.length) b = pre ++ b :: b :: post := by
    have := set_append_cons (pre ++ [b]) post a b
    simp only [List.append_assoc, List.cons_append, List.nil_append, List.length_append,
      List.length_cons, List.length_nil] at this
    rw [Nat.add_comm 1]
    exact this
  rw [h1, Nat.add_sub_cancel_left, set_append_cons]

/-- One swap attempt at a given position. -/
theorem trySwap_at {p : ScheduleParams K} (hw : WellFormed p) {pre post : List Item} {a b : Item}
    (hs : ValidSchedule p (pre ++ b :: a :: post)) {raw : Nat}
    (hraw : raw % (pre.length + post.length + 1) = pre.length) :
    trySwap p raw (pre ++ b :: a :: post) =
      ok (if b.task ∈ p.deps a.task then pre ++ b :: a :: post else pre ++ a :: b :: post) := by
  have hne : a.task ≠ b.task := by
    have := hs.nodup
    rw [List.map_append, List.nodup_append] at this
    have := this.2.1
    simp only [List.map_cons, List.nodup_cons, List.mem_cons, not_or] at this
    exact fun h => this.1.1 h.symm
  have hat := hs.task_lt (it := a) (by simp)
  have hbt := hs.task_lt (it := b) (by simp)
  unfold trySwap
  rw [expects_true (by simp), ok_bind, if_neg (by simp; omega)]
  have hlen : ((pre ++ b :: a :: post).length : Int) - 2 = ((pre.length + post.length : Nat) : Int) := by
    simp
    omega
  rw [hlen, uniformInt_ok, ok_bind, hraw]
  dsimp only
  rw [(at?_eq_ok (x := a)).2, ok_bind, (at?_eq_ok (x := b)).2, ok_bind]
  · unfold isSwappable
    rw [expects_true (by simpa [hw.deps_size] using hat), ok_bind,
      expects_true (by simpa [hw.deps_size] using hbt), ok_bind,
      expects_true (by simpa using hne), ok_bind]
    have hbs := binarySearch_iff (hw.deps_sorted a.task hat) b.task
    by_cases hmem : b.task ∈ p.deps a.task
    · have : binarySearch (p.dependencies.row a.task) b.task = true := hbs.2 hmem
      simp [this, hmem]
    · have : binarySearch (p.dependencies.row a.task) b.task = false := by
        rw [← Bool.not_eq_true]
        exact fun h => hmem (hbs.1 h)
      simp [this, hmem, swapAt_eq]
  · simp
  · rw [List.getElem?_append_right (by omega)]
    simp

theorem trySwap_ok {p : ScheduleParams K} (hw : WellFormed p) {s : List Item}
    (hs : ValidSchedule p s) (raw : Nat) :
    ∃ s', trySwap p raw s = ok s' ∧ ValidSchedule p s' ∧ (s' = s ∨
      ∃ pre post a b, s = pre ++ b :: a :: post ∧ b.task ∉ p.deps a.task ∧
        s' = pre ++ a :: b :: post) := by
  rcases Nat.lt_or_ge s.length 2 with h2 | h2
  · have hlen := hs.length
    have := hw.tasks_pos
    have h1 : s.length = 1 := by omega
    refine ⟨s, ?_, hs, Or.inl rfl⟩
    unfold trySwap
    rw [expects_true (by rw [Bool.not_eq_true', List.isEmpty_eq_false_iff]; rintro rfl; simp at h1),
      ok_bind, if_pos h1]
    rfl
  · obtain ⟨i, hi⟩ : ∃ i, i = raw % (s.length - 2 + 1) := ⟨_, rfl⟩
    have hil : i < s.length - 2 + 1 := by rw [hi]; exact Nat.mod_lt _ (by omega)
    have hi1 : i + 1 < s.length := by omega
    have hdec : s = s.take i ++ s[i] :: s[i + 1] :: s.drop (i + 2) := by
      conv_lhs => rw [decompose (s := s) (i := i) (by omega), List.drop_eq_getElem_cons hi1]
    have htake : (s.take i).length = i := by simp; omega
    have hdrop : (s.drop (i + 2)).length = s.length - (i + 2) := by simp
    rw [hdec] at hs
    have := trySwap_at hw hs (raw := raw) (by rw [htake, hdrop, show i + (s.length - (i + 2)) + 1 = s.length - 2 + 1 by omega, ← hi])
    rw [← hdec] at this
    rw [this]
    split
    · refine ⟨s, rfl, ?_, Or.inl rfl⟩
      rw [hdec]; exact hs
    · next hn =>
      exact ⟨_, rfl, hs.swap hn, Or.inr ⟨_, _, _, _, hdec, hn, rfl⟩⟩

/-- One agent update at a given position. -/
theorem updateAgent_at {p : ScheduleParams K} (hw : WellFormed p) {pre post : List Item} {it : Item}
    (hs : ValidSchedule p (pre ++ it :: post)) {rt ra : Nat}
    (hrt : rt % (pre.length + post.length + 1) = pre.length) {g : Nat}
    (hg : (p.avail it.task)[ra % (p.avail it.task).length]? = some g) :
    updateAgent p rt ra (pre ++ it :: post) = ok (pre ++ { it with agent := g } :: post) := by
  have hlen := hs.length
  have hit := hs.task_lt (it := it) (by simp)
  unfold updateAgent
  rw [expects_true (by simp), ok_bind, expects_true (by rw [hlen, hw.avail_size]; simp), ok_bind]
  have h1 : ((pre ++ it :: post).length : Int) - 1 = ((pre.length + post.length : Nat) : Int) := by
    simp
    omega
  rw [h1, uniformInt_ok, ok_bind, hrt, (at?_eq_ok (x := it)).2 (by simp), ok_bind,
    expects_true (by rw [hw.avail_size]; simpa using hit), ok_bind]
  dsimp only
  have hpos : 0 < (p.avail it.task).length := by
    have := hw.avail_ne it.task hit
    exact List.length_pos_iff.2 this
  have h2 : ((p.availableAgents.row it.task).length : Int) - 1
      = (((p.avail it.task).length - 1 : Nat) : Int) := by
    have : (p.availableAgents.row it.task) = p.avail it.task := rfl
    rw [this]
    omega
  rw [h2, uniformInt_ok, ok_bind, Nat.sub_add_cancel hpos,
    show p.availableAgents.row it.task = p.avail it.task from rfl, at?_eq_ok.2 hg, ok_bind]
  simp

theorem updateAgent_ok {p : ScheduleParams K} (hw : WellFormed p) {s : List Item}
    (hs : ValidSchedule p s) (rt ra : Nat) :
    ∃ s', updateAgent p rt ra s = ok s' ∧ ValidSchedule p s' ∧
      ∃ pre it post g, s = pre ++ it :: post ∧ g ∈ p.avail it.task ∧
        s' = pre ++ { it with agent := g } :: post := by
  have hlen := hs.length
  have hpos := hw.tasks_pos
  obtain ⟨i, hi⟩ : ∃ i, i = rt % s.length := ⟨_, rfl⟩
  have hil : i < s.length := by rw [hi]; exact Nat.mod_lt _ (by omega)
  have hdec := decompose hil
  have hit := hs.task_lt (List.getElem_mem hil)
  have hapos : 0 < (p.avail s[i].task).length := List.length_pos_iff.2 (hw.avail_ne _ hit)
  have hal : ra % (p.avail s[i].task).length < (p.avail s[i].task).length := Nat.mod_lt _ hapos
  have hs' := hs
  rw [hdec] at hs'
  have hg : (p.avail s[i].task)[ra % (p.avail s[i].task).length] ∈ p.avail s[i].task :=
    List.getElem_mem hal
  have := updateAgent_at hw hs' (rt := rt) (ra := ra)
    (by
      have h1 : (s.take i).length = i := by simp; omega
      have h2 : (s.drop (i + 1)).length = s.length - (i + 1) := by simp
      rw [h1, h2, show i + (s.length - (i + 1)) + 1 = s.length by omega, ← hi])
    (List.getElem?_eq_getElem hal)
  rw [← hdec] at this
  exact ⟨_, this, hs'.setAgent hg, _, _, _, _, hdec, hg, rfl⟩

theorem mutate_ok {p : ScheduleParams K} (hw : WellFormed p) {s : List Item}
    (hs : ValidSchedule p s) (d : Draws K) :
    ∃ s', mutate p d s = ok s' ∧ ValidSchedule p s' := by
  obtain ⟨s₁, h1, h2, _⟩ := trySwap_ok hw hs d.swap
  obtain ⟨s₂, h3, h4, _⟩ := updateAgent_ok hw h2 d.task d.agent
  refine ⟨s₂, ?_, h4⟩
  unfold mutate
  have hne : s ≠ [] := by
    rintro rfl
    have := hs.length
    have := hw.tasks_pos
    simp at *
    omega
  rw [expects_true (by simpa using hne), ok_bind, h1, ok_bind, h3]

/-! ### Reachability -/

/-- One mutation leads from `s` to `t`. -/
def MutStep (p : ScheduleParams K) (s t : List Item) : Prop := ∃ d : Draws K, mutate p d s = ok t

theorem mutate_swap {p : ScheduleParams K} (hw : WellFormed p) {pre post : List Item} {a b : Item}
    (hs : ValidSchedule p (pre ++ b :: a :: post)) (hab : b.task ∉ p.deps a.task)
    {pre' post' : List Item} {it : Item} (heq : pre ++ a :: b :: post = pre' ++ it :: post')
    {g : Nat} (hg : g ∈ p.avail it.task) :
    MutStep p (pre ++ b :: a :: post) (pre' ++ { it with agent := g } :: post') := by
  obtain ⟨k, hk, hkg⟩ := List.getElem_of_mem hg
  refine ⟨⟨pre.length, pre'.length, k, 0⟩, ?_⟩
  unfold mutate
  rw [expects_true (by simp), ok_bind, trySwap_at hw hs (Nat.mod_eq_of_lt (by omega)),
    ok_bind, if_neg hab, heq]
  have hv := hs.swap hab
  rw [heq] at hv
  apply updateAgent_at hw hv (Nat.mod_eq_of_lt (by omega))
  dsimp only
  rw [Nat.mod_eq_of_lt hk, List.getElem?_eq_getElem hk, hkg]

/-- A swap without any other change. -/
theorem mutate_pure_swap {p : ScheduleParams K} (hw : WellFormed p) {pre post : List Item}
    {a b : Item} (hs : ValidSchedule p (pre ++ b :: a :: post)) (hab : b.task ∉ p.deps a.task) :
    MutStep p (pre ++ b :: a :: post) (pre ++ a :: b :: post) := by
  have h := mutate_swap hw hs hab (pre' := pre) (it := a) (post' := b :: post) rfl
    (hs.eligible a (by simp))
  exact h

/-- A change of one agent, in at most two mutations. -/
theorem mutate_agent {p : ScheduleParams K} (hw : WellFormed p) {pre post : List Item} {it : Item}
    (hs : ValidSchedule p (pre ++ it :: post)) {g : Nat} (hg : g ∈ p.avail it.task) :
    Relation.ReflTransGen (MutStep p) (pre ++ it :: post)
      (pre ++ { it with agent := g } :: post) := by
  rcases Nat.lt_or_ge (pre ++ it :: post).length 2 with h2 | h2
  · -- a single task
    have hpre : pre = [] := List.length_eq_zero_iff.1 (by simp at h2; omega)
    have hpost : post = [] := List.length_eq_zero_iff.1 (by simp at h2; omega)
    subst hpre hpost
    obtain ⟨k, hk, hkg⟩ := List.getElem_of_mem hg
    refine .single ⟨⟨0, 0, k, 0⟩, ?_⟩
    unfold mutate
    have h1 : trySwap p 0 ([] ++ [it]) = ok ([] ++ [it]) := by
      simp [trySwap, expects]
    rw [expects_true (by simp), ok_bind, h1, ok_bind]
    apply updateAgent_at hw hs (by simp)
    dsimp only
    rw [Nat.mod_eq_of_lt hk, List.getElem?_eq_getElem hk, hkg]
  · -- the first two tasks
    obtain ⟨x, y, l, hl⟩ : ∃ x y l, pre ++ it :: post = x :: y :: l := by
      match h : pre ++ it :: post, h2 with
      | x :: y :: l, _ => exact ⟨x, y, l, rfl⟩
    by_cases hxy : x.task ∈ p.deps y.task
    · -- no swap happens
      obtain ⟨k, hk, hkg⟩ := List.getElem_of_mem hg
      refine .single ⟨⟨0, pre.length, k, 0⟩, ?_⟩
      have hs' := hs
      rw [hl, ← List.nil_append (x :: y :: l)] at hs'
      unfold mutate
      have h1 : trySwap p 0 (pre ++ it :: post) = ok (pre ++ it :: post) := by
        rw [hl]
        have := trySwap_at hw hs' (raw := 0) (by simp)
        rw [if_pos hxy] at this
        exact this
      rw [expects_true (by simp), ok_bind, h1, ok_bind]
      apply updateAgent_at hw hs (Nat.mod_eq_of_lt (by omega))
      dsimp only
      rw [Nat.mod_eq_of_lt hk, List.getElem?_eq_getElem hk, hkg]
    · -- swap, then swap back and change the agent
      have hs' := hs
      rw [hl, ← List.nil_append (x :: y :: l)] at hs'
      have hyx : y.task ∉ p.deps x.task := by
        intro h
        have := hs'.ordered [] x (y :: l) rfl _ h
        simp at this
      have step1 := mutate_pure_swap hw hs' hxy
      have step2 := mutate_swap hw (hs'.swap hxy) hyx (pre' := pre) (it := it) (post' := post)
        (by rw [hl]; rfl) hg
      rw [hl]
      exact .head step1 (.single step2)

theorem MutStep.valid {p : ScheduleParams K} (hw : WellFormed p) {s t : List Item}
    (h : MutStep p s t) (hs : ValidSchedule p s) : ValidSchedule p t := by
  obtain ⟨d, hd⟩ := h
  obtain ⟨s', h1, h2⟩ := mutate_ok hw hs d
  rw [hd] at h1
  cases h1
  exact h2

theorem MutStep.valid_star {p : ScheduleParams K} (hw : WellFormed p) {s t : List Item}
    (h : Relation.ReflTransGen (MutStep p) s t) (hs : ValidSchedule p s) : ValidSchedule p t := by
  induction h with
  | refl => exact hs
  | tail _ h ih => exact h.valid hw ih

/-- Moving an item to the left past items it does not need. -/
theorem mutate_move {p : ScheduleParams K} (hw : WellFormed p) {c u v : List Item} {y : Item}
    (hs : ValidSchedule p (c ++ (u ++ y :: v))) (hu : ∀ z ∈ u, z.task ∉ p.deps y.task) :
    Relation.ReflTransGen (MutStep p) (c ++ (u ++ y :: v)) (c ++ (y :: (u ++ v))) := by
  induction u using List.reverseRecOn generalizing v with
  | nil => exact .refl
  | append_singleton u z ih =>
    have h1 : c ++ (u ++ [z] ++ y :: v) = (c ++ u) ++ z :: y :: v := by simp
    have hz := hu z (by simp)
    rw [h1] at hs ⊢
    have step := mutate_pure_swap hw hs hz
    have hs' := hs.swap hz
    have h2 : (c ++ u) ++ y :: z :: v = c ++ (u ++ y :: (z :: v)) := by simp
    rw [h2] at hs' step
    have := ih hs' (fun x hx => hu x (by simp [hx]))
    refine .head step ?_
    simpa using this

theorem mutate_connected_aux {p : ScheduleParams K} (hw : WellFormed p) (t : List Item) :
    ∀ (c s : List Item), ValidSchedule p (c ++ s) → ValidSchedule p (c ++ t) →
      Relation.ReflTransGen (MutStep p) (c ++ s) (c ++ t) := by
  induction t with
  | nil =>
    intro c s hs ht
    have h1 := hs.length
    have h2 := ht.length
    have : s = [] := List.length_eq_zero_iff.1 (by simp at h1 h2; omega)
    rw [this]
  | cons x t ih =>
    intro c s hs ht
    -- find the task of `x` in `s`
    have hx : x.task ∈ (c ++ s).map Item.task := by
      have := ht.complete.mem_iff.1 (List.mem_map_of_mem (f := Item.task) (a := x) (by simp))
      exact hs.complete.mem_iff.2 this
    have hnot : x.task ∉ c.map Item.task := by
      have := ht.nodup
      rw [List.map_append, List.nodup_append] at this
      intro hmem
      exact this.2.2 _ hmem _ (by simp) rfl
    rw [List.map_append, List.mem_append] at hx
    obtain ⟨y, hy, hyx⟩ := List.mem_map.1 (hx.resolve_left hnot)
    obtain ⟨u, v, rfl⟩ := List.append_of_mem hy
    have hdeps : ∀ z ∈ u, z.task ∉ p.deps y.task := by
      intro z hz hmem
      rw [hyx] at hmem
      have hc := ht.ordered c x t rfl _ hmem
      have := hs.nodup
      rw [List.map_append, List.nodup_append] at this
      exact this.2.2 _ hc _ (List.mem_map_of_mem (f := Item.task) (a := z) (by simp [hz])) rfl
    have step1 := mutate_move hw hs hdeps
    have hs1 := MutStep.valid_star hw step1 hs
    have hg : x.agent ∈ p.avail y.task := by
      rw [hyx]
      exact ht.eligible x (by simp)
    have step2 := mutate_agent hw hs1 hg
    have hxy : ({ y with agent := x.agent } : Item) = x := by
      cases x
      cases y
      simp_all
    rw [hxy] at step2
    have hs2 := MutStep.valid_star hw step2 hs1
    have := ih (c ++ [x]) (u ++ v) (by simpa using hs2) (by simpa using ht)
    refine (step1.trans step2).trans ?_
    simpa using this

end Angonoka
