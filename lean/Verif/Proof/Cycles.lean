import Verif.Model.Cycles
import Verif.Spec.Project
import Mathlib.Data.List.Count

/-!
# Cycle detection is correct
-/

namespace Angonoka
open Outcome Load

/-- Task `i` depends on `d`. -/
def Dep (tasks : List Task) (i d : Nat) : Prop := ∃ t, tasks[i]? = some t ∧ d ∈ t.dependencies

/-- Number of vertices not visited yet. -/
def whites (state : List VertexState) : Nat := state.count .notVisited

/-- Invariant of the search: finished vertices are closed under dependencies and not on cycles. -/
structure DfsInv (tasks : List Task) (state : List VertexState) : Prop where
  len : state.length = tasks.length
  closed : ∀ b d, state[b]? = some .complete → Dep tasks b d → state[d]? = some .complete
  acyclic : ∀ b, state[b]? = some .complete → ¬ Relation.TransGen (Dep tasks) b b

/-- How a search changes the state: visited vertices stay as they are, vertices only become complete. -/
structure DfsStep (s s' : List VertexState) : Prop where
  grey : ∀ v : Nat, s'[v]? = some .visited ↔ s[v]? = some .visited
  black : ∀ v : Nat, s[v]? = some .complete → s'[v]? = some .complete
  whites : whites s' ≤ whites s

theorem DfsStep.refl (s : List VertexState) : DfsStep s s := ⟨fun _ => Iff.rfl, fun _ h => h, le_rfl⟩

theorem DfsStep.trans {a b c : List VertexState} (h : DfsStep a b) (h' : DfsStep b c) :
    DfsStep a c :=
  ⟨fun v => (h'.grey v).trans (h.grey v), fun v hv => h'.black v (h.black v hv),
    h'.whites.trans h.whites⟩

theorem whites_set {s : List VertexState} {i : Nat} {x : VertexState}
    (h : s[i]? = some .notVisited) (hx : x ≠ .notVisited) : whites (s.set i x) + 1 = whites s := by
  unfold whites
  obtain ⟨hi, he⟩ := List.getElem?_eq_some_iff.1 h
  have hpos : 0 < s.count .notVisited := List.count_pos_iff.2 (he ▸ List.getElem_mem hi)
  rw [List.count_set hi, he]
  simp [hx]
  omega

theorem whites_set_ne {s : List VertexState} {i : Nat} {x y : VertexState}
    (h : s[i]? = some y) (hy : y ≠ .notVisited) (hx : x ≠ .notVisited) :
    whites (s.set i x) = whites s := by
  unfold whites
  obtain ⟨hi, he⟩ := List.getElem?_eq_some_iff.1 h
  rw [List.count_set hi, he]
  simp [hx, hy]

/-- Everything reachable from a finished vertex is finished. -/
theorem DfsInv.reach {tasks : List Task} {state : List VertexState} (h : DfsInv tasks state)
    {b v : Nat} (hb : state[b]? = some .complete) (hr : Relation.ReflTransGen (Dep tasks) b v) :
    state[v]? = some .complete := by
  induction hr with
  | refl => exact hb
  | tail _ hd ih => exact h.closed _ _ ih hd

mutual
theorem dfs_spec {tasks : List Task} (hin : ∀ i d, Dep tasks i d → d < tasks.length) :
    ∀ (fuel : Nat) (state : List VertexState) (i : Nat), DfsInv tasks state →
      state[i]? = some .notVisited → whites state ≤ fuel →
      (∀ g : Nat, state[g]? = some .visited → Relation.TransGen (Dep tasks) g i) →
      (∃ s', dfs tasks fuel state i = ok s' ∧ DfsInv tasks s' ∧ DfsStep state s' ∧
        s'[i]? = some .complete) ∨
      (dfs tasks fuel state i = throws .dependencyCycle ∧ ∃ v, Relation.TransGen (Dep tasks) v v)
  | 0, state, i, _, hw, hf, _ => by
    exfalso
    have : 0 < whites state := List.count_pos_iff.2 (List.mem_of_getElem? hw)
    omega
  | fuel + 1, state, i, hinv, hw, hf, hg => by
    obtain ⟨hi, he⟩ := List.getElem?_eq_some_iff.1 hw
    have hi' : i < tasks.length := hinv.len ▸ hi
    have hne : tasks ≠ [] := by
      intro h0
      rw [h0] at hi'
      simp at hi'
    have ht : tasks[i]? = some tasks[i] := List.getElem?_eq_getElem hi'
    have hwh := whites_set (x := .visited) hw (by decide)
    unfold dfs
    rw [expects_true (by simpa using hne), ok_bind, expects_true (by simpa using hinv.len.symm), ok_bind,
      expects_true (by simp [hw]), ok_bind]
    simp only [ht]
    -- the state with vertex `i` on the path
    have hset : ∀ v : Nat, (state.set i .visited)[v]? = if i = v then some .visited else state[v]? := by
      intro v
      rw [List.getElem?_set]
      by_cases h : i = v
      · subst h; simp [hi]
      · simp [h]
    have hinv1 : DfsInv tasks (state.set i .visited) := by
      refine ⟨by simp [hinv.len], ?_, ?_⟩
      · intro b d hb hd
        rw [hset] at hb ⊢
        split at hb
        · cases hb
        · have := hinv.closed b d hb hd
          split
          · next hid => subst hid; rw [hw] at this; cases this
          · exact this
      · intro b hb
        rw [hset] at hb
        split at hb
        · cases hb
        · exact hinv.acyclic b hb
    have hg1 : ∀ g : Nat, (state.set i .visited)[g]? = some .visited →
        Relation.ReflTransGen (Dep tasks) g i := by
      intro g hgv
      rw [hset] at hgv
      split at hgv
      · next h => subst h; exact .refl
      · exact (hg g hgv).to_reflTransGen
    rcases dfsDeps_spec hin fuel tasks[i].dependencies (state.set i .visited) i hinv1 (by omega) hg1
      (fun d hd => ⟨_, ht, hd⟩) with ⟨s', h1, h2, h3, h4⟩ | ⟨h1, h2⟩
    · left
      refine ⟨s'.set i .complete, by rw [h1]; rfl, ?_, ?_, ?_⟩
      · have hs'i : s'[i]? = some .visited := (h3.grey i).2 (by rw [hset]; simp)
        have hset' : ∀ v : Nat, (s'.set i .complete)[v]? = if i = v then some .complete else s'[v]? := by
          intro v
          rw [List.getElem?_set]
          by_cases h : i = v
          · subst h; simp [(List.getElem?_eq_some_iff.1 hs'i).1]
          · simp [h]
        have hdeps : ∀ d, Dep tasks i d → s'[d]? = some .complete := by
          rintro d ⟨t, ht', hd⟩
          rw [ht] at ht'
          cases ht'
          exact h4 d hd
        refine ⟨by simp [h2.len], ?_, ?_⟩
        · intro b d hb hd
          rw [hset'] at hb ⊢
          have : s'[d]? = some .complete := by
            split at hb
            · next h => subst h; exact hdeps d hd
            · exact h2.closed b d hb hd
          split
          · rfl
          · exact this
        · intro b hb
          rw [hset'] at hb
          split at hb
          · next h =>
            subst h
            intro hcyc
            obtain ⟨d, hd, hrest⟩ := Relation.TransGen.head'_iff.1 hcyc
            have := h2.reach (hdeps d hd) hrest
            rw [hs'i] at this
            cases this
          · exact h2.acyclic b hb
      · have hs'i : s'[i]? = some .visited := (h3.grey i).2 (by rw [hset]; simp)
        refine ⟨?_, ?_, ?_⟩
        · intro v
          rw [List.getElem?_set]
          by_cases h : i = v
          · subst h
            rw [if_pos rfl, if_pos (List.getElem?_eq_some_iff.1 hs'i).1, hw]
            simp
          · rw [if_neg h, h3.grey v, hset, if_neg h]
        · intro v hv
          rw [List.getElem?_set]
          by_cases h : i = v
          · subst h
            rw [hw] at hv
            cases hv
          · rw [if_neg h]
            exact h3.black v (by rw [hset, if_neg h]; exact hv)
        · rw [whites_set_ne hs'i (by decide) (by decide)]
          have := h3.whites
          omega
      · have hs'i : s'[i]? = some .visited := (h3.grey i).2 (by rw [hset]; simp)
        exact List.getElem?_set_self (List.getElem?_eq_some_iff.1 hs'i).1
    · right
      exact ⟨by rw [h1]; rfl, h2⟩
  termination_by fuel _ _ => (fuel, 0)

theorem dfsDeps_spec {tasks : List Task} (hin : ∀ i d, Dep tasks i d → d < tasks.length) :
    ∀ (fuel : Nat) (deps : List Nat) (state : List VertexState) (i : Nat), DfsInv tasks state →
      whites state ≤ fuel →
      (∀ g : Nat, state[g]? = some .visited → Relation.ReflTransGen (Dep tasks) g i) →
      (∀ d ∈ deps, Dep tasks i d) →
      (∃ s', dfsDeps tasks fuel deps state = ok s' ∧ DfsInv tasks s' ∧ DfsStep state s' ∧
        ∀ d ∈ deps, s'[d]? = some .complete) ∨
      (dfsDeps tasks fuel deps state = throws .dependencyCycle ∧
        ∃ v, Relation.TransGen (Dep tasks) v v)
  | fuel, [], state, i, hinv, _, _, _ => by
    left
    exact ⟨state, by unfold dfsDeps; rfl, hinv, .refl _, by simp⟩
  | fuel, d :: rest, state, i, hinv, hf, hg, hd => by
    have hdi := hd d (by simp)
    have hlt : d < state.length := hinv.len ▸ hin i d hdi
    have hrest : ∀ e ∈ rest, Dep tasks i e := fun e he => hd e (by simp [he])
    unfold dfsDeps
    rw [List.getElem?_eq_getElem hlt]
    cases hs : state[d] with
    | visited =>
      right
      have : state[d]? = some .visited := by rw [List.getElem?_eq_getElem hlt, hs]
      exact ⟨rfl, d, Relation.TransGen.tail' (hg d this) hdi⟩
    | complete =>
      have hsd : state[d]? = some .complete := by rw [List.getElem?_eq_getElem hlt, hs]
      dsimp only
      rcases dfsDeps_spec hin fuel rest state i hinv hf hg hrest with ⟨s', h1, h2, h3, h4⟩ | ⟨h1, h2⟩
      · left
        refine ⟨s', h1, h2, h3, ?_⟩
        intro e he
        rcases List.mem_cons.1 he with rfl | he
        · exact h3.black _ hsd
        · exact h4 e he
      · right
        exact ⟨h1, h2⟩
    | notVisited =>
      have hsd : state[d]? = some .notVisited := by rw [List.getElem?_eq_getElem hlt, hs]
      dsimp only
      rcases dfs_spec hin fuel state d hinv hsd hf (fun g hgv => Relation.TransGen.tail' (hg g hgv) hdi)
        with ⟨s₁, h1, h2, h3, h4⟩ | ⟨h1, h2⟩
      · rw [h1, ok_bind]
        rcases dfsDeps_spec hin fuel rest s₁ i h2 (h3.whites.trans hf)
          (fun g hgv => hg g ((h3.grey g).1 hgv)) hrest with ⟨s', g1, g2, g3, g4⟩ | ⟨g1, g2⟩
        · left
          refine ⟨s', g1, g2, h3.trans g3, ?_⟩
          intro e he
          rcases List.mem_cons.1 he with rfl | he
          · exact g3.black _ h4
          · exact g4 e he
        · right
          exact ⟨g1, g2⟩
      · right
        rw [h1]
        exact ⟨rfl, h2⟩
  termination_by fuel deps => (fuel, deps.length + 1)
end

theorem checkForCyclesLoop_spec {tasks : List Task} (hin : ∀ i d, Dep tasks i d → d < tasks.length) :
    ∀ (k i : Nat) (state : List VertexState), i + k = tasks.length → DfsInv tasks state →
      (∀ v : Nat, state[v]? ≠ some .visited) → (∀ v : Nat, v < i → state[v]? = some .complete) →
      (checkForCyclesLoop tasks k i state = ok () ∧ (∀ v, ¬ Relation.TransGen (Dep tasks) v v) ∧
        (0 < k → tasks.length ≤ 127)) ∨
      (checkForCyclesLoop tasks k i state = throws .dependencyCycle ∧
        ∃ v, Relation.TransGen (Dep tasks) v v) ∨
      (checkForCyclesLoop tasks k i state = throws .range ∧ 127 < tasks.length) := by
  intro k
  induction k with
  | zero =>
    intro i state hik hinv _ hb
    left
    refine ⟨rfl, ?_, by omega⟩
    intro v hv
    have hlt : v < i := by
      obtain ⟨d, ⟨t, ht, _⟩, _⟩ := Relation.TransGen.head'_iff.1 hv
      have := (List.getElem?_eq_some_iff.1 ht).1
      omega
    exact hinv.acyclic v (hb v hlt) hv
  | succ k ih =>
    intro i state hik hinv hnv hb
    have hlt : i < state.length := by rw [hinv.len]; omega
    -- one round
    have hround : (∃ s', visit tasks state i = ok s' ∧ DfsInv tasks s' ∧
          (∀ v : Nat, s'[v]? ≠ some .visited) ∧ (∀ v : Nat, v < i + 1 → s'[v]? = some .complete)) ∨
        (visit tasks state i = throws .dependencyCycle ∧
          ∃ v, Relation.TransGen (Dep tasks) v v) := by
      unfold visit
      rw [List.getElem?_eq_getElem hlt]
      cases hs : state[i] with
      | visited => exact absurd (by rw [List.getElem?_eq_getElem hlt, hs]) (hnv i)
      | complete =>
        left
        refine ⟨state, rfl, hinv, hnv, ?_⟩
        intro v hv
        rcases Nat.lt_succ_iff_lt_or_eq.1 hv with h | rfl
        · exact hb v h
        · rw [List.getElem?_eq_getElem hlt, hs]
      | notVisited =>
        have hsi : state[i]? = some .notVisited := by rw [List.getElem?_eq_getElem hlt, hs]
        dsimp only
        have hfuel : whites state ≤ tasks.length := by
          rw [← hinv.len]
          exact List.count_le_length
        rcases dfs_spec hin tasks.length state i hinv hsi hfuel (fun g hg => absurd hg (hnv g))
          with ⟨s', h1, h2, h3, h4⟩ | h
        · left
          refine ⟨s', h1, h2, fun v hv => hnv v ((h3.grey v).1 hv), ?_⟩
          intro v hv
          rcases Nat.lt_succ_iff_lt_or_eq.1 hv with h | rfl
          · exact h3.black v (hb v h)
          · exact h4
        · right
          exact h
    unfold checkForCyclesLoop
    rcases hround with ⟨s', h1, h2, h3, h4⟩ | ⟨h1, h2⟩
    · rw [h1, ok_bind]
      unfold toInt8
      by_cases h127 : i + 1 ≤ 127
      · rw [if_pos h127, ok_bind]
        rcases ih (i + 1) s' (by omega) h2 h3 h4 with ⟨g1, g2, g3⟩ | g | g
        · left
          refine ⟨g1, g2, fun _ => ?_⟩
          by_cases hk : 0 < k
          · exact g3 hk
          · omega
        · right; left; exact g
        · right; right; exact g
      · rw [if_neg h127, throws_bind]
        right; right
        exact ⟨rfl, by omega⟩
    · rw [h1, throws_bind]
      right; left
      exact ⟨rfl, h2⟩

/-- Outcome of cycle detection for any task list with valid indices. -/
theorem checkForCycles_spec {tasks : List Task} (hne : tasks ≠ [])
    (hin : ∀ i d, Dep tasks i d → d < tasks.length) :
    (checkForCycles tasks = ok () ∧ (∀ v, ¬ Relation.TransGen (Dep tasks) v v) ∧
      tasks.length ≤ 127) ∨
    (checkForCycles tasks = throws .dependencyCycle ∧ ∃ v, Relation.TransGen (Dep tasks) v v) ∨
    (checkForCycles tasks = throws .range ∧ 127 < tasks.length) := by
  unfold checkForCycles
  rw [expects_true (by simpa using hne), ok_bind]
  have hst : ∀ (v : Nat) (x : VertexState), (List.replicate tasks.length VertexState.notVisited)[v]? = some x →
      x = .notVisited := by
    intro v x h
    exact (List.mem_replicate.1 (List.mem_of_getElem? h)).2
  rcases checkForCyclesLoop_spec hin tasks.length 0 (List.replicate tasks.length .notVisited)
    (by omega) ⟨by simp, fun b d hb => absurd (hst b _ hb) (by decide), fun b hb => absurd (hst b _ hb) (by decide)⟩
    (fun v hv => absurd (hst v _ hv) (by decide)) (by simp) with ⟨h1, h2, h3⟩ | h | h
  · left
    exact ⟨h1, h2, h3 (List.length_pos_iff.2 hne)⟩
  · right; left; exact h
  · right; right; exact h

end Angonoka
