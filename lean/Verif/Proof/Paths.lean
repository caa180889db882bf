import Mathlib.Data.List.Basic
import Mathlib.Tactic.ByContra
import Verif.Spec.Loading

/-!
# The preorder list of the tasks of a document
-/

namespace Angonoka.Doc
open Angonoka

/-- The subtasks written in a task. -/
def subs (n : Yaml) : List Yaml :=
  match n.get "subtasks" with
  | some (.seq l) => l
  | _ => []

theorem tasksAt_eq (path : List Nat) (n : Yaml) :
    tasksAt path n = (path, n) :: listAt path 0 (subs n) := by
  rw [tasksAt, subs]
  split
  · rename_i l h
    rw [h]
  · rename_i h
    split
    · rename_i l h'
      exact absurd h' (h l)
    · rw [listAt]

theorem sizeOf_subs (n : Yaml) : sizeOf (subs n) < sizeOf n ∨ subs n = [] := by
  unfold subs
  split
  · rename_i l h
    have := Yaml.sizeOf_get h
    simp only [Yaml.seq.sizeOf_spec] at this
    left
    omega
  · exact Or.inr rfl

theorem append_lt_append (p a b : List Nat) (h : a < b) : p ++ a < p ++ b := by
  induction p with
  | nil => exact h
  | cons x p ih =>
    rw [List.cons_append, List.cons_append, List.cons_lt_cons_iff]
    exact Or.inr ⟨rfl, ih⟩

theorem self_lt_append (p : List Nat) (m : Nat) (x : List Nat) : p < p ++ m :: x := by
  have := append_lt_append p [] (m :: x) (List.nil_lt_cons _ _)
  rwa [List.append_nil] at this

/-- Form and order of the paths. -/
theorem paths_aux (N : Nat) :
    (∀ n : Yaml, sizeOf n < N → ∀ path,
      (∀ q ∈ tasksAt path n, ∃ x, q.1 = path ++ x) ∧
      (tasksAt path n).Pairwise (fun a b => a.1 < b.1)) ∧
    (∀ l : List Yaml, sizeOf l < N → ∀ path k,
      (∀ q ∈ listAt path k l, ∃ m x, k ≤ m ∧ q.1 = path ++ m :: x) ∧
      (listAt path k l).Pairwise (fun a b => a.1 < b.1)) := by
  induction N with
  | zero => exact ⟨fun _ h => absurd h (by omega), fun _ h => absurd h (by omega)⟩
  | succ N ih =>
    have hlist : ∀ l : List Yaml, sizeOf l < N + 1 → ∀ path k,
        (∀ q ∈ listAt path k l, ∃ m x, k ≤ m ∧ q.1 = path ++ m :: x) ∧
        (listAt path k l).Pairwise (fun a b => a.1 < b.1) := by
      intro l hl path k
      cases l with
      | nil =>
        rw [listAt]
        exact ⟨by simp, List.Pairwise.nil⟩
      | cons n rest =>
        simp only [List.cons.sizeOf_spec] at hl
        rw [listAt]
        obtain ⟨a1, a2⟩ := ih.1 n (by omega) (path ++ [k])
        obtain ⟨b1, b2⟩ := ih.2 rest (by omega) path (k + 1)
        refine ⟨?_, ?_⟩
        · intro q hq
          rcases List.mem_append.1 hq with hq | hq
          · obtain ⟨x, hx⟩ := a1 q hq
            exact ⟨k, x, le_refl _, by simpa using hx⟩
          · obtain ⟨m, x, h1, h2⟩ := b1 q hq
            exact ⟨m, x, by omega, h2⟩
        · rw [List.pairwise_append]
          refine ⟨a2, b2, ?_⟩
          intro q hq r hr
          obtain ⟨x, hx⟩ := a1 q hq
          obtain ⟨m, y, h1, h2⟩ := b1 r hr
          rw [hx, h2, List.append_assoc]
          refine append_lt_append _ _ _ ?_
          rw [List.singleton_append, List.cons_lt_cons_iff]
          exact Or.inl (by omega)
    refine ⟨?_, hlist⟩
    intro n hn path
    rw [tasksAt_eq]
    have hs : sizeOf (subs n) < N + 1 := by
      rcases sizeOf_subs n with h | h
      · omega
      · rw [h]
        have : 0 < sizeOf n := by cases n <;> simp
        simp
        omega
    obtain ⟨b1, b2⟩ := hlist (subs n) hs path 0
    refine ⟨?_, ?_⟩
    · intro q hq
      rcases List.mem_cons.1 hq with rfl | hq
      · exact ⟨[], by simp⟩
      · obtain ⟨m, x, -, h⟩ := b1 q hq
        exact ⟨_, h⟩
    · rw [List.pairwise_cons]
      refine ⟨?_, b2⟩
      intro q hq
      obtain ⟨m, x, -, h⟩ := b1 q hq
      rw [h]
      exact self_lt_append _ _ _

theorem tasks_pairwise (root : Yaml) : (tasks root).Pairwise (fun a b => a.1 < b.1) := by
  unfold tasks
  split
  · rename_i l _
    exact ((paths_aux (sizeOf l + 1)).2 l (by omega) [] 0).2
  · exact List.Pairwise.nil

theorem tasks_lt {root : Yaml} {i j : Nat} {a b : List Nat × Yaml}
    (hi : (tasks root)[i]? = some a) (hj : (tasks root)[j]? = some b) (h : i < j) : a.1 < b.1 := by
  obtain ⟨hi', rfl⟩ := List.getElem?_eq_some_iff.1 hi
  obtain ⟨hj', rfl⟩ := List.getElem?_eq_some_iff.1 hj
  exact List.pairwise_iff_getElem.1 (tasks_pairwise root) i j hi' hj' h

/-- Different tasks have different paths. -/
theorem tasks_path_inj {root : Yaml} {i j : Nat} {a b : List Nat × Yaml}
    (hi : (tasks root)[i]? = some a) (hj : (tasks root)[j]? = some b) (h : a.1 = b.1) : i = j := by
  rcases Nat.lt_trichotomy i j with h' | h' | h'
  · have := tasks_lt hi hj h'
    rw [h] at this
    exact absurd this (List.lt_irrefl _)
  · exact h'
  · have := tasks_lt hj hi h'
    rw [h] at this
    exact absurd this (List.lt_irrefl _)

/-- `d` is a direct subtask of `i`. -/
def Child (root : Yaml) (i d : Nat) : Prop :=
  ∃ qi qd, (tasks root)[i]? = some qi ∧ (tasks root)[d]? = some qd ∧ SubtaskPath qi.1 qd.1

/-- Subtasks come after their parent. -/
theorem child_lt {root : Yaml} {i d : Nat} (h : Child root i d) : i < d := by
  obtain ⟨qi, qd, hi, hd, k, hk⟩ := h
  have hlt : qi.1 < qd.1 := by
    rw [hk]
    exact self_lt_append _ _ _
  rcases Nat.lt_trichotomy i d with h' | h' | h'
  · exact h'
  · subst h'
    rw [hi] at hd
    cases hd
    exact absurd hlt (List.lt_irrefl _)
  · exact absurd (tasks_lt hd hi h') (List.lt_asymm hlt)

/-- A task has at most one parent. -/
theorem child_unique {root : Yaml} {i j d : Nat} (h1 : Child root i d) (h2 : Child root j d) :
    i = j := by
  obtain ⟨qi, qd, hi, hd, k, hk⟩ := h1
  obtain ⟨qj, qd', hj, hd', k', hk'⟩ := h2
  rw [hd] at hd'
  cases hd'
  rw [hk] at hk'
  have := List.append_inj_left' hk' rfl
  exact tasks_path_inj hi hj this

end Angonoka.Doc
