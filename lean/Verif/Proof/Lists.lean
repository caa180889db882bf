import Verif.Model.Makespan
import Mathlib.Data.List.Basic
import Mathlib.Data.List.Nodup
import Mathlib.Data.List.Perm.Basic

/-!
# Lemmas about lists and array accesses
-/

namespace Angonoka
open Outcome

theorem mapM_eq_ok_of_forall {α β : Type} {f : α → Outcome β} {g : α → β} {l : List α}
    (h : ∀ a ∈ l, f a = ok (g a)) : l.mapM f = ok (l.map g) := by
  induction l with
  | nil => rfl
  | cons a l ih =>
    rw [List.mapM_cons, h a (by simp), ok_bind, ih (fun b hb => h b (by simp [hb])), ok_bind]
    simp

theorem mapM_eq_ok {α β : Type} {f : α → Outcome β} {l : List α} {r : List β}
    (h : l.mapM f = ok r) : List.Forall₂ (fun a b => f a = ok b) l r := by
  induction l generalizing r with
  | nil =>
    rw [List.mapM_nil] at h
    cases h
    exact .nil
  | cons a l ih =>
    rw [List.mapM_cons] at h
    obtain ⟨b, hb, h⟩ := bind_eq_ok.1 h
    obtain ⟨bs, hbs, h⟩ := bind_eq_ok.1 h
    cases h
    exact .cons hb (ih hbs)

namespace Stun

theorem at?_eq_ok {α : Type} {l : List α} {i : Nat} {x : α} {site : String} :
    at? l i site = ok x ↔ l[i]? = some x := by
  unfold at?
  cases h : l[i]? <;> simp

theorem at?_ok {α : Type} {l : List α} {i : Nat} {site : String} (h : i < l.length) :
    at? l i site = ok l[i] := by
  simp [at?, h]

end Stun

section maxOf
variable {K : Type} [LinearOrder K]

theorem foldl_max_ge_init (l : List K) (x : K) : x ≤ l.foldl max x := by
  induction l generalizing x with
  | nil => exact le_rfl
  | cons a l ih => exact le_trans (le_max_left x a) (ih _)

theorem foldl_max_ge (l : List K) (x : K) {a : K} (h : a ∈ l) : a ≤ l.foldl max x := by
  induction l generalizing x with
  | nil => simp at h
  | cons b l ih =>
    rcases List.mem_cons.1 h with rfl | h
    · exact le_trans (le_max_right x a) (foldl_max_ge_init _ _)
    · exact ih _ h

theorem foldl_max_mem (l : List K) (x : K) : l.foldl max x = x ∨ l.foldl max x ∈ l := by
  induction l generalizing x with
  | nil => simp
  | cons a l ih =>
    rcases ih (max x a) with h | h
    · simp only [List.foldl_cons, h, List.mem_cons]
      rcases max_choice x a with h' | h' <;> simp [h']
    · right
      simp [h]

variable [Field K]

theorem Stun.le_maxOf {l : List K} {a : K} (h : a ∈ l) : a ≤ Stun.maxOf l := by
  cases l with
  | nil => simp at h
  | cons x xs =>
    rcases List.mem_cons.1 h with rfl | h
    · exact foldl_max_ge_init _ _
    · exact foldl_max_ge _ _ h

theorem Stun.maxOf_mem {l : List K} (h : l ≠ []) : Stun.maxOf l ∈ l := by
  cases l with
  | nil => exact absurd rfl h
  | cons x xs =>
    rcases foldl_max_mem xs x with h' | h'
    · simp [Stun.maxOf, h']
    · simp only [Stun.maxOf]
      exact List.mem_cons_of_mem _ h'

theorem Stun.maxOf_le {l : List K} {b : K} (hb : 0 ≤ b) (h : ∀ a ∈ l, a ≤ b) :
    Stun.maxOf l ≤ b := by
  cases l with
  | nil => exact hb
  | cons x xs => exact h _ (Stun.maxOf_mem (by simp))

end maxOf
end Angonoka
