import Verif.Model.Slots
import Mathlib.Tactic.ByContra

/-!
# C43: copies of optimizers and their random generators
-/

namespace Angonoka.Props
open Angonoka Outcome Slots

/-- Worlds that arise when every copy of an optimizer is followed by `params` before anything else
is done with it. -/
inductive CarefulWorld : World → Prop
  | empty : CarefulWorld []
  | create {w} (h : CarefulWorld w) (threads : Nat) : CarefulWorld (w.create threads)
  | copyAndSetParams {w i w₁ w₂} (h : CarefulWorld w) (h₁ : w.copy i = ok w₁)
      (h₂ : w₁.setParams w.length = ok w₂) : CarefulWorld w₂
  | update {w i n worse w'} (h : CarefulWorld w) (hu : w.update i n worse = ok w') : CarefulWorld w'
  | setParams {w i w'} (h : CarefulWorld w) (hs : w.setParams i = ok w') : CarefulWorld w'
  | destroy {w} (h : CarefulWorld w) (i : Nat) : CarefulWorld (w.destroy i)

/-- Every job of every live optimizer uses the generator of its own slot. -/
def AllOwn (w : World) : Prop :=
  ∀ (i : Nat) (l : List Slot), w[i]? = some (some l) → ∀ (k : Nat) (s : Slot), l[k]? = some s → s.random = ⟨i, k⟩

theorem slots_eq {w : World} {i : Nat} {l : List Slot} :
    w.slots i = ok l ↔ w[i]? = some (some l) := by
  unfold World.slots
  split
  · next h => rw [h]; simp
  · next h =>
    constructor
    · intro h'; cases h'
    · intro h'; exact absurd h' (h l)

theorem AllOwn.append {w : World} (h : AllOwn w) {l : List Slot}
    (hl : ∀ (k : Nat) (s : Slot), l[k]? = some s → s.random = ⟨w.length, k⟩) : AllOwn (w ++ [some l]) := by
  intro i l' hi
  rcases Nat.lt_or_ge i w.length with hlt | hge
  · rw [List.getElem?_append_left hlt] at hi
    exact h i l' hi
  · rw [List.getElem?_append_right hge] at hi
    rcases Nat.eq_zero_or_pos (i - w.length) with h0 | h0
    · rw [h0] at hi
      simp only [List.getElem?_cons_zero, Option.some.injEq] at hi
      subst hi
      have : i = w.length := by omega
      subst this
      exact hl
    · rw [List.getElem?_eq_none (by simp; omega)] at hi
      cases hi

theorem AllOwn.set {w : World} (h : AllOwn w) {i : Nat} {l : List Slot}
    (hl : ∀ (k : Nat) (s : Slot), l[k]? = some s → s.random = ⟨i, k⟩) : AllOwn (w.set i (some l)) := by
  intro j l' hj
  rw [List.getElem?_set] at hj
  split at hj
  · next hij =>
    split at hj
    · simp only [Option.some.injEq] at hj
      subst hj hij
      exact hl
    · cases hj
  · exact h j l' hj

theorem draw_spec {w : World} (h : AllOwn w) {p : Ptr} {n : Nat} {w' : World}
    (hd : w.draw p n = ok w') : AllOwn w' ∧ w'.length = w.length ∧
      (∀ j, j ≠ p.vec → w'[j]? = w[j]?) ∧
      ∀ l, w[p.vec]? = some (some l) → ∃ l', w'[p.vec]? = some (some l') ∧
        l'.map Slot.random = l.map Slot.random := by
  simp only [World.draw, bind_eq_ok, slots_eq] at hd
  obtain ⟨l, hl, hd⟩ := hd
  split at hd
  · next s hs =>
    cases hd
    have hlt : p.vec < w.length := by
      by_contra hge
      rw [List.getElem?_eq_none (by omega)] at hl
      cases hl
    refine ⟨h.set ?_, by simp, ?_, ?_⟩
    · intro k s' hk
      rw [List.getElem?_set] at hk
      split at hk
      · next hpk =>
        split at hk
        · simp only [Option.some.injEq] at hk
          subst hk hpk
          exact h _ _ hl _ s hs
        · cases hk
      · exact h _ _ hl _ _ hk
    · intro j hj
      rw [List.getElem?_set_ne (by omega)]
    · intro l₀ hl₀
      rw [hl] at hl₀
      cases hl₀
      refine ⟨l.set p.index { s with drawn := s.drawn + n }, by simp [hlt], ?_⟩
      apply List.ext_getElem?
      intro k
      rw [List.getElem?_map, List.getElem?_map, List.getElem?_set]
      split
      · next hpk =>
        subst hpk
        have : p.index < l.length := by
          by_contra hge
          rw [List.getElem?_eq_none (by omega)] at hs
          cases hs
        rw [if_pos this, hs]
        rfl
      · rfl
  · cases hd

/-- A batch of an optimizer whose jobs use its own generators succeeds and changes only them. -/
theorem batches_own {n : Nat → Nat} {i : Nat} : ∀ {ps : List Ptr} {w : World} {k : Nat} {l : List Slot},
    AllOwn w → w[i]? = some (some l) → (∀ p ∈ ps, p ∈ l.map Slot.random) →
    ∃ w' l', World.batches n w k ps = ok w' ∧ AllOwn w' ∧ w'.length = w.length ∧
      (∀ j, j ≠ i → w'[j]? = w[j]?) ∧ w'[i]? = some (some l') ∧
      l'.map Slot.random = l.map Slot.random := by
  intro ps
  induction ps with
  | nil => intro w k l h hl _; exact ⟨w, l, rfl, h, rfl, fun _ _ => rfl, hl, rfl⟩
  | cons p ps ih =>
    intro w k l h hl hp
    obtain ⟨s, hs, hsp⟩ := List.mem_map.1 (hp p (by simp))
    obtain ⟨idx, hlt, hidx⟩ := List.getElem_of_mem hs
    have hs' : l[idx]? = some s := by rw [List.getElem?_eq_getElem hlt, hidx]
    have hpe : p = ⟨i, idx⟩ := by rw [← hsp]; exact h i l hl idx s hs'
    have hd : ∃ w₁, w.draw p (n k) = ok w₁ := by
      unfold World.draw
      subst hpe
      rw [slots_eq.2 hl, ok_bind]
      simp only [hs']
      exact ⟨_, rfl⟩
    obtain ⟨w₁, hd⟩ := hd
    obtain ⟨h1, h2, h3, h4⟩ := draw_spec h hd
    have hpv : p.vec = i := by rw [hpe]
    rw [hpv] at h3 h4
    obtain ⟨l₁, h5, h6⟩ := h4 l hl
    obtain ⟨w₂, l₂, g1, g2, g3, g4, g5, g6⟩ := ih (k := k + 1) h1 h5
      (fun q hq => by rw [h6]; exact hp q (by simp [hq]))
    refine ⟨w₂, l₂, ?_, g2, g3.trans h2, fun j hj => (g4 j hj).trans (h3 j hj), g5, g6.trans h6⟩
    simp only [World.batches, hd, ok_bind, g1]

theorem own_spec {w : World} (h : AllOwn w) {i : Nat} {which : Nat → Bool} {l : List Slot}
    (hl : w[i]? = some (some l)) : ∃ w', w.own i which = ok w' ∧ AllOwn w' ∧
      w'.length = w.length ∧ (∀ j, j ≠ i → w'[j]? = w[j]?) := by
  unfold World.own
  rw [slots_eq.2 hl, ok_bind]
  refine ⟨_, rfl, h.set ?_, by simp, fun j hj => List.getElem?_set_ne (by omega)⟩
  intro k s hk
  rw [List.getElem?_mapIdx, Option.map_eq_some_iff] at hk
  obtain ⟨s₀, hs₀, rfl⟩ := hk
  split
  · rfl
  · exact h i l hl k s₀ hs₀

theorem update_spec {w : World} (h : AllOwn w) {i : Nat} {l : List Slot}
    (hl : w[i]? = some (some l)) (n : Nat → Nat) (worse : Nat → Bool) :
    ∃ w', w.update i n worse = ok w' ∧ AllOwn w' ∧ ∀ j, j ≠ i → w'[j]? = w[j]? := by
  obtain ⟨w₁, l₁, h1, h2, _, h4, h5, _⟩ := batches_own (n := n) (k := 0) (ps := l.map Slot.random) h hl
    (fun p hp => hp)
  obtain ⟨w₂, g1, g2, _, g4⟩ := own_spec (which := worse) h2 h5
  refine ⟨w₂, ?_, g2, fun j hj => (g4 j hj).trans (h4 j hj)⟩
  unfold World.update
  rw [slots_eq.2 hl, ok_bind, h1, ok_bind, g1]

theorem CarefulWorld.allOwn {w : World} (h : CarefulWorld w) : AllOwn w := by
  induction h with
  | empty => intro i l hi; simp at hi
  | create _ threads ih =>
    apply ih.append
    intro k s hk
    rw [List.getElem?_map, Option.map_eq_some_iff] at hk
    obtain ⟨a, ha, rfl⟩ := hk
    rw [List.getElem?_range (by
      by_contra hge
      rw [List.getElem?_eq_none (by simpa using hge)] at ha
      cases ha)] at ha
    cases ha
    rfl
  | @copyAndSetParams w i w₁ w₂ _ h₁ h₂ ih =>
    simp only [World.copy, bind_eq_ok, slots_eq] at h₁
    obtain ⟨l, hl, h₁⟩ := h₁
    cases h₁
    simp only [World.setParams, World.own, bind_eq_ok, slots_eq, if_true] at h₂
    obtain ⟨l', hl', h₂⟩ := h₂
    cases h₂
    rw [List.getElem?_append_right (Nat.le_refl _), Nat.sub_self] at hl'
    simp only [List.getElem?_cons_zero, Option.some.injEq] at hl'
    subst hl'
    rw [List.set_append_right _ _ (Nat.le_refl _), Nat.sub_self, List.set_cons_zero]
    apply ih.append
    intro k s hk
    rw [List.getElem?_mapIdx, Option.map_eq_some_iff] at hk
    obtain ⟨s₀, _, rfl⟩ := hk
    rfl
  | update _ hu ih =>
    have hu' := hu
    simp only [World.update, bind_eq_ok, slots_eq] at hu'
    obtain ⟨l, hl, _⟩ := hu'
    obtain ⟨w', h1, h2, _⟩ := update_spec ih hl _ _
    rw [hu] at h1
    cases h1
    exact h2
  | setParams _ hs ih =>
    have hs' := hs
    simp only [World.setParams, World.own, bind_eq_ok, slots_eq] at hs'
    obtain ⟨l, hl, _⟩ := hs'
    obtain ⟨w', h1, h2, _⟩ := own_spec (which := fun _ => true) ih hl
    unfold World.setParams at hs
    rw [hs] at h1
    cases h1
    exact h2
  | destroy _ i ih =>
    intro j l hj
    unfold World.destroy at hj
    rw [List.getElem?_set] at hj
    split at hj
    · split at hj <;> cases hj
    · exact ih j l hj

/-- C43, what holds: if every copy is followed by `params` before it is used, then no update ever uses
a destroyed generator, and updating one optimizer changes no other optimizer's generators (nor
anything else in it). Missing: copies used without that, for which it is false
(`copy_shares_generators`, `copy_dangles`). -/
theorem copy_independent_partial {w : World} (h : CarefulWorld w) {i : Nat} {l : List Slot}
    (hl : w[i]? = some (some l)) (n : Nat → Nat) (worse : Nat → Bool) :
    ∃ w', w.update i n worse = ok w' ∧ ∀ j, j ≠ i → w'[j]? = w[j]? := by
  obtain ⟨w', h1, _, h3⟩ := update_spec h.allOwn hl n worse
  exact ⟨w', h1, h3⟩

/-- The full C43 is false: updating a copy (number 1) changes the generators of the original. -/
theorem copy_shares_generators :
    ∃ w w' : World, (World.create [] 2).copy 0 = ok w ∧
      w.update 1 (fun _ => 3) (fun _ => false) = ok w' ∧ w'[0]? ≠ w[0]? ∧ w'[1]? = w[1]? := by
  refine ⟨[some [⟨0, ⟨0, 0⟩⟩, ⟨0, ⟨0, 1⟩⟩], some [⟨0, ⟨0, 0⟩⟩, ⟨0, ⟨0, 1⟩⟩]],
    [some [⟨3, ⟨0, 0⟩⟩, ⟨3, ⟨0, 1⟩⟩], some [⟨0, ⟨0, 0⟩⟩, ⟨0, ⟨0, 1⟩⟩]], ?_⟩
  decide

/-- ... and after the original is destroyed, updating the copy uses a destroyed generator. -/
theorem copy_dangles (threads : Nat) (ht : 0 < threads) (n : Nat → Nat) (worse : Nat → Bool) :
    ∃ w, (World.create [] threads).copy 0 = ok w ∧
      ∃ site, (w.destroy 0).update 1 n worse = ub site := by
  obtain ⟨k, rfl⟩ : ∃ k, threads = k + 1 := ⟨threads - 1, by omega⟩
  refine ⟨_, rfl, "destroyed optimizer", ?_⟩
  simp only [World.create, List.nil_append, List.length_nil, World.destroy, World.update]
  rw [(slots_eq (l := (List.range (k + 1)).map fun k => ⟨0, ⟨0, k⟩⟩)).2 rfl, ok_bind,
    List.range_succ_eq_map]
  rfl

/-- A world to which the partial theorem applies: an original, a copy, the original destroyed. -/
example : ∃ w, CarefulWorld w ∧ w[1]? = some (some [⟨0, ⟨1, 0⟩⟩, ⟨0, ⟨1, 1⟩⟩]) :=
  ⟨_, .destroy (.copyAndSetParams (i := 0) (.create .empty 2) rfl rfl) 0, rfl⟩

end Angonoka.Props
