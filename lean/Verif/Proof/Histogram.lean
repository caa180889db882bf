import Verif.Spec.Histogram
import Verif.Proof.Lists
import Mathlib.Logic.Function.Basic
import Mathlib.Data.List.Perm.Basic
import Mathlib.Tactic.Linarith
import Mathlib.Tactic.NormNum

/-!
# Histogram proofs
-/

namespace Angonoka
open Outcome

namespace Histogram

/-- Keys ascend strictly. -/
def Keyed (l : List (Int × Int)) : Prop := l.Pairwise fun a b => a.1 < b.1

theorem mem_increment {key k c : Int} {l : List (Int × Int)} (h : Keyed l) :
    (k, c) ∈ increment key l ↔
      (k ≠ key ∧ (k, c) ∈ l) ∨
        (k = key ∧ ((key, c - 1) ∈ l ∨ (c = 1 ∧ ∀ c', (key, c') ∉ l))) := by
  induction l with
  | nil => simp [increment]
  | cons x l ih =>
    obtain ⟨k0, c0⟩ := x
    obtain ⟨hx, hl⟩ := List.pairwise_cons.1 h
    have hnot : ∀ {j c' : Int}, j ≤ k0 → (j, c') ∉ l := by
      intro j c' hj hm
      have := hx _ hm
      simp only at this
      omega
    rw [increment]
    split
    · next h1 =>
      simp only [List.mem_cons, Prod.mk.injEq]
      constructor
      · rintro (⟨rfl, rfl⟩ | ⟨rfl, rfl⟩ | hm)
        · refine Or.inr ⟨rfl, Or.inr ⟨rfl, ?_⟩⟩
          rintro c' (⟨h2, _⟩ | hm)
          · omega
          · exact hnot (by omega) hm
        · exact Or.inl ⟨by omega, Or.inl ⟨rfl, rfl⟩⟩
        · refine Or.inl ⟨?_, Or.inr hm⟩
          rintro rfl
          exact hnot (by omega) hm
      · rintro (⟨h2, ⟨rfl, rfl⟩ | hm⟩ | ⟨rfl, (⟨rfl, _⟩ | hm) | ⟨rfl, _⟩⟩)
        · exact Or.inr (Or.inl ⟨rfl, rfl⟩)
        · exact Or.inr (Or.inr hm)
        · omega
        · exact absurd hm (hnot (by omega))
        · exact Or.inl ⟨rfl, rfl⟩
    · next h1 =>
      split
      · next h2 =>
        rw [List.mem_cons, ih hl]
        simp only [List.mem_cons, Prod.mk.injEq]
        constructor
        · rintro (⟨rfl, rfl⟩ | ⟨h3, hm⟩ | ⟨rfl, hm | ⟨rfl, hm⟩⟩)
          · exact Or.inl ⟨by omega, Or.inl ⟨rfl, rfl⟩⟩
          · exact Or.inl ⟨h3, Or.inr hm⟩
          · exact Or.inr ⟨rfl, Or.inl (Or.inr hm)⟩
          · refine Or.inr ⟨rfl, Or.inr ⟨rfl, ?_⟩⟩
            rintro c' (⟨h4, _⟩ | h4)
            · omega
            · exact hm c' h4
        · rintro (⟨h3, ⟨rfl, rfl⟩ | hm⟩ | ⟨rfl, (⟨rfl, _⟩ | hm) | ⟨rfl, hm⟩⟩)
          · exact Or.inl ⟨rfl, rfl⟩
          · exact Or.inr (Or.inl ⟨h3, hm⟩)
          · omega
          · exact Or.inr (Or.inr ⟨rfl, Or.inl hm⟩)
          · exact Or.inr (Or.inr ⟨rfl, Or.inr ⟨rfl, fun c' h4 => hm c' (Or.inr h4)⟩⟩)
      · next h2 =>
        have hk : k0 = key := by omega
        subst hk
        simp only [List.mem_cons, Prod.mk.injEq]
        constructor
        · rintro (⟨rfl, rfl⟩ | hm)
          · exact Or.inr ⟨rfl, Or.inl (Or.inl ⟨trivial, by omega⟩)⟩
          · refine Or.inl ⟨?_, Or.inr hm⟩
            rintro rfl
            exact hnot le_rfl hm
        · rintro (⟨h3, ⟨rfl, rfl⟩ | hm⟩ | ⟨rfl, (⟨_, h4⟩ | hm) | ⟨rfl, hm⟩⟩)
          · exact absurd rfl h3
          · exact Or.inr hm
          · exact Or.inl ⟨rfl, by omega⟩
          · exact absurd hm (hnot le_rfl)
          · exact absurd (Or.inl ⟨trivial, rfl⟩) (hm c0)

theorem keyed_increment {key : Int} {l : List (Int × Int)} (h : Keyed l) :
    Keyed (increment key l) := by
  induction l with
  | nil => simp [increment, Keyed]
  | cons x l ih =>
    obtain ⟨k0, c0⟩ := x
    obtain ⟨hx, hl⟩ := List.pairwise_cons.1 h
    rw [increment]
    split
    · next h1 =>
      refine List.pairwise_cons.2 ⟨?_, h⟩
      intro b hb
      rcases List.mem_cons.1 hb with rfl | hb
      · exact h1
      · exact lt_trans h1 (hx b hb)
    · split
      · next h2 =>
        refine List.pairwise_cons.2 ⟨?_, ih hl⟩
        rintro ⟨k, c⟩ hb
        rcases (mem_increment hl).1 hb with ⟨_, hm⟩ | ⟨rfl, _⟩
        · exact hx _ hm
        · exact h2
      · exact List.pairwise_cons.2 ⟨hx, hl⟩

theorem sum_increment (key : Int) (l : List (Int × Int)) :
    ((increment key l).map Prod.snd).sum = (l.map Prod.snd).sum + 1 := by
  induction l with
  | nil => simp [increment]
  | cons x l ih =>
    obtain ⟨k0, c0⟩ := x
    rw [increment]
    split
    · simp; omega
    · split
      · simp [ih]; omega
      · simp; omega

/-- The representation of the values `vs`. -/
structure Inv (b : Int) (vs : List Int) (h : Histogram) : Prop where
  size : h.binSize = b
  keyed : Keyed h.bins
  mem : ∀ k c, (k, c) ∈ h.bins ↔ 0 < c ∧ c = (vs.countP fun v => v / b = k : Nat)
  nonneg : ∀ v ∈ vs, 0 ≤ v
  sum : (h.bins.map Prod.snd).sum = vs.length

theorem inv_empty (b : Int) : Inv b [] ⟨b, []⟩ where
  size := rfl
  keyed := List.Pairwise.nil
  mem k c := by simp; omega
  nonneg := by simp
  sum := by simp

theorem Inv.insert {b : Int} {vs : List Int} {h : Histogram} (hb : 1 ≤ b) (hi : Inv b vs h) {v : Int}
    (hv : 0 ≤ v) : ∃ h', h.insert v = ok h' ∧ Inv b (vs ++ [v]) h' := by
  refine ⟨{ h with bins := increment (v / b) h.bins }, ?_, ?_⟩
  · unfold Histogram.insert
    rw [expects_true (by simpa [hi.size] using hb), ok_bind, expects_true (by simpa using hv), ok_bind,
      hi.size, Int.tdiv_eq_ediv_of_nonneg hv]
    rfl
  · refine ⟨hi.size, keyed_increment hi.keyed, ?_, ?_, ?_⟩
    · intro k c
      rw [mem_increment hi.keyed, hi.mem, hi.mem]
      simp only [hi.mem, List.countP_append, List.countP_cons, List.countP_nil, zero_add,
        decide_eq_true_eq]
      by_cases hk : k = v / b
      · subst hk
        simp only [ne_eq, not_true, false_and, if_true, true_and, false_or]
        constructor
        · rintro (⟨h1, h2⟩ | ⟨rfl, h2⟩)
          · omega
          · have := h2 1
            have := h2 ((vs.countP fun v' => decide (v' / b = v / b) : Nat) : Int)
            omega
        · rintro ⟨h1, h2⟩
          by_cases h0 : c = 1
          · refine Or.inr ⟨h0, ?_⟩
            intro c' hc'
            omega
          · exact Or.inl ⟨by omega, by omega⟩
      · have hk' : ¬ v / b = k := fun h => hk h.symm
        simp [hk, hk']
    · intro x hx
      rcases List.mem_append.1 hx with hx | hx
      · exact hi.nonneg x hx
      · rw [List.mem_singleton.1 hx]
        exact hv
    · simp only [sum_increment, hi.sum, List.length_append, List.length_singleton]
      push_cast
      rfl

theorem Inv.toBin {b : Int} {vs : List Int} {h : Histogram} (hb : 1 ≤ b) (hi : Inv b vs h)
    {x : Int × Int} (hx : x ∈ h.bins) :
    h.toBin x = ok { count := x.2, low := x.1 * b, middle := x.1 * b + b / 2, high := x.1 * b + b } := by
  obtain ⟨k, c⟩ := x
  obtain ⟨h1, h2⟩ := (hi.mem k c).1 hx
  have hk : 0 ≤ k := by
    have h3 : 0 < vs.countP fun v => v / b = k := by omega
    obtain ⟨v, hv, hvk⟩ := List.countP_pos_iff.1 h3
    simp only [decide_eq_true_eq] at hvk
    rw [← hvk]
    exact Int.ediv_nonneg (hi.nonneg v hv) (by omega)
  unfold Histogram.toBin
  rw [expects_true (by simpa using hk), ok_bind, expects_true (by simpa using h1.le), ok_bind,
    expects_true (by simpa [hi.size] using hb), ok_bind, hi.size,
    Int.tdiv_eq_ediv_of_nonneg (by omega : 0 ≤ b)]
  rfl

/-- The bins read from a histogram. -/
def binsOf (b : Int) (h : Histogram) : List Bin :=
  h.bins.map fun x => { count := x.2, low := x.1 * b, middle := x.1 * b + b / 2, high := x.1 * b + b }

theorem Inv.toList {b : Int} {vs : List Int} {h : Histogram} (hb : 1 ≤ b) (hi : Inv b vs h) :
    h.toList = ok (binsOf b h) :=
  mapM_eq_ok_of_forall fun _ hx => hi.toBin hb hx

theorem contains_iff {b k v : Int} (hb : 1 ≤ b) : k * b ≤ v ∧ v < k * b + b ↔ v / b = k := by
  constructor
  · rintro ⟨h1, h2⟩
    rw [Int.ediv_eq_iff_of_pos (by omega)]
    constructor <;> nlinarith
  · rintro rfl
    have h1 := Int.emod_add_mul_ediv v b
    have h2 := Int.emod_nonneg v (by omega : b ≠ 0)
    have h3 := Int.emod_lt_of_pos v (by omega : 0 < b)
    constructor <;> nlinarith

theorem Inv.describes {b : Int} {vs : List Int} {h : Histogram} (hb : 1 ≤ b) (hi : Inv b vs h) :
    Describes b vs (binsOf b h) := by
  have hmem : ∀ x ∈ binsOf b h, ∃ k c, (k, c) ∈ h.bins ∧
      x = { count := c, low := k * b, middle := k * b + b / 2, high := k * b + b } := by
    intro x hx
    obtain ⟨⟨k, c⟩, h1, rfl⟩ := List.mem_map.1 hx
    exact ⟨k, c, h1, rfl⟩
  refine ⟨?_, ?_, ?_, ?_, ?_, ?_⟩
  · intro x hx
    obtain ⟨k, c, _, rfl⟩ := hmem x hx
    exact ⟨rfl, Int.dvd_mul_left _ _⟩
  · intro x hx
    obtain ⟨k, c, _, rfl⟩ := hmem x hx
    rfl
  · refine List.pairwise_map.2 (hi.keyed.imp ?_)
    intro x y hxy
    simp only
    nlinarith
  · intro x hx
    obtain ⟨k, c, hm, rfl⟩ := hmem x hx
    rw [((hi.mem k c).1 hm).2]
    simp only [Nat.cast_inj]
    apply List.countP_congr
    intro v _
    simp only [Bin.Contains, contains_iff hb]
  · intro x hx
    obtain ⟨k, c, hm, rfl⟩ := hmem x hx
    exact ((hi.mem k c).1 hm).1
  · intro v hv
    refine ⟨_, List.mem_map_of_mem (a := (v / b, ((vs.countP fun v' => v' / b = v / b : Nat) : Int)))
      ((hi.mem _ _).2 ⟨?_, rfl⟩), ?_⟩
    · have : 0 < vs.countP fun v' => v' / b = v / b := List.countP_pos_iff.2 ⟨v, hv, by simp⟩
      omega
    · exact (contains_iff hb).2 rfl

theorem Inv.run {b : Int} (hb : 1 ≤ b) {us : List HistogramUse} (hus : ∀ v, .add v ∈ us → 0 ≤ v)
    {vs : List Int} {h : Histogram} (hi : Inv b vs h) :
    ∃ h', h.run us = ok h' ∧ Inv b (HistogramUse.contents vs us) h' := by
  induction us generalizing vs h with
  | nil => exact ⟨h, rfl, hi⟩
  | cons u us ih =>
    cases u with
    | add v =>
      obtain ⟨h1, h2, h3⟩ := hi.insert hb (hus v (by simp))
      obtain ⟨h4, h5, h6⟩ := ih (fun v hv => hus v (by simp [hv])) h3
      refine ⟨h4, ?_, h6⟩
      rw [Histogram.run, Histogram.step, h2, ok_bind, h5]
    | clear =>
      have h3 : Inv b [] h.clear := by
        have := inv_empty b
        rw [← hi.size] at this ⊢
        exact this
      obtain ⟨h4, h5, h6⟩ := ih (fun v hv => hus v (by simp [hv])) h3
      refine ⟨h4, ?_, h6⟩
      rw [Histogram.run, Histogram.step, ok_bind, h5]

end Histogram

theorem Describes.nodup {b : Int} {vs : List Int} {l : List Bin} (hb : 1 ≤ b) (h : Describes b vs l) :
    l.Pairwise fun x y => x.low < y.low := by
  refine h.ascending.imp_of_mem ?_
  intro x y hx _ hxy
  have := (h.width x hx).1
  omega

theorem Describes.mem {b : Int} {vs vs' : List Int} {l l' : List Bin} (hb : 1 ≤ b)
    (h : Describes b vs l) (h' : Describes b vs' l') (hp : vs.Perm vs') {x : Bin} (hx : x ∈ l) :
    x ∈ l' := by
  have h1 := h.positive x hx
  rw [h.counts x hx] at h1
  have h2 : 0 < vs.countP fun v => decide (x.Contains v) := by omega
  obtain ⟨v, hv, hxv⟩ := List.countP_pos_iff.1 h2
  simp only [decide_eq_true_eq] at hxv
  obtain ⟨y, hy, hyv⟩ := h'.covers v (hp.mem_iff.1 hv)
  obtain ⟨hx1, m, hm⟩ := h.width x hx
  obtain ⟨hy1, n, hn⟩ := h'.width y hy
  have hmn : m = n := by
    unfold Bin.Contains at hxv hyv
    rw [hx1] at hxv
    rw [hy1] at hyv
    have e1 := (Histogram.contains_iff (k := m) (v := v) hb).1 (by rw [mul_comm]; omega)
    have e2 := (Histogram.contains_iff (k := n) (v := v) hb).1 (by rw [mul_comm]; omega)
    exact e1.symm.trans e2
  have hlow : x.low = y.low := by rw [hm, hn, hmn]
  have hhigh : x.high = y.high := by omega
  have hmid : x.middle = y.middle := by rw [h.middle x hx, h'.middle y hy, hlow]
  have hcount : x.count = y.count := by
    rw [h.counts x hx, h'.counts y hy, hp.countP_eq]
    congr 1
    apply List.countP_congr
    intro v _
    have : x.Contains v ↔ y.Contains v := by
      unfold Bin.Contains
      rw [hlow, hhigh]
    simpa using this
  have : x = y := by
    cases x
    cases y
    simp_all
  rw [this]
  exact hy

theorem Describes.unique {b : Int} {vs vs' : List Int} {l l' : List Bin} (hb : 1 ≤ b)
    (h : Describes b vs l) (h' : Describes b vs' l') (hp : vs.Perm vs') : l = l' := by
  have hn := h.nodup hb
  have hn' := h'.nodup hb
  have hperm : l.Perm l' := by
    refine (List.perm_ext_iff_of_nodup ?_ ?_).2 fun x => ⟨h.mem hb h' hp, h'.mem hb h hp.symm⟩
    · exact hn.imp fun {x y} hxy he => by rw [he] at hxy; omega
    · exact hn'.imp fun {x y} hxy he => by rw [he] at hxy; omega
  exact hperm.eq_of_pairwise (fun x y _ _ hxy hyx => by omega) hn hn'

end Angonoka
