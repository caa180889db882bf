import Mathlib.Data.List.Induction
import Mathlib.Tactic.Linarith
import Verif.Model.Format
import Verif.Proof.Duration

/-!
# Printed durations
-/

namespace Angonoka.Format
open Angonoka Outcome DurationText

theorem intercalate_snoc (s x : String) (l : List String) :
    s.intercalate (l ++ [x]) = s.intercalate l ++ (if l.isEmpty then "" else s) ++ x := by
  cases l with
  | nil => simp
  | cons a l =>
    rw [String.intercalate_append_of_ne_nil (by simp) (by simp), String.intercalate_singleton]
    rfl

/-- The verbose formatter's state after printing the parts in `l`. -/
def After (st : VerboseState) (total : Nat) (l : List String) : Prop :=
  st.total = (total : Int) ∧ st.out = " ".intercalate l ∧ st.needsSpace = !l.isEmpty

/-- The texts of the non-zero parts. -/
def texts (parts : List (Nat × String)) : List String :=
  (parts.filter (fun p => p.1 ≠ 0)).map fun p => toString p.1 ++ p.2

theorem texts_snoc (parts : List (Nat × String)) (n : Nat) (name : String) :
    texts (parts ++ [(n, name)]) =
      texts parts ++ (if n = 0 then [] else [toString n ++ name]) := by
  simp only [texts, List.filter_append, List.map_append]
  by_cases h : n = 0 <;> simp [h]

theorem verboseDuration_after {st : VerboseState} {total : Nat} {parts : List (Nat × String)}
    (h : After st total (texts parts)) (unit : Nat) (name : String) :
    After (verboseDuration unit name st) (total % unit)
      (texts (parts ++ [(total / unit, name)])) := by
  obtain ⟨h1, h2, h3⟩ := h
  have hd : st.total / (unit : Int) = ((total / unit : Nat) : Int) := by rw [h1]; rfl
  rw [texts_snoc]
  unfold verboseDuration
  simp only [hd]
  by_cases h0 : total / unit = 0
  · rw [if_pos (by exact_mod_cast h0), if_pos h0, List.append_nil]
    refine ⟨?_, h2, h3⟩
    rw [h1]
    have := Nat.div_add_mod total unit
    rw [h0, Nat.mul_zero, Nat.zero_add] at this
    rw [this]
  · rw [if_neg (by exact_mod_cast h0), if_neg h0]
    refine ⟨?_, ?_, ?_⟩
    · dsimp only
      rw [h1]
      have := Nat.div_add_mod total unit
      rw [Nat.mul_comm] at this
      have h' : (((total / unit * unit + total % unit : Nat)) : Int) = (total : Int) := by rw [this]
      push_cast at h' ⊢
      linarith
    · dsimp only
      rw [intercalate_snoc, h2, h3]
      cases (texts parts).isEmpty <;> rfl
    · simp

theorem verbose_eq_render (v : Nat) (hv : 0 < v) :
    verbose v = render [(v / 2629746, "mo"), (v % 2629746 / 86400, "d"),
      (v % 2629746 % 86400 / 3600, "h"), (v % 2629746 % 86400 % 3600 / 60, "m"),
      (v % 2629746 % 86400 % 3600 % 60, "s")] := by
  have h0 : After { total := (v : Int) } v (texts []) := ⟨rfl, rfl, rfl⟩
  have h := verboseDuration_after (verboseDuration_after (verboseDuration_after
    (verboseDuration_after (verboseDuration_after h0 2629746 "mo") 86400 "d") 3600 "h") 60 "m") 1 "s"
  unfold verbose
  rw [if_neg (by exact_mod_cast hv.ne')]
  have := h.2.1
  simp only [Nat.div_one] at this
  exact this

theorem number_toDigits (n : Nat) : Number (Nat.toDigits 10 n) n := by
  induction n using Nat.strongRecOn with
  | ind n ih =>
    by_cases h : n < 10
    · rw [Nat.toDigits_of_lt_base h]
      refine .one ?_
      have : n = 0 ∨ n = 1 ∨ n = 2 ∨ n = 3 ∨ n = 4 ∨ n = 5 ∨ n = 6 ∨ n = 7 ∨ n = 8 ∨ n = 9 := by omega
      rcases this with h | h | h | h | h | h | h | h | h | h <;> subst h <;> decide
    · rw [Nat.toDigits_of_base_le (by decide) (by omega)]
      have h1 := ih (n / 10) (by omega)
      have : ∀ d, d < 10 → (d.digitChar, d) ∈ digits := by decide
      have h2 := h1.snoc (this (n % 10) (by omega))
      have : 10 * (n / 10) + n % 10 = n := by omega
      rwa [this] at h2

/-- The text of a list of parts with one-letter units is a duration. -/
theorem texts_means (parts : List (Nat × String × Nat)) (hne : parts ≠ [])
    (h : ∀ p ∈ parts, p.1 ≤ 2147483647 ∧ ∃ c, p.2.1 = String.singleton c ∧ (c, p.2.2) ∈ letters) :
    Components (· ≤ 2147483647)
      (" ".intercalate (parts.map fun p => toString p.1 ++ p.2.1)).toList
      ((parts.map fun p => p.1 * p.2.2).sum) := by
  have key : ∀ p : Nat × String × Nat,
      (∃ c, p.2.1 = String.singleton c ∧ (c, p.2.2) ∈ letters) →
      ∃ s t, (toString p.1 ++ p.2.1).toList = s ++ t ∧ Number s p.1 ∧ DurationText.Unit t p.2.2 := by
    rintro p ⟨c, hc, hl⟩
    refine ⟨Nat.toDigits 10 p.1, [c], ?_, number_toDigits _,
      .letter (b := []) (by intro x hx; cases hx) hl⟩
    rw [String.toList_append, hc]
    congr 1
    · exact Nat.toList_repr
    · simp
  induction parts using List.reverseRecOn with
  | nil => exact absurd rfl hne
  | append_singleton l p ih =>
    have hp := h p (by simp)
    obtain ⟨s, t, e, hs, ht⟩ := key p hp.2
    simp only [List.map_append, List.map_cons, List.map_nil, List.sum_append, List.sum_cons,
      List.sum_nil, Nat.add_zero]
    rw [intercalate_snoc]
    by_cases hl : l = []
    · subst hl
      have := Components.one (P := (· ≤ 2147483647)) hs hp.1 ht
      rw [← e] at this
      simpa using this
    · have hl' := ih hl (fun q hq => h q (by simp [hq]))
      have := Components.more hl' (.blanks (b := [' ']) (by simp [Blanks, Blank])) hs hp.1 ht
      simp only [String.toList_append, e]
      rw [if_neg (by simpa using hl)]
      exact this

theorem sum_filter_nonzero (l : List (Nat × String × Nat)) :
    ((l.filter (fun p => p.1 ≠ 0)).map fun p => p.1 * p.2.2).sum = (l.map fun p => p.1 * p.2.2).sum := by
  induction l with
  | nil => rfl
  | cons p l ih =>
    by_cases h : p.1 = 0
    · rw [List.filter_cons_of_neg (by simpa using h), ih]
      simp [h]
    · rw [List.filter_cons_of_pos (by simpa using h)]
      simp only [List.map_cons, List.sum_cons, ih]

theorem render_parts (l : List (Nat × String × Nat)) :
    render ((0, "mo") :: l.map (fun p => (p.1, p.2.1))) =
      " ".intercalate ((l.filter (fun p => p.1 ≠ 0)).map fun p => toString p.1 ++ p.2.1) := by
  unfold render
  rw [List.filter_cons_of_neg (by simp), List.filter_map, List.map_map]
  rfl

theorem verbose_means (v : Nat) (h0 : 0 < v) (hv : v < 2629746) : Means (verbose v) v := by
  have hr := verbose_eq_render v h0
  have hmo : v / 2629746 = 0 := Nat.div_eq_of_lt hv
  have hv' : v % 2629746 = v := Nat.mod_eq_of_lt hv
  rw [hmo, hv'] at hr
  let l : List (Nat × String × Nat) := [(v / 86400, "d", 86400), (v % 86400 / 3600, "h", 3600),
    (v % 86400 % 3600 / 60, "m", 60), (v % 86400 % 3600 % 60, "s", 1)]
  have hsum : (l.map fun p => p.1 * p.2.2).sum = v := by
    simp only [l, List.map_cons, List.map_nil, List.sum_cons, List.sum_nil]
    omega
  have hl : ∀ p ∈ l, p.1 ≤ 2147483647 ∧ ∃ c, p.2.1 = String.singleton c ∧ (c, p.2.2) ∈ letters := by
    intro p hp
    simp only [l, List.mem_cons, List.not_mem_nil, or_false] at hp
    rcases hp with rfl | rfl | rfl | rfl
    · exact ⟨by dsimp only; omega, 'd', rfl, show ('d', 86400) ∈ letters by decide⟩
    · exact ⟨by dsimp only; omega, 'h', rfl, show ('h', 3600) ∈ letters by decide⟩
    · exact ⟨by dsimp only; omega, 'm', rfl, show ('m', 60) ∈ letters by decide⟩
    · exact ⟨by dsimp only; omega, 's', rfl, show ('s', 1) ∈ letters by decide⟩
  have hne : l.filter (fun p => p.1 ≠ 0) ≠ [] := by
    intro he
    have := sum_filter_nonzero l
    rw [he, hsum] at this
    simp at this
    omega
  have hm := texts_means (l.filter (fun p => p.1 ≠ 0)) hne
    (fun p hp => hl p ((List.mem_filter.1 hp).1))
  rw [sum_filter_nonzero, hsum] at hm
  unfold Means
  rw [hr]
  have e : render [(0, "mo"), (v / 86400, "d"), (v % 86400 / 3600, "h"), (v % 86400 % 3600 / 60, "m"),
      (v % 86400 % 3600 % 60, "s")] =
      " ".intercalate ((l.filter (fun p => p.1 ≠ 0)).map fun p => toString p.1 ++ p.2.1) :=
    render_parts l
  rw [e]
  exact ⟨hm, by omega⟩

theorem chronoRound_spec (u v : Int) (hu : 0 < u) : RoundsTo v u (chronoRound u v) := by
  have h1 := Int.mul_ediv_add_emod v u
  have h2 := Int.emod_nonneg v hu.ne'
  have h3 := Int.emod_lt_of_pos v hu
  unfold RoundsTo chronoRound
  dsimp only
  generalize hq : v / u = q at *
  generalize hr : v % u = r at *
  have e0 : v - q * u = r := by rw [← h1]; ring
  have e1 : v - (q + 1) * u = r - u := by rw [← h1]; ring
  have e2 : (q + 1) * u - v = u - r := by rw [← h1]; ring
  have a0 : |r| = r := abs_of_nonneg h2
  have a1 : |r - u| = u - r := by rw [abs_of_neg (by linarith)]; ring
  rw [e0, e2]
  split_ifs with c1 c2 c3
  · rw [e1, a1]
    exact ⟨by omega, fun _ => by omega⟩
  · rw [e0, a0]
    exact ⟨by omega, fun _ => by omega⟩
  · rw [e0, a0]
    exact ⟨by omega, fun _ => by omega⟩
  · rw [e1, a1]
    exact ⟨by omega, fun _ => by omega⟩

theorem humanizeDuration_cases (u v : Int) (hu : 0 < u) (article name : String) :
    (humanizeDuration u article name v = none ∧ RoundsTo v u 0) ∨
    ∃ k, k ≠ 0 ∧ RoundsTo v u k ∧
      humanizeDuration u article name v = some (countText k article name) := by
  have h := chronoRound_spec u v hu
  unfold humanizeDuration
  dsimp only
  split_ifs with h0 h1
  · rw [h0] at h
    exact Or.inl ⟨rfl, h⟩
  · refine Or.inr ⟨1, by decide, by rwa [h1] at h, ?_⟩
    simp [countText, toString]
  · refine Or.inr ⟨_, h0, h, ?_⟩
    simp [countText, h1, toString]

theorem humanize_spec (v : Int) (hv : 5 < v) :
    ∃ (pre post : List (Int × String × String)) (u : Int) (article name : String) (k : Int),
      humanUnits = pre ++ (u, article, name) :: post ∧
      (∀ p ∈ pre, RoundsTo v p.1 0) ∧ k ≠ 0 ∧ RoundsTo v u k ∧
      humanize v = countText k article name := by
  unfold humanize
  rw [if_neg (by omega)]
  rcases humanizeDuration_cases 2629746 v (by decide) "a" "month" with ⟨e1, r1⟩ | ⟨k, h1, h2, h3⟩
  swap
  · exact ⟨[], _, _, _, _, k, rfl, by simp, h1, h2, by rw [h3]; rfl⟩
  rcases humanizeDuration_cases 86400 v (by decide) "a" "day" with ⟨e2, r2⟩ | ⟨k, h1, h2, h3⟩
  swap
  · exact ⟨[(2629746, "a", "month")], _, _, _, _, k, rfl, by simpa using r1, h1, h2, by
      rw [e1, h3]; rfl⟩
  rcases humanizeDuration_cases 3600 v (by decide) "an" "hour" with ⟨e3, r3⟩ | ⟨k, h1, h2, h3⟩
  swap
  · exact ⟨[(2629746, "a", "month"), (86400, "a", "day")], _, _, _, _, k, rfl,
      by simpa using ⟨r1, r2⟩, h1, h2, by rw [e1, e2, h3]; rfl⟩
  rcases humanizeDuration_cases 60 v (by decide) "a" "minute" with ⟨e4, r4⟩ | ⟨k, h1, h2, h3⟩
  swap
  · exact ⟨[(2629746, "a", "month"), (86400, "a", "day"), (3600, "an", "hour")], _, _, _, _, k, rfl,
      by simpa using ⟨r1, r2, r3⟩, h1, h2, by rw [e1, e2, e3, h3]; rfl⟩
  rcases humanizeDuration_cases 1 v (by decide) "a" "second" with ⟨e5, r5⟩ | ⟨k, h1, h2, h3⟩
  swap
  · exact ⟨[(2629746, "a", "month"), (86400, "a", "day"), (3600, "an", "hour"), (60, "a", "minute")],
      _, _, _, _, k, rfl, by simpa using ⟨r1, r2, r3, r4⟩, h1, h2, by
        rw [e1, e2, e3, e4, h3]; rfl⟩
  exfalso
  have := r5.1
  rw [Int.zero_mul, Int.sub_zero, abs_of_pos (by omega)] at this
  omega

end Angonoka.Format
