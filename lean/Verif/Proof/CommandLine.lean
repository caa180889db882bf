import Verif.Spec.CommandLine
import Verif.Proof.Temperature
import Verif.Base.Binary32
import Mathlib.Tactic.NormNum
import Mathlib.Tactic.ByContra
import Mathlib.Data.List.TakeWhile

/-!
# Lemmas about the command line
-/

namespace Angonoka.CommandLine
open Angonoka Outcome Cli

theorem digit_of_isDigit {c : Char} (h : c.isDigit = true) : digit c = some (c.toNat - 48) ∧ c.toNat - 48 < 10 := by
  have h1 : 48 ≤ c.toNat ∧ c.toNat ≤ 57 := by
    simp only [Char.isDigit, Bool.and_eq_true, decide_eq_true_eq] at h
    exact ⟨UInt32.le_iff_toNat_le.1 h.1, UInt32.le_iff_toNat_le.1 h.2⟩
  refine ⟨?_, by omega⟩
  rw [digit, if_pos]
  exact ⟨UInt32.le_iff_toNat_le.2 h1.1, UInt32.le_iff_toNat_le.2 h1.2⟩

theorem number_eq {cs : List Char} (h : ∀ c ∈ cs, c.isDigit = true) : number 10 cs = Nat.ofDigitChars 10 cs 0 := by
  rw [number, Nat.ofDigitChars_eq_foldl]
  suffices hs : ∀ n : Nat, cs.foldl (fun n c => n * 10 + (digit c).getD 0) n
      = cs.foldl (fun sofar c => 10 * sofar + (c.toNat - '0'.toNat)) n from hs 0
  intro n
  induction cs generalizing n with
  | nil => rfl
  | cons c cs ih =>
    rw [List.foldl_cons, List.foldl_cons, (digit_of_isDigit (h c (by simp))).1, ih (fun d hd => h d (by simp [hd]))]
    rw [Nat.mul_comm]
    rfl

theorem digits_facts (n : Nat) : Nat.toDigits 10 n ≠ [] ∧ (∀ c ∈ Nat.toDigits 10 n, c.isDigit = true) ∧
    number 10 (Nat.toDigits 10 n) = n := by
  have h : ∀ c ∈ Nat.toDigits 10 n, c.isDigit = true :=
    fun c hc => Nat.isDigit_of_mem_toDigits (by decide) (by decide) hc
  exact ⟨Nat.toDigits_ne_nil, h, by rw [number_eq h]; exact Nat.ofDigitChars_ten_toDigits⟩

theorem head_toDigits {n : Nat} (h : 0 < n) (rest : List Char) : Nat.toDigits 10 n ≠ '0' :: rest := by
  induction n using Nat.strongRecOn generalizing rest with
  | ind n ih =>
    intro h0
    rcases lt_or_ge n 10 with hn | hn
    · rw [Nat.toDigits_of_lt_base hn] at h0
      have := (List.cons.inj h0).1
      rw [Nat.digitChar_eq_zero] at this
      omega
    · rw [Nat.toDigits_of_base_le (by decide) hn] at h0
      cases hd : Nat.toDigits 10 (n / 10) with
      | nil => exact Nat.toDigits_ne_nil hd
      | cons c cs =>
        rw [hd, List.cons_append] at h0
        obtain ⟨rfl, -⟩ := List.cons.inj h0
        exact ih (n / 10) (by omega) (by omega) cs hd

theorem isDigit_ten {c : Char} (h : c.isDigit = true) : isDigit 10 c = true := by
  obtain ⟨h1, h2⟩ := digit_of_isDigit h
  rw [isDigit, h1]
  exact decide_eq_true h2

theorem sign_plain {c : Char} {cs : List Char} (h : c.isDigit = true) : sign (c :: cs) = (false, c :: cs) := by
  have h1 : isSpace c = false := by
    by_contra hc
    rw [Bool.not_eq_false] at hc
    simp only [isSpace, Bool.or_eq_true, beq_iff_eq] at hc
    rcases hc with ((((rfl | rfl) | rfl) | rfl) | rfl) | rfl <;> revert h <;> decide
  rw [sign, List.dropWhile_cons, h1]
  simp only [Bool.false_eq_true, if_false]
  split
  · rename_i r he
    obtain ⟨rfl, -⟩ := List.cons.inj he
    exact absurd h (by decide)
  · rename_i r he
    obtain ⟨rfl, -⟩ := List.cons.inj he
    exact absurd h (by decide)
  · rfl

theorem baseOf_plain {c : Char} {cs : List Char} (h : c ≠ '0') : baseOf (c :: cs) = (10, c :: cs) := by
  unfold baseOf
  split <;> first | rfl | (rename_i he; exact absurd (List.cons.inj he).1 h)

theorem isInt_nat {n : Nat} (h : n < 2 ^ 31) : isInt (n : Int) = true := by
  rw [isInt, decide_eq_true_eq]
  norm_num at h ⊢
  omega

/-- A decimal number is read as such. -/
theorem toInt_nat {n : Nat} (h0 : 0 < n) (h : n < 2 ^ 31) : toInt (toString n) = some (n : Int) := by
  obtain ⟨hne, hd, hv⟩ := digits_facts n
  have hl : (toString n).toList = Nat.toDigits 10 n := by rw [Nat.toString_eq_repr, Nat.toList_repr]
  have h1 := head_toDigits h0
  cases hc : Nat.toDigits 10 n with
  | nil => exact absurd hc hne
  | cons c cs =>
    rw [hc] at hd hv hl h1
    have hz : c ≠ '0' := by rintro rfl; exact h1 cs rfl
    simp only [toInt, hl, sign_plain (hd c (by simp)), baseOf_plain hz, hv, signed, Bool.false_eq_true, if_false]
    rw [if_pos ⟨by simp, List.all_eq_true.2 fun d hd' => isDigit_ten (hd d hd'), isInt_nat h⟩]

theorem toInt_zero : toInt (toString 0) = some 0 := by decide

theorem stoi_nat {n : Nat} (h : n < 2 ^ 31) : stoi (toString n) = some (n : Int) := by
  obtain ⟨hne, hd, hv⟩ := digits_facts n
  have hl : (toString n).toList = Nat.toDigits 10 n := by rw [Nat.toString_eq_repr, Nat.toList_repr]
  cases hc : Nat.toDigits 10 n with
  | nil => exact absurd hc hne
  | cons c cs =>
    rw [hc] at hd hv hl
    have ht : (c :: cs).takeWhile (isDigit 10) = c :: cs :=
      List.takeWhile_eq_self_iff.2 fun d hd' => isDigit_ten (hd d hd')
    simp only [stoi, hl, sign_plain (hd c (by simp)), ht, hv, signed, Bool.false_eq_true, if_false]
    rw [if_pos ⟨by simp, isInt_nat h⟩]

theorem hasSingleBit_int {n : Nat} (h : n < 2 ^ 31) :
    Stun.hasSingleBit (((n : Int) % 2 ^ 32).toNat) = true ↔ ∃ k, n = 2 ^ k := by
  have : ((n : Int) % 2 ^ 32).toNat = n := by
    norm_num at h ⊢
    omega
  rw [this, hasSingleBit_iff]

theorem powerOf2Validator_nat {n : Nat} (h : n < 2 ^ 31) :
    powerOf2Validator (toString n) = none ↔ ∃ k, n = 2 ^ k := by
  rw [powerOf2Validator, stoi_nat h]
  dsimp only
  rw [← hasSingleBit_int h]
  split <;> simp_all

/-- `strtoll` and `stoi` agree on numbers that do not start with the digit 0. -/
theorem stoi_of_toInt {text : String} {v : Int} (h : toInt text = some v) (hz : ¬ LeadingZero text) :
    stoi text = some v := by
  have hb : baseOf (sign text.toList).2 = (10, (sign text.toList).2) := by
    have hns : ∀ rest, (sign text.toList).2 ≠ '0' :: rest := by
      intro rest he
      apply hz
      have hw : ∀ c ∈ text.toList.takeWhile isSpace, isSpace c = true ∨ c = '+' ∨ c = '-' :=
        fun c hc => Or.inl (List.mem_takeWhile_imp hc)
      have ha := (List.takeWhile_append_dropWhile (p := isSpace) (l := text.toList)).symm
      unfold sign at he
      split at he
      · rename_i r hr
        dsimp only at he
        subst he
        rw [hr] at ha
        refine ⟨text.toList.takeWhile isSpace ++ ['-'], rest, by rw [List.append_assoc]; exact ha, ?_⟩
        intro c hc
        rcases List.mem_append.1 hc with hc | hc
        · exact hw c hc
        · exact Or.inr (Or.inr (List.mem_singleton.1 hc))
      · rename_i r hr
        dsimp only at he
        subst he
        rw [hr] at ha
        refine ⟨text.toList.takeWhile isSpace ++ ['+'], rest, by rw [List.append_assoc]; exact ha, ?_⟩
        intro c hc
        rcases List.mem_append.1 hc with hc | hc
        · exact hw c hc
        · exact Or.inr (Or.inl (List.mem_singleton.1 hc))
      · dsimp only at he
        rw [he] at ha
        exact ⟨_, rest, ha, hw⟩
    generalize hl : (sign text.toList).2 = l at hns ⊢
    cases l with
    | nil => rfl
    | cons c cs => exact baseOf_plain (by rintro rfl; exact hns cs rfl)
  simp only [toInt, hb] at h
  split at h
  · rename_i hc
    obtain ⟨h1, h2, h3⟩ := hc
    have ht : (sign text.toList).2.takeWhile (isDigit 10) = (sign text.toList).2 :=
      List.takeWhile_eq_self_iff.2 (by simpa using h2)
    simp only [stoi, ht]
    rw [if_pos ⟨h1, h3⟩]
    exact h
  · cases h

theorem isInt_of_toInt {text : String} {v : Int} (h : toInt text = some v) : isInt v = true := by
  simp only [toInt] at h
  split at h
  · rename_i hc
    cases h
    exact hc.2.2
  · cases h

theorem sign_mem {cs : List Char} {c : Char} (h : c ∈ cs) : NumberChar c ∨ c ∈ (sign cs).2 := by
  rw [← List.takeWhile_append_dropWhile (p := isSpace) (l := cs), List.mem_append] at h
  rcases h with h | h
  · have hs := List.mem_takeWhile_imp h
    simp only [isSpace, Bool.or_eq_true, beq_iff_eq] at hs
    left
    unfold NumberChar
    tauto
  · unfold sign
    split
    · rename_i r hr
      rw [hr, List.mem_cons] at h
      rcases h with rfl | h
      · left; simp [NumberChar]
      · exact Or.inr h
    · rename_i r hr
      rw [hr, List.mem_cons] at h
      rcases h with rfl | h
      · left; simp [NumberChar]
      · exact Or.inr h
    · exact Or.inr h

theorem baseOf_mem {cs : List Char} {c : Char} (h : c ∈ cs) : NumberChar c ∨ c ∈ (baseOf cs).2 := by
  unfold baseOf
  split
  · simp only [List.mem_cons] at h
    rcases h with rfl | rfl | h
    · left; unfold NumberChar; decide
    · left; simp [NumberChar]
    · exact Or.inr h
  · simp only [List.mem_cons] at h
    rcases h with rfl | rfl | h
    · left; unfold NumberChar; decide
    · left; simp [NumberChar]
    · exact Or.inr h
  · exact Or.inr h
  · exact Or.inr h

theorem numberChar_of_digit {base : Nat} {c : Char} (h : isDigit base c = true) : NumberChar c := by
  have hd : digit c ≠ none := by
    intro hn
    rw [isDigit, hn] at h
    cases h
  unfold digit at hd
  unfold NumberChar
  by_cases h1 : '0' ≤ c ∧ c ≤ '9'
  · tauto
  · rw [if_neg h1] at hd
    by_cases h2 : 'a' ≤ c ∧ c ≤ 'f'
    · tauto
    · rw [if_neg h2] at hd
      by_cases h3 : 'A' ≤ c ∧ c ≤ 'F'
      · tauto
      · rw [if_neg h3] at hd
        exact absurd rfl hd

/-- Whole numbers consist of the characters of numbers. -/
theorem numberChar_of_toInt {text : String} {v : Int} (h : toInt text = some v) {c : Char} (hc : c ∈ text.toList) :
    NumberChar c := by
  simp only [toInt] at h
  split at h
  · rename_i hcond
    rcases sign_mem hc with h1 | h1
    · exact h1
    · rcases baseOf_mem h1 with h2 | h2
      · exact h2
      · exact numberChar_of_digit (List.all_eq_true.1 hcond.2.1 c h2)
  · cases h

section
variable {K : Type} [Field K] [LinearOrder K] [IsStrictOrderedRing K] [FloorRing K]

/-- Numbers below half of the smallest positive `float` are rounded to 0. -/
theorem _root_.Angonoka.Binary32.round_tiny {x : K} (h0 : 0 < x) (h : x < 2 ^ (-150 : Int)) : Binary32.round x = 0 := by
  have hl : Int.log 2 x < -150 := by
    by_contra hc
    have h1 := Binary32.zpow_log_le h0
    have h2 : (2 : K) ^ (-150 : Int) ≤ 2 ^ Int.log 2 x := zpow_le_zpow_right₀ (by norm_num) (not_lt.1 hc)
    exact absurd (h2.trans h1) (not_le.2 h)
  have hu : Binary32.unit x = -149 := by
    unfold Binary32.unit
    omega
  have hq : x / 2 ^ (-149 : Int) < 1 / 2 := by
    rw [div_lt_iff₀ (by positivity)]
    refine lt_of_lt_of_le h (le_of_eq ?_)
    rw [show (-150 : Int) = -1 + -149 by norm_num, zpow_add₀ (by norm_num)]
    norm_num
  have hq0 : 0 ≤ x / 2 ^ (-149 : Int) := by positivity
  have hf : ⌊x / 2 ^ (-149 : Int)⌋ = 0 := Int.floor_eq_zero_iff.2 ⟨hq0, by linarith⟩
  rw [Binary32.round_nonneg_eq h0.le, Binary32.roundPos, hu, Binary32.nearest, hf, if_pos (by simpa using hq)]
  simp

end

end Angonoka.CommandLine
