import Mathlib.Tactic.Linarith
import Verif.Proof.Format
import Verif.Proof.DurationLimits

/-!
# Durations: C14-C17
-/

namespace Angonoka.Props
open Angonoka Outcome DurationText

/-- **C14**, language and value. The parser returns `v` exactly for the texts that mean `v` by the
grammar; if it throws, it is `DurationParseError` for this text, and then the text does not even have the
form of a duration; anything else only happens for a text with a number that does not fit an `int`, or with a duration that does not fit 64 bits.

What is missing: the last clause, see `duration_huge_number` and `duration_overflow`. -/
theorem duration_language_partial (text : String) :
    (∀ v, parseDuration text = ok v ↔ Means text v) ∧
    (∀ e, parseDuration text = throws e → e = .duration text ∧ ¬ WellFormed text) ∧
    (∀ s, parseDuration text = ub s → HugeNumber text ∨ Overlong text) :=
  parseDuration_spec text

/-- **C14**, limits. For texts of the form of a duration the behaviour is undefined exactly if a number does not fit an `int` or a duration at the beginning does not
fit 64 bits. -/
theorem duration_undefined_iff {text : String} (h : WellFormed text) :
    (∃ s, parseDuration text = ub s) ↔ HugeNumber text ∨ Overlong text := by
  obtain ⟨h1, h2, h3⟩ := duration_language_partial text
  constructor
  · rintro ⟨s, hs⟩
    exact h3 s hs
  · intro hb
    cases hp : parseDuration text with
    | ok v => exact absurd hb fun hb => hb.elim ((h1 v).1 hp).not_huge ((h1 v).1 hp).not_overlong
    | throws e => exact absurd h (h2 e hp).2
    | ub s => exact ⟨s, rfl⟩

theorem unit_length {t : List Char} {u : Nat} (h : DurationText.Unit t u) : 7 * u ≤ 2629746 * (1 + t.length) := by
  have hl : ∀ p ∈ letters, 7 * p.2 ≤ 2629746 * 2 := by decide
  have hw : ∀ p ∈ unitWords, 7 * p.2 ≤ 2629746 * (2 + p.1.toList.length) := by decide
  have pos : ∀ b : List Char, b ≠ [] → 0 < b.length := fun b hb => List.length_pos_iff.2 hb
  cases h with
  | letter _ h =>
    have := hl _ h
    simp only [List.length_append, List.length_singleton]
    dsimp only at this
    omega
  | word _ hb h =>
    have := hw _ h
    have := pos _ hb
    simp only [List.length_append]
    dsimp only at *
    omega
  | words _ hb h =>
    have := hw _ h
    have := pos _ hb
    simp only [List.length_append, List.length_singleton]
    dsimp only at *
    omega

theorem number_length {s : List Char} {n : Nat} (h : Number s n) : 0 < s.length := by
  cases h <;> simp

/-- How long a text has to be for a duration. -/
theorem components_length {M : Nat} {p : List Char} {v : Nat} (h : Components (· ≤ M) p v) : 7 * v ≤ M * 2629746 * p.length := by
  have key : ∀ {s t : List Char} {n u : Nat}, Number s n → n ≤ M → DurationText.Unit t u →
      7 * (n * u) ≤ M * 2629746 * (s ++ t).length := by
    intro s t n u hs hn ht
    have h1 := number_length hs
    have h2 := unit_length ht
    rw [List.length_append]
    calc 7 * (n * u) = n * (7 * u) := by ring
      _ ≤ M * (2629746 * (1 + t.length)) := Nat.mul_le_mul hn h2
      _ ≤ M * (2629746 * (s.length + t.length)) := Nat.mul_le_mul_left _ (Nat.mul_le_mul_left _ (by omega))
      _ = M * 2629746 * (s.length + t.length) := by ring
  induction h with
  | one hs hn ht => exact key hs hn ht
  | @more p b s t v n u _ _ hs hn ht ih =>
    have := key hs hn ht
    rw [List.length_append, List.length_append, Nat.mul_add, Nat.mul_add, Nat.mul_add]
    have : 0 ≤ M * 2629746 * b.length := Nat.zero_le _
    omega

/-- C14: only texts of more than 11000 characters can overflow. -/
theorem duration_short {text : String} (h : text.length ≤ 11000) : ¬ Overlong text := by
  rintro ⟨p, t, v, hp, hv, h63⟩
  have h1 := components_length hv
  have h2 : p.length ≤ 11000 := by
    have := congrArg List.length hp
    rw [String.length_toList, List.length_append] at this
    omega
  omega

/-- A duration written in at most 5000 characters fits 62 bits. -/
theorem duration_62 {text : String} {v : Nat} (h : text.length ≤ 5000) (hv : parseDuration text = ok v) : v < 2 ^ 62 := by
  have h1 := components_length ((duration_language_partial text).1 v |>.1 hv).1
  rw [String.length_toList] at h1
  omega

/-- C14: texts of at most 11000 characters without oversized numbers either have a value or raise `DurationParseError`,
depending on whether they have the form of a duration. -/
theorem duration_total (text : String) (h : ¬ HugeNumber text) (hlen : text.length ≤ 11000) :
    (WellFormed text ∧ ∃ v, parseDuration text = ok v) ∨
      (¬ WellFormed text ∧ parseDuration text = throws (.duration text)) := by
  obtain ⟨h1, h2, h3⟩ := duration_language_partial text
  cases hp : parseDuration text with
  | ok v =>
    refine Or.inl ⟨?_, v, rfl⟩
    have := (h1 v).1 hp
    exact ⟨v, this.1.mono (fun _ _ => trivial)⟩
  | throws e =>
    obtain ⟨rfl, hw⟩ := h2 e hp
    exact Or.inr ⟨hw, rfl⟩
  | ub s => exact ((h3 s hp).elim h (duration_short hlen)).elim

/-- C14 does not hold for oversized numbers: `std::atoi` is undefined on them. -/
theorem duration_huge_number : ∃ s, parseDuration "9999999999s" = ub s :=
  ⟨"atoi: out of range", by decide⟩

/-- A long text: `2147483647 months`, `k + 1` times -/
theorem months_components (k : Nat) : Components (· ≤ 2147483647) (List.replicate (k + 1) "2147483647 months".toList).flatten
    ((k + 1) * (2147483647 * 2629746)) := by
  have hn : Number "2147483647".toList 2147483647 := by
    have h1 : Number ['2'] 2 := .one (by decide)
    have h2 : Number ['2', '1'] 21 := h1.snoc (c := '1') (d := 1) (by decide)
    have h3 : Number ['2', '1', '4'] 214 := h2.snoc (c := '4') (d := 4) (by decide)
    have h4 : Number ['2', '1', '4', '7'] 2147 := h3.snoc (c := '7') (d := 7) (by decide)
    have h5 : Number ['2', '1', '4', '7', '4'] 21474 := h4.snoc (c := '4') (d := 4) (by decide)
    have h6 : Number ['2', '1', '4', '7', '4', '8'] 214748 := h5.snoc (c := '8') (d := 8) (by decide)
    have h7 : Number ['2', '1', '4', '7', '4', '8', '3'] 2147483 := h6.snoc (c := '3') (d := 3) (by decide)
    have h8 : Number ['2', '1', '4', '7', '4', '8', '3', '6'] 21474836 := h7.snoc (c := '6') (d := 6) (by decide)
    have h9 : Number ['2', '1', '4', '7', '4', '8', '3', '6', '4'] 214748364 := h8.snoc (c := '4') (d := 4) (by decide)
    exact h9.snoc (c := '7') (d := 7) (by decide)
  have hu : DurationText.Unit " months".toList 2629746 :=
    .words (b := [' ']) (w := "month") (by simp [Blanks, Blank]) (by decide) (by decide)
  induction k with
  | zero =>
    have := Components.one (P := (· ≤ 2147483647)) hn le_rfl hu
    simpa using this
  | succ k ih =>
    have := Components.more ih (.blanks (b := []) (by simp [Blanks])) hn le_rfl hu
    rw [List.replicate_succ', List.flatten_append]
    have e : (k + 1 + 1) * (2147483647 * 2629746) = (k + 1) * (2147483647 * 2629746) + 2147483647 * 2629746 := by ring
    rw [e]
    simpa using this

/-- C14 does not hold for long texts: there is one, in which all numbers fit an `int`, whose sum overflows. -/
theorem duration_overflow : ∃ text : String, WellFormed text ∧ ∃ s, parseDuration text = ub s := by
  have hc := months_components 1633
  generalize (List.replicate (1633 + 1) "2147483647 months".toList).flatten = cs at hc
  have hlist : (String.ofList cs).toList = cs := String.toList_ofList
  refine ⟨String.ofList cs, ⟨_, by rw [hlist]; exact hc.mono (fun _ _ => trivial)⟩, ?_⟩
  cases hp : parseDuration (String.ofList cs) with
  | ok v =>
    have hm := ((duration_language_partial _).1 v).1 hp
    rcases DurationParser.run_components hc with h | ⟨_, ⟨n, h1, h2⟩ | _⟩
    · exfalso
      rcases DurationParser.run_components hm.1 with h' | ⟨_, ⟨n, h1, h2⟩ | h1⟩
      · rw [hlist, h] at h'
        cases h'
        exact absurd hm.2 (by norm_num)
      · exact h2 h1
      · exact absurd hm.2 (not_lt.2 h1)
    · exact absurd h1 h2
    · exfalso
      rename_i h0 _
      obtain ⟨e, he⟩ := h0
      rcases DurationParser.run_components hm.1 with h' | ⟨_, ⟨n, h1, h2⟩ | h1⟩
      · rw [hlist, he] at h'
        cases h'
      · exact h2 h1
      · exact absurd hm.2 (not_lt.2 h1)
  | throws e => exact absurd ⟨_, by rw [hlist]; exact hc.mono (fun _ _ => trivial)⟩ ((duration_language_partial _).2.1 e hp).2
  | ub s => exact ⟨s, rfl⟩

/-- C14: what a text means is unambiguous. -/
theorem duration_unambiguous (text : String) {v w : Nat} (hv : Means text v) (hw : Means text w) :
    v = w := by
  have h1 := ((duration_language_partial text).1 v).2 hv
  have h2 := ((duration_language_partial text).1 w).2 hw
  rw [h1] at h2
  cases h2
  rfl

/-- A text with three components, blanks and `and`. -/
example : parseDuration "1 month and 2 weeks 3h" = ok (2629746 + 2 * 604800 + 3 * 3600) := by decide

/-- The example in the documentation of `parse_duration` (`/repo/src/config/load.h:49`) is not
in the language. -/
theorem documented_example_rejected : parseDuration "1h 15min" = throws (.duration "1h 15min") := by
  decide

theorem components_join {P : Nat → Prop} {a b s : List Char} {v w : Nat} (ha : Components P a v)
    (hs : Separator s) (hb : Components P b w) : Components P (a ++ s ++ b) (v + w) := by
  induction hb with
  | one h1 h2 h3 => exact .more ha hs h1 h2 h3
  | more _ h1 h2 h3 h4 ih =>
    have := Components.more ih h1 h2 h3 h4
    simpa [Nat.add_assoc] using this

/-- **C15**. Two accepted texts joined by a blank, by ` and `, or by any other separator mean the sum of
their values, in either order, if the sum fits 64 bits. -/
theorem durations_add {a b : String} {v w : Nat} (ha : parseDuration a = ok v)
    (hb : parseDuration b = ok w) (hsum : v + w < 2 ^ 63) :
    parseDuration (a ++ " " ++ b) = ok (v + w) ∧ parseDuration (b ++ " " ++ a) = ok (v + w) ∧
    parseDuration (a ++ " and " ++ b) = ok (v + w) ∧
    parseDuration (b ++ " and " ++ a) = ok (v + w) ∧
    ∀ sep : String, Separator sep.toList →
      parseDuration (a ++ sep ++ b) = ok (v + w) ∧ parseDuration (b ++ sep ++ a) = ok (v + w) := by
  have ha := ((duration_language_partial a).1 v).1 ha
  have hb := ((duration_language_partial b).1 w).1 hb
  have key : ∀ sep : String, Separator sep.toList →
      parseDuration (a ++ sep ++ b) = ok (v + w) ∧ parseDuration (b ++ sep ++ a) = ok (v + w) := by
    intro sep hs
    constructor
    · refine ((duration_language_partial _).1 _).2 ?_
      refine ⟨?_, hsum⟩
      simpa using components_join ha.1 hs hb.1
    · refine ((duration_language_partial _).1 _).2 ?_
      refine ⟨?_, hsum⟩
      rw [Nat.add_comm v w]
      simpa using components_join hb.1 hs ha.1
  have hblank : Separator " ".toList := .blanks (by simp [Blanks, Blank])
  have hand : Separator " and ".toList :=
    .and (b := [' ']) (b' := [' ']) (by simp [Blanks, Blank]) (by decide) (by simp [Blanks, Blank])
      (by decide)
  exact ⟨(key _ hblank).1, (key _ hblank).2, (key _ hand).1, (key _ hand).2, key⟩

/-- The hypotheses of `durations_add` for concrete texts. -/
example : parseDuration "90m" = ok 5400 ∧ parseDuration "2 days" = ok 172800 := by decide

/-- **C16**, nothing is lost: the verbose text lists months, days, hours, minutes and seconds that add up
to the duration, each below the next larger unit, leaving out zeros. -/
theorem verbose_exact (v : Nat) (hv : 0 < v) :
    ∃ mo d h m s : Nat,
      v = mo * 2629746 + d * 86400 + h * 3600 + m * 60 + s ∧
      d * 86400 + h * 3600 + m * 60 + s < 2629746 ∧ h < 24 ∧ m < 60 ∧ s < 60 ∧
      Format.verbose v = render [(mo, "mo"), (d, "d"), (h, "h"), (m, "m"), (s, "s")] := by
  refine ⟨v / 2629746, v % 2629746 / 86400, v % 2629746 % 86400 / 3600,
    v % 2629746 % 86400 % 3600 / 60, v % 2629746 % 86400 % 3600 % 60, by omega, by omega, by omega,
    by omega, by omega, Format.verbose_eq_render v hv⟩

theorem verbose_zero : Format.verbose 0 = "0s" := rfl

/-- **C16**, round trip: below a month the verbose text can be read back and gives the same
duration. -/
theorem verbose_roundtrip (v : Nat) (hv : v < 2629746) :
    parseDuration (Format.verbose v) = ok v := by
  rcases Nat.eq_zero_or_pos v with rfl | h0
  · decide
  · refine ((duration_language_partial _).1 _).2 ?_
    exact Format.verbose_means v h0 hv

/-- From a month on it cannot: `mo` is not a unit of the parser. -/
theorem verbose_month_unreadable :
    Format.verbose 2629746 = "1mo" ∧ parseDuration "1mo" = throws (.duration "1mo") := by decide

example : Format.verbose 93784 = "1d 2h 3m 4s" := by decide

/-- **C17**. Up to five seconds the text is fixed. Above, it states how many of a unit there are: the
unit is one of month, day, hour, minute and second, the count is not zero and is the
duration rounded to that unit, and the duration rounds to zero for all larger units. -/
theorem humanize_accurate (v : Int) :
    (v ≤ 5 → Format.humanize v = "a few seconds") ∧
    (5 < v → ∃ (pre post : List (Int × String × String)) (u : Int) (article name : String) (k : Int),
      humanUnits = pre ++ (u, article, name) :: post ∧
      (∀ p ∈ pre, RoundsTo v p.1 0) ∧ k ≠ 0 ∧ RoundsTo v u k ∧
      Format.humanize v = countText k article name) :=
  ⟨fun h => by simp [Format.humanize, h], Format.humanize_spec v⟩

example : Format.humanize 86399 = "about a day" ∧ Format.humanize 5400 = "2 hours" ∧
    Format.humanize 1800 = "30 minutes" := by decide

end Angonoka.Props
