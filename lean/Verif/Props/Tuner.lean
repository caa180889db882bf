import Mathlib.Tactic.IntervalCases
import Verif.Model.Tuner
import Verif.Proof.Format
import Verif.Props.DocumentedRun
import Verif.Props.Log
import Verif.Spec.Tuner

/-!
# C85: the tuner

What `tools/hyperparameters/hyperparameters.py` relies on: that the program accepts its command lines, and that it reads the makespan from
the log.
-/

set_option linter.unusedSectionVars false

namespace Angonoka.Props
open Angonoka Outcome Cli CommandLine Stun Tuner

variable {K : Type} [Field K] [LinearOrder K] [IsStrictOrderedRing K] [FloorRing K] {E : FloatEnv K}
  {read : ReadReal} {isFile : String → Bool} {terminal : Bool}

/-! ### The command line -/

/-- The computation with `float`s in the script gives exactly a fifth, two fifths, ... of 100 times the size of the batch. -/
theorem idleIters_exact {b k : Nat} (hb : 1 ≤ b ∧ b ≤ 6) (hk : 1 ≤ k ∧ k ≤ 5) : idleIters (10 ^ b) k = 20 * k * 10 ^ b := by
  obtain ⟨h1, h2⟩ := hb
  obtain ⟨h3, h4⟩ := hk
  interval_cases b <;> interval_cases k <;> decide +kernel

theorem number_digit (n : Nat) (h : n < 10) : DurationText.Number (toString n).toList n := by
  interval_cases n <;> exact .one (by decide)

theorem powerText_decimal {k : Nat} (h : k ≤ 7) : Decimal (powerText k) (1 / 10 ^ k) := by
  have one : DurationText.Number ['1'] 1 := .one (by decide)
  have zero : DurationText.Number ['0'] 0 := .one (by decide)
  have z1 : DurationText.Number ['0', '1'] 1 := .snoc zero (by decide : ('1', 1) ∈ _)
  have z2 : DurationText.Number ['0', '0', '1'] 1 := .snoc (.snoc zero (by decide : ('0', 0) ∈ _)) (by decide : ('1', 1) ∈ _)
  have z3 : DurationText.Number ['0', '0', '0', '1'] 1 :=
    .snoc (.snoc (.snoc zero (by decide : ('0', 0) ∈ _)) (by decide : ('0', 0) ∈ _)) (by decide : ('1', 1) ∈ _)
  have e : ∀ (d : Char) (n : Nat), (d, n) ∈ DurationText.digits → DurationText.Number ['0', d] n := by
    intro d n h
    have := DurationText.Number.snoc zero h
    simpa using this
  have point : ∀ {a b : List Char} {m n : Nat} {t : String} {v : ℚ}, DurationText.Number a m → DurationText.Number b n →
      t = String.ofList (a ++ '.' :: b) → v = m + n / 10 ^ b.length → Decimal t v := by
    rintro a b m n t v ha hb rfl rfl
    exact .point ha hb
  have exponent : ∀ {a b : List Char} {m n : Nat} {t : String} {v : ℚ}, DurationText.Number a m → DurationText.Number b n →
      t = String.ofList (a ++ 'e' :: '-' :: b) → v = m / 10 ^ n → Decimal t v := by
    rintro a b m n t v ha hb rfl rfl
    exact .exponent ha hb
  interval_cases k
  · exact point one zero (by decide) (by norm_num)
  · exact point zero one (by decide) (by norm_num)
  · exact point zero z1 (by decide) (by norm_num)
  · exact point zero z2 (by decide) (by norm_num)
  · exact point zero z3 (by decide) (by norm_num)
  · exact exponent one (e '5' 5 (by decide)) (by decide) (by norm_num)
  · exact exponent one (e '6' 6 (by decide)) (by decide) (by norm_num)
  · exact exponent one (e '7' 7 (by decide)) (by decide) (by norm_num)

theorem number_toString (n : Nat) : DurationText.Number (toString n).toList n := by
  rw [Nat.toString_eq_repr, Nat.toList_repr]
  exact Format.number_toDigits n

theorem tenthsText_decimal (n : Nat) : Decimal (tenthsText n) (n / 10) := by
  have h := Decimal.point (number_toString (n / 10)) (number_toString (n % 10))
  have ht : tenthsText n = String.ofList ((toString (n / 10)).toList ++ '.' :: (toString (n % 10)).toList) := by
    apply String.toList_injective
    simp [tenthsText]
  have hl : (toString (n % 10)).toList.length = 1 := by
    have : n % 10 < 10 := Nat.mod_lt _ (by decide)
    interval_cases n % 10 <;> rfl
  rw [ht]
  rw [hl] at h
  convert h using 1
  have : (n : ℚ) = ((10 * (n / 10) + n % 10 : Nat) : ℚ) := by rw [Nat.div_add_mod]
  rw [this]
  push_cast
  have h2 : ((10 * (n / 10) + n % 10) / 10 : Nat) = n / 10 := by omega
  ring

theorem near_bounds {q v : ℚ} (h : NearTo q v) (hv : 0 ≤ v) : v / 2 ≤ q ∧ q ≤ 2 * v := by
  unfold NearTo at h
  rw [abs_le] at h
  have : v / 2 ^ 60 ≤ v / 2 := by
    rw [div_le_div_iff₀ (by norm_num) (by norm_num)]
    nlinarith
  constructor <;> linarith

/-- C85. Whatever the tuner tries, the program accepts its command line. The optimizer gets the numbers that the tuner
has suggested, rounded to `float`s, and can work with them. -/
theorem tuner_accepted (hE : E.IsExact ∨ E.IsFloat) (hslack : E.slack ≤ 9 / 10) (hn : ReadsNaturals read) (hs : SignsAgree read) (hd : ReadsDecimals read)
    (hi : isFile "tasks.yml" = true) (he : isFile "" = false) {t : Trial} (ht : t.Suggested) :
    ∃ (o : Cli.Options K) (beta gamma : ℚ), parse E read isFile terminal .predict t.arguments = .accepted o ∧
      o.filename = "tasks.yml" ∧ o.output = "time_estimation.json" ∧ o.quiet = false ∧ o.logOptimization = true ∧ o.binSize = none ∧
      o.opt = { batchSize := 10 ^ t.batchSize, maxIdleIters := 20 * t.maxIdleIters * 10 ^ t.batchSize, betaScale := E.rnd (beta : K),
                stunWindow := 100, gamma := E.rnd (gamma : K), restartPeriod := 256 } ∧
      NearTo beta (10 ^ t.betaScale) ∧ NearTo gamma (t.gamma / 10) ∧
      ∀ sp : ScheduleParams K, WellFormed sp → ValidOptions E (o.opt.options sp) := by
  obtain ⟨⟨b1, b2⟩, hk, ⟨e1, e2⟩, g1, g2⟩ := ht
  have hidle := idleIters_exact ⟨b1, b2⟩ hk
  have hpow : ∀ n, 1 ≤ n → n ≤ 6 → 10 ≤ 10 ^ n ∧ 10 ^ n ≤ 10 ^ 6 := fun n h1 h2 =>
    ⟨by simpa using Nat.pow_le_pow_right (n := 10) (by norm_num) h1, Nat.pow_le_pow_right (by norm_num) h2⟩
  obtain ⟨p1, p2⟩ := hpow _ b1 b2
  obtain ⟨j, hj, hj7⟩ : ∃ j : Nat, t.betaScale = -(j : Int) ∧ j ≤ 7 := ⟨t.betaScale.natAbs, by omega, by omega⟩
  have hja : t.betaScale.natAbs = j := by omega
  have hval : (10 : ℚ) ^ t.betaScale = 1 / 10 ^ j := by rw [hj, zpow_neg, zpow_natCast, one_div]
  have hj1 : (10 : ℚ) ^ j ≤ 10 ^ 7 := pow_le_pow_right₀ (by norm_num) hj7
  have hj0 : (1 : ℚ) ≤ 10 ^ j := one_le_pow₀ (by norm_num)
  have hv1 : (1 : ℚ) / 10 ^ 7 ≤ 1 / 10 ^ j := one_div_le_one_div_of_le (by positivity) hj1
  have hv2 : (1 : ℚ) / 10 ^ j ≤ 1 := by
    rw [div_le_one (by positivity)]
    exact hj0
  obtain ⟨beta, hb1, hb2⟩ := hd _ _ (powerText_decimal hj7) (le_trans (by norm_num) hv1) (hv2.trans (by norm_num))
  have hg1 : (1 : ℚ) / 10 ≤ (t.gamma : ℚ) / 10 := by
    have : (1 : ℚ) ≤ t.gamma := by exact_mod_cast g1
    linarith
  have hg2 : (t.gamma : ℚ) / 10 ≤ 10 := by
    have : (t.gamma : ℚ) ≤ 100 := by exact_mod_cast g2
    linarith
  obtain ⟨gamma, hc1, hc2⟩ := hd _ _ (tenthsText_decimal t.gamma) (le_trans (by norm_num) hg1) (hg2.trans (by norm_num))
  have hb3 := near_bounds hb2 (le_trans (by norm_num) hv1)
  have hc3 := near_bounds hc2 (le_trans (by norm_num) hg1)
  have hacc := options_as_given (E := E) (terminal := terminal) (c := .predict) (a := t.arguments) (bin := none) hn hi
    (batch := 10 ^ t.batchSize) (idle := 20 * t.maxIdleIters * 10 ^ t.batchSize) (window := 100) (period := 256)
    (Or.inr ⟨rfl, by omega, by omega⟩)
    (Or.inr ⟨by rw [Trial.arguments, hidle], by nlinarith, by nlinarith⟩)
    (Or.inr ⟨rfl, by decide, by decide⟩) (Or.inr ⟨rfl, ⟨by decide, by decide⟩, 8, by decide⟩)
    (Or.inr ⟨_, rfl, by rw [hja]; exact hb1, le_trans (by norm_num) ((div_le_div_of_nonneg_right hv1 (by norm_num)).trans hb3.1),
      le_trans hb3.2 (le_trans (mul_le_mul_of_nonneg_left hv2 (by norm_num)) (by norm_num))⟩)
    (Or.inr ⟨_, rfl, hc1, le_trans (by norm_num) ((div_le_div_of_nonneg_right hg1 (by norm_num)).trans hc3.1),
      le_trans hc3.2 (le_trans (mul_le_mul_of_nonneg_left hg2 (by norm_num)) (by norm_num))⟩)
    (Or.inl ⟨rfl, rfl⟩)
  refine ⟨_, beta, gamma, hacc, rfl, rfl, rfl, rfl, rfl, rfl, by rwa [hval], hc2, ?_⟩
  intro sp hw
  refine (accepted_options_partial hE hs he hacc ?_ ?_ (by simp [Trial.arguments]) hw).1
  · intro x hx
    cases hx
    rintro ⟨pre, rest, h1, h2⟩
    match pre, h1, h2 with
    | [], h1, _ => cases h1
    | c :: _, h1, h2 =>
      injection h1 with h1 _
      have := h2 c List.mem_cons_self
      subst h1
      revert this
      decide
  · intro x q hx hq
    cases hx
    rw [hja, hb1] at hq
    cases hq
    refine ⟨le_trans (by norm_num) ((div_le_div_of_nonneg_right hv1 (by norm_num)).trans hb3.1), ?_⟩
    have h1 : beta ≤ 33 / 32 := by
      have := (abs_le.1 hb2).2
      have h2 : (1 : ℚ) / 10 ^ j / 2 ^ 60 ≤ 1 / 2 ^ 60 := div_le_div_of_nonneg_right hv2 (by norm_num)
      have h3 : (1 : ℚ) / 2 ^ 60 ≤ 1 / 32 := by norm_num
      linarith
    have h2 : (beta : K) ≤ 33 / 32 := by
      have : ((beta : ℚ) : K) ≤ ((33 / 32 : ℚ) : K) := by exact_mod_cast h1
      simpa using this
    have hs := E.slack_nonneg
    calc (beta : K) * (E.slack + 3 / 100) ≤ 33 / 32 * (E.slack + 3 / 100) := mul_le_mul_of_nonneg_right h2 (by linarith)
      _ ≤ 33 / 32 * (9 / 10 + 3 / 100) := by linarith
      _ ≤ 99 / 100 := by norm_num

/-! ### The log -/

theorem splitLines_last {b : List Char} {x : List Char} (hb : (splitLines [] b).getLast? = some x) (a line : List Char) :
    (splitLines line (a ++ '\n' :: b)).getLast? = some x := by
  have hcons : ∀ l : List Char, (l :: splitLines [] b).getLast? = some x := by
    intro l
    rw [List.getLast?_cons, hb]
    rfl
  induction ha : a.length using Nat.strongRecOn generalizing a line with
  | ind n ih =>
    subst ha
    have hplain : ∀ (c : Char) (r : List Char), a = c :: r → (c = '\r' → ∀ r', r ++ '\n' :: b ≠ '\n' :: r') →
        (splitLines line (a ++ '\n' :: b)).getLast? = some x := by
      rintro c r rfl h
      rw [List.cons_append, splitLines]
      · split
        · rw [List.getLast?_cons, ih r.length (by simp) r [] rfl]
          rfl
        · exact ih r.length (by simp) r _ rfl
      · intro rest h1 h2
        exact h h1 rest h2
    match a, ih, hplain with
    | [], _, _ =>
      rw [List.nil_append, splitLines]
      · rw [if_pos (by decide)]
        exact hcons _
      · intro rest h1 _
        exact absurd h1 (by decide)
    | c :: [], _, hplain =>
      by_cases hc : c = '\r'
      · subst hc
        rw [List.cons_append, List.nil_append, splitLines]
        exact hcons _
      · exact hplain c [] rfl (fun h => absurd h hc)
    | c :: d :: r, ih, hplain =>
      by_cases hc : c = '\r' ∧ d = '\n'
      · obtain ⟨rfl, rfl⟩ := hc
        rw [List.cons_append, List.cons_append, splitLines, List.getLast?_cons, ih r.length (by simp) r [] rfl]
        rfl
      · exact hplain c (d :: r) rfl fun h r' h' => hc ⟨h, (List.cons.inj h').1⟩

theorem splitLines_plain {l : List Char} (hl : ∀ c ∈ l, isBoundary c = false) (line : List Char) :
    splitLines line (l ++ ['\n']) = [line.reverse ++ l] := by
  induction l generalizing line with
  | nil => simp [splitLines, isBoundary]
  | cons c l ih =>
    have hc := hl c List.mem_cons_self
    have hr : c ≠ '\r' := by
      rintro rfl
      exact absurd hc (by decide)
    rw [List.cons_append, splitLines]
    · rw [if_neg (by rw [hc]; decide), ih (fun d hd => hl d (List.mem_cons_of_mem _ hd))]
      simp
    · intro rest h _
      exact hr h

theorem splitCommas_plain {l rest : List Char} (hl : ',' ∉ l) (field : List Char) :
    splitCommas field (l ++ ',' :: rest) = (field.reverse ++ l) :: splitCommas [] rest := by
  induction l generalizing field with
  | nil => simp [splitCommas]
  | cons c l ih =>
    rw [List.cons_append, splitCommas, if_neg (by rintro rfl; exact hl List.mem_cons_self),
      ih (fun h => hl (List.mem_cons_of_mem _ h))]
    simp

theorem splitCommas_end {l : List Char} (hl : ',' ∉ l) (field : List Char) :
    splitCommas field l = [field.reverse ++ l] := by
  induction l generalizing field with
  | nil => simp [splitCommas]
  | cons c l ih =>
    rw [splitCommas, if_neg (by rintro rfl; exact hl List.mem_cons_self), ih (fun h => hl (List.mem_cons_of_mem _ h))]
    simp

theorem int_nat (n : Nat) : Tuner.int (toString n).toList = some (n : Int) := by
  obtain ⟨hne, hd, hv⟩ := digits_facts n
  have hl : (toString n).toList = Nat.toDigits 10 n := by rw [Nat.toString_eq_repr, Nat.toList_repr]
  rw [hl]
  cases hc : Nat.toDigits 10 n with
  | nil => exact absurd hc hne
  | cons c cs =>
    rw [hc] at hd hv
    simp only [Tuner.int, sign_plain (hd c (by simp)), hv, signed, Bool.false_eq_true, if_false]
    rw [if_pos ⟨by simp, List.all_eq_true.2 fun d hd' => isDigit_ten (hd d hd')⟩]

theorem int_neg (n : Nat) : Tuner.int ('-' :: (toString n).toList) = some (-(n : Int)) := by
  obtain ⟨hne, hd, hv⟩ := digits_facts n
  have hl : (toString n).toList = Nat.toDigits 10 n := by rw [Nat.toString_eq_repr, Nat.toList_repr]
  rw [hl]
  have hs : sign ('-' :: Nat.toDigits 10 n) = (true, Nat.toDigits 10 n) := by
    rw [sign, List.dropWhile_cons_of_neg (by decide)]
    rfl
  simp only [Tuner.int, hs, hv, signed, if_true]
  rw [if_pos ⟨hne, List.all_eq_true.2 fun d hd' => isDigit_ten (hd d hd')⟩]

theorem toString_int (v : Int) : (∃ n : Nat, v = n ∧ toString v = toString n) ∨ ∃ n : Nat, v = -(n : Int) ∧ toString v = "-" ++ toString n := by
  cases v with
  | ofNat n => exact Or.inl ⟨n, rfl, rfl⟩
  | negSucc n => exact Or.inr ⟨n + 1, rfl, rfl⟩

theorem int_toString (v : Int) : Tuner.int (toString v).toList = some v := by
  rcases toString_int v with ⟨n, rfl, h⟩ | ⟨n, rfl, h⟩
  · rw [h, int_nat]
  · rw [h, String.toList_append]
    exact int_neg n

theorem digits_plain (n : Nat) : ∀ c ∈ (toString n).toList, c ≠ ',' ∧ isBoundary c = false := by
  intro c hc
  rw [Nat.toString_eq_repr, Nat.toList_repr] at hc
  have := (digits_facts n).2.1 c hc
  constructor
  · rintro rfl
    exact absurd this (by decide)
  · by_contra hb
    rw [Bool.not_eq_false] at hb
    simp only [isBoundary, List.mem_cons, List.not_mem_nil, or_false, decide_eq_true_eq] at hb
    rcases hb with rfl | rfl | rfl | rfl | rfl | rfl | rfl | rfl | rfl | rfl <;> exact absurd this (by decide)

theorem int_plain (v : Int) : ∀ c ∈ (toString v).toList, c ≠ ',' ∧ isBoundary c = false := by
  rcases toString_int v with ⟨n, rfl, h⟩ | ⟨n, rfl, h⟩
  · rw [h]
    exact digits_plain n
  · rw [h, String.toList_append]
    intro c hc
    rcases List.mem_append.1 hc with hc | hc
    · have : c = '-' := by simpa using hc
      subst this
      decide
    · exact digits_plain n c hc

theorem logText_snoc (fmtFloat : K → String) (rows : List (K × Int × Nat)) (row : K × Int × Nat) :
    logText fmtFloat (rows ++ [row]) = logText fmtFloat rows ++ rowText fmtFloat row := by
  unfold logText
  rw [List.map_append, String.join_append, ← String.append_assoc, List.map_cons, List.map_nil, String.join_cons, String.join_nil,
    String.append_empty]

theorem line_end (s : String) : (s ++ "\n").toList = s.toList ++ ['\n'] := by
  rw [String.toList_append]
  rfl

theorem logText_end (fmtFloat : K → String) (rows : List (K × Int × Nat)) :
    ∃ a : List Char, (logText fmtFloat rows).toList = a ++ ['\n'] := by
  rcases List.eq_nil_or_concat rows with h | ⟨init, last, h⟩
  · have h1 : logText fmtFloat rows = logHeader := by
      rw [h]
      unfold logText
      rw [List.map_nil, String.join_nil, String.append_empty]
    rw [h1]
    exact ⟨_, line_end _⟩
  · rw [h, List.concat_eq_append, logText_snoc, String.toList_append, rowText, line_end, ← List.append_assoc]
    exact ⟨_, rfl⟩

/-- From a log, the tuner reads the last row. -/
theorem readLog_last {fmtFloat : K → String} (hf : ∀ x, ∀ c ∈ (fmtFloat x).toList, c ≠ ',' ∧ isBoundary c = false)
    (rows : List (K × Int × Nat)) (x : K) (makespan : Int) (epoch : Nat) :
    readLog (logText fmtFloat (rows ++ [(x, makespan, epoch)])) = some (makespan, (epoch : Int)) := by
  let line := (fmtFloat x).toList ++ ',' :: ((toString makespan).toList ++ ',' :: (toString epoch).toList)
  obtain ⟨a, ha⟩ : ∃ a, (logText fmtFloat (rows ++ [(x, makespan, epoch)])).toList = a ++ '\n' :: (line ++ ['\n']) := by
    obtain ⟨a, ha⟩ := logText_end fmtFloat rows
    refine ⟨a, ?_⟩
    rw [logText_snoc, String.toList_append, ha, rowText]
    have h1 : ",".toList = [','] := rfl
    have h2 : "\n".toList = ['\n'] := rfl
    simp only [String.toList_append, h1, h2, List.append_assoc, List.cons_append, List.nil_append, line]
  have hline : ∀ c ∈ line, isBoundary c = false := by
    intro c hc
    simp only [line, List.mem_append, List.mem_cons] at hc
    rcases hc with hc | rfl | hc | rfl | hc
    · exact (hf x c hc).2
    · decide
    · exact (int_plain makespan c hc).2
    · decide
    · exact (digits_plain epoch c hc).2
  have hlast := splitLines_last (x := line) (b := line ++ ['\n']) (by rw [splitLines_plain hline]; rfl) a []
  have hcommas : splitCommas [] line = [(fmtFloat x).toList, (toString makespan).toList, (toString epoch).toList] := by
    rw [splitCommas_plain (fun h => (hf x _ h).1 rfl), splitCommas_plain (fun h => (int_plain makespan _ h).1 rfl),
      splitCommas_end (fun h => (digits_plain epoch _ h).1 rfl)]
    rfl
  unfold readLog
  rw [ha, hlast]
  simp only [hcommas, List.drop_succ_cons, List.drop_zero, List.take_succ_cons, List.take_zero]
  rw [int_toString, int_nat]
  rfl

/-- C85. After a run that has ended successfully, what the tuner reads from the log as the makespan is the makespan in the output
file. -/
theorem tuner_reads_makespan {m : Machine K} (hE : E.IsExact ∨ E.IsFloat) (hslack : E.slack ≤ 9 / 10) (hn : ReadsNaturals read) (hs : SignsAgree read)
    (hd : ReadsDecimals read) (hi : isFile "tasks.yml" = true) (he : isFile "" = false) {t : Trial} (ht : t.Suggested)
    {root : Yaml} {p : Project} (hsrc : m.source = .doc root) (hl : load m.readFloat root = ok p) (hp : p.Sound) (hfl : p.FloatsIn E)
    (hth : 0 < m.threads) {o : Cli.Options K} (ho : parse E read isFile terminal .predict t.arguments = .accepted o)
    (hroom : m.room = true) (hx : status (body E m .predict o).flow = .exit 0)
    {fmtFloat : K → String} (hf : ∀ x, ∀ c ∈ (fmtFloat x).toList, c ≠ ',' ∧ isBoundary c = false) :
    ∃ rows makespan fields epoch, logs (body E m .predict o).effects = [rows] ∧
      files (body E m .predict o).effects = [("time_estimation.json", .obj fields)] ∧
      fields.lookup "makespan" = some (.int makespan) ∧ readLog (logText fmtFloat rows) = some (makespan, epoch) := by
  obtain ⟨o', _, _, ho', h1, h2, h3, h4, -, -, -, -, hv⟩ := tuner_accepted (K := K) (terminal := terminal) hE hslack hn hs hd hi he ht
  rw [ho] at ho'
  cases ho'
  obtain ⟨sp, hsp, hw⟩ := params_wellFormed hp hfl
  obtain ⟨rows, mk, fields, g1, g2, g3, g4⟩ := log_file_partial (by rw [h1]; decide) hsrc hl hp hth hsp (hv sp hw) h3 h4 hroom hx
  obtain ⟨before, epoch, rfl⟩ := g4.last
  rw [h2] at g2
  exact ⟨_, mk, fields, epoch, g1, g2, g3, readLog_last hf before 1 mk epoch⟩

/-- C85. Better runs get lower values: a run with a shorter makespan in less time is not valued higher, whatever the rounding. -/
theorem score_mono {rnd : K → K} (hr : Monotone rnd) {a b : Int} (hab : a ≤ b) {s t : K} (hst : s ≤ t) : score rnd a s ≤ score rnd b t := by
  unfold score
  have h1 : rnd (((a - 3200 : Int) : K) / 50) ≤ rnd (((b - 3200 : Int) : K) / 50) :=
    hr (div_le_div_of_nonneg_right (by exact_mod_cast (by omega : a - 3200 ≤ b - 3200)) (by norm_num))
  have h2 : rnd (s / 3) ≤ rnd (t / 3) := hr (div_le_div_of_nonneg_right hst (by norm_num))
  exact hr (div_le_div_of_nonneg_right (hr (add_le_add h1 h2)) (by norm_num))

/-- C85, the value of a trial: with makespans that are not greater and times that are not longer, run by run, it is not greater, although every step is rounded. -/
theorem objective_mono {rnd : K → K} (hr : Monotone rnd) {runs runs' : List (Int × K)}
    (h : List.Forall₂ (fun r r' => r.1 ≤ r'.1 ∧ r.2 ≤ r'.2) runs runs') : objective rnd runs ≤ objective rnd runs' := by
  have key : ∀ x y : K, x ≤ y → (runs.map fun r => score rnd r.1 r.2).foldl (fun sum x => rnd (sum + x)) x
      ≤ (runs'.map fun r => score rnd r.1 r.2).foldl (fun sum x => rnd (sum + x)) y := by
    induction h with
    | nil => exact fun x y h => h
    | cons h _ ih => exact fun x y hxy => ih _ _ (hr (add_le_add hxy (score_mono hr h.1 h.2)))
  exact key 0 0 le_rfl

/-- In exact arithmetic the order of the trials is the one of total makespan and total time, weighted: a trial is better if and only if this sum is less. -/
theorem objective_exact (runs : List (Int × K)) : objective id runs
    = ((runs.map fun r => ((r.1 : Int) : K)).sum / 50 + (runs.map Prod.snd).sum / 3 - 64 * runs.length) / 2 := by
  have key : ∀ x : K, (runs.map fun r => score id r.1 r.2).foldl (fun sum x => id (sum + x)) x
      = x + ((runs.map fun r => ((r.1 : Int) : K)).sum / 50 + (runs.map Prod.snd).sum / 3 - 64 * runs.length) / 2 := by
    induction runs with
    | nil => intro x; simp
    | cons r l ih =>
      intro x
      rw [List.map_cons, List.foldl_cons, ih]
      simp only [score, id, List.map_cons, List.sum_cons, List.length_cons]
      push_cast
      ring
  exact (key 0).trans (zero_add _)

/-- The value of a trial with five runs -/
example : objective id ([(3200, 6), (3250, 6), (3200, 9), (3210, 3), (3200, 6)] : List (Int × ℚ)) = 28 / 5 := by
  rw [objective_exact]
  norm_num

end Angonoka.Props
