import Verif.Props.FloatCertain
import Verif.Props.Tuner

/-!
# C85: the tuner with the document that comes with it

The document is `tools/hyperparameters/tasks.yml`.
-/

set_option linter.unusedSectionVars false

namespace Angonoka.Props
open Angonoka Outcome Cli CommandLine Stun Tuner

/-- A task in `tasks.yml` and its subtasks: `n` is the number of the task. -/
def Sample.tuningTask (n g : String) : Yaml :=
  let item (name minutes : String) := [("name", Sample.str ("Task " ++ name)), ("duration", Sample.str (minutes ++ " minutes")), ("group", Sample.str g)]
  let task (name minutes : String) := Sample.obj (item name minutes)
  let parent (name minutes : String) (subtasks : List Yaml) := Sample.obj (item name minutes ++ [("subtasks", .seq subtasks)])
  parent n "10" [
    parent (n ++ ".1") "11" [task ("1." ++ n ++ ".1") "11", task ("1." ++ n ++ ".2") "12", task ("1." ++ n ++ ".3") "13"],
    task (n ++ ".2") "12", task (n ++ ".3") "13", task (n ++ ".4") "14", task (n ++ ".5") "15"]

/-- `tools/hyperparameters/tasks.yml` -/
def Sample.tuning : Yaml := Sample.obj [
  ("agents", Sample.obj [
    ("Agent 1", Sample.obj [("performance", Sample.str "1"), ("groups", .seq [Sample.str "A"])]),
    ("Agent 2", Sample.obj [("performance", Sample.str "0.9"), ("groups", .seq [Sample.str "A"])]),
    ("Agent 3", Sample.obj [("performance", Sample.str "0.8"), ("groups", .seq [Sample.str "A", Sample.str "B"])]),
    ("Agent 4", Sample.obj [("performance", Sample.str "0.7"), ("groups", .seq [Sample.str "B"])]),
    ("Agent 5", Sample.obj [("performance", Sample.str "0.6"), ("groups", .seq [Sample.str "B"])]),
    ("Agent 6", Sample.obj [("performance", Sample.str "0.5"), ("groups", .seq [Sample.str "B", Sample.str "C"])]),
    ("Agent 7", Sample.obj [("performance", Sample.str "0.6"), ("groups", .seq [Sample.str "C"])]),
    ("Agent 8", Sample.obj [("performance", Sample.str "0.7"), ("groups", .seq [Sample.str "C"])]),
    ("Agent 9", Sample.obj [("performance", Sample.str "0.8"), ("groups", .seq [Sample.str "C", Sample.str "A"])]),
    ("Agent 10", Sample.obj [("performance", Sample.str "0.9"), ("groups", .seq [Sample.str "A", Sample.str "B", Sample.str "C"])])]),
  ("tasks", .seq [Sample.tuningTask "1" "A", Sample.tuningTask "2" "B", Sample.tuningTask "3" "C"])]

/-- The numbers in `tasks.yml`, as `float`s -/
def tuningNumber (s : String) : Option XFloat :=
  ([("1", 1), ("0.9", 9 / 10), ("0.8", 8 / 10), ("0.7", 7 / 10), ("0.6", 6 / 10), ("0.5", 5 / 10)].lookup s).map
    fun q => XFloat.fin (Binary32.round (q : ℚ))

/-- The project in `tasks.yml` -/
def tuningProject : Project :=
  match Load.loadF 20 tuningNumber Sample.tuning with
  | .ok p => p
  | _ => {}

theorem tuning_loads : load tuningNumber Sample.tuning = ok tuningProject := by
  rw [Load.load_eval 20 _ _ (by decide)]
  decide +kernel

/-- It has 27 tasks, of which the first nine are subtasks of the others, and ten agents. -/
example : tuningProject.agents.length = 10 ∧ tuningProject.tasks.length = 27 := by decide +kernel

theorem tuning_perf : ∀ a ∈ tuningProject.agents, a.perfMin = a.perfMax ∧ ∃ q ∈ [1, 9 / 10, 8 / 10, 7 / 10, 6 / 10, (5 / 10 : ℚ)],
    a.perfMin = .fin (Binary32.round q) := by decide +kernel

theorem tuning_dur : ∀ t ∈ tuningProject.tasks, t.durMin = t.durMax ∧ 600 ≤ t.durMin ∧ t.durMin ≤ 900 := by decide +kernel

theorem tuning_eligible : ∀ t ∈ tuningProject.tasks, ∃ a ∈ tuningProject.agents, Eligible a t := by
  unfold Eligible
  decide +kernel

theorem tuning_sound : tuningProject.Sound := by
  refine loaded_sound tuning_loads ?_ ?_ tuning_eligible
  · intro t ht
    obtain ⟨h1, h2, h3⟩ := tuning_dur t ht
    omega
  · intro a ha
    obtain ⟨h1, q, -, h2⟩ := tuning_perf a ha
    exact ⟨_, _, h2, h1 ▸ h2⟩

theorem tuning_moderate : tuningProject.Moderate where
  longer := by
    obtain ⟨t, ht⟩ : ∃ t, t ∈ tuningProject.tasks := List.exists_mem_of_ne_nil _ (by decide +kernel)
    refine ⟨t, ht, ?_⟩
    intro a ha q hq
    obtain ⟨h1, q', hq', h2⟩ := tuning_perf a ha
    rw [← h1, h2] at hq
    cases hq
    have h3 : ∀ q ∈ [1, 9 / 10, 8 / 10, 7 / 10, 6 / 10, (5 / 10 : ℚ)], ∀ t ∈ tuningProject.tasks,
      1 * Binary32.round q ≤ t.meanDuration := by decide +kernel
    exact h3 q' hq' t ht
  shorter := by
    intro a ha q hq
    obtain ⟨h1, q', hq', h2⟩ := tuning_perf a ha
    rw [h2] at hq
    cases hq
    have h3 : ∀ q ∈ [1, 9 / 10, 8 / 10, 7 / 10, 6 / 10, (5 / 10 : ℚ)],
      (((tuningProject.tasks.map Task.meanDuration).sum : Int) : ℚ) < 2 ^ 31 * Binary32.round q := by decide +kernel
    exact h3 q' hq'

variable {K : Type} [Field K] [LinearOrder K] [IsStrictOrderedRing K] [FloorRing K] {E : FloatEnv K}
  {read : ReadReal} {isFile : String → Bool} {terminal : Bool}

/-- C85. The tuner's runs with its document: whatever it tries and whatever the random numbers are, the program accepts the command line
and exits successfully, and what the tuner then reads from the log is the makespan in the output file. -/
theorem tuner_run {m : Machine K} {q : List Int → List K} (hE : E.IsExact) (hn : ReadsNaturals read)
    (hs : SignsAgree read) (hd : ReadsDecimals read) (hi : isFile "tasks.yml" = true) (he : isFile "" = false)
    (hsrc : m.source = .doc Sample.tuning) (hrf : m.readFloat = tuningNumber) (hw : ∀ o : Cli.Options K, CanWrite m o)
    (hth : 0 < m.threads)
    (hm : m.more = Stopping.more E q) (hq : FiveQuantiles q) (hc : ConstantQuantiles q)
    {fmtFloat : K → String} (hf : ∀ x, ∀ c ∈ (fmtFloat x).toList, c ≠ ',' ∧ isBoundary c = false) {t : Trial} (ht : t.Suggested) :
    ∃ (o : Cli.Options K) (N : Nat), parse E read isFile terminal .predict t.arguments = .accepted o ∧
      ∀ fuel, N ≤ fuel → ∀ fuel', 16 ≤ fuel' → ∀ zs, ∀ result,
        result = body E { m with fuel := fuel, fuel' := fuel', zs := zs } .predict o →
        status result.flow = .exit 0 ∧ ∃ rows makespan fields epoch, logs result.effects = [rows] ∧
          files result.effects = [("time_estimation.json", .obj fields)] ∧
          fields.lookup "makespan" = some (.int makespan) ∧ readLog (logText fmtFloat rows) = some (makespan, epoch) := by
  have hfl : tuningProject.FloatsIn E := fun _ _ _ _ => hE _
  have hl : load m.readFloat Sample.tuning = ok tuningProject := by rw [hrf, tuning_loads]
  obtain ⟨o, _, _, ho, h1, h2, h3, h4, h5, -, -, -, hv⟩ := tuner_accepted (K := K) (terminal := terminal) (.inl hE)
    (by rw [E.slack_exact hE]; norm_num) hn hs hd hi he ht
  obtain ⟨sp, hsp, hwf⟩ := params_wellFormed tuning_sound hfl
  obtain ⟨N, _, _, _, _, _, _, _, _, _, _, _, _, _, _, _, _, _, _, _, _, _, _, h⟩ := certain_prediction_partial (o := o) hE
    (by rw [h1]; decide) (by rw [h2]; decide) hsrc hl tuning_sound tuning_moderate (hw o) hth hsp (hv sp hwf)
    (by rw [h5]; intro b hb; cases hb) (fun a ha => (tuning_perf a ha).1) (fun t ht => (tuning_dur t ht).1) hm hq hc
  refine ⟨o, N, ho, fun fuel hN fuel' hf' zs result hr => ?_⟩
  have hx := (h fuel hN fuel' hf' zs result hr).1
  refine ⟨hx, ?_⟩
  subst hr
  exact tuner_reads_makespan (m := { m with fuel := fuel, fuel' := fuel', zs := zs }) (.inl hE)
    (by rw [E.slack_exact hE]; norm_num) hn hs hd hi he ht hsrc hl tuning_sound hfl
    hth ho (hw o).1.2 hx hf

theorem tuning_inRange : tuningProject.InRange where
  tasks := by decide +kernel
  agents := by decide +kernel
  durations := by decide +kernel
  performance := by
    intro a ha q hq
    obtain ⟨h1, q', hq', h2⟩ := tuning_perf a ha
    have hq : q = Binary32.round q' := by
      rcases hq with hq | hq
      · rw [h2] at hq
        cases hq
        rfl
      · rw [← h1, h2] at hq
        cases hq
        rfl
    subst hq
    have h3 : ∀ q ∈ [1, 9 / 10, 8 / 10, 7 / 10, 6 / 10, (5 / 10 : ℚ)], 1 / 2 ^ 40 ≤ Binary32.round q ∧ Binary32.round q ≤ 2 ^ 40 := by
      decide +kernel
    exact h3 q' hq'

/-- All tasks, done by the slowest agent, take less than 25 hours. -/
theorem tuning_takes : tuningProject.TakesBetween 2 90000 where
  longer := by
    obtain ⟨t, ht⟩ : ∃ t, t ∈ tuningProject.tasks := List.exists_mem_of_ne_nil _ (by decide +kernel)
    refine ⟨t, ht, ?_⟩
    intro a ha q hq
    obtain ⟨h1, q', hq', h2⟩ := tuning_perf a ha
    rw [← h1, h2] at hq
    cases hq
    have h3 : ∀ q ∈ [1, 9 / 10, 8 / 10, 7 / 10, 6 / 10, (5 / 10 : ℚ)], ∀ t ∈ tuningProject.tasks,
      2 * Binary32.round q ≤ t.meanDuration := by decide +kernel
    exact h3 q' hq' t ht
  shorter := by
    intro a ha q hq
    obtain ⟨h1, q', hq', h2⟩ := tuning_perf a ha
    rw [h2] at hq
    cases hq
    have h3 : ∀ q ∈ [1, 9 / 10, 8 / 10, 7 / 10, 6 / 10, (5 / 10 : ℚ)],
      (((tuningProject.tasks.map Task.meanDuration).sum : Int) : ℚ) < 90000 * Binary32.round q := by decide +kernel
    exact h3 q' hq'

theorem tuning_floats {E : FloatEnv ℚ} (hE : E.IsFloat) : tuningProject.FloatsIn E := by
  intro a ha q hq
  obtain ⟨h1, q', -, h2⟩ := tuning_perf a ha
  have hq : q = Binary32.round q' := by
    rcases hq with hq | hq
    · rw [h2] at hq
      cases hq
      rfl
    · rw [← h1, h2] at hq
      cases hq
      rfl
  subst hq
  rw [hE]
  exact Binary32.round_idem q'

/-- C85 in single precision -/
theorem float_tuner_run {E : FloatEnv ℚ} {m : Machine ℚ} (hE : E.IsFloat) (hslack : E.slack ≤ 9 / 10) (hn : ReadsNaturals read)
    (hs : SignsAgree read) (hd : ReadsDecimals read) (hi : isFile "tasks.yml" = true) (he : isFile "" = false)
    (hsrc : m.source = .doc Sample.tuning) (hrf : m.readFloat = tuningNumber) (hw : ∀ o : Cli.Options ℚ, CanWrite m o)
    (hth : 0 < m.threads) (hm : m.more = Stopping.more E (PSquare.quantiles E))
    {fmtFloat : ℚ → String} (hf : ∀ x, ∀ c ∈ (fmtFloat x).toList, c ≠ ',' ∧ isBoundary c = false) {t : Trial} (ht : t.Suggested) :
    ∃ (o : Cli.Options ℚ) (N : Nat), parse E read isFile terminal .predict t.arguments = .accepted o ∧
      ∀ fuel, N ≤ fuel → ∀ fuel', 16 ≤ fuel' → ∀ zs, ∀ result,
        result = body E { m with fuel := fuel, fuel' := fuel', zs := zs } .predict o →
        status result.flow = .exit 0 ∧ ∃ rows makespan fields epoch, logs result.effects = [rows] ∧
          files result.effects = [("time_estimation.json", .obj fields)] ∧
          fields.lookup "makespan" = some (.int makespan) ∧ readLog (logText fmtFloat rows) = some (makespan, epoch) := by
  have hfl := tuning_floats hE
  have hl : load m.readFloat Sample.tuning = ok tuningProject := by rw [hrf, tuning_loads]
  obtain ⟨o, _, _, ho, h1, h2, h3, h4, h5, -, -, -, hv⟩ := tuner_accepted (K := ℚ) (terminal := terminal) (.inr hE)
    hslack hn hs hd hi he ht
  obtain ⟨sp, hsp, hwf⟩ := params_wellFormed tuning_sound hfl
  obtain ⟨sp₀, hsp₀, _⟩ := params_wellFormed (E := E.unrounded) tuning_sound (fun _ _ _ _ => rfl)
  obtain ⟨N, _, _, _, _, _, _, _, _, _, _, _, _, _, _, _, _, _, _, _, _, _, _, _, _, _, h⟩ := float_certain_prediction_partial (o := o) hE
    (by rw [h1]; decide) (by rw [h2]; decide) hsrc hl tuning_sound tuning_inRange hfl tuning_takes (hw o) hth hsp hsp₀ (hv sp hwf)
    (by rw [h5]; intro b hb; cases hb) (fun a ha => (tuning_perf a ha).1) (fun t ht => (tuning_dur t ht).1) hm
  refine ⟨o, N, ho, fun fuel hN fuel' hf' zs result hr => ?_⟩
  have hx := (h fuel hN fuel' hf' zs result hr).1
  refine ⟨hx, ?_⟩
  subst hr
  exact tuner_reads_makespan (m := { m with fuel := fuel, fuel' := fuel', zs := zs }) (.inr hE)
    hslack hn hs hd hi he ht hsrc hl tuning_sound hfl
    hth ho (hw o).1.2 hx hf

/-! ### Examples -/

/-- A reader for decimal notation -/
def decimalRead : ReadReal := fun text =>
  match toInt text with
  | some _ => exampleRead text
  | none =>
    let a := text.toList.takeWhile (isDigit 10)
    match text.toList.dropWhile (isDigit 10) with
    | '.' :: b => some (.fin (number 10 a + number 10 b / 10 ^ b.length))
    | 'e' :: '-' :: b => some (.fin (number 10 a / 10 ^ number 10 b))
    | _ => none

example : decimalRead "0.001" = some (.fin (1 / 1000)) ∧ decimalRead "1e-05" = some (.fin (1 / 100000)) ∧
    decimalRead "16" = some (.fin 16) := by decide +kernel

theorem number_facts {s : List Char} {n : Nat} (h : DurationText.Number s n) :
    s ≠ [] ∧ (∀ c ∈ s, isDigit 10 c = true) ∧ number 10 s = n := by
  have hd : ∀ c d, (c, d) ∈ DurationText.digits → isDigit 10 c = true ∧ (digit c).getD 0 = d := by
    intro c d hcd
    simp only [DurationText.digits, List.mem_cons, Prod.mk.injEq, List.not_mem_nil, or_false] at hcd
    rcases hcd with ⟨rfl, rfl⟩ | ⟨rfl, rfl⟩ | ⟨rfl, rfl⟩ | ⟨rfl, rfl⟩ | ⟨rfl, rfl⟩ | ⟨rfl, rfl⟩ | ⟨rfl, rfl⟩ | ⟨rfl, rfl⟩ | ⟨rfl, rfl⟩ |
      ⟨rfl, rfl⟩ <;> decide
  induction h with
  | one h =>
    obtain ⟨h1, h2⟩ := hd _ _ h
    exact ⟨by simp, by simpa using h1, by simpa [number] using h2⟩
  | snoc _ h ih =>
    obtain ⟨h1, h2⟩ := hd _ _ h
    obtain ⟨_, i2, i3⟩ := ih
    refine ⟨by simp, ?_, ?_⟩
    · intro c hc
      rcases List.mem_append.1 hc with hc | hc
      · exact i2 c hc
      · rw [List.mem_singleton.1 hc]
        exact h1
    · unfold number at i3 ⊢
      rw [List.foldl_append, i3]
      simp [h2, mul_comm]

/-- A text that starts with a digit and has a point or a minus is not a whole number. -/
theorem toInt_other {c : Char} {a b : List Char} (ha : a ≠ [])
    (hd : ∀ d ∈ a, isDigit 10 d = true) (hc : c = '.' ∨ c = '-') (hb : c ∈ b) : toInt (String.ofList (a ++ b)) = none := by
  have hdig : isDigit 16 c = false ∧ isDigit 10 c = false ∧ isDigit 8 c = false := by
    rcases hc with rfl | rfl <;> decide
  have hbase : ∀ l : List Char, c ∈ l → c ∈ (baseOf l).2 := by
    intro l hl
    unfold baseOf
    split
    · simp only [List.mem_cons] at hl
      rcases hc with rfl | rfl <;> simpa using hl
    · simp only [List.mem_cons] at hl
      rcases hc with rfl | rfl <;> simpa using hl
    · exact hl
    · exact hl
  have hsign : (sign (a ++ b)).2 = a ++ b := by
    match a, ha, hd with
    | x :: a, _, hd =>
      have hx := hd x List.mem_cons_self
      unfold sign
      have h1 : ∀ y : Char, isDigit 10 y = false → x ≠ y := by
        rintro y hy rfl
        rw [hx] at hy
        cases hy
      have h2 : isSpace x = false := by
        by_contra h
        rw [Bool.not_eq_false] at h
        simp only [isSpace, Bool.or_eq_true, beq_iff_eq] at h
        rcases h with ((((h | h) | h) | h) | h) | h <;> exact h1 _ (by decide) h
      rw [List.cons_append, List.dropWhile_cons_of_neg (by rw [h2]; decide)]
      split
      · next r hr => exact absurd (List.cons.inj hr).1 (h1 _ (by decide))
      · next r hr => exact absurd (List.cons.inj hr).1 (h1 _ (by decide))
      · rfl
  have hmem : c ∈ (baseOf (sign (a ++ b)).2).2 := hbase _ (by rw [hsign]; exact List.mem_append_right _ hb)
  simp only [toInt, String.toList_ofList]
  rw [if_neg]
  rintro ⟨-, h, -⟩
  have h1 := List.all_eq_true.1 h c hmem
  have h2 : (baseOf (sign (a ++ b)).2).1 = 16 ∨ (baseOf (sign (a ++ b)).2).1 = 8 ∨ (baseOf (sign (a ++ b)).2).1 = 10 := by
    unfold baseOf
    split <;> simp
  rcases h2 with h2 | h2 | h2 <;> rw [h2] at h1
  · rw [hdig.1] at h1; cases h1
  · rw [hdig.2.2] at h1; cases h1
  · rw [hdig.2.1] at h1; cases h1

theorem decimalRead_decimals : ReadsDecimals decimalRead := by
  have hnear : ∀ v : ℚ, 0 ≤ v → NearTo v v := by
    intro v hv
    unfold NearTo
    rw [sub_self, abs_zero]
    positivity
  have hspan : ∀ (a b : List Char) (c : Char), (∀ d ∈ a, isDigit 10 d = true) → isDigit 10 c = false →
      (a ++ c :: b).takeWhile (isDigit 10) = a ∧ (a ++ c :: b).dropWhile (isDigit 10) = c :: b := by
    intro a b c ha hc
    rw [List.takeWhile_append_of_pos ha, List.dropWhile_append_of_pos ha]
    simp [hc]
  intro text v h h1 h2
  have h0 : 0 ≤ v := le_trans (by norm_num) h1
  refine ⟨v, ?_, hnear v h0⟩
  cases h with
  | @point a b m n ha hb =>
    obtain ⟨a1, a2, a3⟩ := number_facts ha
    obtain ⟨b1, b2, b3⟩ := number_facts hb
    obtain ⟨s1, s2⟩ := hspan a b '.' a2 (by decide)
    unfold decimalRead
    rw [toInt_other (c := '.') a1 a2 (by simp) (by simp)]
    simp only [String.toList_ofList, s1, s2, a3, b3]
  | @exponent a b m n ha hb =>
    obtain ⟨a1, a2, a3⟩ := number_facts ha
    obtain ⟨b1, b2, b3⟩ := number_facts hb
    obtain ⟨s1, s2⟩ := hspan a ('-' :: b) 'e' a2 (by decide)
    unfold decimalRead
    rw [toInt_other (c := '-') a1 a2 (by simp) (by simp)]
    simp only [String.toList_ofList, s1, s2, a3, b3]

theorem decimalRead_int {text : String} {v : Int} (h : toInt text = some v) : decimalRead text = exampleRead text := by
  rw [decimalRead, h]

theorem decimalRead_signs : SignsAgree decimalRead := by
  intro text v h hv
  rw [decimalRead_int h]
  exact exampleRead_signs text v h hv

theorem decimalRead_naturals : ReadsNaturals decimalRead := by
  intro n hn
  rcases Nat.eq_zero_or_pos n with rfl | h0
  · decide +kernel
  · rw [decimalRead_int (toInt_nat h0 hn)]
    exact exampleRead_naturals n hn

/-- C85 applies to the trial with batches of 1000, 40000 idle iterations, beta scale 0.001 and gamma 0.5. -/
example (draws : Nat → Nat → Nat → Draws ℚ) : ∃ (o : Cli.Options ℚ) (N : Nat),
    parse FloatEnv.rat decimalRead (fun f => f == "tasks.yml") true .predict
      { input := "tasks.yml", batchSize := some "1000", maxIdleIters := some "40000", betaScale := some "0.001", stunWindow := some "100",
        gamma := some "0.5", restartPeriod := some "256", logOptimization := true } = .accepted o ∧
    ∀ fuel, N ≤ fuel → ∀ fuel', 16 ≤ fuel' → ∀ zs,
      status (body FloatEnv.rat { exampleMachine draws with
        source := .doc Sample.tuning, readFloat := tuningNumber, more := Stopping.more FloatEnv.rat exampleQuantiles,
        fuel := fuel, fuel' := fuel', zs := zs } .predict o).flow = .exit 0 := by
  obtain ⟨o, N, h1, h2⟩ := tuner_run (E := FloatEnv.rat) (read := decimalRead) (isFile := fun f => f == "tasks.yml") (terminal := true)
    (m := { exampleMachine draws with
      source := .doc Sample.tuning, readFloat := tuningNumber, more := Stopping.more FloatEnv.rat exampleQuantiles })
    (fun _ => rfl) decimalRead_naturals decimalRead_signs decimalRead_decimals (by decide) (by decide) rfl rfl (fun _ => example_canWrite (draws := draws))
    (by exact (by decide : 0 < 4)) rfl exampleQuantiles_five exampleQuantiles_constant (fmtFloat := fun _ => "1.0") (fun _ => by decide)
    (t := { batchSize := 3, maxIdleIters := 2, betaScale := -3, gamma := 5 }) ⟨by decide, by decide, by decide, by decide⟩
  have ha : Trial.arguments { batchSize := 3, maxIdleIters := 2, betaScale := -3, gamma := 5 } =
      { input := "tasks.yml", batchSize := some "1000", maxIdleIters := some "40000", betaScale := some "0.001", stunWindow := some "100",
        gamma := some "0.5", restartPeriod := some "256", logOptimization := true } := by
    rw [Trial.arguments, idleIters_exact (b := 3) (k := 2) (by decide) (by decide)]
    rfl
  exact ⟨o, N, ha ▸ h1, fun fuel hN fuel' hf zs => (h2 fuel hN fuel' hf zs _ rfl).1⟩

/-- Single precision with a slack of 9/10, as `averageStun_float` allows for up to three million samples -/
def tightFloat : FloatEnv ℚ :=
  { ratFloat with
    slack := 9 / 10
    slack_nonneg := by norm_num
    slack_le := by norm_num
    slack_exact := fun h => absurd (h (1 / 3)) (by decide +kernel) }

/-- The same trial in single precision, with the program's own estimates -/
example (draws : Nat → Nat → Nat → Draws ℚ) : ∃ (o : Cli.Options ℚ) (N : Nat), ∀ fuel, N ≤ fuel → ∀ fuel', 16 ≤ fuel' → ∀ zs,
      status (body tightFloat { exampleMachine draws with
        source := .doc Sample.tuning, readFloat := tuningNumber, more := Stopping.more tightFloat (PSquare.quantiles tightFloat),
        fuel := fuel, fuel' := fuel', zs := zs } .predict o).flow = .exit 0 := by
  obtain ⟨o, N, _, h2⟩ := float_tuner_run (E := tightFloat) (read := decimalRead) (isFile := fun f => f == "tasks.yml") (terminal := true)
    (m := { exampleMachine draws with
      source := .doc Sample.tuning, readFloat := tuningNumber, more := Stopping.more tightFloat (PSquare.quantiles tightFloat) })
    (fun _ => rfl) le_rfl decimalRead_naturals decimalRead_signs decimalRead_decimals (by decide) (by decide) rfl rfl
    (fun _ => example_canWrite (draws := draws))
    (by exact (by decide : 0 < 4)) rfl (fmtFloat := fun _ => "1.0") (fun _ => by decide)
    (t := { batchSize := 3, maxIdleIters := 2, betaScale := -3, gamma := 5 }) ⟨by decide, by decide, by decide, by decide⟩
  exact ⟨o, N, fun fuel hN fuel' hf zs => (h2 fuel hN fuel' hf zs _ rfl).1⟩

/-- The tuner reads the last row of a log: the makespan is 3300, at epoch 70. -/
example : readLog (logText (fun _ : ℚ => "0.5") [(1 / 2, 4000, 60), (1 / 2, 3300, 70)]) = some (3300, 70) :=
  readLog_last (fun _ => by decide) [(1 / 2, 4000, 60)] (1 / 2) 3300 70

end Angonoka.Props
