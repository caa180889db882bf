import Verif.Props.Log

/-!
# C86, C87: files that cannot be opened or written, and what the exit status says about the result
-/

set_option linter.unusedSectionVars false

namespace Angonoka.Props
open Angonoka Outcome Stun Cli

variable {K : Type} [Field K] [LinearOrder K] [IsStrictOrderedRing K] [FloorRing K]
variable {E : FloatEnv K} {m : Machine K} {c : Command} {o : Cli.Options K}

/-! ### The program in two parts -/

/-- Everything before the output file is opened -/
def compute (E : FloatEnv K) (m : Machine K) (c : Command) (o : Cli.Options K) : Io K Json := do
  let config ← parseConfig m o
  match c with
  | .schedule => jsonSchedule E m config o
  | .predict => runPrediction E m config o

theorem Io.bind_assoc' {α β γ : Type} (x : Io K α) (f : α → Io K β) (g : β → Io K γ) : (x >>= f) >>= g = x >>= fun a => f a >>= g := by
  obtain ⟨es, fl⟩ := x
  cases fl with
  | ok a =>
    rw [Io.bind_ok, Io.bind_ok]
    generalize hy : f a = y
    obtain ⟨es', fl'⟩ := y
    cases fl' with
    | ok b => rw [Io.bind_ok, Io.bind_ok]; simp [List.append_assoc]
    | _ => rfl
  | _ => rfl

theorem body_eq : body E m c o = compute E m c o >>= saveJson m o (failureText c) (successText o c) := by
  unfold body compute
  rw [Io.bind_assoc']
  cases c <;> rfl

theorem status_exit_zero {α : Type} {x : Flow α} (h : status x = .exit 0) : ∃ a, x = .ok a := by
  cases x with
  | ok a => exact ⟨a, rfl⟩
  | _ => cases h

/-- Before the output file is opened there is no output file. -/
theorem compute_no_file : (compute E m c o).All fun e => ¬ e.IsFile := by
  have hprint : ∀ t, (Cli.print o t : Io K Unit).All fun e => ¬ e.IsFile := by
    intro t
    unfold Cli.print
    split <;> exact .emit (by simp [Effect.IsFile])
  have hdie : ∀ t, (die o t : Io K Unit).All fun e => ¬ e.IsFile := by
    intro t
    unfold die
    split <;> exact .emit (by simp [Effect.IsFile])
  have hconsume : ∀ {α : Type} (r : Run K (Option α)), ((if o.quiet then pure () else consumeEvents m.logWritable m.columns o r) : Io K Unit).All
      fun e => ¬ e.IsFile := by
    intro α r
    split
    · exact .pure _
    · unfold consumeEvents
      rcases choose_cases o.color m.columns with ⟨w, hch⟩ | hch
      swap
      · rw [hch]
        exact fun e he => by cases he
      rw [hch]
      dsimp only
      split
      · intro e he
        simp only [List.mem_cons, List.not_mem_nil, or_false] at he
        rcases he with rfl | rfl <;> exact id
      · split
        · exact fun e he => by cases he
        · exact fun e he => by cases he
        · intro e he
          simp only [List.mem_append, List.mem_map] at he
          rcases he with (⟨_, _, rfl⟩ | ⟨_, _, rfl⟩) | ⟨_, _, rfl⟩ <;> exact id
  have herr : ∀ t, (printError o t : Io K Unit).All fun e => ¬ e.IsFile := fun t => .emit (by simp [Effect.IsFile])
  have hparse : (parseConfig m o).All fun e => ¬ e.IsFile := by
    unfold parseConfig
    refine (hprint _).bind fun _ => (Io.All.lift _).bind fun _ => ?_
    split
    · exact (hdie _).bind fun _ => .fail
    · exact (hdie _).bind fun _ => (herr _).bind fun _ => .fail
    · split
      · exact (hprint _).bind fun _ => .pure _
      · split
        · exact (hdie _).bind fun _ => .fail
        · exact (hdie _).bind fun _ => .lift _
      · exact .lift _
  unfold compute
  refine hparse.bind fun config => ?_
  cases c with
  | schedule =>
    unfold jsonSchedule
    refine (Io.All.lift _).bind fun _ => (Io.All.lift _).bind fun _ => ?_
    dsimp only
    exact (hconsume _).bind fun _ => (getFuture_all _).bind fun _ => .lift _
  | predict =>
    unfold runPrediction
    refine (Io.All.lift _).bind fun _ => (Io.All.lift _).bind fun _ => ?_
    dsimp only
    exact (hconsume _).bind fun _ => (getFuture_all _).bind fun _ => (hprint _).bind fun _ =>
      (Io.All.lift _).bind fun _ => (Io.All.lift _).bind fun _ => (Io.All.lift _).bind fun _ => .lift _

/-- The contracts of saving hold in every successful run. -/
theorem saveJson_ok {f s : String} {j : Json} (h : (saveJson m o f s j).flow = .ok ()) :
    m.writable = true ∧ o.output ≠ "" ∧ isEmptyJson j = false := by
  unfold saveJson at h
  obtain ⟨_, h1, h2, -⟩ := Io.bind_flow_ok h
  obtain ⟨_, h4, h5, -⟩ := Io.bind_flow_ok h2
  have a := expects_eq_ok.1 (lift_flow_ok h1)
  have b := expects_eq_ok.1 (lift_flow_ok h4)
  refine ⟨?_, by simpa using a, by simpa using b⟩
  by_contra hw
  rw [if_neg hw] at h5
  obtain ⟨_, _, h7, _⟩ := Io.bind_flow_ok h5
  cases h7

theorem saveJson_eq {f s : String} {j : Json} (h1 : o.output ≠ "") (h2 : isEmptyJson j = false) : saveJson m o f s j =
    if m.writable then ⟨[if m.room then .file o.output j else .truncated o.output] ++ (if o.quiet then [] else [.stdout s]), .ok ()⟩
    else ⟨[.stderr (red o f)], .user⟩ := by
  unfold saveJson
  rw [expects_true (by simpa using h1), Io.lift_ok_bind, expects_true (by simp [h2]), Io.lift_ok_bind]
  cases m.writable
  · simp only [Bool.false_eq_true, if_false]
    unfold printError
    rw [Io.emit_bind]
    rfl
  · simp only [if_true]
    rw [Io.emit_bind]
    unfold Cli.print
    rfl

/-- A successful run is one that has a result and then saves it. -/
theorem body_ok (h : status (body E m c o).flow = .exit 0) : ∃ j pre, compute E m c o = ⟨pre, .ok j⟩ ∧
    m.writable = true ∧ o.output ≠ "" ∧ isEmptyJson j = false := by
  obtain ⟨⟨⟩, h⟩ := status_exit_zero h
  rw [body_eq] at h
  obtain ⟨j, h1, h2, -⟩ := Io.bind_flow_ok h
  exact ⟨j, (compute E m c o).effects, by rw [← h1], saveJson_ok h2⟩

/-! ### C86 -/

/-- C86, the output file: if it cannot be opened, a run that would have been successful otherwise exits with the failure status. The last
thing it does is to say on the standard error stream that the result cannot be saved; what it did before is what it would have
done otherwise, and it has not written any file. -/
theorem unwritable_output_reported (hw : m.writable = false) (h : status (body E { m with writable := true } c o).flow = .exit 0) :
    status (body E m c o).flow = .exit 1 ∧ ∃ pre post : List (Effect K), (∀ e ∈ pre, ¬ e.IsFile) ∧
      (body E { m with writable := true } c o).effects = pre ++ post ∧
      (body E m c o).effects = pre ++ [.stderr (red o (failureText c))] := by
  obtain ⟨j, pre, h1, -, h2, h3⟩ := body_ok h
  have h1' : compute E m c o = ⟨pre, .ok j⟩ := h1
  have hno := compute_no_file (E := E) (m := m) (c := c) (o := o)
  rw [h1'] at hno
  rw [body_eq, h1', Io.bind_ok, saveJson_eq h2 h3, hw, body_eq, h1, Io.bind_ok]
  exact ⟨rfl, pre, _, hno, rfl, rfl⟩

/-- The log is not needed if it was not asked for, or with `--quiet`: then it does not matter whether it could be opened. -/
theorem unused_log_ignored (hq : o.quiet = true ∨ o.logOptimization = false) (b : Bool) :
    body E { m with logWritable := b } c o = body E m c o := by
  have hc : ∀ {α : Type} (r : Run K (Option α)), ((if o.quiet then pure () else consumeEvents b m.columns o r) : Io K Unit)
      = if o.quiet then pure () else consumeEvents m.logWritable m.columns o r := by
    intro α r
    rcases hq with hq | hq
    · rw [if_pos hq, if_pos hq]
    · unfold consumeEvents
      simp [hq]
  unfold body
  congr 1
  funext config
  cases c with
  | schedule =>
    dsimp only
    unfold jsonSchedule
    dsimp only
    rw [hc]
    rfl
  | predict =>
    dsimp only
    unfold runPrediction
    dsimp only
    rw [hc]
    rfl

/-- If all events were received, the progress could be displayed. -/
theorem consumeEvents_chosen {α : Type} {r : Run K (Option α)} {b : Bool} {n : Nat} (h : (consumeEvents b n o r).flow = .ok ()) :
    ∃ w, Progress.choose o.color n = ok w := by
  rcases choose_cases o.color n with hch | hch
  · exact hch
  · unfold consumeEvents at h
    rw [hch] at h
    dsimp only at h
    split at h <;> cases h

/-- A run that fails to report and would be successful if it could -/
theorem report_fails (hq : o.quiet = false) {b : Bool} {n : Nat} {e : Err} {es' : List (Effect K)}
    (hcons : ∀ {α : Type} (r : Run K (Option α)) (s : α), r.result = ok (some s) → (∃ w, Progress.choose o.color n = ok w) →
      consumeEvents m.logWritable m.columns o r = ⟨es', .throws e⟩)
    (h : status (body E { m with logWritable := b, columns := n } c o).flow = .exit 0) :
    ∃ pre : List (Effect K), (∀ e ∈ pre, e.OnStdout) ∧ body E m c o = ⟨pre ++ es', .throws e⟩ := by
  obtain ⟨j, es, h1, -, -, -⟩ := body_ok h
  have hflow : (compute E { m with logWritable := b, columns := n } c o).flow = .ok j := by rw [h1]
  unfold compute at hflow
  obtain ⟨config, p1, p2, -⟩ := Io.bind_flow_ok hflow
  have hp : parseConfig m o = ⟨(parseConfig m o).effects, .ok config⟩ := by
    have : (parseConfig m o).flow = .ok config := p1
    rw [← this]
  have hpre : ∀ e ∈ (parseConfig m o).effects, e.OnStdout := by
    have hp' : (parseConfig m o).flow = .ok config := p1
    unfold parseConfig at hp' ⊢
    obtain ⟨_, q1, q2, q3⟩ := Io.bind_flow_ok hp'
    obtain ⟨_, r1, r2, r3⟩ := Io.bind_flow_ok q2
    have r4 := lift_flow_ok r1
    rw [q3, r3]
    intro e he
    simp only [List.mem_append] at he
    rcases he with he | he | he
    · exact quiet_stdout o _ e he
    · rw [r4] at he
      cases he
    · revert he r2
      split
      · intro r2
        obtain ⟨_, _, r5, _⟩ := Io.bind_flow_ok r2
        cases r5
      · intro r2
        obtain ⟨_, _, r5, _⟩ := Io.bind_flow_ok r2
        obtain ⟨_, _, r6, _⟩ := Io.bind_flow_ok r5
        cases r6
      · split
        · intro r2 he
          obtain ⟨_, s1, s2, s3⟩ := Io.bind_flow_ok r2
          rw [s3] at he
          rcases List.mem_append.1 he with he | he
          · exact quiet_stdout o _ e he
          · cases he
        · split
          · intro r2
            obtain ⟨_, _, r5, _⟩ := Io.bind_flow_ok r2
            cases r5
          · intro r2
            obtain ⟨_, _, r5, _⟩ := Io.bind_flow_ok r2
            cases r5
        · intro r2
          cases r2
  suffices hx : (match c with
      | .schedule => jsonSchedule E m config o
      | .predict => runPrediction E m config o) = ⟨es', .throws e⟩ by
    rw [body_eq]
    unfold compute
    rw [hp, Io.bind_ok]
    rw [hx, Io.bind_throws]
    exact ⟨_, hpre, rfl⟩
  cases c with
  | schedule =>
    dsimp only at p2 ⊢
    unfold jsonSchedule at p2 ⊢
    obtain ⟨_, a1, a2, -⟩ := Io.bind_flow_ok p2
    obtain ⟨_, b1, b2, -⟩ := Io.bind_flow_ok a2
    dsimp only at b2
    obtain ⟨_, c1, c2, -⟩ := Io.bind_flow_ok b2
    obtain ⟨s, d1, -, -⟩ := Io.bind_flow_ok c2
    rw [lift_flow_ok a1, Io.lift_ok_bind, lift_flow_ok b1, Io.lift_ok_bind]
    dsimp only
    rw [hq, if_neg (by simp), hcons _ _ (getFuture_flow_ok d1).1 (consumeEvents_chosen (by rw [hq] at c1; exact c1)), Io.bind_throws]
  | predict =>
    dsimp only at p2 ⊢
    unfold runPrediction at p2 ⊢
    obtain ⟨_, a1, a2, -⟩ := Io.bind_flow_ok p2
    obtain ⟨_, b1, b2, -⟩ := Io.bind_flow_ok a2
    dsimp only at b2
    obtain ⟨_, c1, c2, -⟩ := Io.bind_flow_ok b2
    obtain ⟨s, d1, -, -⟩ := Io.bind_flow_ok c2
    rw [lift_flow_ok a1, Io.lift_ok_bind, lift_flow_ok b1, Io.lift_ok_bind]
    dsimp only
    rw [hq, if_neg (by simp), hcons _ _ (getFuture_flow_ok d1).1 (consumeEvents_chosen (by rw [hq] at c1; exact c1)), Io.bind_throws]

/-- C86 is false for the log: if it was asked for and cannot be opened, a run that would have been successful otherwise is aborted by an
exception that nobody catches. Nothing has been written to the standard error stream, there is no output file, and the progress
has been started (which hides the cursor) but not stopped. -/
theorem unopened_log_aborts (hq : o.quiet = false) (hl : o.logOptimization = true) (hw : m.logWritable = false)
    (h : status (body E { m with logWritable := true } c o).flow = .exit 0) :
    status (body E m c o).flow = .aborted .system ∧ ∃ pre : List (Effect K), (∀ e ∈ pre, e.OnStdout) ∧
      (body E m c o).effects = pre ++ [.stdout "Optimizing the schedule...\n", .progress .start] := by
  obtain ⟨pre, h1, h2⟩ := report_fails (m := m) (b := true) (n := m.columns) (e := .system)
    (es' := [.stdout "Optimizing the schedule...\n", .progress .start]) hq
    (by
      intro α r s hr hch
      obtain ⟨w, hch⟩ := hch
      unfold consumeEvents
      rw [hch, hl, hw, hr]
      rfl) h
  rw [h2]
  exact ⟨rfl, pre, h1, rfl⟩

/-- C88 is false on a terminal of 5 to 8 columns: if the progress bar is wanted, a run that would have been successful on another terminal is
aborted by an exception that nobody catches, after it has read the configuration; the width of the bar would be negative. -/
theorem narrow_terminal_aborts (hq : o.quiet = false) (hc : o.color = true) (h5 : 5 ≤ m.columns) (h8 : m.columns ≤ 8) {n : Nat}
    (h : status (body E { m with columns := n } c o).flow = .exit 0) :
    status (body E m c o).flow = .aborted .system ∧ ∀ e ∈ (body E m c o).effects, e.OnStdout := by
  obtain ⟨pre, h1, h2⟩ := report_fails (m := m) (b := m.logWritable) (n := n) (e := .system) (es' := []) hq
    (by
      intro α r s hr _
      have hb : Progress.barWidth m.columns = throws .system := by
        unfold Progress.barWidth Progress.terminalWidth
        rw [if_neg (c := m.columns < 5) (by omega), if_neg (by omega)]
      have hch : Progress.choose o.color m.columns = throws .system := by
        unfold Progress.choose
        rw [hc, if_pos rfl, hb]
        rfl
      unfold consumeEvents
      rw [hch, hr]) h
  rw [h2, List.append_nil]
  exact ⟨rfl, h1⟩

/-! ### C87 -/

/-- C87. If the program exits with the success status and there was room for the output file, it has written it, once and under the name that
was asked for, and before that no file of any other content. Missing: without room the statement is false (`success_without_result`). -/
theorem success_has_result_partial (hroom : m.room = true) (h : status (body E m c o).flow = .exit 0) :
    ∃ pre j, (∀ e ∈ pre, ¬ e.IsFile) ∧
      (body E m c o).effects = pre ++ [.file o.output j] ++ if o.quiet then [] else [.stdout (successText o c)] := by
  obtain ⟨j, pre, h1, hw, h2, h3⟩ := body_ok h
  have hno := compute_no_file (E := E) (m := m) (c := c) (o := o)
  rw [h1] at hno
  rw [body_eq, h1, Io.bind_ok, saveJson_eq h2 h3, hw, hroom]
  exact ⟨pre, j, hno, by simp⟩

/-- C87, conversely: if the program ends in any other way, or does not end, there is no output file, not even a part of it. -/
theorem failure_has_no_result (h : status (body E m c o).flow ≠ .exit 0) : ∀ e ∈ (body E m c o).effects, ¬ e.IsFile := by
  have hno := compute_no_file (E := E) (m := m) (c := c) (o := o)
  rw [body_eq] at h ⊢
  generalize compute E m c o = x at h hno ⊢
  obtain ⟨es, fl⟩ := x
  cases fl with
  | ok j =>
    rw [Io.bind_ok] at h ⊢
    by_cases h1 : o.output = ""
    · have : saveJson m o (failureText c) (successText o c) j = ⟨[], .ub "save_json: output not empty"⟩ := by
        unfold saveJson
        rw [h1]
        rfl
      rw [this, List.append_nil]
      exact hno
    · cases h2 : isEmptyJson j with
      | true =>
        have : saveJson m o (failureText c) (successText o c) j = ⟨[], .ub "save_json: json not empty"⟩ := by
          unfold saveJson
          rw [expects_true (by simpa using h1), Io.lift_ok_bind, h2]
          rfl
        rw [this, List.append_nil]
        exact hno
      | false =>
        rw [saveJson_eq h1 h2] at h ⊢
        cases hw : m.writable with
        | true =>
          rw [hw] at h
          exact absurd rfl h
        | false =>
          intro e he
          rcases List.mem_append.1 he with he | he
          · exact hno e he
          · simp only [Bool.false_eq_true, if_false, List.mem_singleton] at he
            rw [he]
            exact id
  | _ => exact hno

/-- C87 is false if there is no room for the output file: a run that would have been successful still exits with the success status and prints
the same message, but what it leaves behind is not the result. -/
theorem success_without_result (hroom : m.room = false) (h : status (body E { m with room := true } c o).flow = .exit 0) :
    status (body E m c o).flow = .exit 0 ∧ ∃ pre, (∀ e ∈ pre, ¬ e.IsFile) ∧
      (body E m c o).effects = pre ++ [.truncated o.output] ++ if o.quiet then [] else [.stdout (successText o c)] := by
  obtain ⟨j, pre, h1, hw, h2, h3⟩ := body_ok h
  have h1' : compute E m c o = ⟨pre, .ok j⟩ := h1
  have hw' : m.writable = true := hw
  have hno := compute_no_file (E := E) (m := m) (c := c) (o := o)
  rw [h1'] at hno
  rw [body_eq, h1', Io.bind_ok, saveJson_eq h2 h3, hw', hroom]
  exact ⟨rfl, pre, hno, by simp⟩

/-! ### Examples: the document of C62 -/

/-- C86 applies: the output file cannot be opened. -/
example (draws : Nat → Nat → Nat → Draws ℚ) : ∃ m : Machine ℚ, m.draws = draws ∧
    status (body FloatEnv.rat m .schedule { cliOptions with quiet := false, logOptimization := true }).flow = .exit 1 := by
  obtain ⟨N, h⟩ := logged_example false draws
  exact ⟨{ exampleMachine draws with fuel := N, writable := false }, rfl, (unwritable_output_reported rfl (h N le_rfl)).1⟩

/-- C86 is false: the log cannot be opened. -/
example (draws : Nat → Nat → Nat → Draws ℚ) : ∃ m : Machine ℚ, m.draws = draws ∧ m.writable = true ∧
    status (body FloatEnv.rat m .schedule { cliOptions with quiet := false, logOptimization := true }).flow = .aborted .system := by
  obtain ⟨N, h⟩ := logged_example false draws
  exact ⟨{ exampleMachine draws with fuel := N, logWritable := false }, rfl, rfl, (unopened_log_aborts rfl rfl rfl (h N le_rfl)).1⟩

/-- C87 applies. -/
example (draws : Nat → Nat → Nat → Draws ℚ) : ∃ (m : Machine ℚ) (o : Cli.Options ℚ) (j : Json), m.draws = draws ∧
    status (body FloatEnv.rat m .schedule o).flow = .exit 0 ∧ .file o.output j ∈ (body FloatEnv.rat m .schedule o).effects := by
  obtain ⟨N, h⟩ := logged_example false draws
  obtain ⟨pre, j, -, hj⟩ := success_has_result_partial (m := { exampleMachine draws with fuel := N }) rfl (h N le_rfl)
  refine ⟨_, _, j, rfl, h N le_rfl, ?_⟩
  rw [hj]
  simp

/-- C87 is false: the disk is full. -/
example (draws : Nat → Nat → Nat → Draws ℚ) : ∃ (m : Machine ℚ) (o : Cli.Options ℚ), m.draws = draws ∧
    status (body FloatEnv.rat m .schedule o).flow = .exit 0 ∧ ∀ j, .file o.output j ∉ (body FloatEnv.rat m .schedule o).effects := by
  obtain ⟨N, h⟩ := logged_example false draws
  obtain ⟨h1, pre, h2, h3⟩ := success_without_result (m := { exampleMachine draws with fuel := N, room := false }) rfl (h N le_rfl)
  refine ⟨_, _, rfl, h1, fun j hj => ?_⟩
  rw [h3] at hj
  simp only [List.mem_append, List.mem_singleton] at hj
  rcases hj with (hj | hj) | hj
  · exact h2 _ hj trivial
  · cases hj
  · cases List.mem_singleton.1 hj

end Angonoka.Props
