import Verif.Props.NearBest

/-!
# How long a project takes at least and at most, in single precision
-/

set_option linter.unusedSectionVars false

namespace Angonoka.Props
open Outcome Stun Cli CommandLine Doc

variable {K : Type} [_root_.Field K] [LinearOrder K] [IsStrictOrderedRing K] {E : FloatEnv K}
variable {root : Yaml} {p : Project}
variable [FloorRing K] {read : ReadReal} {isFile : String → Bool} {terminal : Bool} {a : Arguments} {o : Cli.Options K} {m : Machine K}

/-- C95 in single precision, under the conditions of C75. Whatever the random numbers are, the makespan in the file is, up to 0.0061 % and a second, a time `V`, at which a
plan of the document ends, and which is
* at least the length of every chain of tasks that depend on each other, each done by the fastest agent that may do it,
* at least the sum of all durations, divided by the sum of all performances,
* at most the sum of the times of all tasks, each done by the slowest agent that may do it. -/
theorem document_makespan_bounds_float (hE : E.IsFloat) (hsig : SignsAgree read)
    (hnof : isFile "" = false) (h : parse E read isFile terminal .schedule a = .accepted o)
    (hz : ∀ t, a.restartPeriod = some t → ¬ LeadingZero t)
    (hb : ∀ t q, a.betaScale = some t → read t = some (.fin q) → ModerateBeta E q)
    (hout : a.output ≠ some "") (hd : m.source = .doc root) (hl : load m.readFloat root = ok p)
    (hread : ∀ s (q : ℚ), m.readFloat s = some (.fin q) → E.rnd (q : K) = q)
    (hs : Schedulable m.readFloat root 2 (2 ^ 30)) (hr : Doc.InRange m.readFloat root)
    (hw : CanWrite m o) (ht : 0 < m.threads) :
    ∃ (mk : Int) (V : K), WritesMakespan E m o (a.output.getD "schedule.json") mk ∧ CloseTo mk V ∧
      (∃ agent start finish, Doc.Plan m.readFloat root agent start finish ∧ ∀ k < (tasks root).length, finish k ≤ V) ∧
      (∀ (chain : List Nat) (fast : Nat → ℚ), (∀ k ∈ chain, k < (tasks root).length) →
        (chain.IsChain fun d k => DependsOn root k d) →
        (∀ k ∈ chain, ∀ q w x, (tasks root)[k]? = some q → w ∈ agents root → MayDo w q.2 → Takes m.readFloat w q.2 x → fast k ≤ x) →
        (((chain.map fast).sum : ℚ) : K) ≤ V) ∧
      (∀ (ds : List Nat) (ps : List ℚ), List.Forall₂ IsMean (tasks root) ds →
        List.Forall₂ (fun w v => ∃ slow fast : ℚ, Performance m.readFloat w.2 (.fin slow) (.fin fast) ∧ v = (slow + fast) / 2) (agents root) ps →
        (ds.sum : K) ≤ V * ((ps.sum : ℚ) : K)) ∧
      ∀ xs : List ℚ, List.Forall₂ (fun q v => ∀ w x, w ∈ agents root → MayDo w q.2 → Takes m.readFloat w q.2 x → x ≤ v) (tasks root) xs →
        V ≤ ((xs.sum : ℚ) : K) := by
  obtain ⟨hp, hmod⟩ := schedulable_sound hl hs
  have hfl : p.FloatsIn E := floatsIn_of_document hl hread
  have hir := inRange_of_document hl hr
  obtain ⟨sp, hsp, hwf⟩ := params_wellFormed (E := E) hp hfl
  obtain ⟨sp₀, hsp₀, _⟩ := params_wellFormed (E := E.unrounded) hp (fun _ _ _ _ => rfl)
  obtain ⟨ho, hf', hout'⟩ := accepted_options_partial (Or.inr hE) hsig hnof h hz hb hout hwf
  obtain ⟨N, s, mk, es, hvs, ⟨_, _, start₀, finish₀, V, _, _, k3, k4, k5, k6, _⟩, h7⟩ :=
    schedule_command_core hf' hout' hd hl hp hw ht hsp ho (P := FloatTimetable E p sp sp₀)
    (fun _ _ hs hv => float_timetable_exists hE hp hmod hir hfl hsp hsp₀ hs hv)
  have hvs₀ := unrounded_valid hsp hsp₀ hvs
  obtain ⟨agent, hag, hplan, hV⟩ := written_plan (unrounded_exact E) hl hp hsp₀ hvs₀ k3 k4
  have : o.output = a.output.getD "schedule.json" := by
    obtain ⟨_, _, _, _, _, _, _, _, _, _, _, _, _, _, _, rfl⟩ := parse_accepted h
    rfl
  rw [this] at h7
  have h0 : 0 ≤ V := by linarith
  exact ⟨mk, V, ⟨N, es, h7⟩, k5, ⟨agent, _, _, hplan, hV⟩, fun chain fast hlt hc hfast => plan_chain hplan hV h0 hlt hc hfast,
    fun ds ps hds hps => plan_work hl hp hplan hV h0 hds hps, written_le_sum (unrounded_exact E) hl hp hsp₀ hvs₀ k3 k4 hag hplan⟩

/-- The program in single precision, with the default options, for the sample document -/
example (draws₀ : Nat → Nat → Nat → Draws ℚ) : ∃ o,
    parse ratFloat exampleRead (fun f => f == "plan.yml") true .schedule { input := "plan.yml" } = .accepted o ∧
    ∃ (mk : Int) (V : ℚ), WritesMakespan ratFloat (exampleMachine draws₀) o "schedule.json" mk ∧ CloseTo mk V ∧
      ∃ agent start finish, Doc.Plan (exampleMachine draws₀).readFloat Sample.plan agent start finish ∧
        ∀ k < (tasks Sample.plan).length, finish k ≤ V := by
  have hpar := options_as_given (E := ratFloat) (isFile := fun f => f == "plan.yml") (terminal := true) (c := .schedule)
    (a := { input := "plan.yml" }) exampleRead_naturals (by decide) (batch := 10000) (idle := 100000) (window := 100) (period := 256)
    (Or.inl ⟨rfl, rfl⟩) (Or.inl ⟨rfl, rfl⟩) (Or.inl ⟨rfl, rfl⟩) (Or.inl ⟨rfl, rfl⟩)
    (Or.inl ⟨rfl, rfl⟩) (Or.inl ⟨rfl, rfl⟩) (Or.inl ⟨rfl, rfl⟩)
  obtain ⟨mk, V, h1, h2, h3, _⟩ := document_makespan_bounds_float (m := exampleMachine draws₀) ratFloat_isFloat
    exampleRead_signs (by decide) hpar (by simp) (by simp) (by simp) rfl Sample.plan_loads (sample_reads_floats draws₀)
    plan_schedulable plan_document_inRange example_canWrite (by exact (by decide : 0 < 4))
  exact ⟨_, hpar, mk, V, h1, h2, h3⟩

end Angonoka.Props
