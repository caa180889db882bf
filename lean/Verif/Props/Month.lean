import Verif.Props.Limits
import Verif.Props.FloatPredict
import Mathlib.Analysis.Real.Pi.Bounds
import Mathlib.Analysis.Complex.ExponentialBounds

/-!
# C106: how often the prediction aborts
-/

set_option linter.unusedSectionVars false

namespace Angonoka.Props
open Outcome Stun Cli MeasureTheory ProbabilityTheory Restart Filter Topology

section
variable {Ω : Type} [MeasurableSpace Ω] {P : Measure Ω} [IsProbabilityMeasure P] {Z : Nat → Ω → ℝ}
variable {E : FloatEnv ℝ} {p : Project} {sp : ScheduleParams ℝ} {m : Machine ℝ} {o : Cli.Options ℝ}

/-- If 10000 runs are used, and a run of `x` seconds or more among them makes `C` true, then `C` is true with the probability of such a run. -/
theorem overlong_probability (hp : p.Sound) (hfl : p.FloatsIn E) (hsp : toScheduleParams E p = ok sp) {s : List Item} (hvs : ValidSchedule sp s)
    (hZ : RandomNumbers P Z) {N k : Nat} {x : Int} {C : Nat → Nat → List ℝ → Prop}
    (h : ∀ fuel fuel' zs, N ≤ fuel → k ≤ fuel' → 10000 * k * (p.agents.length + p.tasks.length) ≤ (zs.countP fun z => 0 ≤ z) →
      ∃ vs rest, 10000 ≤ vs.length ∧ Runs E p s vs zs rest ∧ ((∃ v ∈ vs, x ≤ v) → C fuel fuel' zs)) :
    ∃ (π : Measure Int) (A : Set Ω), IsProbabilityMeasure π ∧ LawOfRuns P Z E p s π ∧ MeasurableSet A ∧ P A = 1 - π (Set.Iio x) ^ 10000 ∧
      ∀ ω ∈ A, ∃ M, ∀ fuel fuel' M', N ≤ fuel → k ≤ fuel' → M ≤ M' → C fuel fuel' ((List.range M').map fun i => Z i ω) := by
  obtain ⟨π, hπ1, hπ, -⟩ := runs_independent hp hfl hsp hvs hZ
  generalize (10000 : Nat) = n at h ⊢
  have hlaw := hπ (List.replicate n (Set.Iio x))
  rw [List.map_replicate, List.prod_replicate] at hlaw
  set D := {ω | ∃ N vs rest, Runs E p s vs ((List.range N).map fun i => Z i ω) rest ∧
    List.Forall₂ (fun v A => v ∈ A) vs (List.replicate n (Set.Iio x))} with hD
  obtain ⟨B, hB1, hB2, hB3⟩ := exists_measurable_superset_of_null (ae_iff.1 hZ.infinitely_often)
  refine ⟨π, (toMeasurable P D)ᶜ \ B, hπ1, hπ, (measurableSet_toMeasurable P D).compl.diff hB2, ?_, ?_⟩
  · rw [measure_sdiff_null hB3, prob_compl_eq_one_sub (measurableSet_toMeasurable P D), measure_toMeasurable, hlaw]
  rintro ω ⟨hω, hωB⟩
  have hωi : ∀ n, ∃ i ≥ n, 0 ≤ Z i ω := by
    by_contra hno
    exact hωB (hB1 hno)
  have hωD : ω ∉ D := fun h => hω (subset_toMeasurable P D h)
  obtain ⟨M, hM⟩ := plenty_eventually hωi (n * k * (p.agents.length + p.tasks.length))
  refine ⟨M, fun fuel fuel' M' hN hk' hM' => ?_⟩
  obtain ⟨vs, rest, hlen, hruns, habort⟩ := h fuel fuel' _ hN hk' (hM M' hM')
  apply habort
  by_contra hno
  push Not at hno
  obtain ⟨rest', hr⟩ := hruns.take n
  apply hωD
  refine ⟨M', vs.take n, rest', hr, ?_⟩
  rw [List.forall₂_iff_get]
  refine ⟨by simp; omega, fun i h1 h2 => ?_⟩
  simp only [List.get_eq_getElem, List.getElem_replicate, Set.mem_Iio]
  exact hno _ (List.mem_of_mem_take (List.getElem_mem h1))

/-- C106. How often the program without a command aborts: let the document load into a sound project that takes between a second and 2³¹ seconds, let the
options be valid, let the random numbers be independent with the same law, and let the stopping rule not fail and be satisfied after at most `10000 * k` runs. Then the
schedule `s` that is found has a law of its runs, and the program aborts with no output file, once it has got enough random numbers, at least with the probability that one of
10000 runs takes a bin more than 2³¹ seconds. -/
theorem abort_probability (hE : E.IsExact) (hf : o.filename ≠ "") (hout : o.output ≠ "")
    {root : Yaml} (hs : m.source = .doc root) (hl : load m.readFloat root = ok p)
    (hp : p.Sound) (hmod : p.Moderate) (hw : CanWrite m o) (ht : 0 < m.threads) (hsp : toScheduleParams E p = ok sp)
    (ho : ValidOptions E (o.opt.options sp)) (hbin : ∀ b ∈ o.binSize, 1 ≤ b ∧ b < 2 ^ 31)
    {k : Nat} (hk : 1 ≤ k) (hk' : 10000 * k < 2 ^ 31) (hmore : ∀ vs, ∃ c, m.more vs = ok c) (hstop : ∀ vs, vs.length = 10000 * k → m.more vs = ok false)
    (hZ : RandomNumbers P Z) :
    ∃ (N : Nat) (s : List Item) (π : Measure Int) (A : Set Ω), ValidSchedule sp s ∧ IsProbabilityMeasure π ∧ LawOfRuns P Z E p s π ∧ MeasurableSet A ∧
      P A = 1 - π (Set.Iio (2 ^ 31 + o.binSize.getD (24 * 60 * 60))) ^ 10000 ∧
      ∀ ω ∈ A, ∃ M, ∀ fuel fuel' M', N ≤ fuel → k ≤ fuel' → M ≤ M' →
        ∀ result, result = body E { m with fuel := fuel, fuel' := fuel', zs := (List.range M').map fun i => Z i ω } .predict o →
          status result.flow = .aborted .range ∧ ∀ e ∈ result.effects, ¬ e.IsFile := by
  have hfl : p.FloatsIn E := fun _ _ _ _ => hE _
  obtain ⟨N, s, hvs, h⟩ := overlong_run_aborts hE hf hout hs hl hp hmod hw ht hsp ho hbin hk hk'
  obtain ⟨π, A, h1, h2, h3, h4, h5⟩ := overlong_probability hp hfl hsp hvs hZ (N := N) (k := k) (x := 2 ^ 31 + o.binSize.getD (24 * 60 * 60))
    (C := fun fuel fuel' zs => ∀ result, result = body E { m with fuel := fuel, fuel' := fuel', zs := zs } .predict o →
      status result.flow = .aborted .range ∧ ∀ e ∈ result.effects, ¬ e.IsFile)
    (fun fuel fuel' zs hN hkf hz => by
      obtain ⟨vs, rest, hlen, -, hruns, -, habort⟩ := h fuel hN fuel' hkf zs hz (fun vs _ _ _ _ _ => hmore vs) (fun vs _ _ hl => hstop vs hl) _ rfl
      exact ⟨vs, rest, hlen, hruns, fun hv result hres => by rw [hres]; exact habort hv⟩)
  exact ⟨N, s, π, A, hvs, h1, h2, h3, h4, h5⟩

/-- C106 in single precision: an overlong run aborts the program, for a project without extreme numbers and at most 2²⁴ runs. -/
theorem float_overlong_run_aborts (hE : E.IsFloat) (hf : o.filename ≠ "") (hout : o.output ≠ "")
    {root : Yaml} (hs : m.source = .doc root) (hl : load m.readFloat root = ok p)
    (hp : p.Sound) (hr : p.InRange) (hfl : p.FloatsIn E) (hmod : p.TakesBetween 2 (2 ^ 30)) (hw : CanWrite m o)
    (ht : 0 < m.threads) (hsp : toScheduleParams E p = ok sp)
    (ho : ValidOptions E (o.opt.options sp)) (hbin : ∀ b ∈ o.binSize, 1 ≤ b ∧ b < 2 ^ 31)
    {k : Nat} (hk : 1 ≤ k) (hk' : 10000 * k ≤ 2 ^ 24) :
    ∃ (N : Nat) (s : List Item), ValidSchedule sp s ∧ ∀ fuel, N ≤ fuel → ∀ fuel', k ≤ fuel' → ∀ zs : List ℝ,
      10000 * k * (p.agents.length + p.tasks.length) ≤ (zs.countP fun z => 0 ≤ z) →
      RuleAnswers E p s m.more zs → (∀ vs rest, Runs E p s vs zs rest → vs.length = 10000 * k → m.more vs = ok false) →
      ∀ result, result = body E { m with fuel := fuel, fuel' := fuel', zs := zs } .predict o →
        ∃ vs rest, 10000 ≤ vs.length ∧ vs.length ≤ 10000 * k ∧ Runs E p s vs zs rest ∧
          ((∀ v ∈ vs, v < 2 ^ 31) → status result.flow = .exit 0 ∧ ∃ j, .file o.output j ∈ result.effects) ∧
          ((∃ v ∈ vs, 2 ^ 31 + o.binSize.getD (24 * 60 * 60) ≤ v) → status result.flow = .aborted .range ∧ ∀ e ∈ result.effects, ¬ e.IsFile) := by
  have hE₀ := unrounded_exact E
  obtain ⟨sp₀, hsp₀, -⟩ := params_wellFormed (E := E.unrounded) hp (fun _ _ _ _ => rfl)
  obtain ⟨hws₀, hc₀⟩ := secondsParams_wellFormed hp (fun _ _ _ _ => rfl) hsp₀
  obtain ⟨N, s, mk, es, hvs, -, h⟩ := predict_command_full hf hout hs hl hp hfl hw ht
    hsp ho hbin (P := fun s mk es => True) (Few := fun n => n ≤ 2 ^ 24)
    (fun s v hs hv => by
      have hs₀ := unrounded_valid hsp hsp₀ hs
      obtain ⟨st, fi, hex, hend, _, hleast⟩ := makespanValue_spec (E := E.unrounded) hws₀ (secondsParams_valid hc₀ hs₀)
      obtain ⟨⟨a, b, hab, hlt⟩, hge⟩ := bounded_executions hE₀ hp (by norm_num) (by norm_num) hmod hsp₀ hs₀
      obtain ⟨it, hit, h2⟩ := hge st fi hex
      have hV := h2.trans (hend.1 it hit)
      obtain ⟨it', hit', he'⟩ := hend.2
      have hV' := lt_of_le_of_lt (hleast a b hab it' hit').2 (hlt it' hit')
      rw [he'] at hV'
      push_cast at hV hV'
      obtain ⟨mk, es, start, finish, hm, hj, hlen, hmk, _, hcor⟩ := float_json hE hp hr hfl hsp hsp₀ hs hv ⟨hex, hleast⟩ hend hV hV'
      refine ⟨mk, es, hm, hj, ?_, trivial⟩
      have h0 : (0 : ℝ) < mk := by
        unfold CloseTo at hmk
        rw [abs_le] at hmk
        have := hmk.1
        linarith
      have : 0 < mk := by exact_mod_cast h0
      omega)
    (fun w vs h k hh hk hlen hn => percentiles_float hE hh hk hlen hn)
  refine ⟨N, s, hvs, fun fuel hN fuel' hf' zs hz hmore hstop result hres => ?_⟩
  rcases h fuel hN fuel' zs hmore result hres with ⟨_, _, h⟩ | ⟨vs, rest, k', bins, h1, h2, h3, h4, _, h5⟩
  · exact absurd h (histogram_ends hp hfl hsp hvs hmore hk hstop hf' hz)
  · have hkk := batches_le hk h2 h3 h4 hstop
    obtain ⟨st, -, h6, h7⟩ := h5 (by omega)
    refine ⟨vs, rest, by omega, by omega, h3, fun hv => ?_, fun ⟨v, hv, hle⟩ => ?_⟩
    · obtain ⟨h6, pre, post, _, _, h7⟩ := h6 hv (by omega)
      exact ⟨h6, _, by rw [h7]; exact List.mem_append_left _ (List.mem_append_right _ (List.mem_singleton.2 rfl))⟩
    · refine h7 ⟨v, hv, le_trans ?_ hle⟩ (by omega)
      have : resolutionOf o.binSize mk ≤ o.binSize.getD (24 * 60 * 60) := by
        unfold resolutionOf
        cases o.binSize with
        | none =>
          dsimp only [Option.getD]
          split_ifs <;> norm_num
        | some b => exact le_rfl
      omega

/-- C106. `abort_probability` in single precision, for a project without extreme numbers. -/
theorem float_abort_probability (hE : E.IsFloat) (hf : o.filename ≠ "") (hout : o.output ≠ "")
    {root : Yaml} (hs : m.source = .doc root) (hl : load m.readFloat root = ok p)
    (hp : p.Sound) (hr : p.InRange) (hfl : p.FloatsIn E) (hmod : p.TakesBetween 2 (2 ^ 30)) (hw : CanWrite m o)
    (ht : 0 < m.threads) (hsp : toScheduleParams E p = ok sp)
    (ho : ValidOptions E (o.opt.options sp)) (hbin : ∀ b ∈ o.binSize, 1 ≤ b ∧ b < 2 ^ 31)
    {k : Nat} (hk : 1 ≤ k) (hk' : 10000 * k ≤ 2 ^ 24) (hmore : ∀ vs, ∃ c, m.more vs = ok c) (hstop : ∀ vs, vs.length = 10000 * k → m.more vs = ok false)
    (hZ : RandomNumbers P Z) :
    ∃ (N : Nat) (s : List Item) (π : Measure Int) (A : Set Ω), ValidSchedule sp s ∧ IsProbabilityMeasure π ∧ LawOfRuns P Z E p s π ∧ MeasurableSet A ∧
      P A = 1 - π (Set.Iio (2 ^ 31 + o.binSize.getD (24 * 60 * 60))) ^ 10000 ∧
      ∀ ω ∈ A, ∃ M, ∀ fuel fuel' M', N ≤ fuel → k ≤ fuel' → M ≤ M' →
        ∀ result, result = body E { m with fuel := fuel, fuel' := fuel', zs := (List.range M').map fun i => Z i ω } .predict o →
          status result.flow = .aborted .range ∧ ∀ e ∈ result.effects, ¬ e.IsFile := by
  obtain ⟨N, s, hvs, h⟩ := float_overlong_run_aborts hE hf hout hs hl hp hr hfl hmod hw ht hsp ho hbin hk hk'
  obtain ⟨π, A, h1, h2, h3, h4, h5⟩ := overlong_probability hp hfl hsp hvs hZ (N := N) (k := k) (x := 2 ^ 31 + o.binSize.getD (24 * 60 * 60))
    (C := fun fuel fuel' zs => ∀ result, result = body E { m with fuel := fuel, fuel' := fuel', zs := zs } .predict o →
      status result.flow = .aborted .range ∧ ∀ e ∈ result.effects, ¬ e.IsFile)
    (fun fuel fuel' zs hN hkf hz => by
      obtain ⟨vs, rest, hlen, -, hruns, -, habort⟩ := h fuel hN fuel' hkf zs hz (fun vs _ _ _ _ _ => hmore vs) (fun vs _ _ hl => hstop vs hl) _ rfl
      exact ⟨vs, rest, hlen, hruns, fun hv result hres => by rw [hres]; exact habort hv⟩)
  exact ⟨N, s, π, A, hvs, h1, h2, h3, h4, h5⟩

end

namespace Month

/-- How the numbers of the document are read. -/
def number (s : String) : Option XFloat :=
  if s = "0.5" then some (.fin (1 / 2)) else if s = "1.5" then some (.fin (3 / 2)) else none

/-- An agent with the performance of the example in the README, and a task of 30 days. -/
def plan : Yaml := Sample.obj [
  ("agents", Sample.obj [("Bob", Sample.obj [("performance", Sample.obj [("min", Sample.str "0.5"), ("max", Sample.str "1.5")])])]),
  ("tasks", .seq [Sample.obj [("name", Sample.str "walls"), ("duration", Sample.str "30 days")]])]

/-- What it is loaded as. -/
def project : Project where
  groups := []
  agents := [{ id := 0, name := "Bob", perfMin := .fin (1 / 2), perfMax := .fin (3 / 2) }]
  tasks := [{ name := "walls", durMin := 2592000, durMax := 2592000 }]

theorem plan_loads : load number plan = ok project := by
  rw [Load.load_eval 20 _ _ (by decide)]
  decide +kernel

theorem sound : project.Sound := by
  refine loaded_sound plan_loads (by decide) ?_ ?_
  · intro a ha
    simp only [project, List.mem_cons, List.not_mem_nil, or_false] at ha
    subst ha
    exact ⟨_, _, rfl, rfl⟩
  · intro t ht
    simp only [project, List.mem_cons, List.not_mem_nil, or_false] at ht
    subst ht
    simp [project, Eligible]

theorem moderate : project.Moderate where
  longer := by
    refine ⟨_, List.mem_singleton.2 rfl, ?_⟩
    intro x hx q hq
    simp only [project, List.mem_singleton] at hx
    subst hx
    cases hq
    decide +kernel
  shorter := by
    intro x hx q hq
    simp only [project, List.mem_singleton] at hx
    subst hx
    cases hq
    decide +kernel

theorem bounds : project.performanceBounds [((1 / 2 : ℝ), (3 / 2 : ℝ))] := by
  refine .cons ⟨1 / 2, 3 / 2, ⟨rfl, rfl, by norm_num, by norm_num⟩, by norm_num⟩ .nil

/-- A lower bound of the density of standard normal numbers -/
theorem density : (1 : ℝ) / 7473 ≤ (√(2 * Real.pi))⁻¹ * Real.exp (-8) := by
  have h1 : √(2 * Real.pi) ≤ 2.5067 := by
    rw [Real.sqrt_le_left (by norm_num)]
    have := Real.pi_lt_d4
    norm_num at *
    linarith
  have h2 : Real.exp 8 ≤ 2981 := by
    have h := Real.exp_one_lt_d9
    have e : Real.exp 8 = Real.exp 1 ^ 8 := by
      rw [← Real.exp_nat_mul]
      norm_num
    rw [e]
    refine (pow_le_pow_left₀ (Real.exp_pos _).le h.le 8).trans ?_
    norm_num
  rw [Real.exp_neg, ← mul_inv, ← one_div]
  refine one_div_le_one_div_of_le (by positivity) ?_
  refine (mul_le_mul h1 h2 (Real.exp_pos _).le (by norm_num)).trans ?_
  norm_num

theorem window {a c : ℝ} (h0 : 0 ≤ a) (h1 : c ≤ 4) : ENNReal.ofReal ((c - a) / 7473) ≤ gaussianReal 0 1 (Set.Ioo (-4 + a) (-4 + c)) := by
  rw [gaussianReal_apply 0 one_ne_zero]
  calc ENNReal.ofReal ((c - a) / 7473) = ∫⁻ _ in Set.Ioo (-4 + a) (-4 + c), ENNReal.ofReal (1 / 7473) := by
        rw [setLIntegral_const, Real.volume_Ioo, ← ENNReal.ofReal_mul (by norm_num)]
        congr 1
        ring
    _ ≤ _ := by
        refine setLIntegral_mono' measurableSet_Ioo fun x hx => ?_
        unfold gaussianPDF gaussianPDFReal
        apply ENNReal.ofReal_le_ofReal
        refine density.trans ?_
        simp only [NNReal.coe_one, mul_one, sub_zero]
        refine mul_le_mul_of_nonneg_left (Real.exp_le_exp.2 ?_) (by positivity)
        have h2 := hx.1
        have h3 := hx.2
        nlinarith

theorem power {q : ℝ} (h0 : 0 ≤ q) (h1 : q ≤ 1) (n : Nat) : (1 - q) ^ n ≤ 1 / (1 + n * q) := by
  have b := one_add_mul_le_pow (a := q) (by linarith) n
  have b2 : (1 - q) ^ n * (1 + q) ^ n ≤ 1 := by
    rw [← mul_pow]
    exact pow_le_one₀ (by nlinarith) (by nlinarith)
  rw [le_div_iff₀ (by positivity)]
  exact (mul_le_mul_of_nonneg_left b (pow_nonneg (by linarith) _)).trans b2

theorem abort_bound {π : Measure Int} [IsProbabilityMeasure π] {x : Int} {q r : ℝ} (h : ENNReal.ofReal q ≤ π (Set.Ici x)) (h0 : 0 ≤ q) (h1 : q ≤ 1)
    (hr : 1 / (1 + 10000 * q) ≤ 1 - r) : ENNReal.ofReal r ≤ 1 - π (Set.Iio x) ^ 10000 := by
  have h2 : π (Set.Iio x) ≤ ENNReal.ofReal (1 - q) := by
    have e : Set.Iio x = (Set.Ici x)ᶜ := by simp
    rw [e, prob_compl_eq_one_sub .of_discrete, ENNReal.ofReal_sub _ h0, ENNReal.ofReal_one]
    exact tsub_le_tsub_left h 1
  have h3 : π (Set.Iio x) ^ 10000 ≤ ENNReal.ofReal (1 - r) := by
    refine (pow_le_pow_left' h2 _).trans ?_
    rw [← ENNReal.ofReal_pow (by linarith)]
    refine ENNReal.ofReal_le_ofReal ((power h0 h1 _).trans ?_)
    exact_mod_cast hr
  have hp : 0 ≤ 1 - r := le_trans (by positivity) hr
  have e : ENNReal.ofReal r = 1 - ENNReal.ofReal (1 - r) := by
    rw [← ENNReal.ofReal_one, ← ENNReal.ofReal_sub _ hp]
    congr 1
    ring
  rw [e]
  exact tsub_le_tsub_left h3 1

/-- The only schedule. -/
def schedule : List Item := [⟨0, 0⟩]

theorem schedule_unique {E : FloatEnv ℝ} (hfl : project.FloatsIn E) {sp : ScheduleParams ℝ} (hsp : toScheduleParams E project = ok sp) {s : List Item} (hs : ValidSchedule sp s) :
    s = schedule := by
  obtain ⟨sp', hsp', hw⟩ := params_wellFormed (E := E) sound hfl
  rw [hsp] at hsp'
  cases hsp'
  obtain ⟨g1, g2, -⟩ := params_faithful sound.agent_groups sound.task_groups hsp
  have g1 : sp.taskCount = 1 := g1
  have g2 : sp.agentCount = 1 := g2
  obtain ⟨it, rfl⟩ := List.length_eq_one_iff.1 (hs.length.trans g1)
  have h := hs.fits hw (List.mem_singleton.2 rfl)
  have h1 := h.task_n
  have h2 := h.agent_m
  rw [g1] at h1
  rw [g2] at h2
  obtain ⟨a, b⟩ := it
  dsimp only at h1 h2
  obtain rfl : a = 0 := by omega
  obtain rfl : b = 0 := by omega
  rfl

theorem run_value {sp : ScheduleParams ℝ} (hsp : toScheduleParams FloatEnv.real project = ok sp) (hs : ValidSchedule sp schedule) {ζ : Nat → ℝ} (h0 : -4 < ζ 0) :
    ζ ∈ runStreams FloatEnv.real project schedule ⌊2592000 / (1 + ζ 0 / 4)⌋ 1 := by
  have hd : drawn FloatEnv.real (1 / 2) (3 / 2) (ζ 0) = 1 + ζ 0 / 4 := by
    rw [drawn_exact (fun _ => rfl)]
    ring
  have hpos : 0 < 1 + ζ 0 / 4 := by linarith
  have hdb : project.durationBounds FloatEnv.real = [(2592000, 2592000)] := by
    simp only [Project.durationBounds, project, FloatEnv.ofInt, List.map_cons, List.map_nil]
    change [(((2592000 : Int) : ℝ), ((2592000 : Int) : ℝ))] = _
    norm_num
  refine (runStreams_iff sound (fun _ _ _ _ => rfl) hsp hs bounds rfl).2 ⟨[0, 0], ?_, ?_, ?_⟩
  · rw [hdb]
    have hne : ((1 : ℝ) / 2) ≠ 3 / 2 := by norm_num
    simp only [List.cons_append, List.nil_append, List.map_cons, List.map_nil, Reads, hd, if_neg hne, if_true]
    exact ⟨by simp, hpos, trivial, trivial⟩
  · rw [hdb]
    norm_num [usedCount]
  · rw [hdb]
    have hne : ((1 : ℝ) / 2) ≠ 3 / 2 := by norm_num
    simp only [List.cons_append, List.nil_append, List.map_cons, List.map_nil, vals, hd, if_neg hne, if_true, List.length_cons, List.length_nil,
      Nat.zero_add, List.take_succ_cons, List.take_zero, List.drop_succ_cons, List.drop_zero]
    obtain ⟨-, -, -, -, g5, -⟩ := params_faithful sound.agent_groups sound.task_groups hsp
    have hdeps : sp.deps 0 = [] := (g5 0 _ rfl).2.2
    have hdeps' : (sp.sampled [1 + ζ 0 / 4] [2592000]).deps 0 = [] := hdeps
    have hlen : project.agents.length = 1 := rfl
    have hnn : 0 ≤ 2592000 / (1 + ζ 0 / 4) := by positivity
    have hval : makespanValue FloatEnv.real (sp.sampled [1 + ζ 0 / 4] [2592000]) 1 schedule = 2592000 / (1 + ζ 0 / 4) := by
      have h1 : depsEnd (sp.sampled [1 + ζ 0 / 4] [2592000]) (fun _ => 0) 0 = 0 := by
        rw [depsEnd, hdeps']
        rfl
      simp only [makespanValue, schedule, runF, endTime, startTime, FloatEnv.add, ScheduleParams.itemTime, FloatEnv.div, h1]
      change maxOf [max (0 : ℝ) 0 + 2592000 / (1 + ζ 0 / 4)] = _
      simp [maxOf]
    rw [hlen, hval, Simulation.truncate, if_pos hnn]

/-- A run takes at least a day more than 2³¹ seconds with a probability of at least 6.46 to ten million. -/
theorem overlong {sp : ScheduleParams ℝ} (hsp : toScheduleParams FloatEnv.real project = ok sp) (hs : ValidSchedule sp schedule) {π : Measure Int}
    (hπ : LawOfRuns normals (fun i ω => ω i) FloatEnv.real project schedule π) : ENNReal.ofReal (646 / 10 ^ 9) ≤ π (Set.Ici (2 ^ 31 + 24 * 60 * 60)) := by
  have h1 := hπ [Set.Ici (2 ^ 31 + 24 * 60 * 60)]
  rw [List.map_singleton, List.prod_singleton] at h1
  rw [← h1]
  set c : ℝ := 4 * 2592000 / (2 ^ 31 + 24 * 60 * 60) with hc
  have hmap : normals.map (fun ω => ω 0) = gaussianReal 0 1 := (measurePreserving_eval_infinitePi (fun _ : Nat => gaussianReal 0 1) 0).map_eq
  have h2 := window (a := 0) (c := c) le_rfl (by rw [hc]; norm_num)
  rw [add_zero, sub_zero] at h2
  rw [← hmap, Measure.map_apply (measurable_pi_apply 0) measurableSet_Ioo] at h2
  refine le_trans (ENNReal.ofReal_le_ofReal ?_) (h2.trans (measure_mono ?_))
  · rw [hc]
    norm_num
  · intro ω hω
    have hlo : -4 < ω 0 := hω.1
    have hhi : ω 0 < -4 + c := hω.2
    refine (results_iff sound (fun _ _ _ _ => rfl) hsp hs _ ω).1 ⟨_, ?_, 1, run_value hsp hs hlo, trivial⟩
    rw [Set.mem_Ici, Int.le_floor, le_div_iff₀ (by linarith)]
    have : 1 + ω 0 / 4 ≤ c / 4 := by
      clear_value c
      clear hc h1 h2
      linarith
    refine (mul_le_mul_of_nonneg_left this (by norm_num)).trans ?_
    rw [hc]
    norm_num

open CommandLine

/-- C106. With the performance that the README gives as an example, a task of 30 days and standard normal numbers, at least 6 of 1000 predictions abort. -/
theorem month_aborts (draws : Nat → Nat → Nat → Draws ℝ) : ∃ (o : Cli.Options ℝ) (N : Nat) (A : Set (Nat → ℝ)),
    parse FloatEnv.real exampleRead (fun f => f == "plan.yml") true .predict { input := "plan.yml" } = .accepted o ∧
    MeasurableSet A ∧ ENNReal.ofReal (6 / 1000) ≤ normals A ∧ ∀ ω ∈ A, ∃ M, ∀ fuel fuel' M', N ≤ fuel → 1 ≤ fuel' → M ≤ M' →
      ∀ result, result = body FloatEnv.real
        { Steady.machine draws with source := .doc plan, readFloat := number, fuel := fuel, fuel' := fuel', zs := (List.range M').map fun i => ω i } .predict o →
      status result.flow = .aborted .range ∧ ∀ e ∈ result.effects, ¬ e.IsFile := by
  have hpar := options_as_given (E := FloatEnv.real) (isFile := fun f => f == "plan.yml") (terminal := true) (c := .predict)
    (a := { input := "plan.yml" }) exampleRead_naturals (by decide) (batch := 10000) (idle := 100000) (window := 100) (period := 256)
    (Or.inl ⟨rfl, rfl⟩) (Or.inl ⟨rfl, rfl⟩) (Or.inl ⟨rfl, rfl⟩) (Or.inl ⟨rfl, rfl⟩)
    (Or.inl ⟨rfl, rfl⟩) (Or.inl ⟨rfl, rfl⟩) (Or.inl ⟨rfl, rfl⟩)
  obtain ⟨sp, hsp, hw⟩ := params_wellFormed (E := FloatEnv.real) sound (fun _ _ _ _ => rfl)
  obtain ⟨hval, hfile, hout⟩ := accepted_options_partial (Or.inl fun _ => rfl) exampleRead_signs (by decide) hpar (by simp) (by simp) (by simp) hw
  obtain ⟨N, s, π, A, hs, hπ1, hπ, hA, hprob, h⟩ := abort_probability (m := { Steady.machine draws with source := .doc plan, readFloat := number }) (k := 1)
    (fun _ => rfl) hfile hout rfl plan_loads sound moderate
    ⟨⟨rfl, rfl⟩, fun _ => ⟨fun _ => rfl, fun _ => Or.inr (by exact (by decide : 9 ≤ 80))⟩⟩
    (by exact (by decide : 0 < 4)) hsp hval (by simp) le_rfl (by norm_num) (fun _ => ⟨_, rfl⟩) (fun _ _ => rfl) normals_random
  obtain rfl := schedule_unique (fun _ _ _ _ => rfl) hsp hs
  refine ⟨_, N, A, hpar, hA, ?_, h⟩
  rw [hprob]
  exact abort_bound (overlong hsp hs hπ) (by norm_num) (by norm_num) (by norm_num)

/-! ### In single precision -/

theorem inRange : project.InRange where
  tasks := by decide
  agents := by decide
  durations := by decide
  performance := by
    intro a ha q hq
    simp only [project, List.mem_cons, List.not_mem_nil, or_false] at ha
    subst ha
    rcases hq with hq | hq <;> cases hq <;> norm_num

theorem takes : project.TakesBetween 2 (2 ^ 30) where
  longer := by
    refine ⟨_, List.mem_singleton.2 rfl, ?_⟩
    intro x hx q hq
    simp only [project, List.mem_singleton] at hx
    subst hx
    cases hq
    decide +kernel
  shorter := by
    intro x hx q hq
    simp only [project, List.mem_singleton] at hx
    subst hx
    cases hq
    decide +kernel

theorem log_half : Int.log 2 ((1 : ℝ) / 2) = -1 := by
  have : ((1 : ℝ) / 2) = ((2 : ℕ) : ℝ) ^ (-1 : Int) := by norm_num
  rw [this]
  exact Int.log_zpow (by norm_num) _

theorem log_quarter : Int.log 2 ((1 : ℝ) / 4) = -2 := by
  have : ((1 : ℝ) / 4) = ((2 : ℕ) : ℝ) ^ (-2 : Int) := by norm_num
  rw [this]
  exact Int.log_zpow (by norm_num) _

theorem log_more : Int.log 2 ((3 : ℝ) / 2) = 0 := by
  have h1 : (0 : Int) ≤ Int.log 2 ((3 : ℝ) / 2) := (Int.zpow_le_iff_le_log (by norm_num) (by norm_num)).1 (by norm_num)
  have h2 : Int.log 2 ((3 : ℝ) / 2) < 1 := (Int.lt_zpow_iff_log_lt (by norm_num) (by norm_num)).1 (by norm_num)
  omega

theorem round_half : Binary32.round ((1 : ℝ) / 2) = 1 / 2 := by
  rw [Binary32.round_nonneg_eq (by norm_num)]
  refine Binary32.roundPos_of_grid ?_
  have : ((1 : ℝ) / 2) = 2 ^ (-1 : Int) := by norm_num
  unfold Binary32.unit
  rw [log_half, this]
  exact Binary32.grid_pow (by norm_num)

theorem round_quarter : Binary32.round ((1 : ℝ) / 4) = 1 / 4 := by
  rw [Binary32.round_nonneg_eq (by norm_num)]
  refine Binary32.roundPos_of_grid ?_
  have : ((1 : ℝ) / 4) = 2 ^ (-2 : Int) := by norm_num
  unfold Binary32.unit
  rw [log_quarter, this]
  exact Binary32.grid_pow (by norm_num)

theorem round_more : Binary32.round ((3 : ℝ) / 2) = 3 / 2 := by
  rw [Binary32.round_nonneg_eq (by norm_num)]
  refine Binary32.roundPos_of_grid ?_
  unfold Binary32.unit
  rw [log_more]
  refine Binary32.Grid.of_le (e := -1) ⟨3, ?_⟩ (by norm_num)
  norm_num

section
variable {E : FloatEnv ℝ} (hE : E.IsFloat)
include hE

theorem floats : project.FloatsIn E := by
  intro a ha q hq
  simp only [project, List.mem_cons, List.not_mem_nil, or_false] at ha
  subst ha
  rcases hq with hq | hq <;> cases hq
  · rw [hE]
    simpa using round_half
  · rw [hE]
    simpa using round_more

theorem drawn_float {z : ℝ} (h1 : -4 + 4 / 2 ^ 20 < z) (h2 : z < -4 + 4 / 2 ^ 10) :
    0 < drawn E (1 / 2) (3 / 2) z ∧ drawn E (1 / 2) (3 / 2) z ≤ 1 / 2 ^ 10 + 1 / 2 ^ 23 := by
  have e1 : E.div (E.sub (3 / 2) (1 / 2)) 4 = 1 / 4 := by
    simp only [FloatEnv.div, FloatEnv.sub, hE _]
    rw [show (3 / 2 - 1 / 2 : ℝ) = 1 by norm_num, Binary32.round_one]
    exact round_quarter
  have e2 : E.div (E.add (1 / 2) (3 / 2)) 2 = 1 := by
    simp only [FloatEnv.div, FloatEnv.add, hE _]
    have h := Binary32.round_int (K := ℝ) (n := 2) (by norm_num)
    push_cast at h
    rw [show (1 / 2 + 3 / 2 : ℝ) = 2 by norm_num, h, div_self (by norm_num), Binary32.round_one]
  unfold drawn
  rw [e1, e2]
  simp only [FloatEnv.add, FloatEnv.mul, hE _]
  set y : ℝ := z * (1 / 4) with hy
  have y1 : -1 + 1 / 2 ^ 20 < y := by rw [hy]; linarith
  have y2 : y < -1 + 1 / 2 ^ 10 := by rw [hy]; linarith
  clear_value y
  have a1 : |y| ≤ 1 := by
    rw [abs_le]
    norm_num at y1 y2 ⊢
    constructor <;> linarith
  have r1 := Binary32.round_abs_error a1 (by norm_num)
  rw [abs_le] at r1
  norm_num at r1 y1 y2
  set s : ℝ := Binary32.round y + 1 with hs
  have s1 : 1 / 2 ^ 21 < s := by norm_num; linarith
  have s2 : s < 1 / 2 ^ 10 + 1 / 2 ^ 24 := by norm_num; linarith
  clear_value s
  have s0 : 0 < s := lt_trans (by norm_num) s1
  have r2 := Binary32.round_error (x := s) (by
    rw [abs_of_pos s0]
    refine le_trans ?_ s1.le
    norm_num)
  rw [abs_of_pos s0, abs_le] at r2
  norm_num at r2 s2 ⊢
  constructor <;> linarith

/-- A random number a little above -4 makes a run exceed 2³¹ seconds. -/
theorem run_value_float {sp : ScheduleParams ℝ} (hsp : toScheduleParams E project = ok sp) (hs : ValidSchedule sp schedule) {ζ : Nat → ℝ}
    (h1 : -4 + 4 / 2 ^ 20 < ζ 0) (h2 : ζ 0 < -4 + 4 / 2 ^ 10) :
    ∃ v, 2 ^ 31 + 24 * 60 * 60 ≤ v ∧ ζ ∈ runStreams E project schedule v 1 := by
  obtain ⟨d1, d2⟩ := drawn_float hE h1 h2
  have hint : E.rnd 2592000 = 2592000 := by
    have h := Binary32.round_int (K := ℝ) (n := 2592000) (by norm_num)
    rw [hE]
    exact_mod_cast h
  have hdb : project.durationBounds E = [(2592000, 2592000)] := by
    simp only [Project.durationBounds, project, FloatEnv.ofInt, List.map_cons, List.map_nil]
    change [(E.rnd ((2592000 : Int) : ℝ), E.rnd ((2592000 : Int) : ℝ))] = _
    push_cast
    rw [hint]
  refine ⟨_, ?_, (runStreams_iff sound (floats hE) hsp hs bounds rfl).2 ⟨[0, 0], ?_, ?_, rfl⟩⟩
  · rw [hdb]
    have hne : ((1 : ℝ) / 2) ≠ 3 / 2 := by norm_num
    simp only [List.cons_append, List.nil_append, List.map_cons, List.map_nil, vals, if_neg hne, if_true, List.length_cons, List.length_nil,
      Nat.zero_add, List.take_succ_cons, List.take_zero, List.drop_succ_cons, List.drop_zero]
    generalize drawn E (1 / 2) (3 / 2) (ζ 0) = x at d1 d2 ⊢
    obtain ⟨-, -, -, -, g5, -⟩ := params_faithful sound.agent_groups sound.task_groups hsp
    have hdeps : sp.deps 0 = [] := (g5 0 _ rfl).2.2
    have hdeps' : (sp.sampled [x] [2592000]).deps 0 = [] := hdeps
    have hlen : project.agents.length = 1 := rfl
    have hq : (2653000000 : ℝ) ≤ 2592000 / x := by
      rw [le_div_iff₀ d1]
      refine (mul_le_mul_of_nonneg_left d2 (by norm_num)).trans ?_
      norm_num
    have hq2 : (2147570048 : ℝ) ≤ E.rnd (2592000 / x) := by
      have h := Binary32.round_error (x := 2592000 / x) (by
        rw [abs_of_pos (by linarith)]
        refine le_trans ?_ hq
        norm_num)
      rw [abs_of_pos (by linarith : 0 < 2592000 / x), abs_le] at h
      rw [hE]
      generalize 2592000 / x = y at *
      norm_num at h
      linarith
    have hval : makespanValue E (sp.sampled [x] [2592000]) 1 schedule = E.rnd (2592000 / x) := by
      have h1 : depsEnd (sp.sampled [x] [2592000]) (fun _ => 0) 0 = 0 := by
        rw [depsEnd, hdeps']
        rfl
      simp only [makespanValue, schedule, runF, endTime, startTime, FloatEnv.add, ScheduleParams.itemTime, FloatEnv.div, h1]
      change maxOf [E.rnd (max (0 : ℝ) 0 + E.rnd (2592000 / x))] = _
      simp [maxOf, E.rnd_idem]
    rw [hlen, hval, Simulation.truncate, if_pos (by linarith), Int.le_floor]
    norm_num
    exact hq2
  · rw [hdb]
    have hne : ((1 : ℝ) / 2) ≠ 3 / 2 := by norm_num
    simp only [List.cons_append, List.nil_append, List.map_cons, List.map_nil, Reads, if_neg hne, if_true]
    exact ⟨by simp, d1, trivial, trivial⟩
  · rw [hdb]
    norm_num [usedCount]

theorem overlong_float {sp : ScheduleParams ℝ} (hsp : toScheduleParams E project = ok sp) (hs : ValidSchedule sp schedule) {π : Measure Int}
    (hπ : LawOfRuns normals (fun i ω => ω i) E project schedule π) : ENNReal.ofReal (522 / 10 ^ 9) ≤ π (Set.Ici (2 ^ 31 + 24 * 60 * 60)) := by
  have h1 := hπ [Set.Ici (2 ^ 31 + 24 * 60 * 60)]
  rw [List.map_singleton, List.prod_singleton] at h1
  rw [← h1]
  have hmap : normals.map (fun ω => ω 0) = gaussianReal 0 1 := (measurePreserving_eval_infinitePi (fun _ : Nat => gaussianReal 0 1) 0).map_eq
  have h2 := window (a := 4 / 2 ^ 20) (c := 4 / 2 ^ 10) (by norm_num) (by norm_num)
  rw [← hmap, Measure.map_apply (measurable_pi_apply 0) measurableSet_Ioo] at h2
  refine le_trans (ENNReal.ofReal_le_ofReal ?_) (h2.trans (measure_mono ?_))
  · norm_num
  · intro ω hω
    obtain ⟨v, hv, hr⟩ := run_value_float hE hsp hs hω.1 hω.2
    exact (results_iff sound (floats hE) hsp hs _ ω).1 ⟨v, hv, 1, hr, trivial⟩

end

theorem isFloat : FloatEnv.float.IsFloat := fun _ => rfl

/-- C106 in single precision. With the performance that the README gives as an example, a task of 30 days and standard normal numbers, at least 5 of 1000 predictions abort. -/
theorem float_month_aborts (draws : Nat → Nat → Nat → Draws ℝ) : ∃ (o : Cli.Options ℝ) (N : Nat) (A : Set (Nat → ℝ)),
    parse FloatEnv.float exampleRead (fun f => f == "plan.yml") true .predict { input := "plan.yml" } = .accepted o ∧
    MeasurableSet A ∧ ENNReal.ofReal (5 / 1000) ≤ normals A ∧ ∀ ω ∈ A, ∃ M, ∀ fuel fuel' M', N ≤ fuel → 1 ≤ fuel' → M ≤ M' →
      ∀ result, result = body FloatEnv.float
        { Steady.machine draws with source := .doc plan, readFloat := number, fuel := fuel, fuel' := fuel', zs := (List.range M').map fun i => ω i } .predict o →
      status result.flow = .aborted .range ∧ ∀ e ∈ result.effects, ¬ e.IsFile := by
  have hpar := options_as_given (E := FloatEnv.float) (isFile := fun f => f == "plan.yml") (terminal := true) (c := .predict)
    (a := { input := "plan.yml" }) exampleRead_naturals (by decide) (batch := 10000) (idle := 100000) (window := 100) (period := 256)
    (Or.inl ⟨rfl, rfl⟩) (Or.inl ⟨rfl, rfl⟩) (Or.inl ⟨rfl, rfl⟩) (Or.inl ⟨rfl, rfl⟩)
    (Or.inl ⟨rfl, rfl⟩) (Or.inl ⟨rfl, rfl⟩) (Or.inl ⟨rfl, rfl⟩)
  obtain ⟨sp, hsp, hw⟩ := params_wellFormed (E := FloatEnv.float) sound (floats isFloat)
  obtain ⟨hval, hfile, hout⟩ := accepted_options_partial (Or.inr isFloat) exampleRead_signs (by decide) hpar (by simp) (by simp) (by simp) hw
  obtain ⟨N, s, π, A, hs, hπ1, hπ, hA, hprob, h⟩ := float_abort_probability (m := { Steady.machine draws with source := .doc plan, readFloat := number })
    (k := 1) isFloat hfile hout rfl plan_loads sound inRange (floats isFloat) takes
    ⟨⟨rfl, rfl⟩, fun _ => ⟨fun _ => rfl, fun _ => Or.inr (by exact (by decide : 9 ≤ 80))⟩⟩
    (by exact (by decide : 0 < 4)) hsp hval (by simp) le_rfl (by norm_num) (fun _ => ⟨_, rfl⟩) (fun _ _ => rfl) normals_random
  obtain rfl := schedule_unique (floats isFloat) hsp hs
  refine ⟨_, N, A, hpar, hA, ?_, h⟩
  rw [hprob]
  exact abort_bound (overlong_float isFloat hsp hs hπ) (by norm_num) (by norm_num) (by norm_num)

end Month
end Angonoka.Props
