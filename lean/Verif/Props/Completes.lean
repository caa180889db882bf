import Verif.Props.FloatPredict
import Verif.Props.Certain

/-!
# C77: the prediction ends
-/

set_option linter.unusedSectionVars false

namespace Angonoka.Props
open Angonoka Outcome Stun Cli

variable {K : Type} [Field K] [LinearOrder K] [IsStrictOrderedRing K] [FloorRing K]
variable {E : FloatEnv K} {m : Machine K} {o : Cli.Options K}

/-- A normal value that is not negative gives a positive sample. -/
theorem drawn_pos {lo hi z : K} (hlo : E.rnd lo = lo) (h0 : 0 < lo) (hle : lo ≤ hi) (hz : 0 ≤ z) : 0 < drawn E lo hi z := by
  have h1 : 2 * lo ≤ E.rnd (lo + hi) := by
    have h2 := E.rnd_double lo
    rw [hlo] at h2
    rw [← h2]
    exact E.rnd_mono (by linarith)
  have h3 : lo ≤ E.rnd (E.rnd (lo + hi) / 2) := by
    have h4 := E.rnd_mono (show lo ≤ E.rnd (lo + hi) / 2 by linarith)
    rwa [hlo] at h4
  have h5 : 0 ≤ E.rnd (z * E.rnd (E.rnd (hi - lo) / 4)) :=
    E.rnd_nonneg (mul_nonneg hz (E.rnd_nonneg (div_nonneg (E.rnd_nonneg (sub_nonneg.2 hle)) (by norm_num))))
  have h6 := E.rnd_mono (show lo ≤ E.rnd (z * E.rnd (E.rnd (hi - lo) / 4)) + E.rnd (E.rnd (lo + hi) / 2) by linarith)
  rw [hlo] at h6
  exact lt_of_lt_of_le h0 h6

/-- The number of random numbers that are not negative -/
def plenty (zs : List K) : Nat := zs.countP fun z => 0 ≤ z

theorem first_accepted {lo hi : K} (hlo : E.rnd lo = lo) (h0 : 0 < lo) (hle : lo ≤ hi) {zs : List K} (h : 1 ≤ plenty zs) :
    ∃ rejected z zs', zs = rejected ++ z :: zs' ∧ (∀ r ∈ rejected, drawn E lo hi r ≤ 0) ∧ 0 < drawn E lo hi z ∧
      plenty zs ≤ plenty zs' + 1 := by
  induction zs with
  | nil => simp [plenty] at h
  | cons z zs ih =>
    by_cases hd : 0 < drawn E lo hi z
    · refine ⟨[], z, zs, rfl, by simp, hd, ?_⟩
      unfold plenty
      rw [List.countP_cons]
      split_ifs <;> omega
    · have hz : ¬ 0 ≤ z := fun hz => hd (drawn_pos hlo h0 hle hz)
      have he : plenty (z :: zs) = plenty zs := by
        unfold plenty
        rw [List.countP_cons_of_neg (by simpa using hz)]
      rw [he] at h
      obtain ⟨r, z', zs', h1, h2, h3, h4⟩ := ih h
      refine ⟨z :: r, z', zs', by rw [h1]; rfl, ?_, h3, by rw [he]; exact h4⟩
      intro x hx
      rcases List.mem_cons.1 hx with rfl | hx
      · exact not_lt.1 hd
      · exact h2 x hx

theorem samples_exist {bs : List (K × K)} (hbs : ∀ b ∈ bs, E.rnd b.1 = b.1 ∧ 0 < b.1 ∧ b.1 ≤ b.2) {zs : List K}
    (h : bs.length ≤ plenty zs) : ∃ xs rest, Samples E bs xs zs rest ∧ plenty zs ≤ plenty rest + bs.length := by
  induction bs generalizing zs with
  | nil => exact ⟨[], zs, .nil, by simp⟩
  | cons b bs ih =>
    obtain ⟨lo, hi⟩ := b
    obtain ⟨h1, h2, h3⟩ := hbs (lo, hi) (by simp)
    have hbs' := fun b hb => hbs b (List.mem_cons_of_mem _ hb)
    rw [List.length_cons] at h
    by_cases he : lo = hi
    · subst he
      obtain ⟨xs, rest, hs, hc⟩ := ih hbs' (zs := zs) (by omega)
      exact ⟨_, rest, .fixed hs, by rw [List.length_cons]; omega⟩
    · obtain ⟨r, z, zs', rfl, hr, hz, hc⟩ := first_accepted (E := E) h1 h2 h3 (by omega : 1 ≤ plenty zs)
      obtain ⟨xs, rest, hs, hc'⟩ := ih hbs' (zs := zs') (by omega)
      exact ⟨_, rest, .drawn r he hr hz hs, by rw [List.length_cons]; omega⟩

/-- C77, one run: it ends if there are as many nonnegative random numbers as agents and tasks, and uses no more of them. -/
theorem run_completes {p : Project} (hp : p.Sound) (hf : p.FloatsIn E) {sp : ScheduleParams K}
    (hsp : toScheduleParams E p = ok sp) {s : List Item} (hs : ValidSchedule sp s) {sim : Simulation K}
    (hsim : SimulationFor E p sim) {zs : List K} (h : p.agents.length + p.tasks.length ≤ plenty zs) :
    ∃ v rest sim', sim.call E s zs = ok (some (v, rest, sim')) ∧ 0 ≤ v ∧
      plenty zs ≤ plenty rest + (p.agents.length + p.tasks.length) := by
  obtain ⟨bounds, hb, hall⟩ := simulation_feasible hp hf hsp hs hsim
  have hbl : bounds.length = p.agents.length := hb.length_eq.symm
  have hdl : (p.durationBounds E).length = p.tasks.length := by simp [Project.durationBounds]
  obtain ⟨perf, zs', s1, c1⟩ := samples_exist (E := E) (bs := bounds) (zs := zs) (by
      intro b hb'
      obtain ⟨i, hi, rfl⟩ := List.getElem_of_mem hb'
      have hi' : i < p.agents.length := by omega
      obtain ⟨lo, hi2, hok, he⟩ := List.Forall₂.get hb hi' hi
      rw [List.get_eq_getElem] at he
      rw [he]
      dsimp only
      refine ⟨?_, by exact_mod_cast hok.2.2.1, by exact_mod_cast hok.2.2.2⟩
      exact hf _ (List.getElem_mem hi') lo (Or.inl hok.1)) (by omega)
  obtain ⟨dur, rest, s2, c2⟩ := samples_exist (E := E) (bs := p.durationBounds E) (zs := zs') (by
      intro b hb
      obtain ⟨t, ht, rfl⟩ := List.mem_map.1 hb
      have := hp.durations t ht
      exact ⟨E.rnd_idem _, ofInt_pos this.1, E.rnd_mono (by exact_mod_cast this.2.1)⟩) (by omega)
  rcases hall zs with ⟨_, h⟩ | ⟨v, perf', dur', zs'', rest', sim', _, hc, s3, s4, _, _, hv, _⟩
  · exact absurd s2 (h _ _ _ _ s1)
  · obtain ⟨_, rfl⟩ := Samples.unique s1 s3
    obtain ⟨_, rfl⟩ := Samples.unique s2 s4
    exact ⟨v, rest, sim', hc, hv.1, by omega⟩

/-- The loop of a batch ends. -/
theorem batchLoop_completes {p : Project} (hp : p.Sound) (hf : p.FloatsIn E) {sp : ScheduleParams K}
    (hsp : toScheduleParams E p = ok sp) {s : List Item} (hs : ValidSchedule sp s) {w : Int} (hw : 1 ≤ w) {zs₀ : List K} {n : Nat}
    {op : HistogramOp K} (h : OpInv E p s w zs₀ op) (hz : n * (p.agents.length + p.tasks.length) ≤ plenty op.zs) :
    ∃ op', HistogramOp.batchLoop E s n op = ok (some op') ∧
      plenty op.zs ≤ plenty op'.zs + n * (p.agents.length + p.tasks.length) := by
  induction n generalizing op with
  | zero => exact ⟨op, rfl, by omega⟩
  | succ n ih =>
    rw [Nat.succ_mul] at hz
    obtain ⟨v, rest, sim', hc, hv, hr⟩ := run_completes hp hf hsp hs h.sim (zs := op.zs) (by omega)
    obtain ⟨hist, hi⟩ := insert_exists hw h.hist hv
    obtain ⟨op', h1, h2⟩ := ih (h.step hc hi) (by dsimp only; omega)
    refine ⟨op', ?_, ?_⟩
    · rw [HistogramOp.batchLoop, hc, ok_bind]
      dsimp only
      rw [hi, ok_bind]
      exact h1
    · dsimp only at h2
      rw [Nat.succ_mul]
      omega

theorem loop_completes {p : Project} (hp : p.Sound) (hf : p.FloatsIn E) {sp : ScheduleParams K}
    (hsp : toScheduleParams E p = ok sp) {s : List Item} (hs : ValidSchedule sp s) (hsne : s ≠ []) {w : Int} (hw : 1 ≤ w)
    {more : List Int → Outcome Bool} {k : Nat}
    {zs₀ : List K} (hmore : RuleAnswers E p s more zs₀) (hstop : ∀ vs rest, Runs E p s vs zs₀ rest → vs.length = 10000 * k → more vs = ok false) {j fuel : Nat} {op : HistogramOp K} (h : OpInv E p s w zs₀ op) (hj : 1 ≤ j) (hjk : j ≤ k) (hl : op.log.length + 10000 * j = 10000 * (k + 1))
    (hfuel : j ≤ fuel) (hz : 10000 * (j - 1) * (p.agents.length + p.tasks.length) ≤ plenty op.zs) :
    ∃ op', op.loop E s more fuel = ok (some op') := by
  induction fuel generalizing op j with
  | zero => omega
  | succ fuel ih =>
    obtain ⟨c, hc⟩ := hmore op.log _ (k + 1 - j) (by omega) (by omega) h.runs
    rw [HistogramOp.loop, hc, ok_bind]
    cases c with
    | false => exact ⟨_, rfl⟩
    | true =>
      rw [if_pos rfl]
      have hj2 : 2 ≤ j := by
        by_contra hj1
        obtain rfl : j = 1 := by omega
        have := hstop op.log _ h.runs (by omega)
        rw [hc] at this
        cases this
      obtain ⟨j, rfl⟩ : ∃ i, j = i + 2 := ⟨j - 2, by omega⟩
      have hz' : 10000 * j * (p.agents.length + p.tasks.length) + 10000 * (p.agents.length + p.tasks.length) ≤ plenty op.zs := by
        have : 10000 * (j + 2 - 1) = 10000 * j + 10000 := by omega
        rw [this, Nat.add_mul] at hz
        exact hz
      have hex : ∃ op', op.runBatch E s = ok (some op') ∧
          plenty op.zs ≤ plenty op'.zs + 10000 * (p.agents.length + p.tasks.length) := by
        obtain ⟨op', h1, h2⟩ := batchLoop_completes hp hf hsp hs hw (n := HistogramOp.batchSize) h
          (le_trans (Nat.le_add_left _ _) hz')
        refine ⟨op', ?_, h2⟩
        unfold HistogramOp.runBatch
        rw [expects_true (by simpa using hsne), ok_bind]
        exact h1
      obtain ⟨op', h1, h2⟩ := hex
      rw [h1, ok_bind]
      obtain ⟨h3, h4, _⟩ := h.runBatch h1
      have h5 : op'.log.length + 10000 * (j + 1) = 10000 * (k + 1) := by
        rw [h4, ← hl]
        ring
      refine ih (j := j + 1) h3 (Nat.le_add_left _ _) (by omega) h5 (by omega) ?_
      rw [Nat.add_sub_cancel]
      omega

/-- With enough random numbers and decisions, the histogram is not left unfinished. -/
theorem histogram_ends {p : Project} (hp : p.Sound) (hf : p.FloatsIn E)
    {sp : ScheduleParams K} (hsp : toScheduleParams E p = ok sp) {s : List Item}
    (hs : ValidSchedule sp s) {binSize : Option Int} {makespan : Int} {more : List Int → Outcome Bool}
    {zs : List K} (hmore : RuleAnswers E p s more zs) {k : Nat} (hk : 1 ≤ k) (hstop : ∀ vs rest, Runs E p s vs zs rest → vs.length = 10000 * k → more vs = ok false)
    {fuel : Nat} (hfuel : k ≤ fuel)
    (hz : 10000 * k * (p.agents.length + p.tasks.length) ≤ zs.countP fun z => 0 ≤ z) :
    histogram E p binSize s makespan more fuel zs ≠ ok none := by
  intro hr
  have hsne : s ≠ [] := by
    intro h0
    have h1 := hs.length
    have h2 := (params_faithful hp.agent_groups hp.task_groups hsp).1
    rw [h0, h2] at h1
    exact hp.tasks_ne (List.eq_nil_of_length_eq_zero h1.symm)
  unfold histogram at hr
  obtain ⟨_, _, hr⟩ := bind_eq_ok.1 hr
  obtain ⟨_, _, hr⟩ := bind_eq_ok.1 hr
  obtain ⟨_, _, hr⟩ := bind_eq_ok.1 hr
  obtain ⟨sim, h1, hr⟩ := bind_eq_ok.1 hr
  obtain ⟨w, h2, hr⟩ := bind_eq_ok.1 hr
  obtain ⟨hist, h3, hr⟩ := bind_eq_ok.1 hr
  have hw : 1 ≤ w := by
    unfold Histogram.new at h3
    obtain ⟨_, h4, _⟩ := bind_eq_ok.1 h3
    simpa using expects_eq_ok.1 h4
  have hinit := opInv_init (E := E) (s := s) (zs := zs) h1 h3
  obtain ⟨k, rfl⟩ : ∃ i, k = i + 1 := ⟨k - 1, by omega⟩
  have hz' : 10000 * k * (p.agents.length + p.tasks.length) + 10000 * (p.agents.length + p.tasks.length) ≤ plenty zs := by
    have : 10000 * (k + 1) = 10000 * k + 10000 := by omega
    rw [this, Nat.add_mul] at hz
    exact hz
  obtain ⟨op', h4, h5⟩ := batchLoop_completes hp hf hsp hs hw (n := HistogramOp.batchSize) hinit
    (le_trans (Nat.le_add_left _ _) hz')
  have h6 : HistogramOp.runBatch E s { sim := sim, hist := hist, zs := zs, log := [] } = ok (some op') := by
    unfold HistogramOp.runBatch
    rw [expects_true (by simpa using hsne), ok_bind]
    exact h4
  obtain ⟨h7, h8, _⟩ := hinit.runBatch h6
  have h5' : plenty zs ≤ plenty op'.zs + 10000 * (p.agents.length + p.tasks.length) := h5
  simp only [List.length_nil, Nat.zero_add] at h8
  obtain ⟨op'', h9⟩ := loop_completes hp hf hsp hs hsne hw hmore hstop (j := k + 1) (fuel := fuel) h7 (by omega) le_rfl (by omega)
    hfuel (by rw [Nat.add_sub_cancel]; omega)
  unfold HistogramOp.call at hr
  rw [h6, ok_bind] at hr
  dsimp only at hr
  rw [h9, ok_bind] at hr
  dsimp only at hr
  obtain ⟨_, _, hr⟩ := bind_eq_ok.1 hr
  cases hr

/-- C77, the histogram. Let the stopping rule not fail, and be satisfied by the first `10000 * k` results at the latest. If the random generator
yields, among others, `10000 * k` nonnegative numbers for every agent and every task, then the histogram is completed. -/
theorem histogram_completes {p : Project} (hp : p.Sound) (hf : p.FloatsIn E)
    {sp : ScheduleParams K} (hsp : toScheduleParams E p = ok sp) {s : List Item}
    (hs : ValidSchedule sp s) {binSize : Option Int} (hb : ∀ b ∈ binSize, 1 ≤ b) {makespan : Int}
    (hm : 1 ≤ makespan) {more : List Int → Outcome Bool}
    {zs : List K} (hmore : RuleAnswers E p s more zs) {k : Nat} (hk : 1 ≤ k) (hstop : ∀ vs rest, Runs E p s vs zs rest → vs.length = 10000 * k → more vs = ok false)
    {fuel : Nat} (hfuel : k ≤ fuel)
    (hz : 10000 * k * (p.agents.length + p.tasks.length) ≤ zs.countP fun z => 0 ≤ z) :
    ∃ h, histogram E p binSize s makespan more fuel zs = ok (some h) := by
  obtain ⟨r, hr⟩ := histogram_safe hp hf hsp hs hb hm fuel hmore
  cases r with
  | some h => exact ⟨h, hr⟩
  | none => exact absurd hr (histogram_ends hp hf hsp hs hmore hk hstop hfuel hz)

theorem _root_.Angonoka.Runs.take {p : Project} {s : List Item} {vs : List Int} {zs rest : List K} (h : Runs E p s vs zs rest) (n : Nat) :
    ∃ rest', Runs E p s (vs.take n) zs rest' := by
  induction h with
  | nil => exact ⟨_, by rw [List.take_nil]; exact .nil⟩
  | @snoc vs v zs zs' rest sim sim' h hs hc ih =>
    by_cases hn : n ≤ vs.length
    · rw [List.take_append_of_le_length hn]
      exact ih
    · rw [List.take_of_length_le (by rw [List.length_append, List.length_singleton]; omega)]
      exact ⟨_, .snoc h hs hc⟩

/-- A stopping rule that is satisfied after `k` batches leads to at most `k` batches. -/
theorem batches_le {p : Project} {s : List Item} {vs : List Int} {zs rest : List K} {more : List Int → Outcome Bool} {k k' : Nat}
    (hk : 1 ≤ k) (hlen : vs.length = 10000 * k') (hruns : Runs E p s vs zs rest)
    (hdec : ∀ j ≥ 1, j ≤ k' → more (vs.take (10000 * j)) = ok (decide (j < k')))
    (hstop : ∀ vs rest, Runs E p s vs zs rest → vs.length = 10000 * k → more vs = ok false) : k' ≤ k := by
  by_contra h
  have h1 := hdec k hk (by omega)
  obtain ⟨rest', hr⟩ := hruns.take (10000 * k)
  rw [hstop _ rest' hr (by rw [List.length_take]; omega)] at h1
  have := (Outcome.ok.injEq ..).mp h1
  have : ¬ k < k' := by simpa using this.symm
  omega

/-- C77. The program without a command ends. Let the document load into a sound and moderate project, let the options be valid and let the stopping
rule not fail. If the random generator yields `10000 * k` nonnegative numbers for every agent and every task (and any number of negative ones),
and the stopping rule is satisfied by the first `10000 * k` results at the latest, then the program runs the simulation at most `10000 * k` times;
and if the results fit an `int`, it exits with 0 and has written the output file. -/
theorem prediction_ends (hE : E.IsExact) (hf : o.filename ≠ "") (hout : o.output ≠ "")
    {root : Yaml} {p : Project} (hs : m.source = .doc root) (hl : load m.readFloat root = ok p)
    (hp : p.Sound) (hmod : p.Moderate) (hw : CanWrite m o) (ht : 0 < m.threads)
    {sp : ScheduleParams K} (hsp : toScheduleParams E p = ok sp)
    (ho : ValidOptions E (o.opt.options sp)) (hbin : ∀ b ∈ o.binSize, 1 ≤ b ∧ b < 2 ^ 31)
    {k : Nat} (hk : 1 ≤ k) (hk' : 10000 * k < 2 ^ 31) :
    ∃ (N : Nat) (s : List Item), ValidSchedule sp s ∧ ∀ fuel, N ≤ fuel → ∀ fuel', k ≤ fuel' → ∀ zs : List K,
      10000 * k * (p.agents.length + p.tasks.length) ≤ (zs.countP fun z => 0 ≤ z) →
      RuleAnswers E p s m.more zs → (∀ vs rest, Runs E p s vs zs rest → vs.length = 10000 * k → m.more vs = ok false) →
      ∀ result, result = body E { m with fuel := fuel, fuel' := fuel', zs := zs } .predict o →
        ∃ vs rest, vs ≠ [] ∧ vs.length ≤ 10000 * k ∧ Runs E p s vs zs rest ∧
          ((∀ v ∈ vs, v < 2 ^ 31) → status result.flow = .exit 0 ∧ ∃ j, .file o.output j ∈ result.effects) := by
  obtain ⟨N, s, mk, es, _, _, _, hvs, _, _, _, _, _, h⟩ := predict_command hE hf hout hs hl hp hmod hw ht hsp ho hbin
  refine ⟨N, s, hvs, fun fuel hN fuel' hf' zs hz hmore hstop result hres => ?_⟩
  have hfl : p.FloatsIn E := fun _ _ _ _ => hE _
  rcases h fuel hN fuel' zs hmore result hres with ⟨_, _, h⟩ | ⟨vs, rest, k', bins, st, h1, h2, h3, h4, _, _, h5⟩
  · exact absurd h (histogram_ends hp hfl hsp hvs hmore hk hstop hf' hz)
  · have hkk := batches_le hk h2 h3 h4 hstop
    refine ⟨vs, rest, ?_, by omega, h3, fun hv => ?_⟩
    · rintro rfl
      simp at h2
      omega
    · obtain ⟨h6, pre, post, _, _, h7⟩ := h5 hv (by omega)
      exact ⟨h6, _, by rw [h7]; exact List.mem_append_left _ (List.mem_append_right _ (List.mem_singleton.2 rfl))⟩

/-- C77 in single precision, for a project without extreme numbers and at most 2²⁴ runs. -/
theorem float_prediction_ends (hE : E.IsFloat) (hf : o.filename ≠ "") (hout : o.output ≠ "")
    {root : Yaml} {p : Project} (hs : m.source = .doc root) (hl : load m.readFloat root = ok p)
    (hp : p.Sound) (hr : p.InRange) (hfl : p.FloatsIn E) (hmod : p.TakesBetween 2 (2 ^ 30)) (hw : CanWrite m o)
    (ht : 0 < m.threads) {sp sp₀ : ScheduleParams K} (hsp : toScheduleParams E p = ok sp)
    (hsp₀ : toScheduleParams E.unrounded p = ok sp₀)
    (ho : ValidOptions E (o.opt.options sp)) (hbin : ∀ b ∈ o.binSize, 1 ≤ b ∧ b < 2 ^ 31)
    {k : Nat} (hk : 1 ≤ k) (hk' : 10000 * k ≤ 2 ^ 24) :
    ∃ (N : Nat) (s : List Item), ValidSchedule sp s ∧ ∀ fuel, N ≤ fuel → ∀ fuel', k ≤ fuel' → ∀ zs : List K,
      10000 * k * (p.agents.length + p.tasks.length) ≤ (zs.countP fun z => 0 ≤ z) →
      RuleAnswers E p s m.more zs → (∀ vs rest, Runs E p s vs zs rest → vs.length = 10000 * k → m.more vs = ok false) →
      ∀ result, result = body E { m with fuel := fuel, fuel' := fuel', zs := zs } .predict o →
        ∃ vs rest, vs ≠ [] ∧ vs.length ≤ 10000 * k ∧ Runs E p s vs zs rest ∧
          ((∀ v ∈ vs, v < 2 ^ 31) → status result.flow = .exit 0 ∧ ∃ j, .file o.output j ∈ result.effects) := by
  obtain ⟨N, s, mk, es, _, _, _, _, hvs, _, _, _, _, _, h⟩ := float_predict_command hE hf hout hs hl hp hr hfl hmod hw ht hsp hsp₀ ho hbin
  refine ⟨N, s, hvs, fun fuel hN fuel' hf' zs hz hmore hstop result hres => ?_⟩
  rcases h fuel hN fuel' zs hmore result hres with ⟨_, _, h⟩ | ⟨vs, rest, k', bins, h1, h2, h3, h4, _, h5⟩
  · exact absurd h (histogram_ends hp hfl hsp hvs hmore hk hstop hf' hz)
  · have hkk := batches_le hk h2 h3 h4 hstop
    refine ⟨vs, rest, ?_, by omega, h3, fun hv => ?_⟩
    · rintro rfl
      simp at h2
      omega
    · obtain ⟨st, _, h5⟩ := h5 (by omega)
      obtain ⟨h6, pre, post, _, _, h7⟩ := h5 hv
      exact ⟨h6, _, by rw [h7]; exact List.mem_append_left _ (List.mem_append_right _ (List.mem_singleton.2 rfl))⟩

/-- C77, the stopping rule of the program, for exact arithmetic: it is satisfied if none of the last 15 batches changed the quantiles by more than one percent. -/
theorem stable_stops (hE : E.IsExact) {q : List Int → List K} (hq : FiveQuantiles q) {vs : List Int} {k : Nat}
    (hk : 1 ≤ k) (hl : vs.length = 10000 * k) (h0 : ∀ i, 1 ≤ i → i < k → ∀ x ∈ q (vs.take (10000 * i)), x ≠ 0)
    (hc : ∀ i < k, k ≤ i + 15 → changeAt q vs i ≤ 1 / 100) : Stopping.more E q vs = ok false := by
  rw [stopping_rule_partial hE hq hl h0]
  congr 1
  rw [decide_eq_false_iff_not, not_lt]
  unfold averageChange
  have hmin : (0 : K) < (min k 15 : Nat) := by
    have : 0 < min k 15 := by omega
    exact_mod_cast this
  rw [div_le_iff₀ hmin]
  have hsum := List.sum_le_card_nsmul (((List.range k).drop (k - 15)).map (changeAt q vs)) (1 / 100) (by
    intro x hx
    obtain ⟨i, hi, rfl⟩ := List.mem_map.1 hx
    rw [List.range_eq_range', List.drop_range', List.mem_range'_1] at hi
    exact hc i (by omega) (by omega))
  rw [List.length_map, List.length_drop, List.length_range, show k - (k - 15) = min k 15 by omega, nsmul_eq_mul] at hsum
  linarith

/-- `stable_stops` applies if all of 160000 runs take 100 seconds. -/
example : Stopping.more FloatEnv.rat exampleQuantiles (List.replicate 160000 100) = ok false := by
  have hq : ∀ i, 1 ≤ i → i ≤ 16 → exampleQuantiles ((List.replicate 160000 (100 : Int)).take (10000 * i)) = List.replicate 5 100 := by
    intro i h1 h2
    rw [List.take_replicate, exampleQuantiles_constant _ _ (by omega)]
    norm_num
  refine stable_stops (k := 16) (fun _ => rfl) exampleQuantiles_five (by norm_num) (by rw [List.length_replicate]) ?_ ?_
  · intro i h1 h2 x hx
    rw [hq i h1 (by omega)] at hx
    rw [(List.mem_replicate.1 hx).2]
    norm_num
  · intro i h1 h2
    unfold changeAt
    rw [if_neg (by omega), hq i (by omega) (by omega), hq (i + 1) (by omega) (by omega)]
    decide +kernel

/-- C77 applies to the example document `plan`: with a generator that always yields 1, the program runs the simulation 10000 times. -/
example (draws : Nat → Nat → Nat → Draws ℚ) : ∃ N, ∀ fuel, N ≤ fuel → ∀ fuel', 1 ≤ fuel' → ∃ vs s rest,
    Runs FloatEnv.rat Sample.project s vs (List.replicate 1000000 1) rest ∧ vs ≠ [] ∧ vs.length ≤ 10000 ∧
    ((∀ v ∈ vs, v < 2 ^ 31) → status (body FloatEnv.rat { exampleMachine draws with
      fuel := fuel, fuel' := fuel', zs := List.replicate 1000000 1 } .predict cliOptions).flow = .exit 0) := by
  obtain ⟨sp, hsp, hw⟩ := params_wellFormed (E := FloatEnv.rat) plan_sound (fun _ _ _ _ => rfl)
  obtain ⟨N, s, _, h⟩ := prediction_ends (m := exampleMachine draws) (k := 1)
    (fun _ => rfl) (by decide) (by decide) rfl Sample.plan_loads plan_sound plan_moderate example_canWrite
    (by exact (by decide : 0 < 4)) hsp (cliOptions_valid hw) (by intro b hb; cases hb)
    le_rfl (by norm_num)
  refine ⟨N, fun fuel hN fuel' hf => ?_⟩
  obtain ⟨vs, rest, h1, h2, h3, h4⟩ := h fuel hN fuel' hf (List.replicate 1000000 1) (by
    rw [List.countP_replicate, if_pos (by decide)]
    exact (by decide : 10000 * 1 * (Sample.project.agents.length + Sample.project.tasks.length) ≤ 1000000)) (fun _ _ _ _ _ _ => ⟨_, rfl⟩) (fun _ _ _ _ => rfl) _ rfl
  exact ⟨vs, s, rest, h3, h1, h2, fun hv => (h4 hv).1⟩

/-- C77 in single precision applies to the example document `plan`. -/
example (draws : Nat → Nat → Nat → Draws ℚ) : ∃ N, ∀ fuel, N ≤ fuel → ∀ fuel', 1 ≤ fuel' → ∃ vs s rest,
    Runs ratFloat Sample.project s vs (List.replicate 1000000 1) rest ∧ vs ≠ [] ∧ vs.length ≤ 10000 ∧
    ((∀ v ∈ vs, v < 2 ^ 31) → status (body ratFloat { exampleMachine draws with
      fuel := fuel, fuel' := fuel', zs := List.replicate 1000000 1 } .predict cliOptions).flow = .exit 0) := by
  obtain ⟨sp, hsp, hw⟩ := params_wellFormed (E := ratFloat) plan_sound plan_floats
  obtain ⟨sp₀, hsp₀, _⟩ := params_wellFormed (E := ratFloat.unrounded) plan_sound (fun _ _ _ _ => rfl)
  obtain ⟨N, s, _, h⟩ := float_prediction_ends (m := exampleMachine draws) (k := 1) ratFloat_isFloat
    (by decide) (by decide) rfl Sample.plan_loads plan_sound plan_inRange plan_floats plan_takes example_canWrite (by exact (by decide : 0 < 4))
    hsp hsp₀ (cliOptions_valid_float hw) (by intro b hb; cases hb) le_rfl (by norm_num)
  refine ⟨N, fun fuel hN fuel' hf => ?_⟩
  obtain ⟨vs, rest, h1, h2, h3, h4⟩ := h fuel hN fuel' hf (List.replicate 1000000 1) (by
    rw [List.countP_replicate, if_pos (by decide)]
    exact (by decide : 10000 * 1 * (Sample.project.agents.length + Sample.project.tasks.length) ≤ 1000000)) (fun _ _ _ _ _ _ => ⟨_, rfl⟩) (fun _ _ _ _ => rfl) _ rfl
  exact ⟨vs, s, rest, h3, h1, h2, fun hv => (h4 hv).1⟩

end Angonoka.Props
