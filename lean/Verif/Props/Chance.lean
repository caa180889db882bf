import Mathlib.Probability.ProductMeasure
import Mathlib.Probability.UniformOn
import Verif.Proof.Chance
import Verif.Props.Best

/-!
# A best schedule is found with positive probability
-/

set_option linter.unusedSectionVars false

namespace Angonoka.Props
open Outcome Stun MeasureTheory

variable {K : Type} [_root_.Field K] [LinearOrder K] [IsStrictOrderedRing K]
variable {E : FloatEnv K} {opts : Options K} {threads : Nat} {o : Optimizer K}

/-- Random numbers that are random: `Z r k i` are those of iteration `i` of thread `k` in round `r`. An event "the integers are these and the number in the unit
interval is at most that" about one iteration is independent of such events about other iterations, and it is possible for all integers less
than `b` and all bounds that can occur: 1 and the values of the exponential function up to 1. -/
structure RandomDraws {Ω : Type} [MeasurableSpace Ω] (E : FloatEnv K) (P : Measure Ω) (b : Nat) (Z : Nat → Nat → Nat → Ω → Draws K) : Prop where
  independent : ∀ (d : Nat × Nat × Nat → Draws K) (S : Finset (Nat × Nat × Nat)),
    P {ω | ∀ c ∈ S, Draws.Within (d c) (Z c.1 c.2.1 c.2.2 ω)} = ∏ c ∈ S, P {ω | Draws.Within (d c) (Z c.1 c.2.1 c.2.2 ω)}
  possible : ∀ (r k i : Nat) (d : Draws K), d.swap < b → d.task < b → d.agent < b → (∃ x, d.u = min 1 (E.exp x)) →
    0 < P {ω | Draws.Within d (Z r k i ω)}

variable {Ω : Type} [MeasurableSpace Ω] {P : Measure Ω} {b : Nat} {Z : Nat → Nat → Nat → Ω → Draws K}

/-- Finitely many iterations get numbers within given bounds with positive probability. -/
theorem within_possible (hZ : RandomDraws E P b Z) {f : Nat → Draws K} {R batch : Nat}
    (hf : ∀ i, ((f i).swap < b ∧ (f i).task < b ∧ (f i).agent < b) ∧ ∃ x, (f i).u = min 1 (E.exp x)) :
    0 < P {ω | ∀ r < R, ∀ k < threads, ∀ i < batch, Draws.Within (f (r * batch + i)) (Z r k i ω)} := by
  have h := hZ.independent (fun c => f (c.1 * batch + c.2.2)) (Finset.range R ×ˢ (Finset.range threads ×ˢ Finset.range batch))
  have hset : {ω | ∀ c ∈ Finset.range R ×ˢ (Finset.range threads ×ˢ Finset.range batch), Draws.Within (f (c.1 * batch + c.2.2)) (Z c.1 c.2.1 c.2.2 ω)} =
      {ω | ∀ r < R, ∀ k < threads, ∀ i < batch, Draws.Within (f (r * batch + i)) (Z r k i ω)} := by
    ext ω
    simp only [Set.mem_ofPred_eq, Finset.mem_product, Finset.mem_range, Prod.forall]
    exact ⟨fun h r hr k hk i hi => h r k i ⟨hr, hk, hi⟩, fun h r k i hh => h r hh.1 k hh.2.1 i hh.2.2⟩
  rw [← hset, h]
  refine pos_iff_ne_zero.2 (Finset.prod_ne_zero_iff.2 fun c _ => (hZ.possible _ _ _ _ ?_ ?_ ?_ ?_).ne')
  · exact (hf _).1.1
  · exact (hf _).1.2.1
  · exact (hf _).1.2.2
  · exact (hf _).2

/-- C97. Let the limit of idle iterations be at least `n (n + 3) / 2` for `n` tasks and the random numbers be random. Then the optimizer finds a best schedule with
positive probability, with any number of threads, any batch size and any arithmetic. -/
theorem best_with_chance (ho : ValidOptions E opts) (hn : Optimizer.new E opts threads = ok o)
    (hidle : opts.params.taskCount * (opts.params.taskCount + 3) / 2 ≤ opts.maxIdleIters) (hb : opts.params.taskCount ≤ b)
    (ha : ∀ t < opts.params.taskCount, (opts.params.avail t).length ≤ b) (hZ : RandomDraws E P b Z) :
    0 < P {ω | FindsBest E opts.params o (fun r k i => Z r k i ω)} := by
  obtain ⟨R, f, hf, h⟩ := best_draws_within ho hn hidle hb ha
  refine (within_possible (threads := threads) (R := R) (batch := opts.batchSize) hZ hf).trans_le (measure_mono fun ω hω => ?_)
  exact finds_best ho hn (h _ hω)

section
open Cli CommandLine Doc
variable [FloorRing K] {read : ReadReal} {isFile : String → Bool} {terminal : Bool} {a : Arguments} {co : Cli.Options K} {m : Machine K}
variable {root : Yaml} {p : Project}

/-- A sound, loaded project is small enough for the random numbers of C91 and C97. -/
theorem search_limits {rf : String → Option XFloat} (hl : load rf root = ok p) (hp : p.Sound) {sp : ScheduleParams K} (hsp : toScheduleParams E p = ok sp) (hwf : WellFormed sp) :
    sp.taskCount ≤ 128 ∧ sp.taskCount * (sp.taskCount + 3) / 2 ≤ 8255 ∧ ∀ t < sp.taskCount, (sp.avail t).length ≤ 128 := by
  have hpf := params_faithful hp.agent_groups hp.task_groups hsp
  have h127 : sp.taskCount ≤ 127 := hpf.1 ▸ (index_limits.1 p hl).1
  refine ⟨by omega, ?_, ?_⟩
  · have : sp.taskCount * (sp.taskCount + 3) ≤ 127 * (127 + 3) := Nat.mul_le_mul h127 (by omega)
    omega
  · intro t ht
    have hnd : (sp.avail t).Nodup := by
      have hi := List.getElem?_eq_getElem (hpf.1 ▸ ht : t < p.tasks.length)
      exact (hpf.2.2.2.2.1 t _ hi).2.1.imp fun h => h.ne
    have := (hnd.subperm (l₂ := List.range sp.agentCount) fun k hk => List.mem_range.2 (hwf.avail_lt t ht k hk)).length_le
    rw [List.length_range, hpf.2.1] at this
    exact this.trans (index_limits.1 p hl).2.1

/-- C97, from the document to the file. The command `schedule` for exact arithmetic, under the conditions of C74 and with a limit of idle iterations of at least
8255 (the default is 100000). If its random numbers are random, the program writes a best timetable with positive probability. -/
theorem document_best_with_chance (hE : E.IsExact) (hsig : SignsAgree read) (hnof : isFile "" = false)
    (h : parse E read isFile terminal .schedule a = .accepted co)
    (hz : ∀ t, a.restartPeriod = some t → ¬ LeadingZero t)
    (hb : ∀ t q, a.betaScale = some t → read t = some (.fin q) → ModerateBeta E q)
    (hout : a.output ≠ some "") (hd : m.source = .doc root) (hl : load m.readFloat root = ok p)
    (hs : Schedulable m.readFloat root 1 (2 ^ 31)) (hw : CanWrite m co) (ht : 0 < m.threads) (hidle : 8255 ≤ co.opt.maxIdleIters)
    (hZ : RandomDraws E P 128 Z) :
    0 < P {ω | WritesBest E m co root (a.output.getD "schedule.json") (fun r k i => Z r k i ω)} := by
  obtain ⟨hp, hmod⟩ := schedulable_sound hl hs
  have hfl : p.FloatsIn E := fun _ _ _ _ => hE _
  obtain ⟨sp, hsp, hwf⟩ := params_wellFormed (E := E) hp hfl
  obtain ⟨ho, hf', hout'⟩ := accepted_options_partial (Or.inl hE) hsig hnof h hz hb hout hwf
  obtain ⟨l1, l2, l3⟩ := search_limits hl hp hsp hwf
  obtain ⟨o₀, _, hnew, _⟩ := Optimizer.new_ok ho ht
  obtain ⟨R, f, hf, hbest⟩ := best_draws_within ho hnew (l2.trans hidle) (b := 128) l1 l3
  refine (within_possible (threads := m.threads) (R := R) (batch := co.opt.batchSize) hZ hf).trans_le (measure_mono fun ω hω => ?_)
  refine document_best_of hE hsig hnof h hz hb hout hd hl hs hw ht fun {sp' o₁} hsp' hnew' => ?_
  rw [hsp] at hsp'
  cases hsp'
  rw [hnew] at hnew'
  cases hnew'
  exact hbest _ hω

end

/-! ### Examples -/

/-- An iteration draws three numbers less than 128 and a quarter -/
abbrev Dice := Fin 128 × Fin 128 × Fin 128 × Fin 4

def Dice.draws (x : Dice) : Draws ℚ := ⟨x.1, x.2.1, x.2.2.1, (x.2.2.2 : ℕ) / 4⟩

/-- All iterations draw independently, each combination of numbers is equally likely. -/
noncomputable def fair : Measure (Nat × Nat × Nat → Dice) :=
  Measure.infinitePi fun _ => ProbabilityTheory.uniformOn Set.univ

theorem example_random (E : FloatEnv ℚ) : RandomDraws E fair 128 (fun r k i ω => (ω (r, k, i)).draws) where
  independent d S := by
    have hset : ∀ T : Finset (Nat × Nat × Nat), {ω : Nat × Nat × Nat → Dice | ∀ c ∈ T, Draws.Within (d c) (ω (c.1, c.2.1, c.2.2)).draws} =
        Set.pi T (fun c => {x : Dice | Draws.Within (d c) x.draws}) := by
      intro T
      ext ω
      simp [Set.mem_pi]
    have hone : ∀ c, {ω : Nat × Nat × Nat → Dice | Draws.Within (d c) (ω (c.1, c.2.1, c.2.2)).draws} =
        Set.pi ({c} : Finset (Nat × Nat × Nat)) (fun c => {x : Dice | Draws.Within (d c) x.draws}) := by
      intro c
      ext ω
      simp
    unfold fair
    rw [hset, Measure.infinitePi_pi _ fun c _ => (Set.toFinite _).measurableSet]
    refine Finset.prod_congr rfl fun c _ => ?_
    rw [hone, Measure.infinitePi_pi _ fun c _ => (Set.toFinite _).measurableSet, Finset.prod_singleton]
  possible r k i d h1 h2 h3 h4 := by
    have hone : {ω : Nat × Nat × Nat → Dice | Draws.Within d (ω (r, k, i)).draws} =
        Set.pi ({(r, k, i)} : Finset (Nat × Nat × Nat)) (fun _ => {x : Dice | Draws.Within d x.draws}) := by
      ext ω
      simp
    unfold fair
    rw [hone, Measure.infinitePi_pi _ fun c _ => (Set.toFinite _).measurableSet, Finset.prod_singleton]
    have hmem : ((⟨d.swap, h1⟩, ⟨d.task, h2⟩, ⟨d.agent, h3⟩, 0) : Dice) ∈ {x : Dice | Draws.Within d x.draws} := by
      obtain ⟨x, hx⟩ := h4
      refine ⟨rfl, rfl, rfl, ?_⟩
      rw [hx]
      exact le_min (by simp [Dice.draws]) (by simpa [Dice.draws] using E.exp_nonneg x)
    rw [pos_iff_ne_zero]
    intro h0
    rw [ProbabilityTheory.uniformOn_univ] at h0
    rcases ENNReal.div_eq_zero_iff.1 h0 with h | h
    · rw [Measure.count_eq_zero_iff] at h
      rw [h] at hmem
      exact hmem
    · exact ENNReal.natCast_ne_top _ h

/-- The optimizer of the example with 4 threads and fair dice -/
example : ∃ o : Optimizer ℚ, Optimizer.new FloatEnv.rat exampleOptions 4 = ok o ∧
    0 < fair {ω | FindsBest FloatEnv.rat Example.params o (fun r k i => (ω (r, k, i)).draws)} := by
  obtain ⟨o, _, h, _⟩ := Optimizer.new_ok (threads := 4) exampleOptions_valid (by decide)
  exact ⟨o, h, best_with_chance exampleOptions_valid h (by decide) (by decide) (by decide) (example_random _)⟩

open Cli CommandLine Doc in
/-- With the default options and fair dice the program writes a best timetable of the sample document with positive probability. -/
example (draws₀ : Nat → Nat → Nat → Draws ℚ) : ∃ o,
    parse FloatEnv.rat exampleRead (fun f => f == "plan.yml") true .schedule { input := "plan.yml" } = .accepted o ∧
    0 < fair {ω | WritesBest FloatEnv.rat (exampleMachine draws₀) o Sample.plan "schedule.json" (fun r k i => (ω (r, k, i)).draws)} := by
  have hpar := options_as_given (E := FloatEnv.rat) (isFile := fun f => f == "plan.yml") (terminal := true) (c := .schedule)
    (a := { input := "plan.yml" }) exampleRead_naturals (by decide) (batch := 10000) (idle := 100000) (window := 100) (period := 256)
    (Or.inl ⟨rfl, rfl⟩) (Or.inl ⟨rfl, rfl⟩) (Or.inl ⟨rfl, rfl⟩) (Or.inl ⟨rfl, rfl⟩)
    (Or.inl ⟨rfl, rfl⟩) (Or.inl ⟨rfl, rfl⟩) (Or.inl ⟨rfl, rfl⟩)
  exact ⟨_, hpar, document_best_with_chance (m := exampleMachine draws₀) (fun _ => rfl)
    exampleRead_signs (by decide) hpar (by simp) (by simp) (by simp) rfl Sample.plan_loads
    (sound_schedulable Sample.plan_loads plan_sound plan_moderate) example_canWrite (by exact (by decide : 0 < 4))
    (by change 8255 ≤ 100000; decide) (example_random _)⟩

end Angonoka.Props
