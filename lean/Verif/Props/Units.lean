import Verif.Proof.UnitsSim
import Verif.Props.Names
import Verif.Props.Bounds

/-!
# C111: the unit of time does not matter
-/

set_option linter.unusedSectionVars false

namespace Angonoka.Props
open Outcome Stun Cli Doc CommandLine

variable {K : Type} [_root_.Field K] [LinearOrder K] [IsStrictOrderedRing K] [FloorRing K]
variable {E : FloatEnv K} {m : Machine K} {o : Cli.Options K} {root root' : Yaml} {p : Project} {k : Nat}

/-! ### The timetable -/

/-- What a successful run of the command `schedule` has computed and written -/
theorem scheduled (hroom : m.room = true) (hs : m.source = .doc root) (hl : load m.readFloat root = ok p)
    (h : status (body E m .schedule o).flow = .exit 0) :
    ∃ s j, (Predict.schedule E p o.opt m.threads m.draws m.fuel).result = ok (some s) ∧
      Timetable.toJson E p s.schedule s.makespan = ok j ∧ Naming.files (body E m .schedule o).effects = [.file o.output j] := by
  obtain ⟨j, pre, h1, hw, h2, h3⟩ := body_ok h
  have hno := compute_no_file (E := E) (m := m) (c := .schedule) (o := o)
  have hf : Naming.files (body E m .schedule o).effects = [.file o.output j] := by
    rw [h1] at hno
    rw [body_eq, h1, Io.bind_ok, saveJson_eq h2 h3, hw, hroom]
    have : Naming.files (pre ++ ([Effect.file o.output j] ++ if o.quiet then [] else [.stdout (successText o .schedule)]))
        = Naming.files pre ++ Naming.files ([Effect.file o.output j] ++ if o.quiet then [] else [.stdout (successText o .schedule)]) :=
      List.filter_append ..
    simp only [if_true] at this ⊢
    rw [this, files_nil hno]
    cases o.quiet <;> rfl
  have hfl : (compute E m .schedule o).flow = .ok j := by rw [h1]
  unfold compute at hfl
  obtain ⟨p', hp, hfl⟩ := io_bind_ok hfl
  obtain ⟨r, g1, g2⟩ := parsed hp
  rw [hs] at g1
  cases g1
  obtain rfl : p' = p := ok.inj (g2.symm.trans hl)
  unfold jsonSchedule at hfl
  obtain ⟨_, _, hfl⟩ := io_bind_ok hfl
  obtain ⟨_, _, hfl⟩ := io_bind_ok hfl
  obtain ⟨_, _, hfl⟩ := io_bind_ok hfl
  obtain ⟨s, hr, hfl⟩ := io_bind_ok hfl
  refine ⟨s, j, (getFuture_flow_ok hr).1, ?_, hf⟩
  cases hx : Timetable.toJson E p' s.schedule s.makespan with
  | ok j' => rw [hx] at hfl; cases hfl; rfl
  | throws e => rw [hx] at hfl; cases hfl
  | ub e => rw [hx] at hfl; cases hfl

/-- The timetable, for any arithmetic in which rounding commutes with multiplication by `k`, if no numbers get too small. -/
theorem unit_of_time_scales {lo : K} (hF : E.Scales k lo) (hn : lo * E.ofInt p.agents.length ≤ 1) (hp : Timetable.NotTooFast E lo p) (hk : 0 < k)
    (hroom : m.room = true) (hs : m.source = .doc root) (hl : load m.readFloat root = ok p)
    (hl' : load m.readFloat root' = ok (slower k p)) (hw : WholeMeans p) (h : status (body E m .schedule o).flow = .exit 0)
    (h' : status (body E { m with source := .doc root' } .schedule o).flow = .exit 0) :
    ∃ (mk mk' : Int) (es es' : List TaskEntry),
      Naming.files (body E m .schedule o).effects
        = [.file o.output (.obj [("makespan", .int mk), ("tasks", .arr (es.map TaskEntry.object))])] ∧
      Naming.files (body E { m with source := .doc root' } .schedule o).effects
        = [.file o.output (.obj [("makespan", .int mk'), ("tasks", .arr (es'.map TaskEntry.object))])] ∧
      Scaled k mk mk' ∧ List.Forall₂ (SameLine k) es es' := by
  obtain ⟨s, j, h1, h2, h3⟩ := scheduled hroom hs hl h
  obtain ⟨s', j', h1', h2', h3'⟩ := scheduled (m := { m with source := .doc root' }) hroom rfl hl' h'
  obtain ⟨e1, e2⟩ := schedule_slower hF hk hw hn o.opt m.threads m.draws m.fuel _ _ h1 h1' s s' rfl rfl
  rw [e1] at h2'
  obtain ⟨mk, mk', es, es', rfl, rfl, hm, hes⟩ := (Timetable.toJson_slower hF hk hw hp s.schedule e2 j j' h2 h2').lines
  exact ⟨mk, mk', es, es', h3, h3', hm, hes⟩

/-- In exact arithmetic a small number can be chosen as the limit. -/
theorem small_enough (hE : E.IsExact) : ∃ lo : K, 0 < lo ∧ lo < 1 ∧ lo * E.ofInt p.agents.length ≤ 1 ∧ Timetable.NotTooFast E lo p := by
  have key : ∀ l : List Agent, ∃ b : K, 1 < b ∧ ∀ a ∈ l, ∀ v, a.averagePerformance E = ok v → v ≤ b := fun l => by
    induction l with
    | nil => exact ⟨2, by norm_num, fun _ h => by cases h⟩
    | cons a rest ih =>
      obtain ⟨b, hb, h⟩ := ih
      cases ha : a.averagePerformance E with
      | ok v =>
        refine ⟨max b v, lt_of_lt_of_le hb (le_max_left _ _), fun x hx w hw => ?_⟩
        rcases List.mem_cons.1 hx with rfl | hx
        · rw [ha] at hw
          cases hw
          exact le_max_right _ _
        · exact (h x hx w hw).trans (le_max_left _ _)
      | throws e =>
        refine ⟨b, hb, fun x hx w hw => ?_⟩
        rcases List.mem_cons.1 hx with rfl | hx
        · rw [ha] at hw
          cases hw
        · exact h x hx w hw
      | ub e =>
        refine ⟨b, hb, fun x hx w hw => ?_⟩
        rcases List.mem_cons.1 hx with rfl | hx
        · rw [ha] at hw
          cases hw
        · exact h x hx w hw
  obtain ⟨b, hb, h⟩ := key p.agents
  set c := b + E.ofInt p.agents.length with hc
  have hn : 0 ≤ E.ofInt p.agents.length := E.rnd_nonneg (by exact_mod_cast Nat.zero_le _)
  have hc1 : 1 < c := by linarith
  have hc0 : 0 < c := by linarith
  refine ⟨1 / c, by positivity, by rw [div_lt_one hc0]; exact hc1, ?_, fun a ha v hv => ?_⟩
  · rw [div_mul_eq_mul_div, one_mul, div_le_one hc0]
    linarith
  · rw [div_mul_eq_mul_div, one_mul, div_le_one hc0]
    linarith [h a ha v hv]

/-- C111, the timetable, for exact arithmetic. If the second document describes the same plan, except that every task takes `k` times as long, and mean durations
are whole seconds, then with the same random numbers the program writes the same timetable: the same tasks in the same order for the same agents, with
times that are `k` times as long up to rounding down. -/
theorem unit_of_time (hE : E.IsExact) (hk : 0 < k) (hroom : m.room = true) (hs : m.source = .doc root) (hl : load m.readFloat root = ok p)
    (hl' : load m.readFloat root' = ok (slower k p)) (hw : WholeMeans p) (h : status (body E m .schedule o).flow = .exit 0)
    (h' : status (body E { m with source := .doc root' } .schedule o).flow = .exit 0) :
    ∃ (mk mk' : Int) (es es' : List TaskEntry),
      Naming.files (body E m .schedule o).effects
        = [.file o.output (.obj [("makespan", .int mk), ("tasks", .arr (es.map TaskEntry.object))])] ∧
      Naming.files (body E { m with source := .doc root' } .schedule o).effects
        = [.file o.output (.obj [("makespan", .int mk'), ("tasks", .arr (es'.map TaskEntry.object))])] ∧
      Scaled k mk mk' ∧ List.Forall₂ (SameLine k) es es' := by
  obtain ⟨lo, h0, h1, hn, hp⟩ := small_enough (p := p) hE
  exact unit_of_time_scales (FloatEnv.scales_exact hE h0 h1) hn hp hk hroom hs hl hl' hw h h'

/-- In single precision, doubling commutes with rounding, apart from subnormal numbers. -/
theorem _root_.Angonoka.Binary32.round_twice {x : K} (hx : 2 ^ (-126 : Int) ≤ x) : Binary32.round (2 * x) = 2 * Binary32.round x := by
  have h0 : 0 < x := lt_of_lt_of_le (Binary32.two_zpow_pos _) hx
  have hlog : (-126 : Int) ≤ Int.log 2 x := by
    have := Int.zpow_le_iff_le_log (b := 2) (by norm_num) (x := -126) h0
    exact this.1 (by exact_mod_cast hx)
  rw [Binary32.round_nonneg_eq h0.le, Binary32.round_nonneg_eq (by linarith)]
  unfold Binary32.roundPos
  have hu : Binary32.unit (2 * x) = Binary32.unit x + 1 := by
    unfold Binary32.unit
    rw [Binary32.log_double h0]
    omega
  rw [hu, zpow_add₀ (by norm_num), zpow_one, mul_comm _ (2 : K), mul_div_mul_left _ _ (by norm_num)]
  ring

/-- In single precision, multiplication by a power of two commutes with rounding, apart from subnormal numbers. -/
theorem _root_.Angonoka.FloatEnv.scales_float (hE : E.IsFloat) (j : Nat) : E.Scales (2 ^ j) ((2 : K) ^ (-126 : Int)) where
  pos := Binary32.two_zpow_pos _
  lt_one := zpow_lt_one_of_neg₀ (by norm_num) (by norm_num)
  float := by
    rw [hE, Binary32.round_nonneg_eq (Binary32.two_zpow_pos _).le]
    refine Binary32.roundPos_of_grid (Binary32.grid_pow ?_)
    unfold Binary32.unit
    have := Int.log_zpow (R := K) (b := 2) (by norm_num) (-126)
    norm_num at this ⊢
    rw [this]
    norm_num
  scale := by
    induction j with
    | zero => intro x _; simp
    | succ j ih =>
      intro x hx
      have h2 : (2 : K) ^ (-126 : Int) ≤ ((2 ^ j : Nat) : K) * x := by
        have h1 : (1 : K) ≤ ((2 ^ j : Nat) : K) := by exact_mod_cast Nat.one_le_two_pow
        have h0 := (Binary32.two_zpow_pos (K := K) (-126)).le.trans hx
        exact hx.trans (by nlinarith)
      have h3 := Binary32.round_twice h2
      rw [show ((2 ^ (j + 1) : Nat) : K) * x = 2 * (((2 ^ j : Nat) : K) * x) by push_cast; ring, hE, h3, ← hE, ih x hx]
      push_cast
      ring

/-- C111, the timetable, in single precision, for powers of two. The schedule is the same, and times are multiplied exactly, before they are rounded down. -/
theorem unit_of_time_float {j : Nat} (hE : E.IsFloat) (hfl : p.FloatsIn E) (hir : p.InRange)
    (hroom : m.room = true) (hs : m.source = .doc root) (hl : load m.readFloat root = ok p)
    (hl' : load m.readFloat root' = ok (slower (2 ^ j) p)) (hw : WholeMeans p) (h : status (body E m .schedule o).flow = .exit 0)
    (h' : status (body E { m with source := .doc root' } .schedule o).flow = .exit 0) :
    ∃ (mk mk' : Int) (es es' : List TaskEntry),
      Naming.files (body E m .schedule o).effects
        = [.file o.output (.obj [("makespan", .int mk), ("tasks", .arr (es.map TaskEntry.object))])] ∧
      Naming.files (body E { m with source := .doc root' } .schedule o).effects
        = [.file o.output (.obj [("makespan", .int mk'), ("tasks", .arr (es'.map TaskEntry.object))])] ∧
      Scaled (2 ^ j) mk mk' ∧ List.Forall₂ (SameLine (2 ^ j)) es es' := by
  have small : ∀ x : K, x ≤ 2 ^ 40 → (2 : K) ^ (-126 : Int) * x ≤ 1 := fun x hx => by
    have : (2 : K) ^ (-126 : Int) * x ≤ 2 ^ (-126 : Int) * 2 ^ 40 := mul_le_mul_of_nonneg_left hx (Binary32.two_zpow_pos _).le
    refine this.trans ?_
    norm_num
  refine unit_of_time_scales (FloatEnv.scales_float hE j) ?_ ?_ (by positivity) hroom hs hl hl' hw h h'
  · refine small _ ?_
    have := hir.agents
    unfold FloatEnv.ofInt
    rw [hE, Binary32.round_int (by rw [abs_of_nonneg (by omega)]; omega)]
    have h127 : ((p.agents.length : Int) : K) ≤ ((127 : Int) : K) := Int.cast_le.2 (by omega)
    refine h127.trans ?_
    norm_num
  · intro a ha v hv
    obtain ⟨lo, hi, h1, rfl⟩ := averagePerformance_ok hv
    obtain ⟨h2, h3, h4, h5⟩ := h1
    refine small _ ((meanPerformance_mem h5 (hfl a ha lo (.inl h2)) (hfl a ha hi (.inr h3))).2.trans ?_)
    have := (hir.performance a ha hi (.inr h3)).2
    exact_mod_cast this

section
variable {read : ReadReal} {isFile : String → Bool} {terminal : Bool} {a : Arguments}

/-- C111, from the command line and the documents to the files. If both documents are in the range of C74, whatever the random numbers are, both runs are successful and
the timetables are the same except for the unit of time. -/
theorem unit_of_time_document (hE : E.IsExact) (hsig : SignsAgree read) (hnof : isFile "" = false)
    (h : parse E read isFile terminal .schedule a = .accepted o)
    (hz : ∀ t, a.restartPeriod = some t → ¬ LeadingZero t)
    (hb : ∀ t q, a.betaScale = some t → read t = some (.fin q) → ModerateBeta E q)
    (hout : a.output ≠ some "") (hd : m.source = .doc root) (hl : load m.readFloat root = ok p)
    (hs : Schedulable m.readFloat root 1 (2 ^ 31)) (hw : CanWrite m o) (ht : 0 < m.threads)
    (hk : 0 < k) (hl' : load m.readFloat root' = ok (slower k p)) (hs' : Schedulable m.readFloat root' 1 (2 ^ 31)) (hm : WholeMeans p) :
    ∃ (N : Nat), ∀ fuel, N ≤ fuel →
      status (body E { m with fuel := fuel } .schedule o).flow = .exit 0 ∧
      status (body E { m with fuel := fuel, source := .doc root' } .schedule o).flow = .exit 0 ∧
      ∃ (mk mk' : Int) (es es' : List TaskEntry),
        Naming.files (body E { m with fuel := fuel } .schedule o).effects
          = [.file o.output (.obj [("makespan", .int mk), ("tasks", .arr (es.map TaskEntry.object))])] ∧
        Naming.files (body E { m with fuel := fuel, source := .doc root' } .schedule o).effects
          = [.file o.output (.obj [("makespan", .int mk'), ("tasks", .arr (es'.map TaskEntry.object))])] ∧
        Scaled k mk mk' ∧ List.Forall₂ (SameLine k) es es' := by
  obtain ⟨N, _, _, _, _, _, _, _, _, h1⟩ := document_to_schedule hE hsig hnof h hz hb hout hd hl hs hw ht
  obtain ⟨N', _, _, _, _, _, _, _, _, h2⟩ := document_to_schedule (m := { m with source := .doc root' }) hE hsig hnof h hz hb hout rfl hl' hs'
    ⟨hw.1, hw.2⟩ ht
  refine ⟨max N N', fun fuel hf => ?_⟩
  have g1 := (h1 fuel ((le_max_left _ _).trans hf)).1
  have g2 := (h2 fuel ((le_max_right _ _).trans hf)).1
  exact ⟨g1, g2, unit_of_time (m := { m with fuel := fuel }) hE hk hw.1.2 hd hl hl' hm g1 g2⟩

/-- C111 in single precision, from the command line and the documents to the files. If both documents are in the range of C75 and the second one says that
everything takes `2 ^ j` times as long, whatever the random numbers are, both runs are successful and the timetables are the same except for the unit of time. -/
theorem unit_of_time_document_float {j : Nat} (hE : E.IsFloat) (hsig : SignsAgree read) (hnof : isFile "" = false)
    (h : parse E read isFile terminal .schedule a = .accepted o)
    (hz : ∀ t, a.restartPeriod = some t → ¬ LeadingZero t)
    (hb : ∀ t q, a.betaScale = some t → read t = some (.fin q) → ModerateBeta E q)
    (hout : a.output ≠ some "") (hd : m.source = .doc root) (hl : load m.readFloat root = ok p)
    (hread : ∀ s (q : ℚ), m.readFloat s = some (.fin q) → E.rnd (q : K) = q)
    (hs : Schedulable m.readFloat root 2 (2 ^ 30)) (hr : Doc.InRange m.readFloat root) (hw : CanWrite m o) (ht : 0 < m.threads)
    (hl' : load m.readFloat root' = ok (slower (2 ^ j) p)) (hs' : Schedulable m.readFloat root' 2 (2 ^ 30))
    (hr' : Doc.InRange m.readFloat root') (hm : WholeMeans p) :
    ∃ (N : Nat), ∀ fuel, N ≤ fuel →
      status (body E { m with fuel := fuel } .schedule o).flow = .exit 0 ∧
      status (body E { m with fuel := fuel, source := .doc root' } .schedule o).flow = .exit 0 ∧
      ∃ (mk mk' : Int) (es es' : List TaskEntry),
        Naming.files (body E { m with fuel := fuel } .schedule o).effects
          = [.file o.output (.obj [("makespan", .int mk), ("tasks", .arr (es.map TaskEntry.object))])] ∧
        Naming.files (body E { m with fuel := fuel, source := .doc root' } .schedule o).effects
          = [.file o.output (.obj [("makespan", .int mk'), ("tasks", .arr (es'.map TaskEntry.object))])] ∧
        Scaled (2 ^ j) mk mk' ∧ List.Forall₂ (SameLine (2 ^ j)) es es' := by
  obtain ⟨N, _, _, _, _, _, _, _, _, h1⟩ := document_to_schedule_float hE hsig hnof h hz hb hout hd hl hread hs hr hw ht
  obtain ⟨N', _, _, _, _, _, _, _, _, h2⟩ := document_to_schedule_float (m := { m with source := .doc root' }) hE hsig hnof h hz hb hout rfl hl' hread
    hs' hr' ⟨hw.1, hw.2⟩ ht
  refine ⟨max N N', fun fuel hf => ?_⟩
  have g1 := (h1 fuel ((le_max_left _ _).trans hf)).1
  have g2 := (h2 fuel ((le_max_right _ _).trans hf)).1
  exact ⟨g1, g2, unit_of_time_float (m := { m with fuel := fuel }) hE (floatsIn_of_document hl hread) (inRange_of_document hl hr) hw.1.2 hd hl hl' hm g1 g2⟩

end

/-! ### Simulations -/

/-- C111, a simulation: with the same schedule and random numbers it takes `k` times as long, up to rounding down, and uses the same random numbers. -/
theorem simulated_unit (hE : E.IsExact) (hk : 0 < k) {sim sim' : Simulation K} (h : SimulationFor E p sim)
    (h' : SimulationFor E (slower k p) sim') {s : List Item} {zs rest : List K} {v : Int} {t : Simulation K}
    (hc : sim.call E s zs = ok (some (v, rest, t))) :
    ∃ v' t', sim'.call E s zs = ok (some (v', rest, t')) ∧ Scaled k v v' :=
  Simulation.call_slower hE hk h.shape h'.shape hc

/-- C111, any number of simulations one after the other -/
theorem simulations_unit (hE : E.IsExact) (hk : 0 < k) {s : List Item} {vs : List Int} {zs rest : List K} (h : Runs E p s vs zs rest) :
    ∃ vs', Runs E (slower k p) s vs' zs rest ∧ List.Forall₂ (Scaled k) vs vs' := by
  induction h with
  | nil => exact ⟨[], .nil, .nil⟩
  | snoc _ hs hc ih =>
    obtain ⟨vs', h1, h2⟩ := ih
    have hsh := hs.shape
    have hnew : ∃ sim', (Simulation.new (slower k p) : Outcome (Simulation K)) = ok sim' := by
      unfold Simulation.new Simulation.assignBuffers
      have ha : (!(slower k p).agents.isEmpty) = true := by
        simp only [slower, Bool.not_eq_true', List.isEmpty_eq_false_iff]; exact hsh.agents_ne
      have ht : (!(slower k p).tasks.isEmpty) = true := by
        simp only [slower, List.isEmpty_map, Bool.not_eq_true', List.isEmpty_eq_false_iff]; exact hsh.tasks_ne
      rw [expects_true ha, ok_bind, expects_true ht, ok_bind, expects_true ha, ok_bind, expects_true ht, ok_bind]
      exact ⟨_, rfl⟩
    obtain ⟨sim', hsim'⟩ := hnew
    obtain ⟨v', t', h3, h4⟩ := simulated_unit hE hk hs (.new hsim') hc
    exact ⟨vs' ++ [v'], .snoc h1 (.new hsim') h3, List.rel_append h2 (.cons h4 .nil)⟩

/-! ### Examples -/

namespace Sample

/-- The document `plan` with everything taking twice as long -/
def slowPlan : Yaml := obj [
  ("agents", obj [
    ("Bob", obj [("groups", .seq [str "A", str "B"]), ("performance", obj [("min", str "0.5"), ("max", str "2")])]),
    ("Jack", .null)]),
  ("tasks", .seq [
    obj [("name", str "build"), ("id", str "b"), ("duration", str "4h"), ("group", str "B"),
      ("subtasks", .seq [
        obj [("name", str "walls"), ("duration", str "3h"), ("agent", str "Jack")],
        obj [("name", str "roof"), ("duration", obj [("min", str "20 minutes"), ("max", str "2h")]),
          ("groups", .seq [str "B", str "C"])]])],
    obj [("name", str "paint"), ("duration", str "90s"), ("depends_on", .seq [str "b"])]])]

theorem slowPlan_loads : load number slowPlan = ok (slower 2 project) := by
  rw [Load.load_eval 20 _ _ (by decide)]
  decide +kernel

theorem plan_whole : WholeMeans project := by
  unfold WholeMeans
  decide +kernel

theorem slow_sound : (slower 2 project).Sound := by
  refine loaded_sound slowPlan_loads (by decide) ?_ ?_
  · intro a ha
    simp only [project, slower, List.mem_cons, List.not_mem_nil, or_false] at ha
    rcases ha with rfl | rfl <;> exact ⟨_, _, rfl, rfl⟩
  · intro t ht
    simp only [project, slower, List.map_cons, List.map_nil, List.mem_cons, List.not_mem_nil, or_false] at ht
    rcases ht with rfl | rfl | rfl | rfl <;> simp [project, slower, Eligible]

theorem slow_moderate : (slower 2 project).Moderate where
  longer := by
    refine ⟨_, List.mem_cons_self, ?_⟩
    intro a ha q hq
    simp only [project, slower, List.mem_cons, List.not_mem_nil, or_false] at ha
    rcases ha with rfl | rfl <;> (cases hq; decide +kernel)
  shorter := by
    intro a ha q hq
    simp only [project, slower, List.mem_cons, List.not_mem_nil, or_false] at ha
    rcases ha with rfl | rfl <;> (cases hq; decide +kernel)

/-- A plan with a mean duration of one and a half seconds, and an agent that takes twice as long -/
def odd : Project where
  agents := [{ id := 0, name := "Bob", perfMin := .fin (1 / 2), perfMax := .fin (1 / 2) }]
  tasks := [{ name := "ping", durMin := 1, durMax := 2 }]

end Sample

/-- C111 for the example: all the conditions are met, whatever the random numbers are. -/
example (draws : Nat → Nat → Nat → Draws ℚ) : ∃ (o : Cli.Options ℚ) (N : Nat), ∀ fuel, N ≤ fuel → ∃ (mk mk' : Int) (es es' : List TaskEntry),
    Naming.files (body FloatEnv.rat { exampleMachine draws with fuel := fuel } .schedule o).effects
      = [.file o.output (.obj [("makespan", .int mk), ("tasks", .arr (es.map TaskEntry.object))])] ∧
    Naming.files (body FloatEnv.rat { exampleMachine draws with fuel := fuel, source := .doc Sample.slowPlan } .schedule o).effects
      = [.file o.output (.obj [("makespan", .int mk'), ("tasks", .arr (es'.map TaskEntry.object))])] ∧
    Scaled 2 mk mk' ∧ List.Forall₂ (SameLine 2) es es' := by
  obtain ⟨o, hpar, _⟩ := plan_accepted
  obtain ⟨N, h⟩ := unit_of_time_document (m := exampleMachine draws) (root' := Sample.slowPlan) (k := 2) (fun _ => rfl) exampleRead_signs
    (by decide) hpar (by simp) (by simp) (by simp) rfl Sample.plan_loads
    (sound_schedulable Sample.plan_loads plan_sound plan_moderate) example_canWrite (by exact (by decide : 0 < 4)) (by decide)
    Sample.slowPlan_loads (sound_schedulable Sample.slowPlan_loads Sample.slow_sound Sample.slow_moderate) Sample.plan_whole
  exact ⟨o, N, fun fuel hf => (h fuel hf).2.2⟩

namespace Sample

theorem slow_inRange : (slower 2 project).InRange where
  tasks := by decide
  agents := by decide
  durations := by decide
  performance := plan_inRange.performance

theorem slow_takes : (slower 2 project).TakesBetween 2 (2 ^ 30) where
  longer := by
    refine ⟨_, List.mem_cons_self, ?_⟩
    intro a ha q hq
    simp only [project, slower, List.mem_cons, List.not_mem_nil, or_false] at ha
    rcases ha with rfl | rfl <;> (cases hq; decide +kernel)
  shorter := by
    intro a ha q hq
    simp only [project, slower, List.mem_cons, List.not_mem_nil, or_false] at ha
    rcases ha with rfl | rfl <;> (cases hq; decide +kernel)

theorem slow_document_inRange : Doc.InRange number slowPlan := by
  obtain ⟨hdv, hpv⟩ := document_values slowPlan_loads
  have hl := (load_faithful slowPlan_loads).2
  have hr := slow_inRange
  refine ⟨by rw [← hl.agents_length]; exact hr.agents, ?_, ?_⟩
  · intro q hq lo hi hd
    obtain ⟨k, hk, rfl⟩ := List.mem_iff_getElem.1 hq
    have hk' : k < (slower 2 project).tasks.length := by rw [hl.tasks_length]; exact hk
    have := (hdv k _ _ lo hi (List.getElem?_eq_getElem hk) (List.getElem?_eq_getElem hk') hd).2
    have h2 := hr.durations _ (List.getElem_mem hk')
    rw [this] at h2
    exact_mod_cast h2
  · intro w hw x y hpf v hv
    obtain ⟨k, hk, rfl⟩ := List.mem_iff_getElem.1 hw
    have hk' : k < (slower 2 project).agents.length := by rw [hl.agents_length]; exact hk
    obtain ⟨h1, h2⟩ := hpv k _ _ x y (List.getElem?_eq_getElem hk) (List.getElem?_eq_getElem hk') hpf
    exact hr.performance _ (List.getElem_mem hk') v (by rw [h1, h2]; exact hv)

end Sample

/-- C111 in single precision for the example -/
example (draws : Nat → Nat → Nat → Draws ℚ) : ∃ (o : Cli.Options ℚ) (N : Nat), ∀ fuel, N ≤ fuel → ∃ (mk mk' : Int) (es es' : List TaskEntry),
    Naming.files (body ratFloat { exampleMachine draws with fuel := fuel } .schedule o).effects
      = [.file o.output (.obj [("makespan", .int mk), ("tasks", .arr (es.map TaskEntry.object))])] ∧
    Naming.files (body ratFloat { exampleMachine draws with fuel := fuel, source := .doc Sample.slowPlan } .schedule o).effects
      = [.file o.output (.obj [("makespan", .int mk'), ("tasks", .arr (es'.map TaskEntry.object))])] ∧
    Scaled 2 mk mk' ∧ List.Forall₂ (SameLine 2) es es' := by
  have hpar := options_as_given (E := ratFloat) (isFile := fun f => f == "plan.yml") (terminal := true) (c := .schedule)
    (a := { input := "plan.yml" }) exampleRead_naturals (by decide) (batch := 10000) (idle := 100000) (window := 100) (period := 256)
    (Or.inl ⟨rfl, rfl⟩) (Or.inl ⟨rfl, rfl⟩) (Or.inl ⟨rfl, rfl⟩) (Or.inl ⟨rfl, rfl⟩)
    (Or.inl ⟨rfl, rfl⟩) (Or.inl ⟨rfl, rfl⟩) (Or.inl ⟨rfl, rfl⟩)
  obtain ⟨N, h⟩ := unit_of_time_document_float (m := exampleMachine draws) (root' := Sample.slowPlan) (j := 1) ratFloat_isFloat exampleRead_signs
    (by decide) hpar (by simp) (by simp) (by simp) rfl Sample.plan_loads (sample_reads_floats draws) plan_schedulable plan_document_inRange
    example_canWrite (by exact (by decide : 0 < 4)) Sample.slowPlan_loads
    (sound_schedulable Sample.slowPlan_loads Sample.slow_sound Sample.slow_takes) Sample.slow_document_inRange Sample.plan_whole
  exact ⟨_, N, fun fuel hf => (h fuel hf).2.2⟩

/-- The condition on mean durations is needed: they are rounded down to whole seconds before the agent's performance is taken into account. Twice a mean of one and
a half seconds is three seconds and not two. -/
example : Timetable.entries FloatEnv.rat Sample.odd [⟨0, 0⟩] ⟨[0], [0]⟩ [0] = ok [⟨"ping", "Bob", 0, 2, 0⟩] ∧
    Timetable.entries FloatEnv.rat (slower 2 Sample.odd) [⟨0, 0⟩] ⟨[0], [0]⟩ [0] = ok [⟨"ping", "Bob", 0, 6, 0⟩] ∧
    ¬ SameLine 2 ⟨"ping", "Bob", 0, 2, 0⟩ ⟨"ping", "Bob", 0, 6, 0⟩ := by
  refine ⟨by decide +kernel, by decide +kernel, fun h => ?_⟩
  have := h.duration.2
  norm_num at this

/-- A simulation of the example project, and of the slower one -/
example : ∃ sim sim' : Simulation ℚ, SimulationFor FloatEnv.rat Sample.project sim ∧ SimulationFor FloatEnv.rat (slower 2 Sample.project) sim' :=
  ⟨_, _, .new rfl, .new rfl⟩

end Angonoka.Props
