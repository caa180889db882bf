import Verif.Spec.Events
import Verif.Proof.Lists
import Verif.Proof.Termination

/-!
# Runs of `predict` and `schedule`
-/

set_option linter.unusedSectionVars false

namespace Angonoka
open Outcome Stun

namespace Run
variable {K α β : Type}

@[simp] theorem bind_ok (es : List (Event K)) (a : α) (f : α → Run K β) :
    ((⟨es, ok a⟩ : Run K α) >>= f) = ⟨es ++ (f a).events, (f a).result⟩ := rfl

@[simp] theorem bind_throws (es : List (Event K)) (e : Err) (f : α → Run K β) :
    ((⟨es, throws e⟩ : Run K α) >>= f) = ⟨es, throws e⟩ := rfl

@[simp] theorem bind_ub (es : List (Event K)) (e : String) (f : α → Run K β) :
    ((⟨es, ub e⟩ : Run K α) >>= f) = ⟨es, ub e⟩ := rfl

theorem pure_def (a : α) : (pure a : Run K α) = ⟨[], ok a⟩ := rfl

@[simp] theorem lift_ok_bind (a : α) (f : α → Run K β) : (lift (ok a) >>= f) = f a := rfl

theorem enqueue_bind (e : Event K) (f : Unit → Run K β) :
    (enqueue e >>= f) = ⟨e :: (f ()).events, (f ()).result⟩ := rfl

/-- A computation returns if its parts do, and its events are those of the parts. -/
theorem bind_returns {x : Run K α} {f : α → Run K β} {es : List (Event K)} {b : β}
    (h : (x >>= f) = ⟨es, ok b⟩) :
    ∃ es₁ a es₂, x = ⟨es₁, ok a⟩ ∧ f a = ⟨es₂, ok b⟩ ∧ es = es₁ ++ es₂ := by
  obtain ⟨xe, xr⟩ := x
  cases xr with
  | ok a =>
    rw [bind_ok] at h
    refine ⟨xe, a, (f a).events, rfl, ?_, ?_⟩
    · have := (Run.mk.injEq ..).mp h
      cases hfa : f a with
      | mk e r => rw [hfa] at this; exact congrArg _ this.2
    · exact ((Run.mk.injEq ..).mp h).1.symm
  | throws e => cases h
  | ub e => cases h

theorem lift_returns {x : Outcome α} {es : List (Event K)} {a : α}
    (h : (lift x : Run K α) = ⟨es, ok a⟩) : x = ok a ∧ es = [] := by
  have := (Run.mk.injEq ..).mp h
  exact ⟨this.2, this.1.symm⟩

theorem lift_bind_returns {x : Outcome α} {f : α → Run K β} {es : List (Event K)} {b : β}
    (h : (lift x >>= f) = ⟨es, ok b⟩) : ∃ a, x = ok a ∧ f a = ⟨es, ok b⟩ := by
  cases x with
  | ok a => exact ⟨a, rfl, h⟩
  | throws e => cases h
  | ub e => cases h

theorem enqueue_bind_returns {e : Event K} {f : Unit → Run K β} {es : List (Event K)} {b : β}
    (h : (enqueue e >>= f) = ⟨es, ok b⟩) : ∃ es', es = e :: es' ∧ f () = ⟨es', ok b⟩ := by
  obtain ⟨es₁, a, es₂, h1, h2, h3⟩ := bind_returns h
  cases h1
  exact ⟨es₂, h3, h2⟩

/-- All events of the computation satisfy `P`. -/
def All (P : Event K → Prop) (x : Run K α) : Prop := ∀ e ∈ x.events, P e

theorem All.bind {P : Event K → Prop} {x : Run K α} {f : α → Run K β} (hx : x.All P)
    (hf : ∀ a, x.result = ok a → (f a).All P) : (x >>= f).All P := by
  obtain ⟨xe, xr⟩ := x
  cases xr with
  | ok a =>
    intro e he
    rw [bind_ok] at he
    rcases List.mem_append.1 he with he | he
    · exact hx e he
    · exact hf a rfl e he
  | throws e => exact hx
  | ub e => exact hx

theorem All.lift {P : Event K → Prop} (x : Outcome α) : (lift x : Run K α).All P := by
  intro e he
  cases he

theorem All.pure {P : Event K → Prop} (a : α) : (pure a : Run K α).All P := by
  intro e he
  cases he

theorem All.enqueue {P : Event K → Prop} {e : Event K} (h : P e) : (enqueue e).All P := by
  intro e' he
  simp only [Run.enqueue, List.mem_singleton] at he
  rwa [he]

end Run

variable {K : Type} [Field K] [LinearOrder K] [IsStrictOrderedRing K] [FloorRing K]

open Predict

theorem optimizeLoop_all (E : FloatEnv K) (sp : ScheduleParams K) (draws : Nat → Nat → Nat → Draws K)
    (fuel n : Nat) (o : Optimizer K) : (optimizeLoop E sp draws fuel n o).All Event.IsProgress := by
  induction fuel generalizing n o with
  | zero => exact .pure _
  | succ fuel ih =>
    rw [optimizeLoop]
    split
    · exact .pure _
    · exact (Run.All.lift _).bind fun _ _ => (Run.All.lift _).bind fun _ _ =>
        (Run.All.lift _).bind fun _ _ => (Run.All.enqueue trivial).bind fun _ _ => ih _ _

theorem optimize_all (E : FloatEnv K) (sp : ScheduleParams K) (opt : OptParams K) (threads : Nat)
    (draws : Nat → Nat → Nat → Draws K) (fuel : Nat) :
    (optimize E sp opt threads draws fuel).All Event.IsProgress := by
  unfold optimize
  refine (Run.All.lift _).bind fun _ _ => (Run.All.lift _).bind fun _ _ =>
    (Run.All.lift _).bind fun _ _ => (Run.All.lift _).bind fun _ _ =>
    (Run.All.lift _).bind fun _ _ => (optimizeLoop_all _ _ _ _ _ _).bind fun r _ => ?_
  cases r with
  | none => exact .pure _
  | some o => exact (Run.All.lift _).bind fun _ _ => (Run.All.lift _).bind fun _ _ =>
      (Run.All.lift _).bind fun _ _ => .pure _

/-- What a converged loop has done. -/
theorem optimizeLoop_some {E : FloatEnv K} {sp : ScheduleParams K} {draws : Nat → Nat → Nat → Draws K}
    {o₀ : Optimizer K} {fuel n : Nat} {o o' : Optimizer K} {es : List (Event K)}
    (ho : o₀.rounds E draws n = ok o)
    (h : optimizeLoop E sp draws fuel n o = ⟨es, ok (some o')⟩) :
    o₀.rounds E draws (n + es.length) = ok o' ∧ o'.hasConverged = true ∧
    (∀ i < es.length, ∃ o₁, o₀.rounds E draws (n + i) = ok o₁ ∧ o₁.hasConverged = false) ∧
    ∀ i < es.length, ∃ o₁ v m, o₀.rounds E draws (n + i + 1) = ok o₁ ∧
      o₁.normalizedMakespan = ok v ∧ Predict.makespan E sp v = ok m ∧
      es[i]? = some (.optimization o₁.estimatedProgress m o₁.epochs) := by
  induction fuel generalizing n o es with
  | zero => cases h
  | succ fuel ih =>
    rw [optimizeLoop] at h
    split at h
    · next hc =>
      cases h
      exact ⟨by simpa using ho, hc, by simp, by simp⟩
    · next hc =>
      obtain ⟨o₁, h1, h⟩ := Run.lift_bind_returns h
      obtain ⟨v, h2, h⟩ := Run.lift_bind_returns h
      obtain ⟨m, h3, h⟩ := Run.lift_bind_returns h
      obtain ⟨es', hes, h'⟩ := Run.enqueue_bind_returns h
      subst hes
      have hnext : o₀.rounds E draws (n + 1) = ok o₁ := by
        rw [Optimizer.rounds, ho, ok_bind, h1]
      obtain ⟨g1, g2, g3, g4⟩ := ih hnext h'
      simp only [List.length_cons]
      refine ⟨by rw [← g1]; congr 1; omega, g2, ?_, ?_⟩
      · intro i hi
        cases i with
        | zero => exact ⟨o, ho, by simpa using hc⟩
        | succ i =>
          obtain ⟨o₂, h5, h6⟩ := g3 i (by omega)
          exact ⟨o₂, by rw [← h5]; congr 1; omega, h6⟩
      · intro i hi
        cases i with
        | zero => exact ⟨o₁, v, m, hnext, h2, h3, rfl⟩
        | succ i =>
          obtain ⟨o₂, v₂, m₂, h5, h6, h7, h8⟩ := g4 i (by omega)
          exact ⟨o₂, v₂, m₂, by rw [← h5]; congr 1; omega, h6, h7, by simpa using h8⟩

/-- What `optimize` returns. -/
theorem optimize_some {E : FloatEnv K} {sp : ScheduleParams K} {opt : OptParams K} {threads : Nat}
    {draws : Nat → Nat → Nat → Draws K} {fuel : Nat} {es : List (Event K)} {r : OptimizedSchedule}
    (h : optimize E sp opt threads draws fuel = ⟨es, ok (some r)⟩) :
    ∃ o₀ o n v, Optimizer.new E (opt.options sp) threads = ok o₀ ∧ FirstConverged E draws o₀ n ∧
      ReportsRounds E sp draws o₀ n es ∧ o₀.rounds E draws n = ok o ∧ o.schedule = ok r.schedule ∧
      o.normalizedMakespan = ok v ∧ Predict.makespan E sp v = ok r.makespan := by
  unfold optimize at h
  obtain ⟨_, _, h⟩ := Run.lift_bind_returns h
  obtain ⟨_, _, h⟩ := Run.lift_bind_returns h
  obtain ⟨_, _, h⟩ := Run.lift_bind_returns h
  obtain ⟨_, _, h⟩ := Run.lift_bind_returns h
  obtain ⟨o₀, hnew, h⟩ := Run.lift_bind_returns h
  obtain ⟨es₁, o, es₂, hloop, h', hes⟩ := Run.bind_returns h
  match o, hloop, h' with
  | none, _, h => cases h
  | some o, hloop, h =>
    dsimp only at h
    obtain ⟨s, hs, h⟩ := Run.lift_bind_returns h
    obtain ⟨v, hv, h⟩ := Run.lift_bind_returns h
    obtain ⟨m, hm, h⟩ := Run.lift_bind_returns h
    cases h
    rw [List.append_nil] at hes
    subst hes
    obtain ⟨g1, g2, g3, g4⟩ := optimizeLoop_some (n := 0) (o₀ := o₀) rfl hloop
    simp only [Nat.zero_add] at g1 g3 g4
    exact ⟨o₀, o, es.length, v, hnew, ⟨⟨o, g1, g2⟩, g3⟩, ⟨rfl, g4⟩, g1, hs, hv, hm⟩

/-- A progress event whose progress is a fraction. -/
def Event.IsFraction : Event K → Prop
  | .optimization p _ _ => 0 ≤ p ∧ p ≤ 1
  | _ => False

theorem estimatedProgress_mem {E : FloatEnv K} {opts : Options K} {threads : Nat} {ms : List K}
    {o : Optimizer K} {v : K} (hi : OptInv E opts threads ms o v) :
    0 ≤ o.estimatedProgress ∧ o.estimatedProgress ≤ 1 := by
  unfold Optimizer.estimatedProgress
  split
  · exact ⟨zero_le_one, le_rfl⟩
  · split
    · exact ⟨le_rfl, zero_le_one⟩
    · exact ⟨hi.prog0, hi.prog1⟩

theorem optimizeLoop_fraction {E : FloatEnv K} {opts : Options K} (ho : ValidOptions E opts)
    (sp : ScheduleParams K) {threads : Nat} (draws : Nat → Nat → Nat → Draws K) (fuel n : Nat)
    {ms : List K} {o : Optimizer K} {v : K} (hi : OptInv E opts threads ms o v) :
    (optimizeLoop E sp draws fuel n o).All Event.IsFraction := by
  induction fuel generalizing n o ms v with
  | zero => exact .pure _
  | succ fuel ih =>
    rw [optimizeLoop]
    split
    · exact .pure _
    · obtain ⟨o', v', _, h1, h2, _⟩ := Optimizer.update_ok ho hi (draws n)
      rw [h1]
      refine (Run.All.lift _).bind fun o₁ h => ?_
      cases h
      exact (Run.All.lift _).bind fun _ _ => (Run.All.lift _).bind fun _ _ =>
        (Run.All.enqueue (estimatedProgress_mem h2)).bind fun _ _ => ih _ h2

theorem optimize_fraction {E : FloatEnv K} {sp : ScheduleParams K} {opt : OptParams K}
    (ho : ValidOptions E (opt.options sp)) {threads : Nat} (ht : 0 < threads)
    (draws : Nat → Nat → Nat → Draws K) (fuel : Nat) :
    (optimize E sp opt threads draws fuel).All Event.IsFraction := by
  unfold optimize
  obtain ⟨o, v, hnew, hi⟩ := Optimizer.new_ok ho ht
  rw [hnew]
  refine (Run.All.lift _).bind fun _ _ => (Run.All.lift _).bind fun _ _ =>
    (Run.All.lift _).bind fun _ _ => (Run.All.lift _).bind fun _ _ =>
    (Run.All.lift _).bind fun o₁ h => ?_
  cases h
  refine (optimizeLoop_fraction ho _ _ _ _ hi).bind fun r _ => ?_
  cases r with
  | none => exact .pure _
  | some o => exact (Run.All.lift _).bind fun _ _ => (Run.All.lift _).bind fun _ _ =>
      (Run.All.lift _).bind fun _ _ => .pure _

/-- The shape of the events of every run of `schedule`. -/
theorem schedule_shape (E : FloatEnv K) (config : Project) (opt : OptParams K) (threads : Nat)
    (draws : Nat → Nat → Nat → Draws K) (fuel : Nat) :
    ∃ ps, (∀ e ∈ ps, e.IsProgress) ∧
      (∀ sp, toScheduleParams E config = ok sp → ps = (optimize E sp opt threads draws fuel).events) ∧
      ((∃ r, Predict.schedule E config opt threads draws fuel
          = ⟨.simple .scheduleOptimizationStart :: (ps ++ [.complete r.makespan, .simple .finished]),
             ok (some r)⟩) ∨
        ((Predict.schedule E config opt threads draws fuel).events
            = .simple .scheduleOptimizationStart :: ps ∧
          ∀ r, (Predict.schedule E config opt threads draws fuel).result ≠ ok (some r))) := by
  unfold Predict.schedule
  rw [Run.enqueue_bind]
  cases hsp : toScheduleParams E config with
  | throws e => exact ⟨[], by simp, by simp, Or.inr ⟨rfl, by intro r h; cases h⟩⟩
  | ub e => exact ⟨[], by simp, by simp, Or.inr ⟨rfl, by intro r h; cases h⟩⟩
  | ok sp =>
    rw [Run.lift_ok_bind]
    have hall := optimize_all E sp opt threads draws fuel
    cases ho : optimize E sp opt threads draws fuel with
    | mk es r =>
      rw [ho] at hall
      refine ⟨es, hall, by rintro sp' ⟨⟩; rw [ho], ?_⟩
      match r with
      | throws e => exact Or.inr ⟨rfl, by intro r h; cases h⟩
      | ub e => exact Or.inr ⟨rfl, by intro r h; cases h⟩
      | ok none => exact Or.inr ⟨by simp [Run.pure_def], by intro r h; cases h⟩
      | ok (some r) => exact Or.inl ⟨r, rfl⟩

/-- The shape of the events of every run of `predict`. -/
theorem predict_shape (E : FloatEnv K) (config : Project) (binSize : Option Int) (opt : OptParams K)
    (threads : Nat) (draws : Nat → Nat → Nat → Draws K) (fuel : Nat)
    (more : List Int → Outcome Bool) (fuel' : Nat) (zs : List K) :
    ∃ ps, (∀ e ∈ ps, e.IsProgress) ∧
      (∀ sp, toScheduleParams E config = ok sp → ps = (optimize E sp opt threads draws fuel).events) ∧
      ((∃ r, Predict.predict E config binSize opt threads draws fuel more fuel' zs
          = ⟨.simple .scheduleOptimizationStart :: (ps ++
              [.complete r.makespan, .simple .simulationStart, .simple .finished]), ok (some r)⟩) ∨
        (((Predict.predict E config binSize opt threads draws fuel more fuel' zs).events
              = .simple .scheduleOptimizationStart :: ps ∨
            ∃ m, (Predict.predict E config binSize opt threads draws fuel more fuel' zs).events
              = .simple .scheduleOptimizationStart :: (ps ++ [.complete m, .simple .simulationStart])) ∧
          ∀ r, (Predict.predict E config binSize opt threads draws fuel more fuel' zs).result
            ≠ ok (some r))) := by
  unfold Predict.predict
  rw [Run.enqueue_bind]
  cases hsp : toScheduleParams E config with
  | throws e => exact ⟨[], by simp, by simp, Or.inr ⟨Or.inl rfl, by intro r h; cases h⟩⟩
  | ub e => exact ⟨[], by simp, by simp, Or.inr ⟨Or.inl rfl, by intro r h; cases h⟩⟩
  | ok sp =>
    rw [Run.lift_ok_bind]
    have hall := optimize_all E sp opt threads draws fuel
    cases ho : optimize E sp opt threads draws fuel with
    | mk es r =>
      rw [ho] at hall
      refine ⟨es, hall, by rintro sp' ⟨⟩; rw [ho], ?_⟩
      match r with
      | throws e => exact Or.inr ⟨Or.inl rfl, by intro r h; cases h⟩
      | ub e => exact Or.inr ⟨Or.inl rfl, by intro r h; cases h⟩
      | ok none => exact Or.inr ⟨Or.inl (by simp [Run.pure_def]), by intro r h; cases h⟩
      | ok (some r) =>
        rw [Run.bind_ok]
        dsimp only
        rw [Run.enqueue_bind, Run.enqueue_bind]
        cases hh : histogram E config binSize r.schedule r.makespan more fuel' zs with
        | throws e => exact Or.inr ⟨Or.inr ⟨_, rfl⟩, by intro r h; cases h⟩
        | ub e => exact Or.inr ⟨Or.inr ⟨_, rfl⟩, by intro r h; cases h⟩
        | ok h =>
          rw [Run.lift_ok_bind]
          match h with
          | none => exact Or.inr ⟨Or.inr ⟨_, rfl⟩, by intro r h; cases h⟩
          | some h =>
            dsimp only
            cases hs : stats E h with
            | throws e => exact Or.inr ⟨Or.inr ⟨_, rfl⟩, by intro r h; cases h⟩
            | ub e => exact Or.inr ⟨Or.inr ⟨_, rfl⟩, by intro r h; cases h⟩
            | ok st =>
              exact Or.inl ⟨{ histogram := h, stats := st, schedule := r.schedule,
                              makespan := r.makespan }, rfl⟩

/-- The loop gets to the round in which the optimizer has converged. -/
theorem optimizeLoop_completes {E : FloatEnv K} {opts : Options K} (ho : ValidOptions E opts)
    {threads : Nat} {draws : Nat → Nat → Nat → Draws K} {o₀ : Optimizer K}
    (hfit : ∀ s v, ValidSchedule opts.params s → v = valueOf E opts.params s →
      ∃ m, Predict.makespan E opts.params v = ok m)
    {n : Nat} {on : Optimizer K} (hn : o₀.rounds E draws n = ok on) (hconv : on.hasConverged = true) :
    ∀ (d k : Nat) {ms : List K} {o : Optimizer K} {v : K}, k + d = n → OptInv E opts threads ms o v →
      o₀.rounds E draws k = ok o →
      (∀ m, k ≤ m → m < n → ∃ o₁, o₀.rounds E draws m = ok o₁ ∧ o₁.hasConverged = false) →
      ∀ fuel, d < fuel → (∃ ms v, OptInv E opts threads ms on v) ∧
        (optimizeLoop E opts.params draws fuel k o).result = ok (some on) := by
  intro d
  induction d with
  | zero =>
    intro k ms o v hk hi hko _ fuel hf
    rw [Nat.add_zero] at hk
    subst hk
    rw [hn] at hko
    cases hko
    obtain ⟨fuel, rfl⟩ : ∃ f, fuel = f + 1 := ⟨fuel - 1, by omega⟩
    refine ⟨⟨_, _, hi⟩, ?_⟩
    rw [optimizeLoop, if_pos hconv]
    rfl
  | succ d ih =>
    intro k ms o v hk hi hko hnot fuel hf
    obtain ⟨fuel, rfl⟩ : ∃ f, fuel = f + 1 := ⟨fuel - 1, by omega⟩
    obtain ⟨o₁, h1, h2⟩ := hnot k le_rfl (by omega)
    rw [hko] at h1
    cases h1
    obtain ⟨o', v', _, h3, h4, _⟩ := Optimizer.update_ok ho hi (draws k)
    have hnext : o₀.rounds E draws (k + 1) = ok o' := by
      rw [Optimizer.rounds, hko, ok_bind, h3]
    obtain ⟨hinv, hres⟩ := ih (k + 1) (by omega) h4 hnext
      (fun m h5 h6 => hnot m (by omega) h6) fuel (by omega)
    refine ⟨hinv, ?_⟩
    obtain ⟨s, hs, hsv, hse⟩ := h4.schedule_eq ho
    obtain ⟨m, hm⟩ := hfit s v' hsv hse
    rw [optimizeLoop, if_neg (by simp [h2]), h3, Run.lift_ok_bind, h4.makespan_eq ho,
      Run.lift_ok_bind, hm, Run.lift_ok_bind, Run.enqueue_bind]
    exact hres

/-- `optimize` returns if it is given enough rounds. -/
theorem optimize_completes {E : FloatEnv K} {sp : ScheduleParams K} {opt : OptParams K}
    (ho : ValidOptions E (opt.options sp)) {threads : Nat} (ht : 0 < threads)
    (draws : Nat → Nat → Nat → Draws K)
    (hfit : ∀ s v, ValidSchedule sp s → IsMakespan E sp s v → ∃ m, Predict.makespan E sp v = ok m) :
    ∃ N r v, (∀ fuel, N ≤ fuel → (optimize E sp opt threads draws fuel).result = ok (some r)) ∧
      ValidSchedule sp r.schedule ∧ IsMakespan E sp r.schedule v ∧
      Predict.makespan E sp v = ok r.makespan := by
  have hw : WellFormed sp := ho.wellFormed
  obtain ⟨o, v, hnew, hi⟩ := Optimizer.new_ok ho ht
  obtain ⟨n, on, h1, h2, h3, h4⟩ := converges ho draws (o₀ := o) _ 0 hi rfl le_rfl
  simp only [Nat.zero_add] at h2 h4
  have hfit' : ∀ s v, ValidSchedule sp s → v = valueOf E sp s → ∃ m, Predict.makespan E sp v = ok m :=
    fun s v hs hv => hfit s v hs ((isMakespan_iff hw hs).2 hv)
  have hloop := fun fuel hf => optimizeLoop_completes ho (draws := draws) (o₀ := o) hfit' h2 h3 n 0
    (by omega) hi rfl (fun m _ hm => h4 m hm) fuel hf
  obtain ⟨⟨ms', v', hi'⟩, _⟩ := hloop (n + 1) (by omega)
  obtain ⟨s, hs, hsv, hse⟩ := hi'.schedule_eq ho
  obtain ⟨m, hm⟩ := hfit' s v' hsv hse
  refine ⟨n + 1, ⟨s, m⟩, v', ?_, hsv, (isMakespan_iff hw hsv).2 hse, hm⟩
  intro fuel hf
  have hres := (hloop fuel (by omega)).2
  have hdur : sp.taskDuration ≠ [] := by
    intro h0
    have := hw.tasks_pos
    simp [ScheduleParams.taskCount, h0] at this
  have hperf : sp.agentPerformance ≠ [] := by
    intro h0
    obtain ⟨a, ha⟩ := List.exists_mem_of_ne_nil _ (hw.avail_ne 0 hw.tasks_pos)
    have := hw.avail_lt 0 hw.tasks_pos a ha
    simp [ScheduleParams.agentCount, h0] at this
  unfold optimize
  rw [expects_true (by simpa using hperf), Run.lift_ok_bind, expects_true (by simpa using hdur),
    Run.lift_ok_bind, expects_true (by simpa [hw.avail_size] using hw.tasks_pos), Run.lift_ok_bind,
    expects_true (by simpa [ScheduleParams.taskCount] using hw.avail_size), Run.lift_ok_bind, hnew, Run.lift_ok_bind]
  change (optimizeLoop E sp draws fuel 0 o).result = _ at hres
  cases hl : optimizeLoop E sp draws fuel 0 o with
  | mk es r =>
    rw [hl] at hres
    dsimp only at hres
    subst hres
    rw [Run.bind_ok]
    dsimp only
    rw [hs, Run.lift_ok_bind, hi'.makespan_eq ho, Run.lift_ok_bind]
    change Run.result (Run.lift (Predict.makespan E sp v') >>= _) = _
    rw [hm, Run.lift_ok_bind]
    rfl

end Angonoka
