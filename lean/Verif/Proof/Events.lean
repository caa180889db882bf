import Verif.Spec.Events
import Verif.Proof.Predict
import Mathlib.Tactic.ByContra

/-!
# Interleavings of producer and consumer
-/

set_option linter.unusedSectionVars false

namespace Angonoka
open Outcome Stun

namespace Channel
variable {K : Type}

/-- What always holds of the channel. -/
structure Inv (events : List (Event K)) (c : Channel K) : Prop where
  split : c.handled ++ c.queue ++ c.pending = events
  returned : c.returned = true → c.evt.isFinal = true
  final : c.evt.isFinal = true → ∃ pre e, c.handled = pre ++ [e] ∧ e.isFinal = true
  last : c.evt.isFinal = false → ∀ e ∈ c.handled, e.isFinal = false

theorem inv_init (events : List (Event K)) : Inv events (init events) :=
  ⟨rfl, by simp [init], by simp [init, Event.isFinal], by simp [init]⟩

theorem Inv.produce {events : List (Event K)} {c : Channel K} (h : Inv events c) :
    Inv events c.produce := by
  unfold Channel.produce
  split
  · exact h
  · next e rest hp =>
    refine ⟨?_, h.returned, h.final, h.last⟩
    rw [← h.split, hp]
    simp

theorem Inv.consume {events : List (Event K)} {c : Channel K} (h : Inv events c) :
    Inv events c.consume := by
  unfold Channel.consume
  split
  · exact h
  · split
    · next hf => exact ⟨h.split, fun _ => hf, h.final, h.last⟩
    · next hr hf =>
      split
      · exact h
      · next e rest hq =>
        refine ⟨?_, ?_, ?_, ?_⟩
        · rw [← h.split, hq]
          simp
        · intro h'
          exact absurd h' hr
        · intro he
          exact ⟨c.handled, e, rfl, he⟩
        · intro he x hx
          rcases List.mem_append.1 hx with hx | hx
          · exact h.last (by simpa using hf) x hx
          · rw [List.mem_singleton.1 hx]
            exact he

theorem inv_run (events : List (Event K)) (turn : Nat → Thread) (n : Nat) :
    Inv events (run events turn n) := by
  induction n with
  | zero => exact inv_init events
  | succ n ih =>
    rw [run, step.eq_def]
    cases turn n
    · exact ih.produce
    · exact ih.consume

/-- How many steps are left that change the channel. -/
def work (c : Channel K) : Nat :=
  2 * c.pending.length + c.queue.length + (if c.returned then 0 else 1)

theorem produce_work (c : Channel K) : c.produce.work + (if c.pending = [] then 0 else 1) = c.work := by
  unfold Channel.produce
  cases h : c.pending with
  | nil => simp
  | cons e rest => simp [work, h]; omega

theorem consume_work (c : Channel K) :
    c.consume.work + (if c.returned = false ∧ (c.evt.isFinal = true ∨ c.queue ≠ []) then 1 else 0)
      = c.work := by
  unfold Channel.consume
  by_cases hr : c.returned = true
  · simp [hr]
  · rw [if_neg hr]
    by_cases hf : c.evt.isFinal = true
    · rw [if_pos hf]
      simp [work, hr, hf]
    · rw [if_neg hf]
      cases h : c.queue with
      | nil => simp [hf, work, h]
      | cons e rest => simp [work, h, hr]; omega

theorem work_le (events : List (Event K)) (turn : Nat → Thread) {m n : Nat} (h : m ≤ n) :
    (run events turn n).work ≤ (run events turn m).work := by
  induction n, h using Nat.le_induction with
  | base => exact le_rfl
  | succ n _ ih =>
    refine le_trans ?_ ih
    rw [run, step.eq_def]
    cases turn n
    · have := produce_work (run events turn n)
      simp only
      omega
    · have := consume_work (run events turn n)
      simp only
      omega

/-- A returned consumer stays as it is. -/
theorem returned_stays {events : List (Event K)} {turn : Nat → Thread} {m n : Nat} (h : m ≤ n)
    (hr : (run events turn m).returned = true) :
    (run events turn n).returned = true ∧ (run events turn n).handled = (run events turn m).handled := by
  induction n, h using Nat.le_induction with
  | base => exact ⟨hr, rfl⟩
  | succ n _ ih =>
    rw [run, step.eq_def]
    cases turn n
    · simp only [Channel.produce]
      split
      · exact ih
      · exact ih
    · simp only [Channel.consume]
      rw [if_pos ih.1]
      exact ih

/-- While work is left that can be done, a fair choice of threads gets it done. -/
theorem progress {events : List (Event K)} {turn : Nat → Thread} (hfair : Fair turn) (n : Nat)
    (h : (run events turn n).pending ≠ [] ∨ ((run events turn n).returned = false ∧
      ((run events turn n).evt.isFinal = true ∨ (run events turn n).queue ≠ []))) :
    ∃ m, n ≤ m ∧ (run events turn m).work < (run events turn n).work := by
  by_contra hno
  simp only [not_exists, not_and, not_lt] at hno
  -- nothing changes the amount of work any more
  have hconst : ∀ m, n ≤ m → (run events turn m).work = (run events turn n).work :=
    fun m hm => le_antisymm (work_le events turn hm) (hno m hm)
  -- so no step does anything
  have hstill : ∀ m, n ≤ m → run events turn m = run events turn n := by
    intro m hm
    induction m, hm using Nat.le_induction with
    | base => rfl
    | succ m hm ih =>
      have h1 := hconst m hm
      have h2 := hconst (m + 1) (by omega)
      rw [run, step.eq_def] at h2 ⊢
      cases ht : turn m with
      | producer =>
        rw [ht] at h2
        simp only at h2 ⊢
        have h3 := produce_work (run events turn m)
        have h4 : (run events turn m).pending = [] := by
          by_contra h5
          rw [if_neg h5] at h3
          omega
        unfold Channel.produce
        rw [h4]
        exact ih
      | consumer =>
        rw [ht] at h2
        simp only at h2 ⊢
        have h3 := consume_work (run events turn m)
        unfold Channel.consume
        by_cases hr : (run events turn m).returned = true
        · rw [if_pos hr]; exact ih
        · have hr' : (run events turn m).returned = false := by simpa using hr
          have h4 : ¬ ((run events turn m).evt.isFinal = true ∨ (run events turn m).queue ≠ []) := by
            intro h5
            rw [if_pos ⟨hr', h5⟩] at h3
            omega
          simp only [not_or, not_not] at h4
          rw [if_neg hr, if_neg h4.1, h4.2]
          exact ih
  rcases h with h | ⟨h1, h2⟩
  · obtain ⟨m, hm, ht⟩ := hfair .producer n
    have e1 := hconst (m + 1) (by omega)
    rw [run, ht, hstill m hm] at e1
    have := produce_work (run events turn n)
    rw [if_neg h] at this
    simp only [step] at e1
    omega
  · obtain ⟨m, hm, ht⟩ := hfair .consumer n
    have e1 := hconst (m + 1) (by omega)
    rw [run, ht, hstill m hm] at e1
    have := consume_work (run events turn n)
    rw [if_pos ⟨h1, h2⟩] at this
    simp only [step] at e1
    omega

/-- A fair choice of threads reaches a state in which nothing can be done. -/
theorem quiesces {events : List (Event K)} {turn : Nat → Thread} (hfair : Fair turn) :
    ∃ n, (run events turn n).pending = [] ∧ ((run events turn n).returned = true ∨
      ((run events turn n).evt.isFinal = false ∧ (run events turn n).queue = [])) := by
  suffices h : ∀ w n, (run events turn n).work ≤ w → ∃ n, (run events turn n).pending = [] ∧
      ((run events turn n).returned = true ∨
        ((run events turn n).evt.isFinal = false ∧ (run events turn n).queue = [])) from
    h _ 0 le_rfl
  intro w
  induction w with
  | zero =>
    intro n hn
    by_contra hno
    have : (run events turn n).pending ≠ [] ∨ ((run events turn n).returned = false ∧
        ((run events turn n).evt.isFinal = true ∨ (run events turn n).queue ≠ [])) := by
      by_contra h'
      apply hno
      refine ⟨n, ?_⟩
      simp only [not_or, not_and, not_not] at h'
      refine ⟨h'.1, ?_⟩
      cases hr : (run events turn n).returned with
      | true => exact Or.inl rfl
      | false =>
        have := h'.2 hr
        exact Or.inr ⟨by simpa using this.1, this.2⟩
    obtain ⟨m, _, hm⟩ := progress hfair n this
    omega
  | succ w ih =>
    intro n hn
    by_contra hno
    have : (run events turn n).pending ≠ [] ∨ ((run events turn n).returned = false ∧
        ((run events turn n).evt.isFinal = true ∨ (run events turn n).queue ≠ [])) := by
      by_contra h'
      apply hno
      refine ⟨n, ?_⟩
      simp only [not_or, not_and, not_not] at h'
      refine ⟨h'.1, ?_⟩
      cases hr : (run events turn n).returned with
      | true => exact Or.inl rfl
      | false =>
        have := h'.2 hr
        exact Or.inr ⟨by simpa using this.1, this.2⟩
    obtain ⟨m, _, hm⟩ := progress hfair n this
    exact hno (ih m (by omega))

end Channel

/-! ### The handler -/

namespace Handler
variable {K : Type} [Field K] [LinearOrder K] [IsStrictOrderedRing K]

theorem handleAll_append (h : Handler K) (es es' : List (Event K)) :
    h.handleAll (es ++ es') = (h.handleAll es >>= fun h => h.handleAll es') := by
  induction es generalizing h with
  | nil => rfl
  | cons e es ih =>
    rw [List.cons_append, handleAll, handleAll]
    cases h.handle e with
    | ok h => rw [ok_bind, ok_bind, ih]
    | throws _ => rfl
    | ub _ => rfl

/-- Progress events report a fraction, and there is no second start. -/
def Fine : Event K → Prop
  | .optimization p _ _ => 0 ≤ p ∧ p ≤ 1
  | .simple .scheduleOptimizationStart => False
  | _ => True

theorem handleAll_ok {es : List (Event K)} (hes : ∀ e ∈ es, Fine e) {h : Handler K}
    (hlog : h.logOptimization = true → h.log ≠ none) :
    ∃ h', h.handleAll es = ok h' ∧ h'.logOptimization = h.logOptimization ∧
      (h.logOptimization = true → h'.log = h.log.map (· ++ logRows es)) ∧
      (h.logOptimization = false → h'.log = h.log) := by
  induction es generalizing h with
  | nil => exact ⟨h, rfl, rfl, by simp [logRows], by simp⟩
  | cons e es ih =>
    have he := hes e (by simp)
    have hes' := fun x hx => hes x (List.mem_cons_of_mem e hx)
    match e, he with
    | .simple .simulationStart, _ =>
      obtain ⟨h', e1, e2, e3, e4⟩ := ih hes' hlog
      exact ⟨h', by rw [handleAll, handle, ok_bind, e1]; rintro ⟨⟩, e2, e3, e4⟩
    | .simple .finished, _ =>
      obtain ⟨h', e1, e2, e3, e4⟩ := ih hes' hlog
      exact ⟨h', by rw [handleAll, handle, ok_bind, e1]; rintro ⟨⟩, e2, e3, e4⟩
    | .complete m, _ =>
      rw [handleAll, handle, ok_bind]
      obtain ⟨h', e1, e2, e3, e4⟩ := ih hes' (h := { h with
        display := h.display ++ [.stop],
        output := h.output ++
                  [if h.color then "\x1b[A\rOptimizing the schedule... OK\n"
                   else "Schedule optimization complete.\n",
                   "Optimal makespan: "
                     ++ (if h.verbose then Format.verbose m else Format.humanize m)
                     ++ ".\n"] }) hlog
      exact ⟨h', e1, e2, e3, e4⟩
    | .optimization p m n, he =>
      have he' : 0 ≤ p ∧ p ≤ 1 := he
      cases hl : h.logOptimization with
      | false =>
        have e0 : h.handle (.optimization p m n)
            = ok { h with display := h.display ++ [ProgressOp.update p] } := by
          rw [handle, expects_true (by simpa using he'), ok_bind, hl]
          rfl
        obtain ⟨h', e1, e2, e3, e4⟩ := ih hes'
          (h := { h with display := h.display ++ [ProgressOp.update p] }) hlog
        refine ⟨h', ?_, e2.trans hl, fun h0 => by simp at h0, fun _ => e4 hl⟩
        rw [handleAll, e0, ok_bind, e1]
      | true =>
        cases hrows : h.log with
        | none => exact absurd hrows (hlog hl)
        | some rows =>
          have e0 : h.handle (.optimization p m n)
              = ok { h with display := h.display ++ [ProgressOp.update p],
                            log := some (rows ++ [(p, m, n)]) } := by
            rw [handle, expects_true (by simpa using he'), ok_bind, hl]
            simp only [if_true, hrows]
          obtain ⟨h', e1, e2, e3, e4⟩ := ih hes'
            (h := { h with display := h.display ++ [ProgressOp.update p],
                           log := some (rows ++ [(p, m, n)]) }) (by simp)
          refine ⟨h', ?_, e2.trans hl, fun _ => ?_, by simp⟩
          · rw [handleAll, e0, ok_bind, e1]
          · rw [e3 hl]
            simp [logRows]

/-- With the log open or not wanted, no event is handled with the log missing. -/
theorem handle_log {h : Handler K} (hlog : h.logOptimization = true → h.log ≠ none) (e : Event K) :
    h.handle e ≠ ub "EventHandler: opt_log" ∧
      ∀ h', h.handle e = ok h' → (h'.logOptimization = true → h'.log ≠ none) := by
  match e with
  | .simple .scheduleOptimizationStart =>
    rw [handle]
    refine ⟨by simp, ?_⟩
    rintro h' ⟨⟩ hl
    dsimp only at hl ⊢
    rw [if_pos hl]
    simp
  | .simple .simulationStart => exact ⟨by simp [handle], by rintro h' ⟨⟩; exact hlog⟩
  | .simple .finished => exact ⟨by simp [handle], by rintro h' ⟨⟩; exact hlog⟩
  | .complete m => exact ⟨by simp [handle], by rintro h' ⟨⟩; exact hlog⟩
  | .optimization p m n =>
    rw [handle]
    by_cases hp : 0 ≤ p ∧ p ≤ 1
    · rw [expects_true (by simpa using hp), ok_bind]
      dsimp only
      by_cases hl : h.logOptimization = true
      · rw [if_pos hl]
        cases hrows : h.log with
        | none => exact absurd hrows (hlog hl)
        | some rows => exact ⟨by simp, by rintro h' ⟨⟩ _; simp⟩
      · rw [if_neg hl]
        exact ⟨by simp, by rintro h' ⟨⟩; exact hlog⟩
    · rw [expects, if_neg (by simpa using hp)]
      exact ⟨by simp, by intro h' h0; cases h0⟩

theorem handleAll_log {es : List (Event K)} {h : Handler K}
    (hlog : h.logOptimization = true → h.log ≠ none) :
    h.handleAll es ≠ ub "EventHandler: opt_log" := by
  induction es generalizing h with
  | nil => simp [handleAll]
  | cons e es ih =>
    obtain ⟨h1, h2⟩ := handle_log hlog e
    rw [handleAll]
    cases hh : h.handle e with
    | ok h' =>
      rw [ok_bind]
      exact ih (h2 h' hh)
    | throws e => simp
    | ub site =>
      intro h0
      apply h1
      rw [hh]
      exact h0

end Handler

end Angonoka
