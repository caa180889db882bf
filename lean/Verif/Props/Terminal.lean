import Verif.Spec.Terminal
import Mathlib.Data.List.Basic
import Mathlib.Tactic.ByContra

/-!
# C59: the cursor after an interrupt
-/

namespace Angonoka.Props
open Angonoka Terminal

theorem visible_nil : Visible [] := by
  intro pre post h
  cases pre <;> simp at h

theorem visible_append_show (l : List Out) : Visible (l ++ [.show]) := by
  intro pre post h
  rcases List.eq_nil_or_concat post with rfl | ⟨post', o, rfl⟩
  · have := congrArg List.getLast? h
    simp at this
  · have := congrArg List.getLast? h
    simp only [List.getLast?_append, List.getLast?_singleton, List.concat_eq_append, ← List.cons_append,
      ← List.append_assoc, Option.some_or, Option.some.injEq] at this
    subst this
    simp

theorem visible_append {l : List Out} (h : Visible l) (s : String) : Visible (l ++ [.text s]) := by
  intro pre post hp
  rcases List.eq_nil_or_concat post with rfl | ⟨post', o, rfl⟩
  · have := congrArg List.getLast? hp
    simp at this
  · rw [List.concat_eq_append] at hp ⊢
    rw [← List.cons_append, ← List.append_assoc] at hp
    have := (List.append_inj' hp rfl).1
    have := h pre post' this
    simp [this]

/-- Without an order to show the cursor in the second part, the first part shows it. -/
theorem visible_left {l l' : List Out} (h : Visible (l ++ l')) (hl : Out.show ∉ l') : Visible l := by
  intro pre post hp
  have := h pre (post ++ l') (by rw [hp]; simp)
  rcases List.mem_append.1 this with h | h
  · exact h
  · exact absurd h hl

theorem visible_cons {l : List Out} {o : Out} (ho : o ≠ .hide) (h : Visible l) : Visible (o :: l) := by
  intro pre post hp
  cases pre with
  | nil => simp at hp; exact absurd hp.1 ho
  | cons a pre =>
    simp only [List.cons_append, List.cons.injEq] at hp
    exact h pre post hp.2

/-- Steps from which the cursor may be left: whenever the flag is clear, what has been written so far shows the cursor. -/
def Disciplined : Bool → Bool → List Step → Prop
  | flag, vis, [] => flag = false → vis = true
  | flag, vis, s :: rest => (flag = false → vis = true) ∧
    match s with
    | .set => Disciplined true vis rest
    | .clear => Disciplined false vis rest
    | .put .hide => Disciplined flag false rest
    | .put .show => Disciplined flag true rest
    | .put (.text _) => Disciplined flag vis rest
    | .flush => Disciplined flag vis rest

theorem disciplined_main : ∀ (ops : List Op) (flag vis : Bool), (flag = false → vis = true) →
    Disciplined flag vis (ops.flatMap Op.steps) := by
  intro ops
  induction ops with
  | nil => intro flag vis h; exact h
  | cons op ops ih =>
    intro flag vis h
    cases op with
    | start =>
      simp only [List.flatMap_cons, Op.steps, hideCursor, List.cons_append, List.nil_append, Disciplined]
      refine ⟨h, by simp, by simp, ih _ _ (by simp)⟩
    | update bar => exact ⟨h, ih _ _ h⟩
    | stop =>
      simp only [List.flatMap_cons, Op.steps, showCursor, List.cons_append, List.nil_append, Disciplined]
      exact ⟨h, by simp, by simp, ih _ _ (by simp)⟩
    | print text => exact ⟨h, ih _ _ h⟩

theorem Disciplined.head {flag vis : Bool} {steps : List Step} (h : Disciplined flag vis steps) :
    flag = false → vis = true := by
  cases steps with
  | nil => exact h
  | cons s rest => exact h.1

/-- What has been written so far -/
def State.written (t : State) : List Out := t.screen ++ t.buffer

theorem written_spill (t : State) (k : Nat) : State.written (t.spill k) = State.written t := by
  simp [State.written, State.spill]

/-- While the main thread works, the flag is only clear when what has been written shows the cursor. -/
theorem flag_clear_visible (ops : List Op) (turns : List Turn) (hh : Turn.handler ∉ turns) :
    ((Process.new ops).run turns).handler = .waiting ∧
    (((Process.new ops).run turns).state.flag = false →
      Visible (State.written ((Process.new ops).run turns).state)) := by
  suffices ∀ (turns : List Turn) (p : Process) (vis : Bool), Turn.handler ∉ turns →
      p.handler = .waiting → (vis = true → Visible (State.written p.state)) →
      Disciplined p.state.flag vis p.main →
      (p.run turns).handler = .waiting ∧
      ((p.run turns).state.flag = false → Visible (State.written (p.run turns).state)) from
    this turns _ true hh rfl (fun _ => visible_nil) (disciplined_main ops false true (fun _ => rfl))
  intro turns
  induction turns with
  | nil => intro p vis _ hw hv hd; exact ⟨hw, fun hf => hv (hd.head hf)⟩
  | cons turn turns ih =>
    intro p vis hh hw hv hd
    simp only [List.mem_cons, not_or] at hh
    change ((p.turn turn).run turns).handler = .waiting ∧ _
    cases turn with
    | handler => exact absurd rfl hh.1
    | spill k =>
      refine ih _ vis hh.2 hw ?_ hd
      intro h
      change Visible (State.written (p.state.spill k))
      rw [written_spill]
      exact hv h
    | main =>
      obtain ⟨st, main, hdl⟩ := p
      dsimp only at hw hv hd
      cases main with
      | nil => exact ih _ vis hh.2 hw hv hd
      | cons s rest =>
        obtain ⟨h1, h2⟩ := hd
        cases s with
        | set => exact ih _ vis hh.2 hw hv h2
        | clear => exact ih _ vis hh.2 hw hv h2
        | flush =>
          refine ih _ vis hh.2 hw ?_ h2
          intro h
          change Visible (State.written (st.spill st.buffer.length))
          rw [written_spill]
          exact hv h
        | put out =>
          have hwr : State.written (st.step (.put out)) = State.written st ++ [out] := by
            simp [State.written, State.step]
          cases out with
          | hide => exact ih _ false hh.2 hw (by simp) h2
          | «show» =>
            refine ih _ true hh.2 hw ?_ h2
            intro _
            change Visible (State.written (st.step _))
            rw [hwr]
            exact visible_append_show _
          | text s =>
            refine ih _ vis hh.2 hw ?_ h2
            intro h
            change Visible (State.written (st.step _))
            rw [hwr]
            exact visible_append (hv h) s

/-- What is left to do in the handler, and why the cursor will be visible. -/
def Restoring (p : Process) : Prop :=
  match p.handler with
  | .waiting => (p.state.flag = false → Visible (State.written p.state)) ∧ Out.show ∉ p.state.buffer
  | .exiting [] => ∀ k, Visible (p.state.screen ++ p.state.buffer.take k)
  | .exiting [.flush] => Visible (State.written p.state)
  | .exiting [.clear, .flush] => Visible (State.written p.state)
  | .exiting [.put .show, .clear, .flush] => True
  | _ => False

theorem visible_take {t : State} (h : Visible (State.written t)) (hs : Out.show ∉ t.buffer) (k : Nat) :
    Visible (t.screen ++ t.buffer.take k) := by
  refine visible_left (l' := t.buffer.drop k) ?_ (fun hm => hs (List.mem_of_mem_drop hm))
  rw [List.append_assoc, List.take_append_drop]
  exact h

theorem restoring_turn {p : Process} (h : Restoring p) {turn : Turn} (ht : turn ≠ .main) :
    Restoring (p.turn turn) := by
  obtain ⟨st, main, hdl⟩ := p
  cases turn with
  | main => exact absurd rfl ht
  | spill k =>
    unfold Restoring at h ⊢
    dsimp only [Process.turn] at h ⊢
    split at h
    · refine ⟨fun hf => ?_, fun hm => h.2 (List.mem_of_mem_drop hm)⟩
      rw [written_spill]
      exact h.1 hf
    · intro j
      have := h (k + j)
      rw [List.take_add, ← List.append_assoc] at this
      exact this
    · rw [written_spill]; exact h
    · rw [written_spill]; exact h
    · trivial
    · exact h
  | handler =>
    unfold Restoring at h ⊢
    dsimp only at h
    split at h
    · dsimp only [Process.turn, atExitSteps]
      cases hf : st.flag with
      | true => trivial
      | false => exact visible_take (h.1 hf) h.2
    · exact h
    · dsimp only [Process.turn]
      intro k
      simpa [State.step, State.spill, State.written] using h
    · exact h
    · change Visible (State.written (st.step (.put .show)))
      have : State.written (st.step (.put .show)) = State.written st ++ [.show] := by
        simp [State.written, State.step]
      rw [this]
      exact visible_append_show _
    · exact h.elim

/-- C59 in part. Let a signal arrive after any turns of the main thread (which does any sequence of progress bar operations and
printing), be handled on the main thread, and let no order to show the cursor be waiting in the output buffer at that
moment. Then the cursor is visible when the process ends, whatever the buffering. What is missing: such an order in the buffer, and
handling on another thread; in both cases the claim is false, see `cursor_left_hidden`. -/
theorem cursor_restored_partial (ops : List Op) {before after : List Turn} (hb : Turn.handler ∉ before)
    (ha : Turn.main ∉ after) (hbuf : Out.show ∉ ((Process.new ops).run before).state.buffer)
    (hover : ((Process.new ops).run (before ++ after)).over) :
    Visible ((Process.new ops).run (before ++ after)).state.screen := by
  obtain ⟨h1, h2⟩ := flag_clear_visible ops before hb
  have hrun : (Process.new ops).run (before ++ after) = ((Process.new ops).run before).run after :=
    List.foldl_append
  rw [hrun] at hover ⊢
  generalize (Process.new ops).run before = p at *
  have hr : Restoring p := by
    unfold Restoring
    rw [h1]
    exact ⟨h2, hbuf⟩
  clear h1 h2 hbuf hb hrun
  induction after generalizing p with
  | nil =>
    change Visible p.state.screen
    change p.handler = .exiting [] at hover
    unfold Restoring at hr
    rw [hover] at hr
    simpa using hr 0
  | cons turn after ih =>
    simp only [List.mem_cons, not_or] at ha
    exact ih ha.2 _ hover (restoring_turn hr (Ne.symm ha.1))

/-- C59: no interrupt. When the main thread is done and the last bar has been stopped (the flag is clear), everything written, which
`exit` flushes, shows the cursor. -/
theorem cursor_visible_at_end (ops : List Op) {turns : List Turn} (hh : Turn.handler ∉ turns)
    (hf : ((Process.new ops).run turns).state.flag = false) :
    Visible (((Process.new ops).run turns).state.screen ++ ((Process.new ops).run turns).state.buffer) :=
  (flag_clear_visible ops turns hh).2 hf

/-- C59 is false. First: the handler runs on the main thread, just after a progress bar has been stopped; the order to
show the cursor is in the buffer and is lost. Second: nothing is lost, but the handler runs on another thread while the main thread
hides the cursor. -/
theorem cursor_left_hidden :
    (∃ (ops : List Op) (turns : List Turn), OnMainThread turns ∧
      ((Process.new ops).run turns).over ∧ ¬ Visible ((Process.new ops).run turns).state.screen) ∧
    (∃ (ops : List Op) (turns : List Turn),
      ((Process.new ops).run turns).over ∧ ((Process.new ops).run turns).state.buffer = [] ∧
      ¬ Visible ((Process.new ops).run turns).state.screen) := by
  constructor
  · refine ⟨[.start, .update "50%", .stop], [.main, .main, .main, .main, .spill 3, .main, .main, .handler],
      ⟨[.main, .main, .main, .main, .spill 3, .main, .main], [.handler], rfl, by decide, by decide⟩,
      (by decide : _ = Handler.exiting []), ?_⟩
    have : ((Process.new [.start, .update "50%", .stop]).run
      [.main, .main, .main, .main, .spill 3, .main, .main, .handler]).state.screen
        = [.hide, .text "", .text "50%"] := by decide
    rw [this]
    intro h
    have := h [] [.text "", .text "50%"] rfl
    simp at this
  · refine ⟨[.start], [.main, .handler, .handler, .main, .handler, .handler],
      (by decide : _ = Handler.exiting []), by decide, ?_⟩
    have : ((Process.new [.start]).run [.main, .handler, .handler, .main, .handler, .handler]).state.screen
        = [.show, .hide] := by decide
    rw [this]
    intro h
    have := h [.show] [] rfl
    simp at this

/-- `cursor_restored_partial` applies in the middle of a progress bar. -/
example : let ops : List Op := [.start, .update "50%", .stop]
    let before : List Turn := [.main, .main, .main, .spill 2, .main]
    let after : List Turn := [.handler, .handler, .handler, .handler]
    Turn.handler ∉ before ∧ Turn.main ∉ after ∧ Out.show ∉ ((Process.new ops).run before).state.buffer ∧
      ((Process.new ops).run (before ++ after)).over ∧
      ((Process.new ops).run before).state.screen = [.hide, .text ""] := by
  refine ⟨by decide, by decide, by decide, (by decide : _ = Handler.exiting []), by decide⟩

end Angonoka.Props
