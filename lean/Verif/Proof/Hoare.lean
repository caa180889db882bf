import Verif.Base.Outcome

/-!
# Three-way postconditions for outcomes
-/

namespace Angonoka.Outcome

variable {α β : Type}

/-- `x` returns something in `Q`, throws something in `T`, or `U` holds. -/
def Sat (x : Outcome α) (Q : α → Prop) (T : Err → Prop) (U : Prop) : Prop :=
  match x with
  | ok a => Q a
  | throws e => T e
  | ub _ => U

variable {T : Err → Prop} {U : Prop}

theorem Sat.bind {x : Outcome α} {f : α → Outcome β} {Q : α → Prop} {R : β → Prop}
    (hx : Sat x Q T U) (hf : ∀ a, Q a → Sat (f a) R T U) : Sat (x >>= f) R T U := by
  cases x with
  | ok a => exact hf a hx
  | throws e => exact hx
  | ub s => exact hx

theorem Sat.ok {Q : α → Prop} {a : α} (h : Q a) : Sat (Outcome.ok a) Q T U := h

theorem Sat.throws {Q : α → Prop} {e : Err} (h : T e) : Sat (Outcome.throws e : Outcome α) Q T U := h

theorem Sat.ub {Q : α → Prop} {s : String} (h : U) : Sat (Outcome.ub s : Outcome α) Q T U := h

theorem Sat.expects {c : Bool} {s : String} (h : c = false → U) :
    Sat (expects c s) (fun _ => c = true) T U := by
  cases c with
  | true => exact rfl
  | false => exact h rfl

theorem Sat.mono {x : Outcome α} {Q R : α → Prop} {T' : Err → Prop} {U' : Prop} (h : Sat x Q T U)
    (hq : ∀ a, Q a → R a) (ht : ∀ e, T e → T' e) (hu : U → U') : Sat x R T' U' := by
  cases x with
  | ok a => exact hq a h
  | throws e => exact ht e h
  | ub s => exact hu h

theorem Sat.post {x : Outcome α} {Q R : α → Prop} (h : Sat x Q T U) (hq : ∀ a, Q a → R a) :
    Sat x R T U := h.mono hq (fun _ h => h) (fun h => h)

/-- A contract that is met. -/
theorem Sat.assert {c : Bool} {s : String} {f : Unit → Outcome β} {R : β → Prop} (h : c = true)
    (hf : Sat (f ()) R T U) : Sat (Outcome.expects c s >>= f) R T U := by
  rw [expects_true h]
  exact hf

end Angonoka.Outcome
