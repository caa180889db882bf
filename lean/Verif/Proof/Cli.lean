import Verif.Model.Cli
import Verif.Proof.Predict
import Verif.Proof.Events

/-!
# Computations of the command line program
-/

set_option linter.unusedSectionVars false

namespace Angonoka.Cli
open Angonoka Outcome Stun

namespace Io
variable {K α β : Type}

@[simp] theorem bind_ok (es : List (Effect K)) (a : α) (f : α → Io K β) :
    ((⟨es, .ok a⟩ : Io K α) >>= f) = ⟨es ++ (f a).effects, (f a).flow⟩ := rfl

@[simp] theorem bind_user (es : List (Effect K)) (f : α → Io K β) :
    ((⟨es, .user⟩ : Io K α) >>= f) = ⟨es, .user⟩ := rfl

@[simp] theorem bind_throws (es : List (Effect K)) (e : Err) (f : α → Io K β) :
    ((⟨es, .throws e⟩ : Io K α) >>= f) = ⟨es, .throws e⟩ := rfl

@[simp] theorem bind_ub (es : List (Effect K)) (e : String) (f : α → Io K β) :
    ((⟨es, .ub e⟩ : Io K α) >>= f) = ⟨es, .ub e⟩ := rfl

@[simp] theorem bind_hang (es : List (Effect K)) (f : α → Io K β) :
    ((⟨es, .hang⟩ : Io K α) >>= f) = ⟨es, .hang⟩ := rfl

@[simp] theorem bind_running (es : List (Effect K)) (f : α → Io K β) :
    ((⟨es, .running⟩ : Io K α) >>= f) = ⟨es, .running⟩ := rfl

@[simp] theorem lift_ok_bind (a : α) (f : α → Io K β) : (lift (ok a) >>= f) = f a := rfl

theorem pure_def (a : α) : (pure a : Io K α) = ⟨[], .ok a⟩ := rfl

theorem pure_bind' (a : α) (f : α → Io K β) : (pure a >>= f) = f a := rfl

theorem emit_bind (es : List (Effect K)) (f : Unit → Io K β) :
    (emit es >>= f) = ⟨es ++ (f ()).effects, (f ()).flow⟩ := rfl

/-- All effects of the computation satisfy `P`. -/
def All (P : Effect K → Prop) (x : Io K α) : Prop := ∀ e ∈ x.effects, P e

theorem All.bind {P : Effect K → Prop} {x : Io K α} {f : α → Io K β} (hx : x.All P)
    (hf : ∀ a, (f a).All P) : (x >>= f).All P := by
  obtain ⟨xe, xr⟩ := x
  cases xr with
  | ok a =>
    intro e he
    rw [bind_ok] at he
    rcases List.mem_append.1 he with he | he
    · exact hx e he
    · exact hf a e he
  | user => exact hx
  | throws e => exact hx
  | ub e => exact hx
  | hang => exact hx
  | running => exact hx

theorem All.lift {P : Effect K → Prop} (x : Outcome α) : (lift x : Io K α).All P := by
  intro e he
  cases he

theorem All.pure {P : Effect K → Prop} (a : α) : (pure a : Io K α).All P := by
  intro e he
  cases he

theorem All.fail {P : Effect K → Prop} : (fail : Io K α).All P := by
  intro e he
  cases he

theorem All.emit {P : Effect K → Prop} {es : List (Effect K)} (h : ∀ e ∈ es, P e) : (emit es).All P := h

end Io

end Angonoka.Cli
