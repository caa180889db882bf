/-!
# Outcomes of C++ computations

A modelled computation either returns, throws a C++ exception, or does
something the C++ code promises never to do (a violated gsl `Expects`/`Ensures`
contract, an out-of-range access, ...). The last case is a separate constructor:
debug builds throw on contracts, release builds treat them as assumptions
(`gsl_CONFIG_UNENFORCED_CONTRACTS_ASSUME`), that is as undefined behaviour.
-/

namespace Angonoka

/-- Exceptions thrown by the modelled code.

`/repo/src/exceptions.h:10-58` for the project's own classes (the text argument of
each constructor is kept, the formatted message is not). `schema` stands for
`SchemaError`, `range` for the exception thrown by `boost::safe_numerics` when a
value leaves the range of `int8`, `yaml` for an exception of yaml-cpp that
escapes, `duration` for `DurationParseError`, `narrowing` for `gsl::narrowing_error`, `system` for the `std::system_error` of
`fmt` if a file cannot be opened, `encoding` for the `type_error` of `nlohmann::json` if a text is not UTF-8. -/
inductive Err where
  | duration (text : String)
  | invalidDuration (task text : String)
  | schema (message : String)
  | invalidAgentPerformance (who : String)
  | invalidTaskAssignment (task : String)
  | agentPerformanceMinMax (who : String)
  | duplicateAgentDefinition (who : String)
  | taskDurationMinMax (task : String)
  | noSuitableAgent (group : String)
  | duplicateTaskDefinition (id : String)
  | negativePerformance (who : String)
  | cantBeEmpty (what : String)
  | taskNotFound (id : String)
  | agentNotFound (name : String)
  | dependencyCycle
  | range
  | yaml
  | narrowing
  | system
  | encoding
  deriving DecidableEq, Repr

/-- Classes derived from `ValidationError` (`/repo/src/exceptions.h:10-58`):
everything of the project's own except `DurationParseError`. -/
def Err.isValidationError : Err → Bool
  | .duration _ | .range | .yaml | .narrowing | .system | .encoding => false
  | _ => true

/-- Result of a modelled computation. -/
inductive Outcome (α : Type) where
  /-- normal return -/
  | ok (a : α)
  /-- a C++ exception -/
  | throws (e : Err)
  /-- violated contract or other undefined behaviour; `site` says where -/
  | ub (site : String)
  deriving DecidableEq, Repr

namespace Outcome

variable {α β γ : Type}

/-- Sequencing: exceptions and undefined behaviour end the computation. -/
protected def bind (x : Outcome α) (f : α → Outcome β) : Outcome β :=
  match x with
  | ok a => f a
  | throws e => throws e
  | ub s => ub s

instance : Monad Outcome where
  pure := ok
  bind := Outcome.bind

@[simp] theorem pure_eq (a : α) : (pure a : Outcome α) = ok a := rfl
@[simp] theorem ok_bind (a : α) (f : α → Outcome β) : (ok a >>= f) = f a := rfl
@[simp] theorem throws_bind (e : Err) (f : α → Outcome β) :
    (throws e >>= f) = throws e := rfl
@[simp] theorem ub_bind (s : String) (f : α → Outcome β) : (ub s >>= f) = ub s := rfl

instance : LawfulMonad Outcome := LawfulMonad.mk'
  (id_map := by intro α x; cases x <;> rfl)
  (pure_bind := by intros; rfl)
  (bind_assoc := by intro α β γ x f g; cases x <;> rfl)

/-- gsl `Expects`/`Ensures`. -/
def expects (c : Bool) (site : String) : Outcome Unit :=
  if c then ok () else ub site

/-- The computation does not violate a contract. -/
def safe (x : Outcome α) : Prop := ∀ s, x ≠ ub s

theorem bind_eq_ok {x : Outcome α} {f : α → Outcome β} {b : β} :
    (x >>= f) = ok b ↔ ∃ a, x = ok a ∧ f a = ok b := by
  cases x <;> simp

theorem bind_eq_throws {x : Outcome α} {f : α → Outcome β} {e : Err} :
    (x >>= f) = throws e ↔ x = throws e ∨ ∃ a, x = ok a ∧ f a = throws e := by
  cases x <;> simp

theorem bind_eq_ub {x : Outcome α} {f : α → Outcome β} {s : String} :
    (x >>= f) = ub s ↔ x = ub s ∨ ∃ a, x = ok a ∧ f a = ub s := by
  cases x <;> simp

@[simp] theorem expects_eq_ok {c : Bool} {s : String} {u : Unit} :
    expects c s = ok u ↔ c = true := by
  unfold expects; split <;> simp_all

@[simp] theorem expects_eq_throws {c : Bool} {s : String} {e : Err} :
    expects c s = throws e ↔ False := by
  unfold expects; split <;> simp_all

@[simp] theorem expects_eq_ub {c : Bool} {s t : String} :
    expects c s = ub t ↔ c = false ∧ s = t := by
  unfold expects; split <;> simp_all

theorem expects_true {c : Bool} {s : String} (h : c = true) : expects c s = ok () := by
  simp [expects, h]

/-- `try ... catch` that replaces an exception. -/
def catchWith (x : Outcome α) (f : Err → Err) : Outcome α :=
  match x with
  | ok a => ok a
  | throws e => throws (f e)
  | ub s => ub s

end Outcome
end Angonoka
