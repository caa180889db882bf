import Verif.Base.Outcome

/-!
# Duration parser

Model of `/repo/src/config/parse_duration.rl.cpp`, a Ragel state machine. The generated
C++ is not part of the repository; the definitions below are the deterministic
machine that the grammar in lines 18-27 denotes, written out by hand:

```
number  = digit+ >num;
seconds = ('s' | space ('sec' | 'second') 's'?) %add_seconds;   (likewise m, h, d, w, months)
duration = number space* (seconds | ... | months);
and = space+ 'and' space+;
main := duration ((and | space*) duration)*;
```

The leaving actions (`%add_seconds`, ...) run on the transition out of a finished
unit and at the end of the text. The pointer `n` to the first digit of the current number and the later
`atoi(n)` are modelled by the value of the digits.
-/

namespace Angonoka.DurationParser

/-- Ragel's `space`: `[\t\v\f\n\r ]`. -/
def isSpace (c : Char) : Bool :=
  c = ' ' || c = '\t' || c = '\n' || c = '\r' || c = Char.ofNat 11 || c = Char.ofNat 12

/-- Ragel's `digit`. -/
def digitValue? (c : Char) : Option Nat :=
  if '0' ≤ c ∧ c ≤ '9' then some (c.toNat - '0'.toNat) else none

/-- Units of `std::chrono` in seconds (lines 10-15); a month is 2629746 s. -/
inductive Unit' where
  | second | minute | hour | day | week | month
  deriving DecidableEq, Repr

/-- Length of a unit in seconds (`std::chrono`). -/
def Unit'.seconds : Unit' → Nat
  | .second => 1
  | .minute => 60
  | .hour => 3600
  | .day => 86400
  | .week => 604800
  | .month => 2629746

/-- Single letters accepted directly after the number or after spaces (lines 19-23). -/
def shortUnit? (c : Char) : Option Unit' :=
  if c = 's' then some .second
  else if c = 'm' then some .minute
  else if c = 'h' then some .hour
  else if c = 'd' then some .day
  else if c = 'w' then some .week
  else none

/-- Words accepted after at least one space (lines 19-24), single letters included. -/
def words : List (List Char × Unit') :=
  [ (['s'], .second), (['m'], .minute), (['h'], .hour), (['d'], .day), (['w'], .week),
    (['s','e','c'], .second), (['s','e','c','s'], .second),
    (['s','e','c','o','n','d'], .second), (['s','e','c','o','n','d','s'], .second),
    (['m','i','n'], .minute), (['m','i','n','s'], .minute),
    (['m','i','n','u','t','e'], .minute), (['m','i','n','u','t','e','s'], .minute),
    (['h','o','u','r'], .hour), (['h','o','u','r','s'], .hour),
    (['d','a','y'], .day), (['d','a','y','s'], .day),
    (['w','e','e','k'], .week), (['w','e','e','k','s'], .week),
    (['m','o','n','t','h'], .month), (['m','o','n','t','h','s'], .month) ]

/-- States of the machine. -/
inductive State where
  /-- nothing read -/
  | start
  /-- inside a number -/
  | num
  /-- after a number and at least one space -/
  | numSp
  /-- after a one-letter unit that directly follows the number -/
  | short (u : Unit')
  /-- inside a word that follows a number and spaces -/
  | word (w : List Char)
  /-- after a complete component and at least one space -/
  | sep
  /-- after `a` of `and` -/
  | a
  /-- after `an` -/
  | an
  /-- after `and` -/
  | and
  /-- after `and` and at least one space -/
  | andSp
  deriving DecidableEq, Repr

/-- Registers: the sum `v` and the current number `n`. -/
structure Regs where
  v : Nat := 0
  n : Nat := 0
  deriving DecidableEq, Repr

/-- The unit completed in a state, if the state is final. -/
def finalUnit? : State → Option Unit'
  | .short u => some u
  | .word w => (words.find? (fun p => p.1 = w)).map Prod.snd
  | _ => none

/-- Leaving action (lines 10-15). `std::atoi` is undefined if the value does not fit an
`int`, the addition if the sum does not fit the 64 bits of `std::chrono::seconds`. -/
def addUnit (u : Unit') (r : Regs) : Outcome Regs :=
  if r.n ≤ 2147483647 then
    if r.v + r.n * u.seconds < 2 ^ 63 then .ok { v := r.v + r.n * u.seconds, n := r.n }
    else .ub "parse_duration: overflow"
  else .ub "atoi: out of range"

/-- One transition on character `c`; `none` is the error state. -/
def step (s : State) (r : Regs) (c : Char) : Outcome (Option (State × Regs)) :=
  match s with
  | .start =>
    match digitValue? c with
    | some d => .ok (some (.num, { r with n := d }))
    | none => .ok none
  | .num =>
    match digitValue? c with
    | some d => .ok (some (.num, { r with n := r.n * 10 + d }))
    | none =>
      if isSpace c then .ok (some (.numSp, r))
      else .ok ((shortUnit? c).map fun u => (.short u, r))
  | .numSp =>
    if isSpace c then .ok (some (.numSp, r))
    else if (shortUnit? c).isSome then .ok (some (.word [c], r))
    else .ok none
  | .short u =>
    match digitValue? c with
    | some d => do
      let r ← addUnit u r
      return some (.num, { r with n := d })
    | none =>
      if isSpace c then do
        let r ← addUnit u r
        return some (.sep, r)
      else .ok none
  | .word w =>
    if words.any (fun p => (w ++ [c]).isPrefixOf p.1) then .ok (some (.word (w ++ [c]), r))
    else
      match finalUnit? (.word w) with
      | none => .ok none
      | some u =>
        match digitValue? c with
        | some d => do
          let r ← addUnit u r
          return some (.num, { r with n := d })
        | none =>
          if isSpace c then do
            let r ← addUnit u r
            return some (.sep, r)
          else .ok none
  | .sep =>
    match digitValue? c with
    | some d => .ok (some (.num, { r with n := d }))
    | none =>
      if isSpace c then .ok (some (.sep, r))
      else if c = 'a' then .ok (some (.a, r))
      else .ok none
  | .a => if c = 'n' then .ok (some (.an, r)) else .ok none
  | .an => if c = 'd' then .ok (some (.and, r)) else .ok none
  | .and => if isSpace c then .ok (some (.andSp, r)) else .ok none
  | .andSp =>
    match digitValue? c with
    | some d => .ok (some (.num, { r with n := d }))
    | none => if isSpace c then .ok (some (.andSp, r)) else .ok none

/-- `write exec` and the test of the final state (lines 46-51): `none` if the text is not in the
language. -/
def run (s : State) (r : Regs) : List Char → Outcome (Option Nat)
  | [] =>
    match finalUnit? s with
    | some u => do
      let r ← addUnit u r
      return some r.v
    | none => .ok none
  | c :: rest => do
    match ← step s r c with
    | some (s', r') => run s' r' rest
    | none => return none

end Angonoka.DurationParser

namespace Angonoka

/-- `parse_duration` (`/repo/src/config/parse_duration.rl.cpp:35-52`), in seconds. -/
def parseDuration (text : String) : Outcome Nat := do
  if text.isEmpty then .throws (.duration text)
  else
    match ← DurationParser.run .start {} text.toList with
    | some v => return v
    | none => .throws (.duration text)

end Angonoka
