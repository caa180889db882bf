import Verif.Model.Cli

/-!
# The command line

Model of the options in `/repo/src/main.cpp:11-153` and of `parse_opt_params` (`/repo/src/cli/cli.cpp:147-157`).

The library is CLI11, in version 2.1.1 according to `/repo/conan.lock`. It is not in the repository; what is used of it here: an option is
accepted if all its validators accept its text and the text can be converted to its type; `int` is read by `strtoll` with base
0 (a leading 0 means octal) and must have no further characters; `float` is read by `strtold`; `PositiveNumber` reads the text as
a `double`, in the same way, and refuses it if it is smaller than the smallest positive normal number or greater than the
greatest number. Not modelled: how the arguments are split into options, and texts of messages.
-/

namespace Angonoka.CommandLine
open Angonoka Outcome Cli

/-- `std::isspace` -/
def isSpace (c : Char) : Bool :=
  c == ' ' || c == '\t' || c == '\n' || c == '\x0b' || c == '\x0c' || c == '\r'

/-- The value of a digit, up to base 16 -/
def digit (c : Char) : Option Nat :=
  if '0' ≤ c ∧ c ≤ '9' then some (c.toNat - 48)
  else if 'a' ≤ c ∧ c ≤ 'f' then some (c.toNat - 87)
  else if 'A' ≤ c ∧ c ≤ 'F' then some (c.toNat - 55)
  else none

/-- Digits of the given base -/
def isDigit (base : Nat) (c : Char) : Bool :=
  match digit c with
  | some d => decide (d < base)
  | none => false

/-- The value of a list of digits -/
def number (base : Nat) (cs : List Char) : Nat := cs.foldl (fun n c => n * base + (digit c).getD 0) 0

/-- Skip white space and a sign: is it negative, and the rest. -/
def sign (cs : List Char) : Bool × List Char :=
  match cs.dropWhile isSpace with
  | '-' :: r => (true, r)
  | '+' :: r => (false, r)
  | r => (false, r)

/-- The base that `strtoll` uses if it is told 0, and the digits -/
def baseOf : List Char → Nat × List Char
  | '0' :: 'x' :: r => (16, r)
  | '0' :: 'X' :: r => (16, r)
  | '0' :: r => (8, '0' :: r)
  | r => (10, r)

/-- The number with the given sign -/
def signed (negative : Bool) (n : Nat) : Int := if negative then -n else n

/-- `int` has 32 bits. -/
def isInt (v : Int) : Bool := decide (-2 ^ 31 ≤ v ∧ v < 2 ^ 31)

/-- CLI11's conversion to `int`: `strtoll` with base 0 has to consume the whole text, and the number has to be an `int`. -/
def toInt (text : String) : Option Int :=
  let s := sign text.toList
  let b := baseOf s.2
  let v := signed s.1 (number b.1 b.2)
  if b.2 ≠ [] ∧ b.2.all (isDigit b.1) ∧ isInt v then some v else none

/-- `std::stoi`: base 10, further characters are ignored; `none`: it throws. -/
def stoi (text : String) : Option Int :=
  let s := sign text.toList
  let ds := s.2.takeWhile (isDigit 10)
  let v := signed s.1 (number 10 ds)
  if ds ≠ [] ∧ isInt v then some v else none

/-- `power_of_2_validator` (`main.cpp:20-30`); `none`: no complaint. The conversion to `unsigned int` is modulo 2³². -/
def powerOf2Validator (text : String) : Option String :=
  match stoi text with
  | some i => if Stun.hasSingleBit (i % 2 ^ 32).toNat then none else some "Must be a power of 2"
  | none => some "Must be a number"

/-- `strtold` on the whole text -/
abbrev ReadReal := String → Option XFloat

/-- `CLI::PositiveNumber`. The comparisons are written so that `nan` is accepted. -/
def positiveNumber (read : ReadReal) (text : String) : Bool :=
  match read text with
  | some (.fin q) => !(decide (q < 2 ^ (-1022 : Int)) || decide (q > (2 ^ 53 - 1) * 2 ^ 971))
  | some .nan => true
  | some .pinf => false
  | some .ninf => false
  | none => false

/-- An option of type `int` with the validator `PositiveNumber`; `none`: rejected -/
def intOption (read : ReadReal) (default : Int) : Option String → Option Int
  | none => some default
  | some text => if positiveNumber read text then toInt text else none

/-- `--restart-period` (`main.cpp:71-77`) -/
def restartPeriod (read : ReadReal) (default : Int) : Option String → Option Int
  | none => some default
  | some text =>
    if positiveNumber read text ∧ powerOf2Validator text = none then toInt text else none

/-- What becomes of the text of an option of type `float` -/
inductive Reading (K : Type) where
  | rejected
  /-- infinite or not a number -/
  | special
  | value (x : K)

variable {K : Type} [Field K] [LinearOrder K] [IsStrictOrderedRing K]

/-- An option of type `float` with the validator `PositiveNumber`. Numbers from 2¹²⁸ - 2¹⁰³ on become infinite. -/
def floatOption (E : FloatEnv K) (read : ReadReal) (default : K) : Option String → Reading K
  | none => .value default
  | some text =>
    if positiveNumber read text then
      match read text with
      | some (.fin q) => if q < 2 ^ 128 - 2 ^ 103 then .value (E.rnd (q : K)) else .special
      | _ => .special
    else .rejected

/-- The arguments of the program; `none` for options that are not given -/
structure Arguments where
  input : String
  output : Option String := none
  quiet : Bool := false
  verbose : Bool := false
  color : Option Bool := none
  logOptimization : Bool := false
  batchSize : Option String := none
  maxIdleIters : Option String := none
  betaScale : Option String := none
  stunWindow : Option String := none
  gamma : Option String := none
  restartPeriod : Option String := none
  binSize : Option String := none

/-- The result of parsing the command line -/
inductive Parsed (K : Type) where
  | rejected
  /-- accepted, but a `float` is infinite or not a number; the rest of the program is not modelled for these -/
  | special
  | accepted (o : Options K)

/-- `--histogram-bin-size` (`main.cpp:146-151`), not allowed together with the subcommand `schedule` (`main.cpp:172-173`) -/
def binSizeOption (read : ReadReal) (c : Command) : Option String → Option (Option Int)
  | none => some none
  | some text =>
    if c = .schedule then none
    else if positiveNumber read text then (toInt text).map some else none

/-- The name of the output file if none is given (`main.cpp:120`, `main.cpp:143`) -/
def defaultOutput : Command → String
  | .schedule => "schedule.json"
  | .predict => "time_estimation.json"

/-- The command line as defined in `optimization_options`, `common_options`, `schedule_subcommand` and `default_group`
(`main.cpp:38-153`), with the default values of `project.h:133-151`. `isFile`: the file exists; `terminal`: the standard
output is a terminal (`cli/options.h:57`). The integers are natural numbers afterwards, see `Cli.Options`. -/
def parse (E : FloatEnv K) (read : ReadReal) (isFile : String → Bool) (terminal : Bool) (c : Command)
    (a : Arguments) : Parsed K :=
  if isFile a.input then
    match intOption read 10000 a.batchSize, intOption read 100000 a.maxIdleIters, intOption read 100 a.stunWindow,
      restartPeriod read 256 a.restartPeriod, binSizeOption read c a.binSize,
      floatOption E read (E.rnd (1 / 1000)) a.betaScale, floatOption E read 2 a.gamma with
    | some batch, some idle, some window, some period, some bin, .value beta, .value gamma =>
      .accepted {
        filename := a.input, verbose := a.verbose, color := a.color.getD terminal, quiet := a.quiet,
        output := a.output.getD (defaultOutput c),
        opt := { batchSize := batch.toNat, maxIdleIters := idle.toNat, betaScale := beta, stunWindow := window.toNat,
                 gamma := gamma, restartPeriod := period.toNat },
        logOptimization := a.logOptimization, binSize := bin }
    | some _, some _, some _, some _, some _, .special, .value _ => .special
    | some _, some _, some _, some _, some _, .value _, .special => .special
    | some _, some _, some _, some _, some _, .special, .special => .special
    | _, _, _, _, _, _, _ => .rejected
  else .rejected

end Angonoka.CommandLine
