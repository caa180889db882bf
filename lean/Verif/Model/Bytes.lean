import Verif.Model.JsonText
import Verif.Model.Cli

/-!
# Names as bytes

In the other modules texts are lists of Unicode characters. The program has bytes, `std::string`s, and yaml-cpp copies those of a file that is not in UTF-16 or
UTF-32 as they are. Here a character of a text stands for a byte: a document of bytes is one whose characters are below 256. All that the program does with names
before it writes them is comparing them and asking if they are empty, which is the same for bytes. Writing is not: `output << std::setw(4) << json`
(`/repo/src/cli/schedule.cpp:202`, `/repo/src/cli/cli.cpp:171`) throws an exception if a text is not UTF-8. The library, nlohmann/json 3.10.4, is not in the repository: this is
written from knowledge of `serializer::dump_escaped` and `serializer::decode`, with the error handler `strict`, which is the default.
-/

namespace Angonoka.Bytes
open Angonoka Outcome Cli

/-- The class of a byte, the first 256 entries of the table `utf8d` in `serializer::decode` -/
def byteClass (b : UInt8) : Nat :=
  let n := b.toNat
  if n < 0x80 then 0 else if n < 0x90 then 1 else if n < 0xA0 then 9 else if n < 0xC0 then 7
  else if n < 0xC2 then 8 else if n < 0xE0 then 2
  else if n = 0xE0 then 10 else if n = 0xED then 4 else if n < 0xF0 then 3
  else if n = 0xF0 then 11 else if n < 0xF4 then 6 else if n = 0xF4 then 5 else 8

/-- The other entries of the table: the next state, by state and class -/
def transitions : List Nat :=
  [0, 1, 2, 3, 5, 8, 7, 1, 1, 1, 4, 6, 1, 1, 1, 1,
   1, 1, 1, 1, 1, 1, 1, 1, 1, 1, 1, 1, 1, 1, 1, 1,
   1, 0, 1, 1, 1, 1, 1, 0, 1, 0, 1, 1, 1, 1, 1, 1,
   1, 2, 1, 1, 1, 1, 1, 2, 1, 2, 1, 1, 1, 1, 1, 1,
   1, 1, 1, 1, 1, 1, 1, 2, 1, 1, 1, 1, 1, 1, 1, 1,
   1, 2, 1, 1, 1, 1, 1, 1, 1, 2, 1, 1, 1, 1, 1, 1,
   1, 1, 1, 1, 1, 1, 1, 3, 1, 3, 1, 1, 1, 1, 1, 1,
   1, 3, 1, 1, 1, 1, 1, 3, 1, 3, 1, 1, 1, 1, 1, 1,
   1, 3, 1, 1, 1, 1, 1, 1, 1, 1, 1, 1, 1, 1, 1, 1]

/-- `state` and `codepoint` in `serializer::dump_escaped` -/
structure Decoder where
  state : Nat
  codepoint : Nat

/-- `serializer::decode`; state 0 is `UTF8_ACCEPT`, 1 is `UTF8_REJECT` -/
def Decoder.step (d : Decoder) (b : UInt8) : Decoder where
  state := transitions.getD (d.state * 16 + byteClass b) 1
  codepoint := if d.state ≠ 0 then (b.toNat &&& 0x3f) ||| (d.codepoint <<< 6) else (0xff >>> byteClass b) &&& b.toNat

/-- A text of ASCII characters -/
def ascii (l : List Char) : List UInt8 := l.map fun c => UInt8.ofNat c.toNat

/-- What is written for a code point whose last byte is `b`; the earlier bytes have been copied. -/
def escaped (codepoint : Nat) (b : UInt8) : List UInt8 :=
  if codepoint = 0x08 then ascii ['\\', 'b']
  else if codepoint = 0x09 then ascii ['\\', 't']
  else if codepoint = 0x0A then ascii ['\\', 'n']
  else if codepoint = 0x0C then ascii ['\\', 'f']
  else if codepoint = 0x0D then ascii ['\\', 'r']
  else if codepoint = 0x22 then ascii ['\\', '"']
  else if codepoint = 0x5C then ascii ['\\', '\\']
  else if codepoint ≤ 0x1F then ascii ['\\', 'u', '0', '0', Json.hexDigit (codepoint / 16), Json.hexDigit (codepoint % 16)]
  else [b]

/-- The loop of `serializer::dump_escaped` and what follows it -/
def dumpEscaped : Decoder → List UInt8 → Outcome (List UInt8)
  | d, [] => if d.state = 0 then ok [] else throws .encoding
  | d, b :: bs =>
    if (d.step b).state = 0 then do
      let rest ← dumpEscaped (d.step b) bs
      return escaped (d.step b).codepoint b ++ rest
    else if (d.step b).state = 1 then throws .encoding
    else do
      let rest ← dumpEscaped (d.step b) bs
      return b :: rest

/-- The bytes that a text stands for -/
def bytesOf (s : String) : List UInt8 := ascii s.toList

/-- A string with its quotation marks -/
def quote (s : String) : Outcome (List UInt8) := do
  let l ← dumpEscaped ⟨0, 0⟩ (bytesOf s)
  return ascii ['"'] ++ l ++ ascii ['"']

mutual

/-- The bytes of a value, as `Json.dump` -/
def dump (indent : Nat) : Json → Outcome (List UInt8)
  | .int i => ok (ascii (Json.integer i))
  | .str s => quote s
  | .arr [] => ok (ascii ['[', ']'])
  | .arr (x :: xs) => do
    let x ← dump (indent + 4) x
    let xs ← dumpElements (indent + 4) xs
    return ascii ('[' :: Json.newLine (indent + 4)) ++ x ++ xs ++ ascii (Json.newLine indent ++ [']'])
  | .obj [] => ok (ascii ['{', '}'])
  | .obj ((k, x) :: ms) => do
    let k ← quote k
    let x ← dump (indent + 4) x
    let ms ← dumpMembers (indent + 4) ms
    return ascii ('{' :: Json.newLine (indent + 4)) ++ k ++ ascii [':', ' '] ++ x ++ ms ++ ascii (Json.newLine indent ++ ['}'])

/-- Further elements, as `Json.dumpElements` -/
def dumpElements (indent : Nat) : List Json → Outcome (List UInt8)
  | [] => ok []
  | x :: xs => do
    let x ← dump indent x
    let xs ← dumpElements indent xs
    return ascii (',' :: Json.newLine indent) ++ x ++ xs

/-- Further members, as `Json.dumpMembers` -/
def dumpMembers (indent : Nat) : List (String × Json) → Outcome (List UInt8)
  | [] => ok []
  | (k, x) :: ms => do
    let k ← quote k
    let x ← dump indent x
    let ms ← dumpMembers indent ms
    return ascii (',' :: Json.newLine indent) ++ k ++ ascii [':', ' '] ++ x ++ ms

end

variable {K : Type} [Field K] [LinearOrder K] [IsStrictOrderedRing K] [FloorRing K]

/-- `save_schedule_json` and `save_prediction_json` (`cli/schedule.cpp:190-216`, `cli/cli.cpp:159-185`). `nlohmann::json::type_error` is not a `std::runtime_error`: nobody
catches it, and the process ends without writing what is in the stream's buffer. -/
def saveJson (m : Machine K) (o : Options K) (failure success : String) (j : Json) : Io K Unit := do
  Io.lift (expects (o.output != "") "save_json: output not empty")
  Io.lift (expects (!isEmptyJson j) "save_json: json not empty")
  if m.writable then
    match dump 0 j with
    | ok _ => do
      Io.emit [if m.room then .file o.output j else .truncated o.output]
      print o success
    | throws e => do
      Io.emit [.truncated o.output]
      Io.lift (throws e)
    | ub s => Io.lift (ub s)
  else do
    printError o failure
    Io.fail

/-- `main` after the command line has been parsed, inside its `try` (`main.cpp:175-191`) -/
def body (E : FloatEnv K) (m : Machine K) (c : Command) (o : Options K) : Io K Unit := do
  let config ← parseConfig m o
  match c with
  | .schedule => do
    let j ← jsonSchedule E m config o
    saveJson m o "Error saving the schedule:\n" ("Saving the optimized schedule to \"" ++ o.output ++ "\".\n") j
  | .predict => do
    let j ← runPrediction E m config o
    saveJson m o "Error saving the prediction results:\n" ("Time estimation written to \"" ++ o.output ++ "\"\n") j

end Angonoka.Bytes
