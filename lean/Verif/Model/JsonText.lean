import Verif.Model.Json

/-!
# The text of a JSON value

`output << std::setw(4) << json` (`/repo/src/cli/schedule.cpp:202`, `/repo/src/cli/cli.cpp:171`). The library, nlohmann/json 3.10.4, is not in the
repository: this is written from knowledge of its serializer (`dump` with an indentation of four spaces, without `ensure_ascii`). Texts are lists of
characters; the program writes them as UTF-8. Only the kinds of values that occur are here: whole numbers, strings, arrays and objects.
-/

namespace Angonoka.Json
open Angonoka

/-- A hexadecimal digit as `%x` prints it -/
def hexDigit (n : Nat) : Char := Nat.digitChar n

/-- A character in a string -/
def escape (c : Char) : List Char :=
  if c = '"' then ['\\', '"']
  else if c = '\\' then ['\\', '\\']
  else if c.toNat = 8 then ['\\', 'b']
  else if c.toNat = 9 then ['\\', 't']
  else if c.toNat = 10 then ['\\', 'n']
  else if c.toNat = 12 then ['\\', 'f']
  else if c.toNat = 13 then ['\\', 'r']
  else if c.toNat < 32 then ['\\', 'u', '0', '0', hexDigit (c.toNat / 16), hexDigit (c.toNat % 16)]
  else [c]

/-- A string with its quotation marks -/
def quote (s : String) : List Char := '"' :: (s.toList.flatMap escape ++ ['"'])

/-- A whole number -/
def integer (i : Int) : List Char := if i < 0 then '-' :: Nat.toDigits 10 i.natAbs else Nat.toDigits 10 i.natAbs

/-- A new line, indented -/
def newLine (indent : Nat) : List Char := '\n' :: List.replicate indent ' '

mutual

/-- The text of a value; `indent` is the indentation of the line it starts on. -/
def dump (indent : Nat) : Json → List Char
  | .int i => integer i
  | .str s => quote s
  | .arr [] => ['[', ']']
  | .arr (x :: xs) => '[' :: (newLine (indent + 4) ++ (dump (indent + 4) x ++ (dumpElements (indent + 4) xs ++ (newLine indent ++ [']']))))
  | .obj [] => ['{', '}']
  | .obj ((k, x) :: ms) =>
    '{' :: (newLine (indent + 4) ++ (quote k ++ (':' :: ' ' :: (dump (indent + 4) x ++ (dumpMembers (indent + 4) ms ++ (newLine indent ++ ['}']))))))

/-- Further elements -/
def dumpElements (indent : Nat) : List Json → List Char
  | [] => []
  | x :: xs => ',' :: (newLine indent ++ (dump indent x ++ dumpElements indent xs))

/-- Further members -/
def dumpMembers (indent : Nat) : List (String × Json) → List Char
  | [] => []
  | (k, x) :: ms => ',' :: (newLine indent ++ (quote k ++ (':' :: ' ' :: (dump indent x ++ dumpMembers indent ms))))

end

/-- What is in the output file -/
def fileText (j : Json) : String := String.ofList (dump 0 j)

end Angonoka.Json
