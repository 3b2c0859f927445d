import Verif.Core.Data
/-!
# Another way to write JSON

How other programs write JSON, to see what the reader makes of it. Specification; models no code of the repository.
-/
namespace Verif.Grammar
open Verif

/-- A hexadecimal digit. Specification; models no code. -/
def hexChar (v : Nat) : Char := "0123456789abcdef".toList.getD v '0'

/-- Four hexadecimal digits. Specification; models no code. -/
def hexChars (n : Nat) : List Char := [hexChar (n / 4096), hexChar (n / 256 % 16), hexChar (n / 16 % 16), hexChar (n % 16)]

/-- A character as a program writes it that keeps to printable ASCII, such as `json.dumps` of Python.
Specification; models no code. -/
def asciiChar (c : Char) : List Char :=
  if c = '"' then ['\\', '"']
  else if c = '\\' then ['\\', '\\']
  else if c.toNat = 8 then ['\\', 'b']
  else if c.toNat = 9 then ['\\', 't']
  else if c.toNat = 10 then ['\\', 'n']
  else if c.toNat = 12 then ['\\', 'f']
  else if c.toNat = 13 then ['\\', 'r']
  else if 0x20 ≤ c.toNat ∧ c.toNat ≤ 0x7E then [c]
  else if c.toNat < 0x10000 then '\\' :: 'u' :: hexChars c.toNat
  else '\\' :: 'u' :: hexChars (0xD800 + (c.toNat - 0x10000) / 0x400) ++ '\\' :: 'u' :: hexChars (0xDC00 + (c.toNat - 0x10000) % 0x400)

/-- A string. Specification; models no code. -/
def asciiQuote (s : String) : List Char := '"' :: s.toList.flatMap asciiChar ++ ['"']

mutual
/-- A value, as Python's `json.dumps` writes it: printable ASCII only, with a space after each comma and colon. Specification; models no code. -/
def dumps : Json → List Char
  | .null => "null".toList
  | .bool b => if b then "true".toList else "false".toList
  | .num t => t.toList
  | .str s => asciiQuote s
  | .arr l => '[' :: dumpsArr l ++ [']']
  | .obj m => '{' :: dumpsObj m ++ ['}']
/-- The elements of an array. Specification; models no code. -/
def dumpsArr : List Json → List Char
  | [] => []
  | [x] => dumps x
  | x :: y :: l => dumps x ++ ',' :: ' ' :: dumpsArr (y :: l)
/-- The members of an object. Specification; models no code. -/
def dumpsObj : List (String × Json) → List Char
  | [] => []
  | [(k, x)] => asciiQuote k ++ ':' :: ' ' :: dumps x
  | (k, x) :: y :: l => asciiQuote k ++ ':' :: ' ' :: dumps x ++ ',' :: ' ' :: dumpsObj (y :: l)
end

end Verif.Grammar
