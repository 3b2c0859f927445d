import Verif.Core.Data
/-!
# Rendering JSON text

Models the compact output of `serde_json` (`Value::to_string`, `serde_json::to_string`).
-/
namespace Verif

/-- Lower case hexadecimal digit. What `serde_json` writes, used at /repo/crates/test-utils/src/store/state.rs 24 and elsewhere. -/
def hexDigit (n : Nat) : Char := if n < 10 then Char.ofNat (48 + n) else Char.ofNat (87 + n)

/-- Escape of one character inside a JSON string, as `serde_json` writes it: quotes, backslashes and control characters. -/
def escapeChar (c : Char) : List Char :=
  if c = '"' then ['\\', '"']
  else if c = '\\' then ['\\', '\\']
  else if c.toNat = 8 then ['\\', 'b']
  else if c.toNat = 9 then ['\\', 't']
  else if c.toNat = 10 then ['\\', 'n']
  else if c.toNat = 12 then ['\\', 'f']
  else if c.toNat = 13 then ['\\', 'r']
  else if c.toNat < 32 then ['\\', 'u', '0', '0', hexDigit (c.toNat / 16), hexDigit (c.toNat % 16)]
  else [c]

/-- A JSON string literal. What `serde_json` writes, used at /repo/crates/test-utils/src/store/state.rs 24 and elsewhere. -/
def quoteChars (s : List Char) : List Char := '"' :: s.flatMap escapeChar ++ ['"']

/-- `serde_json::Value::String(s).to_string()`. -/
def jsonQuote (s : String) : String := String.ofList (quoteChars s.toList)

mutual
/-- Compact JSON text of a value (`Value::to_string`). Object members come in the order of the model's list; in `serde_json` they are
sorted by name. -/
def Json.chars : Json → List Char
  | .null => "null".toList
  | .bool b => if b then "true".toList else "false".toList
  | .num t => t.toList
  | .str s => quoteChars s.toList
  | .arr l => '[' :: Json.charsArr l ++ [']']
  | .obj m => '{' :: Json.charsObj m ++ ['}']
/-- Elements of an array, separated by commas. What `serde_json` writes, used at /repo/crates/test-utils/src/store/state.rs 24 and elsewhere. -/
def Json.charsArr : List Json → List Char
  | [] => []
  | [x] => Json.chars x
  | x :: y :: l => Json.chars x ++ ',' :: Json.charsArr (y :: l)
/-- Members of an object, separated by commas. What `serde_json` writes, used at /repo/crates/test-utils/src/store/state.rs 24 and elsewhere. -/
def Json.charsObj : List (String × Json) → List Char
  | [] => []
  | [(k, x)] => quoteChars k.toList ++ ':' :: Json.chars x
  | (k, x) :: y :: l => quoteChars k.toList ++ ':' :: Json.chars x ++ ',' :: Json.charsObj (y :: l)
end

/-- `Value::to_string`. What `serde_json` writes, used at /repo/crates/test-utils/src/store/state.rs 24 and elsewhere. -/
def Json.render (j : Json) : String := String.ofList j.chars

/-- Every escape is at least one character long. -/
theorem escapeChar_length (c : Char) : 1 ≤ (escapeChar c).length := by
  unfold escapeChar
  repeat' split
  all_goals simp

/-- A quoted string is longer than the string. -/
theorem jsonQuote_length (s : String) : s.length + 2 ≤ (jsonQuote s).length := by
  have : ∀ l : List Char, l.length ≤ (l.flatMap escapeChar).length := by
    intro l
    induction l with
    | nil => simp
    | cons c l ih =>
      have := escapeChar_length c
      simp only [List.length_cons, List.flatMap_cons, List.length_append]
      omega
  have h := this s.toList
  simp only [jsonQuote, quoteChars, String.length_ofList, List.length_append, List.length_cons, List.length_nil]
  simp only [String.length_toList] at h
  omega

/-- No string equals its own JSON text. -/
theorem jsonQuote_ne (s : String) : jsonQuote s ≠ s := by
  intro h
  have := jsonQuote_length s
  rw [h] at this
  omega

end Verif
