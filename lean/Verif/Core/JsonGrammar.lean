import Verif.Core.Data
/-!
# The grammar of JSON

What RFC 8259 says a JSON text is and what it means, to compare the reader with. This is specification and models no code: it says which texts
denote which values, with white space, escapes, and any way to write a character left to the writer.
-/
namespace Verif.Grammar
open Verif

/-- White space, RFC 8259 section 2. Specification; models no code. -/
def Ws (l : List Char) : Prop := ∀ c ∈ l, c = ' ' ∨ c = '\t' ∨ c = '\n' ∨ c = '\r'

/-- A hexadecimal digit of this value, in either case. Specification; models no code. -/
def Hex (c : Char) (v : Nat) : Prop := "0123456789abcdef".toList[v]? = some c ∨ "0123456789ABCDEF".toList[v]? = some c

/-- Four hexadecimal digits of this value. Specification; models no code. -/
def Hex4 (t : List Char) (n : Nat) : Prop :=
  ∃ a b c d x y z w, t = [a, b, c, d] ∧ Hex a x ∧ Hex b y ∧ Hex c z ∧ Hex d w ∧ n = x * 4096 + y * 256 + z * 16 + w

/-- The escapes of one letter, RFC 8259 section 7. Specification; models no code. -/
def shorts : List (Char × Nat) := [('"', 0x22), ('\\', 0x5C), ('/', 0x2F), ('b', 8), ('f', 12), ('n', 10), ('r', 13), ('t', 9)]

/-- The text between the quotes of a string, and the characters it stands for, RFC 8259 section 7. A character is written as itself, by a short
escape, by the four digits of its number, or by the four digits of each half of its surrogate pair. Specification; models no code. -/
inductive Chars : List Char → List Char → Prop
  | nil : Chars [] []
  | plain {c : Char} {t s : List Char} : c ≠ '"' → c ≠ '\\' → 0x20 ≤ c.toNat → Chars t s → Chars (c :: t) (c :: s)
  | short {e c : Char} {t s : List Char} : (e, c.toNat) ∈ shorts → Chars t s → Chars ('\\' :: e :: t) (c :: s)
  | digits {h : List Char} {c : Char} {t s : List Char} : Hex4 h c.toNat → Chars t s → Chars ('\\' :: 'u' :: h ++ t) (c :: s)
  | pair {h h' : List Char} {hi lo : Nat} {c : Char} {t s : List Char} : Hex4 h hi → Hex4 h' lo → 0xD800 ≤ hi → hi < 0xDC00 → 0xDC00 ≤ lo → lo < 0xE000 →
      c.toNat = 0x10000 + (hi - 0xD800) * 0x400 + (lo - 0xDC00) → Chars t s → Chars ('\\' :: 'u' :: h ++ '\\' :: 'u' :: h' ++ t) (c :: s)

/-- Decimal digits, at least one. Specification; models no code. -/
def Digits (d : List Char) : Prop := d ≠ [] ∧ ∀ c ∈ d, c ∈ "0123456789".toList

/-- A number, RFC 8259 section 6: a minus sign or none, digits without a needless zero in front, a fraction or none, an exponent or none.
Specification; models no code. -/
def Number (t : List Char) : Prop :=
  ∃ sign int frac exp, t = sign ++ int ++ frac ++ exp ∧ (sign = [] ∨ sign = ['-']) ∧ (int = ['0'] ∨ Digits int ∧ int.head? ≠ some '0') ∧
    (frac = [] ∨ ∃ d, Digits d ∧ frac = '.' :: d) ∧
    (exp = [] ∨ ∃ e s d, (e = 'e' ∨ e = 'E') ∧ (s = [] ∨ s = ['+'] ∨ s = ['-']) ∧ Digits d ∧ exp = e :: s ++ d)

/-- What a part of a text can stand for. Specification; models no code. -/
inductive Part
  | value (j : Json)
  | items (l : List Json)
  | members (m : List (String × Json))

/-- The text of a value, of what stands between the brackets of an array, and of what stands between the braces of an object, RFC 8259 sections 3 to
5. Specification; models no code. -/
inductive Text : Part → List Char → Prop
  | null : Text (.value .null) ['n', 'u', 'l', 'l']
  | true : Text (.value (.bool true)) ['t', 'r', 'u', 'e']
  | false : Text (.value (.bool false)) ['f', 'a', 'l', 's', 'e']
  | number {t : List Char} : Number t → Text (.value (.num (String.ofList t))) t
  | string {t s : List Char} : Chars t s → Text (.value (.str (String.ofList s))) ('"' :: t ++ ['"'])
  | noItems {w : List Char} : Ws w → Text (.value (.arr [])) ('[' :: w ++ [']'])
  | array {l : List Json} {t : List Char} : Text (.items l) t → Text (.value (.arr l)) ('[' :: t ++ [']'])
  | noMembers {w : List Char} : Ws w → Text (.value (.obj [])) ('{' :: w ++ ['}'])
  | object {m : List (String × Json)} {t : List Char} : Text (.members m) t → Text (.value (.obj m)) ('{' :: t ++ ['}'])
  | item {j : Json} {a t b : List Char} : Ws a → Text (.value j) t → Ws b → Text (.items [j]) (a ++ t ++ b)
  | items {j : Json} {l : List Json} {a t b u : List Char} : Ws a → Text (.value j) t → Ws b → Text (.items l) u →
      Text (.items (j :: l)) (a ++ t ++ b ++ ',' :: u)
  | member {s : List Char} {j : Json} {a k b c t d : List Char} : Ws a → Chars k s → Ws b → Ws c → Text (.value j) t → Ws d →
      Text (.members [(String.ofList s, j)]) (a ++ '"' :: k ++ '"' :: b ++ ':' :: c ++ t ++ d)
  | members {s : List Char} {j : Json} {m : List (String × Json)} {a k b c t d u : List Char} : Ws a → Chars k s → Ws b → Ws c → Text (.value j) t → Ws d →
      Text (.members m) u → Text (.members ((String.ofList s, j) :: m)) (a ++ '"' :: k ++ '"' :: b ++ ':' :: c ++ t ++ d ++ ',' :: u)

/-- A text says this value: the value's text with white space around it, RFC 8259 section 2. Specification; models no code. -/
def Denotes (text : List Char) (j : Json) : Prop := ∃ a t b, text = a ++ t ++ b ∧ Ws a ∧ Text (.value j) t ∧ Ws b

end Verif.Grammar
