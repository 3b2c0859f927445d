import Verif.Core.Percent
import Verif.Core.JsonParse
/-!
# Query strings

/repo/crates/core/src/urlencode.rs and /repo/crates/core/src/urlencode/ser.rs.
-/
namespace Verif

/-- What a value hands to a serializer (the data model of `serde`). Simplifications: floating-point numbers, byte strings and map keys other than
strings are left out; options, newtype structs and unit variants hand over what they contain.
The data model of `serde`, as /repo/crates/core/src/urlencode/ser.rs 60-520 takes it. -/
inductive SVal
  | bool (b : Bool)
  | int (n : Int)
  | str (s : String)
  | unit
  | seq (l : List SVal)
  | tuple (l : List SVal)
  | strct (fs : List (String × SVal))
  | map (es : List (String × SVal))
  | newtypeVariant (v : String) (x : SVal)
  | tupleVariant (v : String) (l : List SVal)
  | structVariant (v : String) (fs : List (String × SVal))

/-- `Serializer` (ser.rs 68-71). -/
structure Ser where
  out : List Char
  level : Nat

/-- Appending to the output. /repo/crates/core/src/urlencode/ser.rs 60-520, `self.output +=`. -/
def Ser.add (s : Ser) (l : List Char) : Ser := { s with out := s.out ++ l }
/-- `self.level += 1`. /repo/crates/core/src/urlencode/ser.rs 60-520. -/
def Ser.up (s : Ser) : Ser := { s with level := s.level + 1 }
/-- `self.level -= 1`. /repo/crates/core/src/urlencode/ser.rs 60-520. -/
def Ser.down (s : Ser) : Ser := { s with level := s.level - 1 }
/-- `self.level > TOP_LEVEL` (ser.rs 6). -/
def Ser.nested (s : Ser) : Bool := s.level > 1

/-- `serialize_str` (ser.rs 143-152): quoted below the top level, never escaped. -/
def Ser.str (s : Ser) (t : List Char) : Ser := if s.nested then s.add ('"' :: t ++ ['"']) else s.add t

/-- Adding a separator unless the output ends with an opening bracket (ser.rs 340, 418, 463). -/
def Ser.sep (s : Ser) (opening : Char) : Ser := if s.out.getLast? = some opening then s else s.add [',']

mutual
/-- The methods of `ser::Serializer` (ser.rs 73-324) with those of the compound serializers (332-519). -/
def ser : SVal → Ser → Ser
  | .bool b, s => s.add (if b then "true".toList else "false".toList)
  | .int n, s => s.add (intText n)
  | .str t, s => s.str t.toList
  | .unit, s => s.add "null".toList
  | .seq l, s => ((serElems l (s.up.add ['['])).add [']']).down
  | .tuple l, s => ((serElems l (s.up.up.add ['['])).add [']']).down
  | .strct fs, s =>
    let s := serFields fs (if s.up.nested then s.up.add ['{'] else s.up)
    if s.nested then (s.add ['}']).down else s
  | .map es, s => ((serEntries es (if s.up.nested then s.up.add ['{'] else s.up)).add ['}']).down
  | .newtypeVariant v x, s =>
    if s.up.nested then ((ser x (((s.up.add ['{']).str v.toList).add [':'])).add ['}']).down
    else (ser x ((s.up.str v.toList).add ['='])).down
  | .tupleVariant v l, s =>
    let s := serElems l (if s.up.nested then ((s.up.add ['{']).str v.toList).add [':', '['] else (s.up.str v.toList).add ['=', '['])
    if s.nested then (s.add [']', '}']).down else (s.add [']']).down
  | .structVariant v fs, s =>
    let s := serEntries fs (if s.up.nested then ((s.up.add ['{']).str v.toList).add [':', '{'] else (s.up.str v.toList).add ['=', '{'])
    if s.nested then (s.add ['}', '}']).down else (s.add ['}']).down
/-- Elements of sequences and tuples (ser.rs 336-344, 357-365, 378-386, 408-416). -/
def serElems : List SVal → Ser → Ser
  | [], s => s
  | x :: l, s => serElems l (ser x (s.sep '['))
/-- Fields of a struct (ser.rs 478-498). -/
def serFields : List (String × SVal) → Ser → Ser
  | [], s => s
  | (k, v) :: fs, s =>
    let s := if s.nested then s.sep '{' else if s.out.isEmpty then s else s.add ['&']
    let s := s.str k.toList
    serFields fs (ser v (s.add (if s.nested then [':'] else ['='])))
/-- Entries of a map (ser.rs 444-460); fields of a struct variant (508-519) are written the same way. -/
def serEntries : List (String × SVal) → Ser → Ser
  | [], s => s
  | (k, v) :: es, s => serEntries es (ser v (((s.sep '{').str k.toList).add [':']))
end

/-- `to_string` (ser.rs 43-56); it has no failing case for these values. -/
def urlEncode (v : SVal) : List Char := percentEncode (ser v { out := [], level := 0 }).out

/-- `str::replace` with a character. /repo/crates/core/src/urlencode.rs 55-56. -/
def replaceChar (c : Char) (to : List Char) (l : List Char) : List Char := l.flatMap fun x => if x = c then to else [x]

/-- `str::replace` with a pair of characters. /repo/crates/core/src/urlencode.rs 57-60. -/
def replacePair (a b : Char) (to : List Char) : List Char → List Char
  | x :: y :: l => if x = a ∧ y = b then to ++ replacePair a b to l else x :: replacePair a b to (y :: l)
  | l => l

/-- The text handed to `serde_json` by `from_str` (urlencode.rs 53-60). -/
def queryToJson (decoded : List Char) : List Char :=
  replacePair '}' '"' ['}'] <| replacePair '"' '{' ['{'] <| replacePair ']' '"' [']'] <| replacePair '"' '[' ['['] <|
    replaceChar '&' ['"', ',', '"'] <| replaceChar '=' ['"', ':', '"'] <| '{' :: '"' :: decoded ++ ['"', '}']

/-- `from_str` (urlencode.rs 46-63) up to the JSON value; building the target type from it is left to the type. -/
def urlDecode (lossy : List UInt8 → List Char) (s : List Char) : Option Json := parseJson (queryToJson (percentDecode lossy s))

end Verif
