import Verif.Base
import Verif.Core.Json
import Verif.W3c.Model
/-!
# DIF Presentation Exchange

Models /repo/crates/dif-exch/src/lib.rs and matcher.rs. The JSONPath, regular expression and date parsers are external crates
(`serde_json_path`, `regex`, `chrono`); they are parameters.
-/
namespace Verif.Dif

/-- External libraries used by the matcher. /repo/crates/dif-exch/src/matcher.rs 54-150, where they are called. -/
structure Ext where
  /-- `JsonPath::parse(path)` then `.query(value).all()`; `none` if the path does not parse. -/
  query : String → Json → Option (List Json)
  /-- `Regex::new(pattern)` then `.captures(text).is_some()`; `none` if the pattern is invalid. -/
  regex : String → String → Option Bool
  /-- `NaiveDate::parse_from_str(s, "%Y-%m-%d").is_ok()` -/
  isDate : String → Bool
  /-- `DateTime::parse_from_rfc3339(s).is_ok()` -/
  isDateTime : String → Bool

/-- `FilterValue`, lib.rs 229-239. -/
inductive FilterValue where
  | const (s : String)
  | pattern (s : String)
  | format (s : String)
  deriving DecidableEq, Repr

/-- `Filter`, lib.rs 216-224. -/
structure Filter where
  type_ : String
  value : FilterValue
  deriving DecidableEq, Repr

/-- `Field`, lib.rs 159-210. -/
structure Field where
  path : List String
  filter : Option Filter := none
  optional : Option Bool := none
  id : Option String := none
  predicate : Option String := none
  purpose : Option String := none
  name : Option String := none
  intentToRetain : Option Bool := none
  deriving DecidableEq, Repr

/-- `Constraints`, lib.rs 128-153. -/
structure Constraints where
  fields : Option (List Field) := none
  limitDisclosure : Option String := none
  deriving DecidableEq, Repr

/-- `ClaimFormat`, lib.rs 113-123. -/
structure ClaimFormat where
  alg : Option (List String) := none
  proofType : Option (List String) := none
  deriving DecidableEq, Repr

/-- `InputDescriptor`, lib.rs 75-101. -/
structure InputDescriptor where
  id : String
  name : Option String := none
  purpose : Option String := none
  format : Option (Dict ClaimFormat) := none
  constraints : Constraints
  deriving DecidableEq, Repr

/-- `PresentationDefinition`, lib.rs 39-70. -/
structure PresentationDefinition where
  id : String
  inputDescriptors : List InputDescriptor
  name : Option String := none
  purpose : Option String := none
  format : Option (Dict ClaimFormat) := none
  deriving DecidableEq, Repr

/-- `PathNested`, lib.rs 302-309. -/
structure PathNested where
  format : String
  path : String
  deriving DecidableEq, Repr

/-- `DescriptorMap`, lib.rs 275-297. -/
structure DescriptorMap where
  id : String
  format : String
  path : String
  pathNested : PathNested
  deriving DecidableEq, Repr

/-- `PresentationSubmission`, lib.rs 252-262. -/
structure PresentationSubmission where
  id : String
  definitionId : String
  descriptorMap : List DescriptorMap
  deriving DecidableEq, Repr

/-- Whether a JSON value is the given string. /repo/crates/dif-exch/src/matcher.rs 102-120. -/
def isStr (c : String) : Json → Bool
  | .str s => s == c
  | _ => false

/-- `match_const`, matcher.rs 102-120. The constant becomes the JSON value `"c"`; a string node is compared with the *text* of that
value, a number's text with the constant, `as_bool()` of a string is `None`, and an object node is `unimplemented!`. -/
def matchConst (c : String) : Json → Res Bool
  | .arr l => .ok (l.any (isStr c))
  | .str s => .ok (s == jsonQuote c)
  | .num t => .ok (t == c)
  | .bool _ => .ok false
  | .null => .ok true
  | .obj _ => .error (.panic "object matching not implemented")

/-- `match_pattern`, matcher.rs 123-132: the pattern is searched in the JSON text of the node. -/
def matchPattern (x : Ext) (p : String) (n : Json) : Res Bool :=
  orErr (x.regex p n.render) (.serverError "invalid regex pattern")

/-- `match_format`, matcher.rs 135-151. -/
def matchFormat (x : Ext) (f : String) (n : Json) : Res Bool :=
  if f = "date" then .ok (match n with | .str s => x.isDate s | _ => false)
  else if f = "date-time" then .ok (match n with | .str s => x.isDateTime s | _ => false)
  else .error (.panic "format matching not implemented")

/-- `FilterValue::matched`, matcher.rs 90-96. -/
def FilterValue.matched (x : Ext) : FilterValue → Json → Res Bool
  | .const c, n => matchConst c n
  | .pattern p, n => matchPattern x p n
  | .format f, n => matchFormat x f n

/-- The loop of `Field::matched`, matcher.rs 56-83: the first path with a result decides, by its first node. -/
def matchedLoop (x : Ext) (filter : Option Filter) (vc : Json) : List String → Res Bool
  | [] => .ok false
  | p :: ps =>
    match x.query p vc with
    | none => .error (.serverError "Invalid JSONPath")
    | some [] => matchedLoop x filter vc ps
    | some (n :: _) =>
      match filter with
      | none => .ok true
      | some f => f.value.matched x n

/-- `Field::matched`, matcher.rs 54-84. -/
def Field.matched (x : Ext) (f : Field) (vc : Json) : Res Bool := matchedLoop x f.filter vc f.path

/-- `field.matched(..).unwrap_or_default()`: errors become `false`, a panic stays one. /repo/crates/dif-exch/src/matcher.rs 38. -/
def Field.matchedOrFalse (x : Ext) (f : Field) (vc : Json) : Res Bool :=
  match f.matched x vc with
  | .ok b => .ok b
  | .error (.panic m) => .error (.panic m)
  | .error _ => .ok false

/-- The loop of `Constraints::satisfied`, matcher.rs 36-44. -/
def satisfiedLoop (x : Ext) (vc : Json) : List Field → Res Bool
  | [] => .ok true
  | f :: fs =>
    match f.matchedOrFalse x vc with
    | .error e => .error e
    | .ok b => if !b && !f.optional.getD false then .ok false else satisfiedLoop x vc fs

/-- `Constraints::satisfied`, matcher.rs 27-45. The argument is the result of `claims.to_json()`. -/
def Constraints.satisfied (x : Ext) (c : Constraints) (claims : Option Json) : Res Bool :=
  match c.fields with
  | none => .ok true
  | some fields =>
    match claims with
    | none => .error (.serverError "error serializing credential")
    | some vc => satisfiedLoop x vc fields

end Verif.Dif
