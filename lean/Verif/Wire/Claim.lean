import Verif.Wire.Serde
/-!
# Claim descriptions on the wire

`Claim`, `ClaimDefinition` and `Display` of crates/openid/src/issuer.rs with the hand-written reader of `Claim`.
A `HashMap` is a list of pairs; it is written in the order of the list, and reading inserts in the order of the text.
-/
namespace Verif.Wire

/-- `ValueType`, issuer.rs 1983-1998. -/
inductive ValueType where
  | string
  | number
  | image
deriving DecidableEq

/-- `Display`, issuer.rs 1579-1590. -/
structure Display where
  name : String
  locale : Option String := none

/-- `ClaimDefinition`, issuer.rs 1950-1979. -/
structure ClaimDefinition where
  mandatory : Option Bool := none
  valueType : Option ValueType := none
  display : Option (List Display) := none

/-- `Claim`, issuer.rs 1888-1897. -/
inductive Claim where
  | entry (d : ClaimDefinition)
  | set (m : List (String × Claim))

/-- The names of the value types (`rename_all = "snake_case"`), issuer.rs 1984. -/
def ValueType.ofName (s : String) : Option ValueType :=
  if s = "string" then some .string else if s = "number" then some .number else if s = "image" then some .image else none

/-- As `ValueType.ofName`, writing. issuer.rs 1984. -/
def ValueType.name : ValueType → String
  | .string => "string"
  | .number => "number"
  | .image => "image"

/-- Derived reader of `Display`, issuer.rs 1578. -/
def readDisplay (j : Json) : Option Display :=
  match structFields ["name", "locale"] j with
  | some [n, l] =>
    match required readStr n, optional readStr l with
    | some n, some l => some { name := n, locale := l }
    | _, _ => none
  | _ => none

/-- Derived writer of `Display`, issuer.rs 1578-1590. -/
def writeDisplay (d : Display) : Json := .obj ([("name", .str d.name)] ++ opt "locale" .str d.locale)

mutual

/-- `<Claim as Deserialize>::deserialize`, issuer.rs 1908-1945. -/
def readClaim : Json → Option Claim
  | .obj m => readMembers m {} []
  | _ => none

/-- The loop of `visit_map`, issuer.rs 1927-1941: `entry` and `set` as they are built up. -/
def readMembers : List (String × Json) → ClaimDefinition → List (String × Claim) → Option Claim
  | [], entry, set => some (if set.isEmpty then .entry entry else .set set)
  | (k, j) :: l, entry, set =>
    if k = "mandatory" then
      match readBool j with
      | some b => readMembers l { entry with mandatory := some b } set
      | none => none
    else if k = "value_type" then
      match readUnit ValueType.ofName j with
      | some t => readMembers l { entry with valueType := some t } set
      | none => none
    else if k = "display" then
      match readVec readDisplay j with
      | some d => readMembers l { entry with display := some d } set
      | none => none
    else
      match readClaim j with
      | some c => readMembers l entry (Dict.insert set k c)
      | none => none

end

/-- Derived writer of `ClaimDefinition`, issuer.rs 1949-1979. -/
def writeDefinition (d : ClaimDefinition) : List (String × Json) :=
  opt "mandatory" .bool d.mandatory ++ (opt "value_type" (fun t => .str t.name) d.valueType ++ opt "display" (writeVec writeDisplay) d.display)

mutual

/-- Derived writer of the untagged `Claim`, issuer.rs 1888-1897. -/
def writeClaim : Claim → Json
  | .entry d => .obj (writeDefinition d)
  | .set m => .obj (writeMembers m)

/-- The members of a `HashMap<String, Claim>` (the writer of the standard map). issuer.rs 1888-1897. -/
def writeMembers : List (String × Claim) → List (String × Json)
  | [] => []
  | (k, c) :: l => (k, writeClaim c) :: writeMembers l

end

/-- The reader of `HashMap<String, Claim>`: a later member replaces an earlier one of the same name. issuer.rs 1888-1897. -/
def readDict : Json → Option (List (String × Claim))
  | .obj m => go m []
  | _ => none
where
  go : List (String × Json) → List (String × Claim) → Option (List (String × Claim))
    | [], acc => some acc
    | (k, j) :: l, acc =>
      match readClaim j with
      | some c => go l (Dict.insert acc k c)
      | none => none

/-- The writer of `HashMap<String, Claim>`. issuer.rs 1888-1897. -/
def writeDict (m : List (String × Claim)) : Json := .obj (writeMembers m)

end Verif.Wire
