import Verif.Mdl.Cbor
/-!
# The bytes of an mDL

What /repo/crates/iso-mdl/src writes, byte for byte, and what the same types read back. The `Codec` of Mdl/Model.lean is filled in here except for SHA-256.
-/
namespace Verif.Mdl

/-! ### Values -/

mutual

/-- `cbor!(v)?`, lib.rs 56: a JSON value as a CBOR value (`serde_json`'s `Serialize`). `num` is what a number becomes. -/
def toCbor (num : String → Cbor) : Json → Cbor
  | .null => .null
  | .bool b => .bool b
  | .num t => num t
  | .str s => .text s
  | .arr l => .arr (toCborList num l)
  | .obj m => .map (toCborEntries num m)

/-- The same, of the values of an array. -/
def toCborList (num : String → Cbor) : List Json → List Cbor
  | [] => []
  | j :: l => toCbor num j :: toCborList num l

/-- The same, of the members of an object. -/
def toCborEntries (num : String → Cbor) : List (String × Json) → List (Cbor × Cbor)
  | [] => []
  | (k, j) :: m => (.text k, toCbor num j) :: toCborEntries num m

end

/-- `Vec<u8>` by serde's own `Serialize`: a sequence of numbers, not a byte string.
/repo/crates/iso-mdl/src/mso.rs and /repo/crates/iso-mdl/src/mdoc.rs, whose types are written this way. -/
def octets (b : Bytes) : Cbor := .arr (b.map fun x => .int x.toNat)

/-- What `Tag24::to_vec` of the external crate vercre-infosec gives: the tagged byte string, as ISO/IEC 18013-5 has it, or the bytes inside of it, as the test in lib.rs
130 has it. The source of that crate is not at hand, so both are looked at. -/
inductive TagVec where
  | whole
  | inner
  deriving DecidableEq, Repr

/-- `#6.24(bstr)`, mdoc.rs 52-54. -/
def tag24 (raw : Bytes) : Cbor := .tag 24 (.bytes raw)

/-- `Tag24::to_vec` where the bytes inside are `raw`.
/repo/crates/iso-mdl/src/mso.rs and /repo/crates/iso-mdl/src/mdoc.rs, whose types are written this way. -/
def TagVec.over (t : TagVec) (raw : Bytes) : Bytes :=
  match t with
  | .whole => (tag24 raw).encode
  | .inner => raw

/-- What is not fixed by the code: the form of numbers, of the device key (`CoseKey`), of times (`to_rfc3339_opts`), SHA-256 and `Tag24::to_vec`. -/
structure World where
  num : String → Cbor
  key : Bytes → Cbor
  time : Int → String
  sha256 : Bytes → Bytes
  tagVec : TagVec

/-- `IssuerSignedItem`, mdoc.rs 57-71: no `rename_all`. -/
def itemCbor (W : World) (x : Item) : Cbor := .map [
  (.text "digest_id", .int x.digestId),
  (.text "random", octets x.random),
  (.text "element_identifier", .text x.identifier),
  (.text "element_value", toCbor W.num x.value)]

/-- The order of the bytes of texts in UTF-8, which is the order of their characters.
/repo/crates/iso-mdl/src/mso.rs and /repo/crates/iso-mdl/src/mdoc.rs, whose types are written this way. -/
def textLe : List Char → List Char → Bool
  | [], _ => true
  | _ :: _, [] => false
  | a :: x, b :: y => if a.toNat = b.toNat then textLe x y else decide (a.toNat < b.toNat)

/-- Putting an entry where it belongs. /repo/crates/iso-mdl/src/mso.rs and /repo/crates/iso-mdl/src/mdoc.rs, whose types are written this way. -/
def place {α : Type} (le : α → α → Bool) (x : α) : List α → List α
  | [] => [x]
  | y :: l => if le x y then x :: y :: l else y :: place le x l

/-- Putting entries in order. /repo/crates/iso-mdl/src/mso.rs and /repo/crates/iso-mdl/src/mdoc.rs, whose types are written this way. -/
def inOrder {α : Type} (le : α → α → Bool) : List α → List α
  | [] => []
  | x :: l => place le x (inOrder le l)

/-- The order of the keys of a `BTreeMap<String, _>`.
/repo/crates/iso-mdl/src/mso.rs and /repo/crates/iso-mdl/src/mdoc.rs, whose types are written this way. -/
def sortKeys {α : Type} (m : List (String × α)) : List (String × α) := inOrder (fun a b => textLe a.1.toList b.1.toList) m

/-- The order of the keys of a `BTreeMap<i32, _>`. /repo/crates/iso-mdl/src/mso.rs and /repo/crates/iso-mdl/src/mdoc.rs, whose types are written this way. -/
def sortIds {α : Type} (m : List (Int × α)) : List (Int × α) := inOrder (fun a b => decide (a.1 ≤ b.1)) m

/-- `BTreeMap<DigestId, Digest>`, mso.rs 52. -/
def digestsCbor (ds : Digests) : Cbor := .map ((sortIds ds).map fun d => (.int d.1, octets d.2))

/-- `MobileSecurityObject`, mso.rs 43-63, with `DeviceKeyInfo`, 119-132, and `ValidityInfo`, 161-181. -/
def msoCbor (W : World) (m : Mso) : Cbor := .map [
  (.text "version", .text "1.0"),
  (.text "digestAlgorithm", .text "SHA-256"),
  (.text "valueDigests", .map ((sortKeys m.valueDigests).map fun e => (.text e.1, digestsCbor e.2))),
  (.text "deviceKeyInfo", .map [(.text "deviceKey", W.key m.deviceKey)]),
  (.text "docType", .text "org.iso.18013.5.1.mDL"),
  (.text "validityInfo", .map [
    (.text "signed", .text (W.time m.signed)),
    (.text "validFrom", .text (W.time m.validFrom)),
    (.text "validUntil", .text (W.time m.validUntil)),
    (.text "expectedUpdate", .null)])]

/-- `iana::Algorithm`, lib.rs 82-85. -/
def algNumber : Algorithm → Int
  | .edDSA => -8
  | .es256K => -47

/-- `CoseSign1::to_cbor_value` of the external crate coset (RFC 9052 §4.2), mso.rs 27-31. -/
def authCbor (a : CoseSign1) : Cbor := .arr [
  .bytes (Cbor.map [(.int 1, .int (algNumber a.algorithm))]).encode,
  .map [(.int 4, .bytes (utf8 a.keyId.toList))],
  .bytes a.payload,
  .bytes a.signature]

/-- `IssuerSigned`, mdoc.rs 26-34. -/
def docCbor (W : World) (d : IssuerSigned) : Cbor := .map [
  (.text "nameSpaces", .map ((sortKeys d.nameSpaces).map fun e => (.text e.1, .arr (e.2.map fun x => tag24 (itemCbor W x).encode)))),
  (.text "issuerAuth", authCbor d.issuerAuth)]

/-- The encoders of lib.rs: `cbor!`, `Tag24::to_vec`, `IssuerSigned::to_vec` and `Base64UrlUnpadded`. Writing to memory does not fail. -/
def World.codec (W : World) : Codec where
  cborOk _ := true
  itemBytes x := .ok (W.tagVec.over (itemCbor W x).encode)
  msoBytes m := .ok (W.tagVec.over (msoCbor W m).encode)
  docBytes d := .ok (docCbor W d).encode
  sha256 := W.sha256
  base64 b := String.ofList (Verif.base64 b)

/-! ### Reading -/

/-- The value under a name. /repo/crates/iso-mdl/src/mso.rs and /repo/crates/iso-mdl/src/mdoc.rs, whose types are written this way. -/
def field (name : String) : List (Cbor × Cbor) → Option Cbor
  | [] => none
  | (.text k, v) :: m => if k = name then some v else field name m
  | _ :: m => field name m

/-- `Vec<u8>` by serde's own `Deserialize`. /repo/crates/iso-mdl/src/mso.rs and /repo/crates/iso-mdl/src/mdoc.rs, whose types are written this way. -/
def readOctets : Cbor → Option Bytes
  | .arr l => l.mapM fun
    | .int n => if 0 ≤ n ∧ n < 256 then some n.toNat.toUInt8 else none
    | _ => none
  | _ => none

/-- `String`. /repo/crates/iso-mdl/src/mso.rs and /repo/crates/iso-mdl/src/mdoc.rs, whose types are written this way. -/
def readText : Cbor → Option String
  | .text s => some s
  | _ => none

/-- `i32`. /repo/crates/iso-mdl/src/mso.rs and /repo/crates/iso-mdl/src/mdoc.rs, whose types are written this way. -/
def readInt : Cbor → Option Int
  | .int n => if -2147483648 ≤ n ∧ n < 2147483648 then some n else none
  | _ => none

/-- An `IssuerSignedItem` as read, with the bytes it was read from.
/repo/crates/iso-mdl/src/mso.rs and /repo/crates/iso-mdl/src/mdoc.rs, whose types are written this way. -/
structure ReadItem where
  raw : Bytes
  digestId : Int
  random : Bytes
  identifier : String
  value : Cbor

/-- `Deserialize` of `IssuerSignedItem`, mdoc.rs 56-71, inside of `Tag24`. -/
def readItem : Cbor → Option ReadItem
  | .tag 24 (.bytes raw) => do
    match ← decode raw with
    | .map m =>
      let id ← (field "digest_id" m).bind readInt
      let random ← (field "random" m).bind readOctets
      let identifier ← (field "element_identifier" m).bind readText
      let value ← field "element_value" m
      pure { raw := raw, digestId := id, random := random, identifier := identifier, value := value }
    | _ => none
  | _ => none

/-- `Vec<IssuerSignedItemBytes>`. /repo/crates/iso-mdl/src/mso.rs and /repo/crates/iso-mdl/src/mdoc.rs, whose types are written this way. -/
def readItems : Cbor → Option (List ReadItem)
  | .arr l => l.mapM readItem
  | _ => none

/-- `BTreeMap<String, T>`. /repo/crates/iso-mdl/src/mso.rs and /repo/crates/iso-mdl/src/mdoc.rs, whose types are written this way. -/
def readDict {α : Type} (read : Cbor → Option α) : Cbor → Option (Dict α)
  | .map m => m.mapM fun e => do
    let k ← readText e.1
    let v ← read e.2
    pure (k, v)
  | _ => none

/-- `BTreeMap<i32, Digest>`. /repo/crates/iso-mdl/src/mso.rs and /repo/crates/iso-mdl/src/mdoc.rs, whose types are written this way. -/
def readDigests : Cbor → Option Digests
  | .map m => m.mapM fun e => do
    let k ← readInt e.1
    let v ← readOctets e.2
    pure (k, v)
  | _ => none

/-- `CoseSign1` as read: the protected header's bytes, the key's id, the payload and the signature.
/repo/crates/iso-mdl/src/mso.rs and /repo/crates/iso-mdl/src/mdoc.rs, whose types are written this way. -/
structure ReadAuth where
  header : Bytes
  keyId : Bytes
  payload : Bytes
  signature : Bytes

/-- `CoseSign1::from_cbor_value`, mso.rs 34-37. Simplification: the one unprotected header that is written is read. -/
def readAuth : Cbor → Option ReadAuth
  | .arr [.bytes h, .map [(.int 4, .bytes kid)], .bytes p, .bytes s] => some { header := h, keyId := kid, payload := p, signature := s }
  | _ => none

/-- `IssuerSigned` as read. /repo/crates/iso-mdl/src/mso.rs and /repo/crates/iso-mdl/src/mdoc.rs, whose types are written this way. -/
structure ReadDoc where
  nameSpaces : Dict (List ReadItem)
  issuerAuth : ReadAuth

/-- `Deserialize` of `IssuerSigned`, mdoc.rs 24-34. -/
def readDoc : Cbor → Option ReadDoc
  | .map m => do
    let ns ← (field "nameSpaces" m).bind (readDict readItems)
    let auth ← (field "issuerAuth" m).bind readAuth
    pure { nameSpaces := ns, issuerAuth := auth }
  | _ => none

/-- Reading an mDL, lib.rs 125-127: base64url, then CBOR. -/
def readMdl (s : String) : Option ReadDoc := do readDoc (← decode (← base64Decode s.toList))

/-- `MobileSecurityObject` as read. /repo/crates/iso-mdl/src/mso.rs and /repo/crates/iso-mdl/src/mdoc.rs, whose types are written this way. -/
structure ReadMso where
  version : String
  digestAlgorithm : String
  valueDigests : Dict Digests
  deviceKey : Cbor
  docType : String
  signed : String
  validFrom : String
  validUntil : String

/-- `Deserialize` of `MobileSecurityObject`, mso.rs 41-63. -/
def readMsoCbor : Cbor → Option ReadMso
  | .map m => do
    let version ← (field "version" m).bind readText
    let alg ← (field "digestAlgorithm" m).bind readText
    let digests ← (field "valueDigests" m).bind (readDict readDigests)
    let key ← (field "deviceKeyInfo" m).bind fun | .map k => field "deviceKey" k | _ => none
    let docType ← (field "docType" m).bind readText
    match ← field "validityInfo" m with
    | .map v =>
      let signed ← (field "signed" v).bind readText
      let validFrom ← (field "validFrom" v).bind readText
      let validUntil ← (field "validUntil" v).bind readText
      pure { version := version, digestAlgorithm := alg, valueDigests := digests, deviceKey := key, docType := docType, signed := signed, validFrom := validFrom,
             validUntil := validUntil }
    | _ => none
  | _ => none

/-- Undoing `Tag24::to_vec`. /repo/crates/iso-mdl/src/mso.rs and /repo/crates/iso-mdl/src/mdoc.rs, whose types are written this way. -/
def TagVec.inside (t : TagVec) (b : Bytes) : Option Bytes :=
  match t with
  | .whole => match decode b with
    | some (.tag 24 (.bytes raw)) => some raw
    | _ => none
  | .inner => some b

/-- Reading the security object from the payload, lib.rs 129-130. -/
def readMso (t : TagVec) (b : Bytes) : Option ReadMso := do readMsoCbor (← decode (← t.inside b))

end Verif.Mdl
