import Verif.Base
import Verif.Core.Data
/-!
# ISO mDL credentials

Models /repo/crates/iso-mdl/src/lib.rs, mso.rs and mdoc.rs. CBOR encoding, SHA-256, base64 and the signer are parameters.
-/
namespace Verif.Mdl

/-- `Vec<u8>` in /repo/crates/iso-mdl/src/*.rs. -/
abbrev Bytes := List UInt8

/-- `IssuerSignedItem`, mdoc.rs 56-71. Simplification: the element value is the JSON value rather than its CBOR form. -/
structure Item where
  digestId : Int
  random : Bytes
  identifier : String
  value : Json

/-- `BTreeMap<DigestId, Digest>`: insertion replaces. /repo/crates/iso-mdl/src/mso.rs 54. -/
abbrev Digests := List (Int × Bytes)

/-- `BTreeMap::insert`. Simplification: order of insertion rather than of keys. /repo/crates/iso-mdl/src/lib.rs 60. -/
def Digests.insert (ds : Digests) (id : Int) (d : Bytes) : Digests :=
  match ds with
  | [] => [(id, d)]
  | (i, x) :: ds => if i = id then (id, d) :: ds else (i, x) :: Digests.insert ds id d

/-- `BTreeMap::get`. /repo/crates/iso-mdl/src/mso.rs 54. -/
def Digests.find (ds : Digests) (id : Int) : Option Bytes :=
  match ds with
  | [] => none
  | (i, x) :: ds => if i = id then some x else Digests.find ds id

/-- `MobileSecurityObject`, mso.rs 43-63. Simplification: version, algorithm, document type and key authorizations are constants and
dropped; the device key is the `x` of the key. -/
structure Mso where
  valueDigests : Dict Digests
  deviceKey : Bytes
  signed : Int
  validFrom : Int
  validUntil : Int

/-- `Algorithm` of vercre-infosec. /repo/crates/iso-mdl/src/lib.rs 81-82. -/
inductive Algorithm where
  | edDSA
  | es256K
  deriving DecidableEq, Repr

/-- `Signer` of vercre-infosec. /repo/crates/iso-mdl/src/lib.rs 35. -/
structure Signer where
  publicKey : Res Bytes
  sign : Bytes → Bytes
  algorithm : Algorithm
  verificationMethod : String

/-- `CoseSign1`: protected algorithm, unprotected key id, payload and signature. /repo/crates/iso-mdl/src/lib.rs 89-100. -/
structure CoseSign1 where
  algorithm : Algorithm
  keyId : String
  payload : Bytes
  signature : Bytes

/-- `IssuerSigned`, mdoc.rs 26-34. -/
structure IssuerSigned where
  nameSpaces : Dict (List Item)
  issuerAuth : CoseSign1

/-- External encoders: `cborOk` is `cbor!(v)`, the others `Tag24::to_vec` and `cbor::to_vec`, SHA-256 and base64. -/
structure Codec where
  cborOk : Json → Bool
  itemBytes : Item → Res Bytes
  msoBytes : Mso → Res Bytes
  docBytes : IssuerSigned → Res Bytes
  sha256 : Bytes → Bytes
  base64 : Bytes → String

/-- The random source: 32-bit signed integers for the digest ids and 16 byte salts. -/
structure Rng where
  int32 : Nat → Int
  salt : Nat → Bytes

/-- `i32::abs`: the least value has no absolute value. /repo/crates/iso-mdl/src/mso.rs 181-199. -/
def abs32 (b : Build) (x : Int) : Res Int :=
  if x = -2147483648 then
    match b with
    | .debug => .error (.panic "attempt to negate with overflow")
    | .release => .ok x
  else .ok (if x < 0 then -x else x)

/-- `DigestIdGenerator::gen`, mso.rs 189-197: draws number `n` on; gives the id and the number of the next draw. The loop has no bound:
`fuel` is the number of turns it is followed for, and `none` means that it has not ended by then. -/
def gen (b : Build) (R : Rng) (used : List Int) : Nat → Nat → Option (Res (Int × Nat))
  | 0, _ => none
  | fuel + 1, n =>
    match abs32 b (R.int32 n) with
    | .error e => some (.error e)
    | .ok id => if id ∈ used then gen b R used fuel (n + 1) else some (.ok (id, n + 1))

/-- What the loops of `to_credential` change. /repo/crates/iso-mdl/src/lib.rs 38-75. -/
structure St where
  nameSpaces : Dict (List Item)
  valueDigests : Dict Digests
  draws : Nat
  salts : Nat

/-- Adding one item to the two maps, lib.rs 60-65. -/
def St.add (s : St) (ns : String) (item : Item) (digest : Bytes) : St :=
  { s with
    valueDigests := s.valueDigests.insert ns (((s.valueDigests.get? ns).getD []).insert item.digestId digest)
    nameSpaces := s.nameSpaces.insert ns (((s.nameSpaces.get? ns).getD []) ++ [item]) }

/-- One item once its id was drawn, lib.rs 51-65. -/
def addItem (E : Codec) (R : Rng) (ns k : String) (v : Json) (id : Int) (next : Nat) (s : St) : Res St := do
  require (E.cborOk v) (.serverError "cbor")
  let item : Item := { digestId := id, random := R.salt s.salts, identifier := k, value := v }
  let bytes ← E.itemBytes item
  pure { s.add ns item (E.sha256 bytes) with draws := next, salts := s.salts + 1 }

/-- Inner loop, lib.rs 51-66; `used` is the state of the id generator. -/
def addItems (b : Build) (fuel : Nat) (E : Codec) (R : Rng) (ns : String) : List Int → List (String × Json) → St → Option (Res St)
  | _, [], s => some (.ok s)
  | used, (k, v) :: fields, s =>
    match gen b R used fuel s.draws with
    | none => none
    | some (.error e) => some (.error e)
    | some (.ok (id, next)) =>
      match addItem E R ns k v id next s with
      | .error e => some (.error e)
      | .ok s => addItems b fuel E R ns (id :: used) fields s

/-- Outer loop, lib.rs 42-67: a new id generator for each name space. -/
def addSpaces (b : Build) (fuel : Nat) (E : Codec) (R : Rng) : List (String × Json) → St → Option (Res St)
  | [], s => some (.ok s)
  | (ns, value) :: rest, s =>
    match value with
    | .obj fields =>
      match addItems b fuel E R ns [] fields s with
      | none => none
      | some (.error e) => some (.error e)
      | some (.ok s) => addSpaces b fuel E R rest s
    | _ => some (.error (.serverError "invalid dataset"))

/-- One year, mso.rs 70, in nanoseconds. -/
def validity : Int := 365 * 24 * 3600 * 1000000000

/-- Signing, lib.rs 69-97 and mso.rs 68-85. `now n` is what the clock shows when it is read for the `n`-th time: for the end of the validity, for the time of signing and for
its beginning. -/
def sign (E : Codec) (signer : Signer) (now : Nat → Int) (s : St) : Res IssuerSigned := do
  let key ← signer.publicKey
  let mso : Mso := { valueDigests := s.valueDigests, deviceKey := key, signed := now 1, validFrom := now 2, validUntil := now 0 + validity }
  let bytes ← E.msoBytes mso
  let signature := signer.sign bytes
  require (decide (signer.algorithm = .edDSA)) (.serverError "unsupported algorithm")
  pure { nameSpaces := s.nameSpaces
         issuerAuth := { algorithm := signer.algorithm, keyId := signer.verificationMethod, payload := bytes, signature := signature } }

/-- The document made by `to_credential`, lib.rs 35-97. -/
def document (b : Build) (fuel : Nat) (E : Codec) (R : Rng) (signer : Signer) (now : Nat → Int) (dataset : Dict Json) : Option (Res IssuerSigned) :=
  match addSpaces b fuel E R dataset { nameSpaces := [], valueDigests := [], draws := 0, salts := 0 } with
  | none => none
  | some (.error e) => some (.error e)
  | some (.ok s) => some (sign E signer now s)

/-- `to_credential`, lib.rs 35-101. -/
def toCredential (b : Build) (fuel : Nat) (E : Codec) (R : Rng) (signer : Signer) (now : Nat → Int) (dataset : Dict Json) : Option (Res String) :=
  match document b fuel E R signer now dataset with
  | none => none
  | some (.error e) => some (.error e)
  | some (.ok doc) => some ((E.docBytes doc).map E.base64)

end Verif.Mdl
