import Verif.W3c.Proof
/-!
# Bitstring status lists

Models /repo/crates/status/src/bitstring.rs, config.rs and log.rs. GZIP and base64 are external and appear as the parameter `pack`.
-/
namespace Verif.Status

/-- `ListConfig`, config.rs 7-32. Simplification: messages and reference dropped (not read). -/
structure ListConfig where
  purpose : StatusPurpose
  list : UInt64
  size : UInt64
  deriving DecidableEq, Repr

/-- `StatusValue`, log.rs 28-46. -/
structure StatusValue where
  purpose : StatusPurpose
  listIndex : UInt64
  value : UInt8
  deriving DecidableEq, Repr

/-- `StatusLogEntry`, log.rs 8-24. -/
structure StatusLogEntry where
  credentialId : String
  subjectId : String
  status : List StatusValue
  deriving DecidableEq, Repr

/-- `MAX_ENTRIES`, bitstring.rs 35. -/
def maxEntries : Nat := 131072

/-- The bit slice. Simplification: a function; its length is always `maxEntries`. /repo/crates/status/src/bitstring.rs 146. -/
abbrev Bits := Nat → Bool

/-- `bits.set(i, b)`: panics out of bounds. /repo/crates/status/src/bitstring.rs 159 and 164. -/
def setBit (bits : Bits) (i : Nat) (b : Bool) : Res Bits :=
  if i < maxEntries then .ok (fun j => if j = i then b else bits j)
  else .error (.panic "index out of bounds")

/-- Loop over the bits of a message value, bitstring.rs 163-166: the remaining bits from number `i` on (the fuel is 8 - i). -/
def setMessage (bits : Bits) (position : Nat) (value : UInt8) : Nat → Nat → Res Bits
  | 0, _ => .ok bits
  | fuel + 1, i => do
    let bits ← setBit bits (position + i) (value.toNat.testBit i)
    setMessage bits position value fuel (i + 1)

/-- `status.list_index * config.size` on `usize`, bitstring.rs 153. -/
def mulUsize (b : Build) (x y : UInt64) : Res UInt64 :=
  match b with
  | .release => .ok (x * y)
  | .debug => if x.toNat * y.toNat < 2 ^ 64 then .ok (x * y) else .error (.panic "attempt to multiply with overflow")

/-- Setting one status, bitstring.rs 157-168. -/
def writeStatus (cfg : ListConfig) (bits : Bits) (position : Nat) (s : StatusValue) : Res Bits :=
  match cfg.purpose with
  | .message => setMessage bits position s.value 8 0
  | _ => setBit bits position (s.value != 0)

/-- One status of the log, bitstring.rs 148-169. -/
def applyStatus (b : Build) (cfg : ListConfig) (bits : Bits) (s : StatusValue) : Res Bits :=
  if s.purpose = cfg.purpose then do
    let position ← mulUsize b s.listIndex cfg.size
    require (decide (position.toNat < maxEntries)) (.serverError "status index out of range")
    writeStatus cfg bits position.toNat s
  else .ok bits

/-- Inner loop, bitstring.rs 148-170. -/
def applyStatuses (b : Build) (cfg : ListConfig) : Bits → List StatusValue → Res Bits
  | bits, [] => .ok bits
  | bits, s :: ss => do
    let bits ← applyStatus b cfg bits s
    applyStatuses b cfg bits ss

/-- Outer loop, bitstring.rs 147-171. -/
def applyLog (b : Build) (cfg : ListConfig) : Bits → List StatusLogEntry → Res Bits
  | bits, [] => .ok bits
  | bits, e :: es => do
    let bits ← applyStatuses b cfg bits e.status
    applyLog b cfg bits es

/-- `uncompressed`, bitstring.rs 173: one character per bit. -/
def text (bits : Bits) : List Char := (List.range maxEntries).map fun i => if bits i then '1' else '0'

/-- `bitstring`, bitstring.rs 145-182. `pack` is GZIP followed by unpadded base64url. -/
def bitstring (b : Build) (pack : List Char → String) (cfg : ListConfig) (issued : List StatusLogEntry) : Res String := do
  let bits ← applyLog b cfg (fun _ => false) issued
  pure (pack (text bits))

/-- `StatusPurpose` as text, /repo/crates/w3c-vc/src/model/vc.rs 277-287. -/
def purposeText : StatusPurpose → String
  | .revocation => "revocation"
  | .suspension => "suspension"
  | .message => "message"

/-- The list's URL, bitstring.rs 202-206 (a slash is added even when there is one already). -/
def listId (baseUrl : String) (cfg : ListConfig) : String :=
  (if baseUrl.endsWith "/" then baseUrl else baseUrl ++ "/") ++ "/" ++ toString cfg.list.toNat

/-- `credential`, bitstring.rs 198-233. -/
def credential (J : Jose) (issuer : String) (cfg : ListConfig) (baseUrl bits : String) (ttl : Option Nat) (signer : String) (now : Int) :
    Res String :=
  let id := listId baseUrl cfg
  let vc := (((Vc.builder.setId id).addType "BitstringStatusListCredential").setIssuer issuer).addSubject {
    id := some (id ++ "#list")
    claims := [("type", .str "BitstringStatusList"), ("purpose", .str (purposeText cfg.purpose)), ("encodedList", .str bits),
      ("ttl", .num (toString (ttl.getD 300000)))] }
  match vc.build with
  | .error m => .error (.serverError m)
  | .ok vc => Proof.create J .jwtVcJson (.vc vc (timestamp now)) signer now

end Verif.Status
