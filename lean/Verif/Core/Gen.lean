import Verif.Base
import Verif.Core.Base64
/-!
# Random strings and PKCE

Models /repo/crates/core/src/gen.rs and pkce.rs. The random source `fastrand` is a parameter: draw number `i` of a call.
-/
namespace Verif

/-- `PIN_CHARS`, gen.rs 11. -/
def pinChars : List Char := "0123456789".toList

/-- `SAFE_CHARS`, gen.rs 15-16. -/
def safeChars : List Char := "ABCDEFGHIJKLMNOPQRSTUVWXYZabcdefghijklmnopqrstuvwxyz0123456789)(*&^%$#@!~".toList

/-- `CHARS`, pkce.rs 7. -/
def verifierChars : List Char := "ABCDEFGHIJKLMNOPQRSTUVWXYZabcdefghijklmnopqrstuvwxyz0123456789-.~_".toList

/-- `chars[i]`: panics out of bounds. /repo/crates/core/src/gen.rs 80. -/
def charAt (cs : List Char) (i : Nat) : Res Char := orErr cs[i]? (.panic "index out of bounds")

/-- `random_string`, gen.rs 77-80: characters number `i` on. -/
def randomString (cs : List Char) (draw : Nat → Nat) : Nat → Nat → Res (List Char)
  | 0, _ => .ok []
  | len + 1, i => do
    let c ← charAt cs (draw i)
    let rest ← randomString cs draw len (i + 1)
    pure (c :: rest)

/-- `auth_code`, `issuer_state`, `nonce`, `notification_id`, `uri_token`, `token` and `transaction_id`, gen.rs 19-69. -/
def genToken (draw : Nat → Nat) : Res (List Char) := do
  let rnd ← randomString safeChars draw 32 0
  pure (base64 (utf8 rnd))

/-- `tx_code`, gen.rs 71-75. -/
def genTxCode (draw : Nat → Nat) : Res (List Char) := randomString pinChars draw 6 0

/-- `code_verifier`, pkce.rs 12-17: `pick lo hi` is `fastrand::usize(lo..=hi)`. -/
def codeVerifier (pick : Nat → Nat → Nat) (draw : Nat → Nat) : Res (List Char) := randomString verifierChars draw (pick 43 128) 0

/-- `code_challenge`, pkce.rs 19-24; `sha256` is external. -/
def codeChallenge (sha256 : List UInt8 → List UInt8) (verifier : List Char) : List Char := base64 (sha256 (utf8 verifier))

end Verif
