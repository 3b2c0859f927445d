import Verif.Issuer.EndToEnd
import Verif.Holder.Presentation
/-!
# The wallet connected to the issuer

/repo/vercre-holder/tests/provider.rs 48-95 connects the wallet to the issuer by serving each call of the wallet's `Issuer` provider with the issuer
endpoint of that name. Here the same connection is made between the two models. Between any two calls of the wallet the issuer may serve any
other calls, of any other clients.
-/
namespace Verif.Interop
open Verif

/-- The issuer endpoint a call of the wallet goes to, /repo/vercre-holder/tests/provider.rs 48-95. Calls to storage, verifiers and web servers go
elsewhere. Simplification: notifications are passed on to the issuer (the test provider drops them). -/
def request : Holder.Call → Option Issuer.Req
  | .metadata i => some (.metadata i)
  | .oauthServer i => some (.oauthServer i)
  | .authorization r => some (.authorize (.object r))
  | .token r => some (.token r)
  | .credential r => some (.credential r)
  | .deferred r => some (.deferred r)
  | .notification r => some (.notification { notificationId := r.notificationId })
  | .logo _ | .requestObject _ | .present _ _ | .save _ | .find _ => none

/-- A credential response on its way to the wallet: the credential becomes text, provider.rs 74-84. -/
def deliver (encode : Issuer.IssuedCredential → String) (r : Issuer.CredentialResponse) : Holder.CredentialResponse where
  response := match r.response with
    | .credential c => .credential (.string (encode c))
    | .transactionId t => .transactionId t
  cNonce := r.cNonce
  cNonceExpiresIn := r.cNonceExpiresIn
  notificationId := r.notificationId

/-- What the wallet makes of an answer of the issuer; errors become `anyhow` errors, provider.rs 48-95. -/
def reply (encode : Issuer.IssuedCredential → String) : (c : Holder.Call) → Res Issuer.Resp → Option c.Reply
  | .metadata _, .ok (.metadata i) => some i
  | .oauthServer _, .ok (.oauthServer s) => some s
  | .authorization _, .ok (.authorize a) => some a
  | .token _, .ok (.token t) => some t
  | .credential _, .ok (.credential r) => some (deliver encode r)
  | .deferred _, .ok (.deferred r) => some (deliver encode r)
  | .notification _, .ok .notification => some ()
  | _, _ => none

/-- An issuer and its surroundings: `provider i` and `others i` are the issuer's provider at the wallet's `i`-th call, and what the issuer serves
to others before it; `rest` is everything that is not the issuer. Connects wallet and issuer as /repo/vercre-holder/tests/provider.rs 51-96 does. -/
structure Net where
  env : Env
  provider : Nat → Issuer.Provider
  others : Nat → List Issuer.Step
  encode : Issuer.IssuedCredential → String
  rest : List Holder.Entry → List Holder.Event → (c : Holder.Call) → Option c.Reply

namespace Net
variable (n : Net)

/-- The issuer when the wallet's `i`-th call arrives. Connects wallet and issuer as /repo/vercre-holder/tests/provider.rs 51-96 does. -/
def arrival (i : Nat) (w : World Issuer.State) : World Issuer.State := Issuer.exec n.env w (n.others i)

/-- The issuer serving that call. Connects wallet and issuer as /repo/vercre-holder/tests/provider.rs 51-96 does. -/
def serve (i : Nat) (w : World Issuer.State) (r : Issuer.Req) : Res Issuer.Resp × World Issuer.State :=
  Issuer.step n.env (n.arrival i w) { provider := n.provider i, req := r }

/-- One more call of the wallet: how many reached the issuer, and the issuer after it.
Connects wallet and issuer as /repo/vercre-holder/tests/provider.rs 51-96 does. -/
def next (s : Nat × World Issuer.State) (c : Holder.Call) : Nat × World Issuer.State :=
  match request c with
  | none => s
  | some r => (s.1 + 1, (n.serve s.1 s.2 r).2)

/-- The issuer after some calls of the wallet. Connects wallet and issuer as /repo/vercre-holder/tests/provider.rs 51-96 does. -/
def after (w : World Issuer.State) (calls : List Holder.Call) : Nat × World Issuer.State := calls.foldl n.next (0, w)

/-- The answer to a call made after some others. Connects wallet and issuer as /repo/vercre-holder/tests/provider.rs 51-96 does. -/
def answer (w : World Issuer.State) (calls : List Holder.Call) (c : Holder.Call) (r : Issuer.Req) : Option c.Reply :=
  reply n.encode c (n.serve (n.after w calls).1 (n.after w calls).2 r).1

/-- The calls a wallet has made since entry number `skip` of its history. Connects wallet and issuer as /repo/vercre-holder/tests/provider.rs 51-96 does. -/
def made (skip : Nat) (log : List Holder.Entry) (recent : List Holder.Event) : List Holder.Call :=
  (((log.drop skip).flatMap Holder.Entry.events) ++ recent).map Holder.Event.call

/-- What the wallet's calls answer: the issuer was in world `w` when the wallet had `skip` entries in its history.
Connects wallet and issuer as /repo/vercre-holder/tests/provider.rs 51-96 does. -/
def oracle (w : World Issuer.State) (skip : Nat) (log : List Holder.Entry) (recent : List Holder.Event) (c : Holder.Call) : Option c.Reply :=
  match request c with
  | none => n.rest log recent c
  | some r => n.answer w (made skip log recent) c r

end Net

end Verif.Interop
