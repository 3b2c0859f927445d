import Verif.Issuer.CreateOffer
import Verif.Issuer.Token
import Verif.Issuer.Credential
/-!
# The issuer as a service: any history of endpoint calls
-/
namespace Verif.Issuer

/-- A request to one of the issuer's endpoints (the public functions of /repo/vercre-issuer/src/lib.rs). -/
inductive Req where
  | createOffer (r : CreateOfferRequest)
  | credentialOffer (r : CredentialOfferRequest)
  | par (r : RequestObject)
  | authorize (r : AuthorizationRequest)
  | token (r : TokenRequest)
  | credential (r : CredentialRequest)
  | deferred (r : DeferredRequest)
  | notification (r : NotificationRequest)
  | register (r : RegistrationRequest)
  | metadata (credentialIssuer : String)
  | oauthServer (credentialIssuer : String)

/-- The matching responses. Machinery of the model; the endpoints are those of /repo/vercre-issuer/src/lib.rs 118-128. -/
inductive Resp where
  | createOffer (r : CreateOfferResponse)
  | credentialOffer (r : CredentialOffer)
  | par (r : ParResponse)
  | authorize (r : AuthorizationResponse)
  | token (r : TokenResponse)
  | credential (r : CredentialResponse)
  | deferred (r : CredentialResponse)
  | notification
  | register (c : Client)
  | metadata (i : Issuer)
  | oauthServer (s : Server)

/-- Dispatch of a request to its endpoint. Machinery of the model; the endpoints are those of /repo/vercre-issuer/src/lib.rs 118-128. -/
def call (P : Provider) : Req → IProg Resp
  | .createOffer r => do let x ← createOffer P r; pure (.createOffer x)
  | .credentialOffer r => do let x ← credentialOffer r; pure (.credentialOffer x)
  | .par r => do let x ← par P r; pure (.par x)
  | .authorize r => do let x ← authorize P r; pure (.authorize x)
  | .token r => do let x ← token P r; pure (.token x)
  | .credential r => do let x ← credential P r; pure (.credential x)
  | .deferred r => do let x ← deferred P r; pure (.deferred x)
  | .notification r => do let _ ← notification r; pure .notification
  | .register r => do let x ← register P r; pure (.register x)
  | .metadata c => do let x ← metadata P c; pure (.metadata x)
  | .oauthServer c => do let x ← oauthServer P c; pure (.oauthServer x)

/-- One step of a history: some time passes, then a request is served, with whatever the provider answers at that time
(providers may change their answers between calls). Machinery of the model; the endpoints are those of /repo/vercre-issuer/src/lib.rs 118-128. -/
structure Step where
  provider : Provider
  wait : Nat := 0
  req : Req

/-- A world after some time has passed. Machinery of the model; the endpoints are those of /repo/vercre-issuer/src/lib.rs 118-128. -/
def World.wait {V : Type} (w : World V) (ns : Nat) : World V := { w with now := w.now + ns }

/-- Serving one step. Machinery of the model; the endpoints are those of /repo/vercre-issuer/src/lib.rs 118-128. -/
def step (e : Env) (w : World State) (s : Step) : Res Resp × World State :=
  (call s.provider s.req).run e (World.wait w s.wait)

/-- The world after a history. Machinery of the model; the endpoints are those of /repo/vercre-issuer/src/lib.rs 118-128. -/
def exec (e : Env) (w : World State) : List Step → World State
  | [] => w
  | s :: rest => exec e (step e w s).2 rest

/-- The initial world: empty store. Machinery of the model; the endpoints are those of /repo/vercre-issuer/src/lib.rs 118-128. -/
def start (now : Int) : World State := { store := fun _ => none, now, drawn := 0, ops := 0 }

theorem exec_append (e : Env) (w : World State) (a b : List Step) :
    exec e w (a ++ b) = exec e (exec e w a) b := by
  induction a generalizing w with
  | nil => rfl
  | cons s a ih => exact ih _

/-- Prefix of request URIs, /repo/vercre-issuer/src/par.rs 66. -/
def urn : String := "urn:ietf:params:oauth:request_uri:"

/-- Assumption on the random source: tokens never repeat, and none is a request URI. The generators of
/repo/crates/core/src/gen.rs draw 32 characters (about 200 bits) per token; collisions are taken not to happen. That a token
is never a request URI is proved of the generator in `Verif/Core/Gen.lean`. -/
structure Env.Fresh (e : Env) : Prop where
  inj : ∀ i j, e.rng i = e.rng j → i = j
  noUrn : ∀ i j, e.rng i ≠ urn ++ e.rng j

end Verif.Issuer
