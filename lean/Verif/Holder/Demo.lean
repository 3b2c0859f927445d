import Verif.Holder.TrustProps
import Verif.Holder.KeepProps
import Verif.Holder.NonceProps
/-!
# A small concrete wallet

Shows that the hypotheses of C62 – C84 are met by real histories, and gives the concrete failures of C79, C80, C82 and C83.
-/
namespace Verif.Holder.Demo
open Verif HProg

/-- Tokens `t`, `tt`, …. -/
def rng (n : Nat) : String := String.ofList (List.replicate (n + 1) 't')

theorem rng_inj : ∀ i j, rng i = rng j → i = j := by
  intro i j h
  have h := congrArg String.toList h
  simp only [rng, String.toList_ofList] at h
  have := congrArg List.length h
  simp only [List.length_replicate] at this
  omega

/-- A configuration whose logo can be fetched, and two plain ones. -/
def employee : CredentialConfiguration where
  format := .jwtVcJson { type_ := some ["VerifiableCredential", "Employee"], credentialSubject := some [("email", .entry {})] }
  scope := some "employee"
  display := some [{ name := "Employee", logoUri := some "http://logo" }]

def developer : CredentialConfiguration where
  format := .jwtVcJson { type_ := some ["VerifiableCredential", "Developer"] }
  scope := some "developer"

/-- The metadata names another issuer than the one it was asked for. -/
def metadata : Verif.Issuer where
  credentialIssuer := "https://elsewhere.example"
  configs := [("Employee", employee), ("Developer", developer)]

def server : Server where
  responseTypesSupported := [.code]
  grantTypesSupported := some [.authorizationCode, .preAuthorizedCode]
  codeChallengeMethodsSupported := some [.s256]

/-- The credential received: made by somebody else altogether. -/
def vc : Vc where
  context := [baseContext]
  type_ := .many ["VerifiableCredential", "Employee"]
  issuer := .string "https://stranger.example"
  subject := .one { id := some "did:alice" }

def held : Credential where
  id := "urn:1"
  issuer := "https://stranger.example"
  vc := vc
  issued := "vc.jwt"
  issuanceDate := 0
  display := none
  logo := none

def definition : Dif.PresentationDefinition where
  id := "def"
  inputDescriptors := [{ id := "employee", constraints := { fields := some [{ path := ["$.type"], filter := some ⟨"string", .const "Employee"⟩ }] } }]

/-- A presentation request. -/
def vpRequest (pd : Dif.PresentationDefinition) : Verifier.RequestObject where
  responseType := .vpToken
  clientId := "https://verifier.example"
  responseUri := some "https://verifier.example/post/"
  nonce := "n-1"
  state := some "s-1"
  presentationDefinition := .object pd
  clientMetadata := { oauth := { clientId := "" } }

/-- Proofs are told apart by their text. -/
def proofText (q : Issuer.CredentialRequest) : Option String :=
  match q.proof with
  | some (.single j) => some j
  | _ => none

/-- The proof was accepted before. -/
def used (recent : List Event) (r : Issuer.CredentialRequest) : Bool :=
  recent.any fun ev => match ev with
    | ⟨.credential q, some _⟩ => proofText q == proofText r
    | _ => false

/-- `developer` credentials are put off, the rest are issued with a new nonce; each proof works once. -/
def credentialReply (recent : List Event) (r : Issuer.CredentialRequest) : Option CredentialResponse :=
  if used recent r then none
  else match r.credential with
    | .identifier "dev-1" => some { response := .transactionId "tx-1", cNonce := some "n2" }
    | _ => some { response := .credential (.string "vc.jwt"), cNonce := some "n2" }

/-- What the rest of the world answers. -/
def oracle (ids : List String) (_ : List Entry) (recent : List Event) : (c : Call) → Option c.Reply
  | .metadata _ => some metadata
  | .oauthServer _ => some server
  | .authorization _ => some { code := "code-1", state := some "someone else's", redirectUri := "" }
  | .token _ => some {
      accessToken := "at-1"
      expiresIn := 900
      cNonce := some "n1"
      cNonceExpiresIn := none
      authorizationDetails := some [{ detail := { credential := .configurationId "Employee" none }, identifiers := ids }] }
  | .credential r => credentialReply recent r
  | .deferred _ => some { response := .credential (.string "vc.jwt") }
  | .logo _ => none
  | .notification _ => some ()
  | .requestObject _ => some (.jwt "req.jwt")
  | .present _ _ => some { redirectUri := none, responseCode := some "done" }
  | .save _ => some ()
  | .find _ => some [held]

def env (ids : List String := ["emp-1"]) : HEnv := { rng, fault := fun _ => .ok, oracle := oracle ids }

theorem env_fresh (ids : List String) : (env ids).Fresh := rng_inj
theorem env_noLate (ids : List String) : (env ids).NoLate := by intro n h; cases h

theorem env_proofs (ids : List String) : SingleUseProofs (env ids) := by
  intro log _ pre mid q x r jwt _ _ hq hr _
  have hu : used (pre ++ ⟨.credential q, some x⟩ :: mid) r = true := by
    unfold used
    refine List.any_eq_true.mpr ⟨⟨.credential q, some x⟩, by simp, ?_⟩
    simp only [proofText, hq, hr, beq_self_eq_true]
  show credentialReply (pre ++ ⟨.credential q, some x⟩ :: mid) r = none
  unfold credentialReply
  rw [if_pos hu]

theorem env_good (ids : List String) : (env ids).GoodMetadata := by
  constructor
  · intro log recent u md h c hc
    cases h
    simp only [metadata, List.mem_cons, List.not_mem_nil, or_false] at hc
    rcases hc with rfl | rfl <;> simp [employee, developer]
  · intro log recent u sv h
    cases h
    exact ⟨by simp [server], by simp [server]⟩

/-- Keys and parsers. A proof is the text of its nonce and audience. -/
def provider : Provider where
  kid := "did:alice#k1"
  signProof c := some ("proof:" ++ c.nonce.getD "" ++ ":" ++ c.aud)
  jose := {
    encodeVc := fun _ _ => none
    decodeVc := fun t => if t = "vc.jwt" then some ⟨"did:alice", none, "https://stranger.example", 0, "", none, vc⟩ else none
    encodeVp := fun _ _ => some "vp.jwt"
    decodeVp := fun _ => none }
  decodeRequest t := if t = "req.jwt" then some (vpRequest definition) else none
  parseRequest _ := some (vpRequest definition)
  percentDecode t := some t
  codeChallenge v := "challenge of " ++ v
  validTime _ := true

def call (r : Req) : HStep := { provider, req := r }

/-- An offer with a pre-authorized code that needs a transaction code, and an authorization code. -/
def theOffer : Issuer.CredentialOffer where
  credentialIssuer := "https://issuer.example"
  configIds := ["Employee", "Developer"]
  grants := some {
    authorizationCode := some { issuerState := some "is-1", authorizationServer := none }
    preAuthorizedCode := some { preAuthorizedCode := "pre-1", txCode := true, authorizationServer := none } }

def doOffer : HStep := call (.offer { clientId := "wallet", subjectId := "alice", offer := theOffer })
def doAccept : HStep := call (.accept { issuanceId := "t", accept := some [{ configId := "Employee", claims := some [("email", .entry {})] }] })
def doPin : HStep := call (.pin { issuanceId := "t", pin := "1234" })
def doToken : HStep := call (.token "t")
def doAuthorize : HStep := call (.authorize { initiator := .issuer "t", redirectUri := some "http://cb", authorizationDetails := none })
def doWallet (scope : Option String) (ds : Option (List AuthorizationDetail)) : HStep :=
  call (.authorize { initiator := .wallet "wallet" "https://issuer.example" scope "alice", redirectUri := some "http://cb", authorizationDetails := ds })
def doCredentials (f : Option Format := none) : HStep := call (.credentials { issuanceId := "t", identifiers := none, format := f })
def doDeferred : HStep := call (.deferred { issuanceId := "t", transactionId := "tx-1", configId := "Developer" })
def doSave : HStep := call (.save "t")
def doCancel : HStep := call (.cancel "t")

/-- How each call ended, in short. -/
def short : HRes Resp → String
  | .ok (.offer id _ _ _) => "offer " ++ id
  | .ok (.flow id) => "flow " ++ id
  | .ok (.authorized id _) => "authorized " ++ id
  | .ok (.credentials id d) => "credentials " ++ id ++ (if d.isSome then " more" else "")
  | .ok (.request id _ _) => "request " ++ id
  | .ok (.status _) => "status"
  | .ok (.presented _) => "presented"
  | .error .load => "load"
  | .error .store => "store"
  | .error .provider => "provider"
  | .error (.refused why) => "refused " ++ why
  | .error (.panic why) => "panic " ++ why

def outcomes (e : HEnv) (steps : List HStep) : List String := (exec e (start 0) steps).log.map fun en => short en.result

/-- Everything after an offer with a code, up to the end of the flow. -/
def history : List HStep := [doOffer, doAccept, doPin, doToken, doCredentials, doSave]

set_option maxRecDepth 20000 in
example : outcomes env history = ["offer t", "flow t", "flow t", "authorized t", "credentials t", "flow t"] := by decide +kernel

/-! ### The histories used below, each state reachable -/

abbrev at_ (steps : List HStep) (ids : List String := ["emp-1"]) : HWorld := exec (env ids) (start 0) steps

theorem at_reachable (steps : List HStep) (ids : List String) : Reachable (env ids) (at_ steps ids) := ⟨0, steps, rfl⟩

/-- The last entry of a history. -/
def lastOf (steps : List HStep) (s : HStep) (ids : List String := ["emp-1"]) : Entry :=
  ⟨s.provider, (at_ steps ids).now + s.wait, s.req, (step (env ids) (at_ steps ids) s).1,
    ((serve s.provider s.req).run (env ids) (before (at_ steps ids) s)).2.recent⟩

theorem at_snoc (steps : List HStep) (s : HStep) (ids : List String) : (at_ (steps ++ [s]) ids).log = (at_ steps ids).log ++ lastOf steps s ids :: [] := by
  rw [at_, exec_append]
  exact step_log ..

/-- The kinds of calls made. -/
def kinds (evs : List Event) : List String := evs.map fun ev => match ev.call with
  | .metadata _ => "metadata" | .oauthServer _ => "server" | .authorization _ => "authorization" | .token _ => "token"
  | .credential _ => "credential" | .deferred _ => "deferred" | .logo _ => "logo" | .notification _ => "notification"
  | .requestObject _ => "requestObject" | .present _ _ => "present" | .save _ => "save" | .find _ => "find"

/-- The token requests made. -/
def tokens (evs : List Event) : List Issuer.TokenRequest := evs.filterMap fun ev => match ev.call with
  | .token r => some r
  | _ => none

theorem mem_of_tokens {evs : List Event} {r : Issuer.TokenRequest} (h : r ∈ tokens evs) : ∃ o, ⟨.token r, o⟩ ∈ evs := by
  obtain ⟨⟨c, o⟩, hm, hc⟩ := List.mem_filterMap.mp h
  cases c <;> simp only at hc <;> cases hc
  exact ⟨o, hm⟩

set_option maxRecDepth 20000

-- C62: a token request and a credential request, each late in a history
example : kinds (lastOf [doOffer, doAccept, doPin] doToken).events = ["token"] := by decide +kernel
example : kinds (lastOf [doOffer, doAccept, doPin, doToken] doCredentials).events = ["credential", "logo"] := by decide +kernel
example : kinds (lastOf [doOffer, doAccept, doPin] doAuthorize).events = ["authorization", "token"] := by decide +kernel

-- and calls made out of order
example : outcomes env [doOffer, doToken, doPin, doAccept, doToken, doPin, doCredentials] =
    ["offer t", "refused invalid issuance state. Must be pre-authorized and accepted", "refused invalid issuance state", "flow t",
     "refused invalid issuance state. Must be pre-authorized and accepted", "flow t", "refused invalid issuance state"] := by decide +kernel

/-- The hypotheses of C62, C64 and C80 together. -/
example : ∃ pre en post k tr o, (at_ [doOffer, doAccept, doPin, doToken]).log = pre ++ en :: post ∧ en.req = .token k ∧
    (⟨.token tr, o⟩ : Event) ∈ en.events := by
  have h : (tokens (lastOf [doOffer, doAccept, doPin] doToken).events).length = 1 := by decide +kernel
  obtain ⟨tr, htr⟩ := List.length_eq_one_iff.mp h
  obtain ⟨o, ho⟩ := mem_of_tokens (r := tr) (by rw [htr]; exact List.mem_singleton.mpr rfl)
  exact ⟨_, _, [], "t", tr, o, at_snoc [doOffer, doAccept, doPin] doToken _, rfl, ho⟩

-- C63: refused calls, which leave the flow as it was, and an offer of something unknown, which does not
example : outcomes env [doOffer, call (.accept { issuanceId := "t", accept := some [] })] =
    ["offer t", "refused if accept is provided it cannot be empty"] := by decide +kernel

def badOffer : HStep := call (.offer { clientId := "wallet", subjectId := "alice", offer := { theOffer with configIds := ["Unknown"] } })
example : outcomes env [badOffer] = ["refused unsupported credential type in offer"] := by decide +kernel
example : ∃ i, (at_ [badOffer]).store "t" = some (.issuance i) := ⟨_, rfl⟩
example : metadata.configs.get? "Unknown" = none := by decide +kernel

/-- The number of details asked for in the authorization requests of a call. -/
def asked (evs : List Event) : List (Option Nat) := evs.filterMap fun ev => match ev.call with
  | .authorization q => some (q.authorizationDetails.map (·.length))
  | _ => none

-- C64: only the employee credential was accepted, yet both are asked for
example : asked (lastOf [doOffer, doAccept, doPin] doAuthorize).events = [some 2] := by decide +kernel

-- C65: accepting what is neither offered nor known
example : outcomes env [doOffer, call (.accept { issuanceId := "t", accept := some [{ configId := "Unknown", claims := none }] })] =
    ["offer t", "flow t"] := by decide +kernel
example : outcomes env [doOffer, call (.accept { issuanceId := "t", accept := some [{ configId := "Unknown", claims := some [] }] })] =
    ["offer t", "refused credential configuration accepted not found in offer"] := by decide +kernel

-- C66: one credential works, two do not
example : outcomes (env ["emp-1", "emp-2"]) [doOffer, doAccept, doPin, doToken, doCredentials] =
    ["offer t", "flow t", "flow t", "authorized t", "provider"] := by decide +kernel

-- C68, C69, C77: a put off credential is redeemed, saved twice on the way, and the flow is over
def deferring : List HStep := [doOffer, doAccept, doPin, doToken, doCredentials, doSave, doDeferred, doSave, doSave, doCredentials]
example : outcomes (env ["dev-1"]) deferring =
    ["offer t", "flow t", "flow t", "authorized t", "credentials t more", "flow t", "credentials t", "flow t", "load", "load"] := by decide +kernel
example : outcomes env [doOffer, doAccept, doCancel, doPin, doToken] = ["offer t", "flow t", "flow t", "load", "load"] := by decide +kernel
example : outstanding "t" (at_ [doOffer, doAccept, doPin, doToken, doCredentials] ["dev-1"]).log = ["tx-1"] := by decide +kernel
example : received "t" (at_ deferring ["dev-1"]).log = ["vc.jwt"] := by decide +kernel

/-! ### C90 -/

/-- Calls that end a flow when they come back. -/
def ends : Req → Bool
  | .save _ => true
  | .cancel _ => true
  | _ => false

theorem not_ended {k : String} {log : List Entry} (h : log.all (fun en => !ends en.req) = true) : ¬ Ended k log := by
  rintro ⟨pre, en, post, rfl, h1, _⟩
  rw [List.all_eq_true] at h
  have := h en (by simp)
  rcases h1 with h1 | ⟨h1, _⟩ <;> rw [h1] at this <;> cases this

/-- Received, then several calls that are refused: still there, and saved in full. -/
example : ∃ cs : List Credential, (step env (at_ [doOffer, doAccept, doPin, doToken, doCredentials, doPin, doToken, doDeferred]) doSave).1 = .ok (.flow "t") ∧
    cs.map (·.issued) = received "t" (at_ [doOffer, doAccept, doPin, doToken, doCredentials, doPin, doToken, doDeferred]).log ∧ cs ≠ [] := by
  obtain ⟨cs, h1, h2, _⟩ := C90_received_can_be_saved (e := env) (k := "t") (env_fresh _) (fun n h => nomatch h)
    (at_reachable [doOffer, doAccept, doPin, doToken, doCredentials, doPin, doToken, doDeferred] ["emp-1"]) (by decide +kernel)
    (not_ended (by decide +kernel)) doSave rfl (fun _ _ => rfl) (fun _ _ => rfl)
  refine ⟨cs, h1, h2, ?_⟩
  rintro rfl
  exact absurd h2.symm (by decide +kernel)

/-! ### C79 -/

/-- `state`s sent and received by the authorization requests of a call. -/
def states (evs : List Event) : List (Option String × Option String) := evs.filterMap fun ev => match ev with
  | ⟨.authorization q, some (a : Issuer.AuthorizationResponse)⟩ => some (q.state, a.state)
  | _ => none

/-- A call that got an answer meant for somebody else carries on and succeeds. -/
theorem C79_foreign_state_accepted : ∃ e w s, HEnv.Fresh e ∧ Reachable e w ∧ (step e w s).1 = .ok (.authorized "t" (some [("Employee", ["emp-1"])])) ∧
    ∃ en, (step e w s).2.log.getLast? = some en ∧ states en.events = [(some "t", some "someone else's")] := by
  refine ⟨env, at_ [doOffer, doAccept, doPin], doAuthorize, env_fresh _, at_reachable _ _, rfl, lastOf [doOffer, doAccept, doPin] doAuthorize, ?_, by decide +kernel⟩
  rw [step_log, List.getLast?_append]
  rfl

/-! ### C80 -/

/-- Flow `k` began with an offer by `issuer`. -/
def OfferedBy (k issuer : String) (log : List Entry) : Prop :=
  ∃ x ∈ log, ∃ r iss cs g, x.req = .offer r ∧ r.offer.credentialIssuer = issuer ∧ x.result = .ok (.offer k iss cs g)

theorem demo_offered (steps : List HStep) (ids : List String) : OfferedBy "t" "https://issuer.example" (at_ (doOffer :: steps) ids).log := by
  have h : ∀ (steps : List HStep) (w : HWorld), OfferedBy "t" "https://issuer.example" w.log → OfferedBy "t" "https://issuer.example" (exec (env ids) w steps).log := by
    intro steps
    induction steps with
    | nil => intro w h; exact h
    | cons s l ih =>
      intro w ⟨x, hx, h⟩
      exact ih (step (env ids) w s).2 ⟨x, by rw [step_log]; exact List.mem_append_left _ hx, h⟩
  exact h steps (step (env ids) (start 0) doOffer).2 ⟨_, List.mem_singleton.mpr rfl, _, _, _, _, rfl, rfl, rfl⟩

/-- A pre-authorized code from one issuer is sent to another, with the PIN the holder typed. -/
theorem C80_code_sent_elsewhere : ∃ e w s, HEnv.Fresh e ∧ Reachable e w ∧ OfferedBy "t" "https://issuer.example" w.log ∧ s.req = .token "t" ∧
    ∃ en, (step e w s).2.log.getLast? = some en ∧
      (tokens en.events).map (fun t => (t.credentialIssuer, match t.grantType with | .preAuthorizedCode c p => (c, p) | _ => ("", none))) =
        [("https://elsewhere.example", ("pre-1", some "1234"))] := by
  refine ⟨env, at_ [doOffer, doAccept, doPin], doToken, env_fresh _, at_reachable _ _, demo_offered _ _, rfl, lastOf [doOffer, doAccept, doPin] doToken, ?_, by decide +kernel⟩
  rw [step_log, List.getLast?_append]
  rfl

/-! ### C82 -/

/-- The issuers of the credentials handed to storage by a call. -/
def saved (evs : List Event) : List String := evs.filterMap fun ev => match ev.call with
  | .save c => some c.issuer
  | _ => none

/-- A credential signed by a stranger is saved in a flow offered by an issuer. -/
theorem C82_saves_credentials_of_strangers : ∃ e w s, HEnv.Fresh e ∧ Reachable e w ∧ OfferedBy "t" "https://issuer.example" w.log ∧ s.req = .save "t" ∧
    (step e w s).1 = .ok (.flow "t") ∧
    ∃ en, (step e w s).2.log.getLast? = some en ∧ saved en.events = ["https://stranger.example"] := by
  refine ⟨env, at_ [doOffer, doAccept, doPin, doToken, doCredentials], doSave, env_fresh _, at_reachable _ _, demo_offered _ _, rfl, rfl,
    lastOf [doOffer, doAccept, doPin, doToken, doCredentials] doSave, ?_, by decide +kernel⟩
  rw [step_log, List.getLast?_append]
  rfl

/-! ### C83 -/

/-- The proofs of possession in the credential requests of a call. -/
def proofs (evs : List Event) : List (Option String) := evs.filterMap fun ev => match ev.call with
  | .credential q => some (proofText q)
  | _ => none

-- with an offer, the proof is made out to the issuer
example : proofs (lastOf [doOffer, doAccept, doPin, doToken] doCredentials).events = [some "proof:n1:https://issuer.example"] := by decide +kernel

def walletSteps : List HStep := [doWallet none (some [{ credential := .configurationId "Employee" none }])]

/-- In a flow the wallet began, the proof of possession is made out to nobody. -/
theorem C83_wallet_flow_without_audience : ∃ e w s, HEnv.Fresh e ∧ Reachable e w ∧ s.req = .credentials ⟨"t", none, none⟩ ∧
    (step e w s).1 = .ok (.credentials "t" none) ∧
    ∃ en, (step e w s).2.log.getLast? = some en ∧ ∃ claims : ProofClaims, claims.aud = "" ∧ proofs en.events = [s.provider.signProof claims] := by
  refine ⟨env, at_ walletSteps, doCredentials, env_fresh _, at_reachable _ _, rfl, rfl, lastOf walletSteps doCredentials, ?_,
    ⟨some "wallet", "", 0, some "n1"⟩, rfl, by decide +kernel⟩
  rw [step_log, List.getLast?_append]
  rfl

/-! ### C85 -/

/-- The nonces issuers handed out in the credential responses of a call. -/
def newNonces (evs : List Event) : List (Option String) := evs.filterMap fun ev => match ev with
  | ⟨.credential _, some (r : CredentialResponse)⟩ => some r.cNonce
  | _ => none

def scopeSteps : List HStep := [doWallet (some "employee") none]
def byScope : HStep := doCredentials (some employee.format)

-- by identifier, the next proof is over the new nonce
example : newNonces (lastOf [doOffer, doAccept, doPin, doToken] doCredentials).events = [some "n2"] := by decide +kernel
example : proofs (lastOf [doOffer, doAccept, doPin, doToken, doCredentials] doCredentials).events = [some "proof:n2:https://issuer.example"] := by decide +kernel

/-- The credentials asked for by identifier, with the proofs. -/
def named (evs : List Event) : List (String × String) := evs.filterMap fun ev => match ev.call with
  | .credential ⟨_, _, .identifier id, some (.single j)⟩ => some (id, j)
  | _ => none

-- C85, the true part: the second credential of a flow
example : ∃ jwt claims, doCredentials.provider.signProof claims = some jwt ∧ claims.nonce = some "n2" ∧
    named (lastOf [doOffer, doAccept, doPin, doToken, doCredentials] doCredentials).events = [("emp-1", jwt)] := by
  have hp : named (lastOf [doOffer, doAccept, doPin, doToken, doCredentials] doCredentials).events = [("emp-1", "proof:n2:https://issuer.example")] := by
    decide +kernel
  have hmem : ("emp-1", "proof:n2:https://issuer.example") ∈ named (lastOf [doOffer, doAccept, doPin, doToken, doCredentials] doCredentials).events := by
    rw [hp]; exact .head _
  obtain ⟨⟨c, x⟩, hev, hj⟩ := List.mem_filterMap.1 hmem
  cases c <;> first | (cases hj; done) | skip
  rename_i q
  obtain ⟨_, _, id, proof⟩ := q
  rcases id with id | f <;> rcases proof with _ | j | js <;> first | (cases hj; done) | skip
  have hj : some (id, j) = some ("emp-1", "proof:n2:https://issuer.example") := hj
  cases hj
  obtain ⟨jwt, claims, h1, h2, h3⟩ := C85_proof_over_latest_nonce_partial (env_fresh _) (fun _ => nofun)
    (at_reachable [doOffer, doAccept, doPin, doToken, doCredentials] _) doCredentials rfl (step_log ..) hev ⟨_, rfl⟩
  cases h1
  exact ⟨_, claims, h2, h3.trans (by decide +kernel), hp⟩

/-- By scope, the next proof is still over the old one. -/
theorem C85_stale_nonce : ∃ e w s s', HEnv.Fresh e ∧ Reachable e w ∧ s.req = .credentials ⟨"t", none, some employee.format⟩ ∧ s'.req = s.req ∧
    (step e w s).1 = .ok (.credentials "t" none) ∧ ∃ en en', (step e w s).2.log.getLast? = some en ∧
      (step e (step e w s).2 s').2.log.getLast? = some en' ∧ newNonces en.events = [some "n2"] ∧
      ∃ claims : ProofClaims, claims.nonce = some "n1" ∧ proofs en'.events = [s'.provider.signProof claims] := by
  refine ⟨env, at_ scopeSteps, byScope, byScope, env_fresh _, at_reachable _ _, rfl, rfl, rfl, lastOf scopeSteps byScope,
    lastOf (scopeSteps ++ [byScope]) byScope, ?_, ?_, by decide +kernel, ⟨some "wallet", "", 0, some "n1"⟩, rfl, by decide +kernel⟩
  · rw [step_log, List.getLast?_append]
    rfl
  · rw [step_log, List.getLast?_append]
    rfl

/-! ### Presentations: C70, C72, C73, C84 -/

def doRequest (url : String := "https://verifier.example/request/1") : HStep := call (.request url)
def doAllow : HStep := call (.authorizePresentation "t")
def doPresent : HStep := call (.present "t")

example : outcomes env [doRequest, doPresent, doAllow, doAllow, doPresent] =
    ["request t", "refused Invalid presentation state", "status", "refused invalid presentation state", "presented"] := by decide +kernel
example : kinds (lastOf [doRequest, doAllow] doPresent).events = ["present"] := by decide +kernel
example : kinds (lastOf [] doRequest).events = ["requestObject", "find"] := by decide +kernel

/-- A request in the text itself: nobody is asked about it. -/
example : kinds (lastOf [] (doRequest "https://x?client_id=a&presentation_definition=b")).events = ["find"] := by decide +kernel
example : outcomes env [doRequest "https://x?client_id=a&presentation_definition=b", doAllow, doPresent] = ["request t", "status", "presented"] := by
  decide +kernel
example : HasConst definition := by
  refine ⟨_, List.mem_singleton.mpr rfl, ?_⟩
  exact ⟨_, rfl, _, List.mem_singleton.mpr rfl, "string", "Employee", rfl⟩

/-! ### C81 -/

/-- Server metadata without response types, as anybody may serve it. -/
def emptyEnv : HEnv := { env with oracle := fun l r c => match c with | .oauthServer _ => some { server with responseTypesSupported := [] } | c => oracle ["emp-1"] l r c }

example : outcomes emptyEnv walletSteps = ["panic index out of bounds"] := by decide +kernel
example : outcomes emptyEnv [doOffer, doAccept, doPin, doAuthorize] = ["offer t", "flow t", "flow t", "panic index out of bounds"] := by decide +kernel

end Verif.Holder.Demo
