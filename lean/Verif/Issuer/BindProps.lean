import Verif.Issuer.CredentialProps
import Verif.Issuer.CredentialLemmas
import Verif.Issuer.SessionProps
import Verif.Issuer.StepLemmas
import Verif.Holder.Receive
/-!
# C132, C133, C134: what a key proof is for, and what tells one credential from another
-/
namespace Verif.Issuer
open Prog

/-! ### Specification -/

/-- A rewriting of key proofs that leaves their type, nonce and key alone: at most the client they name (`iss`), the credential issuer they are
meant for (`aud`) and the time they were made (`iat`) change. -/
def Readdresses (f : ProofJwt → ProofJwt) : Prop :=
  ∀ p, (f p).typIsProof = p.typIsProof ∧ (f p).nonce = p.nonce ∧ (f p).kid = p.kid

/-- The same provider, every key proof rewritten by `f`. -/
def Provider.readdress (P : Provider) (f : ProofJwt → ProofJwt) : Provider := { P with decodeProof := fun j => (P.decodeProof j).map f }

/-- The same step, every key proof rewritten by `f`. -/
def Step.readdress (s : Step) (f : ProofJwt → ProofJwt) : Step := { s with provider := s.provider.readdress f }

/-- The W3C credential `vc` is what the step is answered with, at the credential or at the deferred endpoint. -/
def Gives (e : Env) (w : World State) (s : Step) (vc : Vc) : Prop :=
  ∃ resp k at_, ((step e w s).1 = .ok (.credential resp) ∨ (step e w s).1 = .ok (.deferred resp)) ∧ resp.response = .credential (.jwtVc k vc at_)

/-- The access token of a step at the credential or the deferred endpoint. -/
def Req.accessToken? : Req → Option String
  | .credential r => some r.accessToken
  | .deferred r => some r.accessToken
  | _ => none

/-- The session a step at the credential or the deferred endpoint belongs to is one of `subject`. -/
def ForSubject (w : World State) (s : Step) (subject : String) : Prop :=
  ∃ tok st, s.req.accessToken? = some tok ∧ w.store tok = some st ∧ st.subjectId = some subject

/-- The same step, with another Status service. -/
def Step.withStatus (s : Step) (g : String → String → Option (Option (Quota CredentialStatus))) : Step :=
  { s with provider := { s.provider with status := g } }

/-- What a wallet's credential storage holds after these credentials were saved one after the other, by the contract of `CredentialStorer::save`
(/repo/vercre-holder/src/provider.rs 102-105): a credential takes the place of any with the same id. -/
def saved (held : List Holder.Credential) : List Holder.Credential → List Holder.Credential
  | [] => held
  | c :: cs => saved (held.filter (fun x => x.id != c.id) ++ [c]) cs

/-- A wallet made `c` out of a credential of type `t` that was issued, in the name of `i`, at some step of some issuer. -/
def Received (J : Jose) (i : Kind IssuerObj) (t : Quota String) (c : Holder.Credential) : Prop :=
  Holder.Verified J c ∧ c.vc.issuer = i ∧ c.vc.type_ = t ∧ ∃ e w s, Gives e w s c.vc

/-! ### Lemmas -/

theorem checkProof_readdress {P : Provider} {f : ProofJwt → ProofJwt} (hf : Readdresses f) (n j : String) :
    Credential.checkProof (P.readdress f) n j = Credential.checkProof P n j := by
  simp only [Credential.checkProof, Provider.readdress]
  cases P.decodeProof j with
  | none => rfl
  | some p => obtain ⟨h1, h2, h3⟩ := hf p; simp only [Option.map_some, h1, h2, h3]

theorem checkProofs_readdress {P : Provider} {f : ProofJwt → ProofJwt} (hf : Readdresses f) (n : String) (l : List String) (d : String) :
    Credential.checkProofs (P.readdress f) n l d = Credential.checkProofs P n l d := by
  induction l generalizing d with
  | nil => rfl
  | cons j l ih => simp only [Credential.checkProofs, checkProof_readdress hf, ih]

theorem verify_readdress {P : Provider} {f : ProofJwt → ProofJwt} (hf : Readdresses f) (ctx : Credential.Ctx) (req : CredentialRequest) :
    Credential.verify (P.readdress f) ctx req = Credential.verify P ctx req := by
  simp only [Credential.verify, checkProofs_readdress hf]

theorem credential_readdress {P : Provider} {f : ProofJwt → ProofJwt} (hf : Readdresses f) (req : CredentialRequest) :
    credential (P.readdress f) req = credential P req := by
  simp only [credential, verify_readdress hf]
  rfl

/-- Neither making offers nor authorizing looks at key proofs or asks for a status. -/
theorem offer_authorize {P : Provider} (dp : String → Option ProofJwt) (st : String → String → Option (Option (Quota CredentialStatus)))
    (subject : String) (l : List String) :
    CreateOffer.authorize { P with decodeProof := dp, status := st } subject l = CreateOffer.authorize P subject l := by
  induction l with
  | nil => rfl
  | cons a l ih => simp only [CreateOffer.authorize, ih]

theorem details_authorize {P : Provider} (dp : String → Option ProofJwt) (st : String → String → Option (Option (Quota CredentialStatus)))
    (subject : String) (l : List (String × AuthorizationDetail)) :
    Authorize.authorizeDetails { P with decodeProof := dp, status := st } subject l = Authorize.authorizeDetails P subject l := by
  induction l with
  | nil => rfl
  | cons a l ih => obtain ⟨k, d⟩ := a; simp only [Authorize.authorizeDetails, ih]

theorem scopes_authorize {P : Provider} (dp : String → Option ProofJwt) (st : String → String → Option (Option (Quota CredentialStatus)))
    (subject : String) (l : List (String × String)) :
    Authorize.authorizeScopes { P with decodeProof := dp, status := st } subject l = Authorize.authorizeScopes P subject l := by
  induction l with
  | nil => rfl
  | cons a l ih => obtain ⟨k, d⟩ := a; simp only [Authorize.authorizeScopes, ih]

theorem call_other {P : Provider} (dp : String → Option ProofJwt) (st : String → String → Option (Option (Quota CredentialStatus))) {r : Req}
    (hr : r.accessToken? = none) : call { P with decodeProof := dp, status := st } r = call P r := by
  cases r with
  | credential r => cases hr
  | deferred r => cases hr
  | createOffer r =>
    simp only [call, createOffer, CreateOffer.process, CreateOffer.saveOffer, CreateOffer.offerItems, offer_authorize]
    rfl
  | authorize r =>
    simp only [call, authorize, Authorize.process, Authorize.authorizeItems, details_authorize, scopes_authorize]
    rfl
  | _ => rfl

theorem call_readdress {P : Provider} {f : ProofJwt → ProofJwt} (hf : Readdresses f) (r : Req) : call (P.readdress f) r = call P r := by
  cases r with
  | credential r => simp only [call, credential_readdress hf]
  | deferred r => simp only [call, deferred, credential_readdress hf]
  | _ => exact call_other _ P.status rfl

theorem jwt_signed {P : Provider} {ctx : Credential.Ctx} {did : String} {req : CredentialRequest} {ds : Dataset} {now at_ : Int} {k : String}
    {vc : Vc} (h : Credential.signed P ctx did req ds now = .ok (.jwtVc k vc at_)) : ∃ d, Credential.w3cVc P ctx did d ds = .ok vc := by
  simp only [Credential.signed, Except.bind_ok, orErr_ok] at h
  obtain ⟨_, _, h⟩ := h
  split at h
  · rename_i d _
    simp only [Except.bind_ok, require_ok, pure, Except.pure, Except.ok.injEq, IssuedCredential.jwtVc.injEq] at h
    obtain ⟨vc, h1, _, _, _, rfl, _⟩ := h
    exact ⟨d, h1⟩
  · simp [Except.bind_ok, require_ok, pure, Except.pure] at h
  · cases h
  · cases h
  · cases h

/-- What a credential issued by one run of the endpoint looks like. -/
theorem issued_facts {P : Provider} {req : CredentialRequest} {e : Env} {w w' : World State} {resp : CredentialResponse}
    (h : (credential P req).run e w = (.ok resp, w')) {k : String} {vc : Vc} {at_ : Int} (hc : resp.response = .credential (.jwtVc k vc at_)) :
    ∃ s subj iss ty, w.store req.accessToken = some s ∧ s.subjectId = some subj ∧ P.status subj "credential_identifier" = some vc.status ∧
      vc.issuer = .string iss ∧ vc.type_ = .many ["VerifiableCredential", ty] ∧ vc.id = some (iss ++ "/credentials/" ++ ty) := by
  obtain ⟨s, ctx, t, did, ds, _, hs, hctx, _, _, _, _, _, hr⟩ := credential_ok_iff.1 h
  rcases hr with ⟨_, _, rfl, _⟩ | ⟨_, c', hc', _, _, rfl, _⟩
  · cases hc
  cases hc
  obtain ⟨d, hv⟩ := jwt_signed hc'
  obtain ⟨types, ty, subj, status, _, _, h3, h4, _, h6, h7, h8, _, h10, _⟩ := Credential.w3cVc_ok hv
  have hcs := (Credential.context_ok.1 hctx).1
  exact ⟨s, subj, _, ty, hs, by rw [← hcs]; exact h3, by rw [h10]; exact h4, h8, h7, h6⟩

/-- What a credential given by a step looks like. -/
theorem Gives.facts {e : Env} {w : World State} {s : Step} {vc : Vc} (h : Gives e w s vc) :
    ∃ tok st subj iss ty, s.req.accessToken? = some tok ∧ w.store tok = some st ∧ st.subjectId = some subj ∧
      s.provider.status subj "credential_identifier" = some vc.status ∧
      vc.issuer = .string iss ∧ vc.type_ = .many ["VerifiableCredential", ty] ∧ vc.id = some (iss ++ "/credentials/" ++ ty) := by
  obtain ⟨resp, k, at_, h, hc⟩ := h
  cases hr : s.req with
  | credential r =>
    rw [step_credential hr] at h
    simp only [map_ok, reduceCtorEq, and_false, exists_false, or_false, Resp.credential.injEq, exists_eq_right] at h
    obtain ⟨st, subj, iss, ty, h1, h2⟩ := issued_facts (pair_of_fst h) hc
    exact ⟨_, st, subj, iss, ty, rfl, h1, h2⟩
  | deferred r =>
    rw [step_deferred hr] at h
    simp only [map_ok, reduceCtorEq, and_false, exists_false, false_or, Resp.deferred.injEq, exists_eq_right] at h
    obtain ⟨dst, txn, sv, _, _, _, _, _, hrun, _⟩ := deferred_ok_iff.1 (pair_of_fst h)
    obtain ⟨st, subj, iss, ty, h1, h2⟩ := issued_facts hrun hc
    refine ⟨_, st, subj, iss, ty, rfl, ?_, h2⟩
    simp only [upd] at h1
    split at h1
    · cases h1
    · exact h1
  | createOffer r => rw [step_createOffer hr] at h; simp [map_ok] at h
  | credentialOffer r => rw [step_credentialOffer hr] at h; simp [map_ok] at h
  | par r => rw [step_par hr] at h; simp [map_ok] at h
  | authorize r => rw [step_authorize hr] at h; simp [map_ok] at h
  | token r => rw [step_token hr] at h; simp [map_ok] at h
  | notification r => rw [step_notification hr] at h; simp [map_ok] at h
  | register r => rw [step_register hr] at h; simp [map_ok] at h
  | metadata c =>
    simp only [step, hr, call] at h
    rw [run_map_pure] at h
    simp [map_ok] at h
  | oauthServer c =>
    simp only [step, hr, call] at h
    rw [run_map_pure] at h
    simp [map_ok] at h

theorem w3cVc_status {P : Provider} {g : String → String → Option (Option (Quota CredentialStatus))}
    (hg : ∀ subject, g subject "credential_identifier" = P.status subject "credential_identifier") (ctx : Credential.Ctx) (did : String)
    (d : CredentialDefinition) (ds : Dataset) :
    Credential.w3cVc { P with status := g } ctx did d ds = Credential.w3cVc P ctx did d ds := by
  simp only [Credential.w3cVc, hg]

theorem call_status {P : Provider} {g : String → String → Option (Option (Quota CredentialStatus))}
    (hg : ∀ subject, g subject "credential_identifier" = P.status subject "credential_identifier") (r : Req) :
    call { P with status := g } r = call P r := by
  have hc : ∀ q, credential { P with status := g } q = credential P q := by
    intro q
    have hs : ∀ ctx did ds now, Credential.signed { P with status := g } ctx did q ds now = Credential.signed P ctx did q ds now := by
      intro ctx did ds now
      simp only [Credential.signed, w3cVc_status hg]
    have hv : ∀ n l d, Credential.checkProofs { P with status := g } n l d = Credential.checkProofs P n l d := by
      intro n l
      induction l with
      | nil => intro d; rfl
      | cons j l ih => intro d; simp only [Credential.checkProofs, Credential.checkProof, ih]
    simp only [credential, Credential.process, Credential.issueResponse, hs, Credential.verify, hv]
    rfl
  cases r with
  | credential r => simp only [call, hc]
  | deferred r => simp only [call, deferred, hc]
  | _ => exact call_other P.decodeProof g rfl

theorem saved_same_id {i : String} (cs : List Holder.Credential) (h : ∀ c ∈ cs, c.id = i) (held : List Holder.Credential) (hne : cs ≠ []) :
    saved held cs = held.filter (fun x => x.id != i) ++ [cs.getLast hne] := by
  induction cs generalizing held with
  | nil => exact absurd rfl hne
  | cons c cs ih =>
    have hc := h c (.head _)
    cases cs with
    | nil => simp only [saved, hc, List.getLast_singleton]
    | cons c' cs =>
      rw [saved, ih (fun x hx => h x (.tail _ hx)) _ (by simp)]
      simp [hc, List.filter_append, List.filter_filter]

/-! ### C132 -/

/-- **C132 is false**: whom a key proof names as its client, which credential issuer it was made for and when it was made makes no difference to
any step in any state. The answer and everything stored are the same with any other names and times. -/
theorem C132_audience_ignored {f : ProofJwt → ProofJwt} (hf : Readdresses f) (e : Env) (w : World State) (s : Step) :
    step e w (s.readdress f) = step e w s := by
  simp only [step, Step.readdress, call_readdress hf]

/-- **C132 is false**, for whole histories. -/
theorem C132_audience_ignored_throughout {f : ProofJwt → ProofJwt} (hf : Readdresses f) (e : Env) (w : World State) (l : List Step) :
    exec e w (l.map fun s => s.readdress f) = exec e w l := by
  induction l generalizing w with
  | nil => rfl
  | cons s l ih => simp only [List.map_cons, exec, C132_audience_ignored hf, ih]

/-- **C132 is false** on a run: a wallet's proof made for another issuer, an hour ago, by another client, gets a credential bound to its key. -/
theorem C132_proof_for_another_issuer_accepted :
    ∃ (e : Env) (w : World State) (s : Step) (req : CredentialRequest) (p : ProofJwt) (resp : CredentialResponse) (c : IssuedCredential)
      (claims : Dict Json), Env.Fresh e ∧ Reachable e w ∧ s.req = .credential req ∧ req.proof = some (.single (Demo.rng 3)) ∧
      s.provider.decodeProof (Demo.rng 3) = some p ∧ p.aud = "http://elsewhere.example" ∧ p.aud ≠ req.credentialIssuer ∧ p.iss = some "someone else" ∧
      (step e w s).1 = .ok (.credential resp) ∧ resp.response = .credential c ∧ c.Says (some "did:web:holder") claims := by
  refine ⟨Demo.env, Demo.validated,
    { provider := Demo.provider.readdress fun p => { p with aud := "http://elsewhere.example", iss := some "someone else", iat := -3600 },
      req := .credential (Demo.credReq (Demo.rng 2) (Demo.rng 3)) }, _, _, _, _, _, Demo.env_fresh, ?_, rfl, rfl, rfl, rfl, by decide, rfl, rfl, rfl,
    .vc _ _ _ _ _ rfl⟩
  exact ⟨0, _, by rw [Demo.validated, Demo.offered, ← exec_append]⟩

/-! ### C133 -/

/-- **C133 is false**: two credentials of one issuer and one type have one and the same id, whomever they are issued to and whenever, whatever they
say. -/
theorem C133_credentials_share_their_id {e e' : Env} {w w' : World State} {s s' : Step} {vc vc' : Vc} (h : Gives e w s vc) (h' : Gives e' w' s' vc')
    (hi : vc.issuer = vc'.issuer) (ht : vc.type_ = vc'.type_) : vc.id = vc'.id ∧ vc.id.isSome := by
  obtain ⟨_, _, _, iss, ty, _, _, _, _, h1, h2, h3⟩ := h.facts
  obtain ⟨_, _, _, iss', ty', _, _, _, _, h1', h2', h3'⟩ := h'.facts
  rw [h1, h1'] at hi
  rw [h2, h2'] at ht
  cases hi
  cases ht
  rw [h3, h3']
  exact ⟨rfl, rfl⟩

/-- **C133**, the part that holds: the id of every credential is made of its issuer and its type, so that credentials of different issuers or types
have different ids as long as the issuer's name and the types hold no separator. -/
theorem C133_id_tells_issuer_and_type_partial {e : Env} {w : World State} {s : Step} {vc : Vc} (h : Gives e w s vc) :
    ∃ iss ty, vc.issuer = .string iss ∧ vc.type_ = .many ["VerifiableCredential", ty] ∧ vc.id = some (iss ++ "/credentials/" ++ ty) := by
  obtain ⟨_, _, _, iss, ty, _, _, _, _, h1, h2, h3⟩ := h.facts
  exact ⟨iss, ty, h1, h2, h3⟩

theorem Received.id_eq {J : Jose} {i : Kind IssuerObj} {t : Quota String} {c c' : Holder.Credential} (h : Received J i t c) (h' : Received J i t c') :
    c.id = c'.id := by
  obtain ⟨⟨cl, _, hv, _, _, hid⟩, hi, ht, _, _, _, hg⟩ := h
  obtain ⟨⟨cl', _, hv', _, _, hid'⟩, hi', ht', _, _, _, hg'⟩ := h'
  obtain ⟨he, hs⟩ := C133_credentials_share_their_id hg hg' (hi.trans hi'.symm) (ht.trans ht'.symm)
  rw [hv, hv'] at he
  rw [hv] at hs
  obtain ⟨x, hx⟩ := Option.isSome_iff_exists.1 hs
  rw [hid x hx, hid' x (he ▸ hx)]

/-- **C133 is false**, as wallets see it: of any number of credentials of one type that a wallet takes in from one issuer, its storage keeps the last
only, and any credential of that issuer and type held before is gone too. -/
theorem C133_wallet_keeps_only_the_last {J : Jose} {i : Kind IssuerObj} {t : Quota String} {cs : List Holder.Credential} (hne : cs ≠ [])
    (h : ∀ c ∈ cs, Received J i t c) (held : List Holder.Credential) :
    ∃ others, saved held cs = others ++ [cs.getLast hne] ∧ ∀ c ∈ others, c ∈ held ∧ ¬ Received J i t c := by
  obtain ⟨c0, hc0⟩ := List.exists_mem_of_ne_nil cs hne
  have hid : ∀ c, Received J i t c → c.id = c0.id := fun c hc => hc.id_eq (h c0 hc0)
  refine ⟨_, saved_same_id cs (fun c hc => hid c (h c hc)) held hne, fun c hc => ?_⟩
  simp only [List.mem_filter, bne_iff_ne, ne_eq] at hc
  exact ⟨hc.1, fun hr => hc.2 (hid c hr)⟩

/-! ### C134 -/

/-- **C134 is false**: any two credentials that one Status service describes for one subject get the same status entry, whatever they are. Revoking the
one revokes the other. -/
theorem C134_one_status_per_subject {e e' : Env} {w w' : World State} {s s' : Step} {vc vc' : Vc} (h : Gives e w s vc) (h' : Gives e' w' s' vc')
    (hs : s.provider.status = s'.provider.status) {subject : String} (hw : ForSubject w s subject) (hw' : ForSubject w' s' subject) :
    vc.status = vc'.status := by
  obtain ⟨tok, st, subj, _, _, h1, h2, h3, h4, _⟩ := h.facts
  obtain ⟨tok', st', subj', _, _, h1', h2', h3', h4', _⟩ := h'.facts
  obtain ⟨a, b, ha, hb, hc⟩ := hw
  obtain ⟨a', b', ha', hb', hc'⟩ := hw'
  rw [h1] at ha; cases ha
  rw [h2] at hb; cases hb
  rw [h3] at hc; cases hc
  rw [h1'] at ha'; cases ha'
  rw [h2'] at hb'; cases hb'
  rw [h3'] at hc'; cases hc'
  rw [hs, h4'] at h4
  exact (Option.some.inj h4).symm

/-- **C134 is false**: the Status service is never told which credential is being issued. What it would say of any credential identifier but the fixed
text `credential_identifier` makes no difference to any step. -/
theorem C134_credential_never_named {g : String → String → Option (Option (Quota CredentialStatus))} {s : Step}
    (hg : ∀ subject, g subject "credential_identifier" = s.provider.status subject "credential_identifier") (e : Env) (w : World State) :
    step e w (s.withStatus g) = step e w s := by
  simp only [step, Step.withStatus, call_status hg]

/-- **C134**, the part that holds: what a credential says of its status is what the Status service says of the subject the session belongs to. -/
theorem C134_status_of_subject_partial {e : Env} {w : World State} {s : Step} {vc : Vc} (h : Gives e w s vc) :
    ∃ subject, ForSubject w s subject ∧ s.provider.status subject "credential_identifier" = some vc.status := by
  obtain ⟨tok, st, subj, _, _, h1, h2, h3, h4, _⟩ := h.facts
  exact ⟨subj, ⟨tok, st, h1, h2, h3⟩, h4⟩

/-! ### Examples -/

namespace BindDemo

/-- A Status service with an entry of its own for every credential of every subject. -/
def entry (subject id : String) : Option (Option (Quota CredentialStatus)) :=
  some (some (.one { id := some (subject ++ "/" ++ id), purpose := .revocation, listIndex := id.length, listCredential := "http://vercre.io/status", size := none }))

/-- The sample provider with that Status service and another address in the subject's data. -/
def provider (email : String) : Provider := { Demo.provider with
  status := entry
  dataset := fun s _ => if s = "normal" then some { claims := [("email", .str email)], pending := false } else none }

/-- An offer of both credentials. -/
def bothReq : CreateOfferRequest := { Demo.offerReq with configIds := ["Employee", "Developer"] }

/-- Both credentials are to be had, with token `ttt` and nonce `tttt`. -/
def both : World State :=
  exec Demo.env (start 0) [{ provider := Demo.provider, req := .createOffer bothReq }, { provider := Demo.provider, req := .token (Demo.tokenReq (Demo.rng 0)) }]

/-- The employee credential is asked for. -/
def employee (email : String) : Step := { provider := provider email, req := .credential (Demo.credReq (Demo.rng 2) (Demo.rng 3)) }

/-- The developer credential is asked for. -/
def developer (email : String) : Step :=
  { provider := provider email, req := .credential { Demo.credReq (Demo.rng 2) (Demo.rng 3) with credential := .identifier "dev-1" } }

/-- The W3C credential of an answer. -/
def got : Res Resp → Option Vc
  | .ok (.credential { response := .credential (.jwtVc _ vc _), .. }) => some vc
  | _ => none

theorem gives {e : Env} {w : World State} {s : Step} {vc : Vc} (h : got (step e w s).1 = some vc) : Gives e w s vc := by
  unfold got at h
  split at h
  · rename_i resp k vc' at_ _ _ _ hs
    cases h
    exact ⟨_, k, at_, .inl hs, rfl⟩
  · cases h

/-- The credential of a type with an address in it. -/
def card (type_ email : String) : Vc where
  context := [baseContext, .string "http://vercre.io/credentials/v1"]
  id := some ("http://vercre.io/credentials/" ++ type_)
  type_ := .many ["VerifiableCredential", type_]
  issuer := .string "http://vercre.io"
  subject := .one { id := some "did:web:holder", claims := [("email", .str email)] }
  status := some (.one { id := some "normal/credential_identifier", purpose := .revocation, listIndex := 21, listCredential := "http://vercre.io/status", size := none })

theorem employee_given (email : String) : Gives Demo.env both (employee email) (card "EmployeeIDCredential" email) := gives rfl

/-- The developer credential needs no key proof, and names no key. -/
theorem developer_given (email : String) : Gives Demo.env both (developer email)
    { card "DeveloperCredential" email with subject := .one { id := some "", claims := [("email", .str email)] } } := gives rfl

theorem differ : (card "EmployeeIDCredential" "n@example.com").subject ≠ (card "EmployeeIDCredential" "m@example.com").subject := by
  simp [card]

/-- C133: two employee credentials with different addresses. They have one id. -/
example : ∃ vc vc', Gives Demo.env both (employee "n@example.com") vc ∧ Gives Demo.env both (employee "m@example.com") vc' ∧
    vc.issuer = vc'.issuer ∧ vc.type_ = vc'.type_ ∧ vc.subject ≠ vc'.subject ∧ vc.id = vc'.id :=
  ⟨_, _, employee_given _, employee_given _, rfl, rfl, differ, rfl⟩

/-- C134: an employee and a developer credential of one subject, whose entries at the Status service differ. They name one entry. -/
example : ∃ vc vc', Gives Demo.env both (employee "n@example.com") vc ∧ Gives Demo.env both (developer "n@example.com") vc' ∧
    (employee "n@example.com").provider.status = (developer "n@example.com").provider.status ∧
    ForSubject both (employee "n@example.com") "normal" ∧ ForSubject both (developer "n@example.com") "normal" ∧
    entry "normal" "emp-1" ≠ entry "normal" "dev-1" ∧ vc.type_ ≠ vc'.type_ ∧ vc.status = vc'.status ∧ vc.status ≠ none :=
  ⟨_, _, employee_given _, developer_given _, rfl, ⟨_, _, rfl, rfl, rfl⟩, ⟨_, _, rfl, rfl, rfl⟩, by simp [entry], by simp [card], rfl, nofun⟩

/-- C132: a rewriting that changes all three. -/
example : Readdresses fun p => { p with aud := "http://elsewhere.example", iss := some "someone else", iat := 0 } := fun _ => ⟨rfl, rfl, rfl⟩

/-- A wallet that reads the texts `n` and `m` as the two employee credentials above. -/
def jose (vc vc' : Vc) : Jose where
  encodeVc _ _ := none
  decodeVc t := if t = "n" then some ⟨"", none, "", 0, "", none, vc⟩ else some ⟨"", none, "", 0, "", none, vc'⟩
  encodeVp _ _ := none
  decodeVp _ := none

/-- What it makes of one of them. -/
def taken (vc : Vc) (t : String) : Holder.Credential where
  id := "http://vercre.io/credentials/EmployeeIDCredential"
  issuer := "http://vercre.io"
  vc := vc
  issued := t
  issuanceDate := 0
  display := none
  logo := none

/-- C133: a wallet takes in both employee credentials. The first is lost. -/
example : ∃ J i t vc vc', (∀ c ∈ [taken vc "n", taken vc' "m"], Received J i t c) ∧ vc.subject ≠ vc'.subject ∧
    saved [] [taken vc "n", taken vc' "m"] = [taken vc' "m"] := by
  refine ⟨jose (card "EmployeeIDCredential" "n@example.com") (card "EmployeeIDCredential" "m@example.com"), .string "http://vercre.io",
    .many ["VerifiableCredential", "EmployeeIDCredential"], _, _, ?_, differ, rfl⟩
  intro c hc
  simp only [List.mem_cons, List.not_mem_nil, or_false] at hc
  rcases hc with rfl | rfl
  · exact ⟨⟨_, rfl, rfl, rfl, rfl, fun id h => Option.some.inj h⟩, rfl, rfl, _, _, _, employee_given _⟩
  · exact ⟨⟨_, rfl, rfl, rfl, rfl, fun id h => Option.some.inj h⟩, rfl, rfl, _, _, _, employee_given _⟩

end BindDemo

end Verif.Issuer
