import Verif.Issuer.OverlapProps
/-!
# C196: a credential holds only the claims that were authorized

Authorization details may name the claims that a wallet wants in a credential ("claims", /repo/crates/openid/src/issuer.rs 560-650). The authorization and token
endpoints check that the issuer supports them, but no endpoint ever writes them down: `claim_ids` is `None` in every session
(/repo/vercre-issuer/src/token.rs 325-346), so the check at /repo/vercre-issuer/src/credential.rs 379 never narrows anything.
-/
namespace Verif.Issuer
open Prog

/-- No authorization in the session limits the claims. Specification. -/
def State.Unlimited (s : State) : Prop := ∀ t, s.stage = .validated t → ∀ k a, (k, a) ∈ t.credentials → a.claimIds = none

theorem call_unlimited (P : Provider) (req : Req) :
    Guar (fun _ v => v.Unlimited) (PutOk fun _ v => v.Unlimited) (fun _ => True) (call P req) (fun _ => True) := by
  refine call_guar ?_ ?_ ?_ ?_ ?_ ?_ ?_ ?_ ?_
  · intro k; trivial
  · rintro k t subj items tx _ _ t' h; cases h
  · rintro k t subj items _ t' h; cases h
  · rintro k t subj items _ _ t' h; cases h
  · rintro r k t _ _ t' h; cases h
  · rintro r c s k n t items _ _ _ _ t' h
    cases h
    intro k a hm
    obtain ⟨_, _, _, h⟩ := authorizedCredentials_mem hm
    exact congrArg Authorized.claimIds h
  · rintro c s t n x y hr hs _ t' h
    cases h
    exact hr t hs
  · rintro c s t n k x y hr hs _ _ t' h
    cases h
    exact hr t hs
  · rintro k t r _ t' h; cases h

/-- **C196 is false**, in general: after any history, no access token limits the claims of any credential, whatever claims the authorization, the token request or the
offer named. -/
theorem C196_limits_forgotten {e : Env} {w : World State} (hw : Reachable e w) {tok : String} {s : State} {t : Token} (hs : Session w tok s t) {k : String} {a : Authorized}
    (ha : (k, a) ∈ t.credentials) : a.claimIds = none := by
  have h : ∀ k v, w.store k = some v → v.Unlimited := by
    refine Reachable.induct (I := fun w => ∀ k v, w.store k = some v → v.Unlimited) (fun t k v h => nomatch h) (fun w s hw => ?_) hw
    exact (Guar.run (e := e) (w := World.wait w s.wait) (call_unlimited s.provider s.req) (fun k v hv => hw k v hv) (fun k v h => h) (fun _ _ _ => trivial)).1
  exact h tok s hs.1 t hs.2 k a ha

/-- **C196 is false**, in general, however calls overlap: no session that is ever stored limits the claims. -/
theorem C196_limits_forgotten_overlap {rng : Nat → Nat → String} {t0 : Int} {calls : Nat → Call} (s : List Event) {tok : String} {v : State} {t : Token}
    (hv : ((pool t0 calls).exec rng s).store tok = some v) (ht : v.stage = .validated t) {k : String} {a : Authorized} (ha : (k, a) ∈ t.credentials) :
    a.claimIds = none := by
  have h0 : Pool.Safe (fun _ v => v.Unlimited) (fun _ => PutOk fun _ v => v.Unlimited) (fun _ _ => True) (fun _ _ => True) (pool t0 calls) :=
    ⟨fun _ _ h => (nomatch h), fun i => call_unlimited _ _⟩
  exact (h0.exec (fun _ _ _ h => h) (fun _ _ => trivial) s).store tok v hv t ht k a ha

/-- **C196 is false**, what it comes to: after any history, a credential that is requested by its identifier holds every claim of the data set. -/
theorem C196_every_claim_issued {e : Env} {w w' : World State} (hw : Reachable e w) {P : Provider} {req : CredentialRequest} {resp : CredentialResponse}
    (h : (credential P req).run e w = (.ok resp, w')) {c : IssuedCredential} (hc : resp.response = .credential c) {id : String} (hid : req.credential = .identifier id) :
    ∃ s t auth subject ds, Session w req.accessToken s t ∧ (id, auth) ∈ t.credentials ∧ s.subjectId = some subject ∧ P.dataset subject auth.identifier = some ds ∧
      ∀ did claims, c.Says did claims → ∀ k v, (k, v) ∈ claims ↔ (k, v) ∈ ds.claims := by
  obtain ⟨s, t, iss, auth, subject, ds, hs, _, ha, hsub, hds, _, _, hall⟩ := C26_claims_from_authorized_dataset h hc
  rw [hid] at ha
  cases ha with
  | identifier _ _ hm =>
    refine ⟨s, t, auth, subject, ds, hs, hm, hsub, hds, fun did claims hsays k v => ?_⟩
    rw [hall did claims hsays k v]
    refine ⟨fun h => h.1, fun h => ⟨h, fun ids hids => ?_, fun f named hf => ?_⟩⟩
    · rw [C196_limits_forgotten hw hs hm] at hids; cases hids
    · rw [hid] at hf; cases hf

/-- The part of **C196** that holds. A credential requested by its format holds exactly the claims of the data set that the *credential request* names at the top level,
if it names any. Missing: what the authorization named, and claims within claims: a claim that is named is given with everything in it. -/
theorem C196_named_in_request_partial {e : Env} {w w' : World State} (hw : Reachable e w) {P : Provider} {req : CredentialRequest} {resp : CredentialResponse}
    (h : (credential P req).run e w = (.ok resp, w')) {c : IssuedCredential} (hc : resp.response = .credential c) {f : Format} (hf : req.credential = .format f)
    {named : Dict Claim} (hn : f.claims = some named) :
    ∃ s t iss auth subject ds, Session w req.accessToken s t ∧ P.issuer req.credentialIssuer = some iss ∧ t.Authorizes iss req.credential auth ∧
      s.subjectId = some subject ∧ P.dataset subject auth.identifier = some ds ∧
      ∀ did claims, c.Says did claims → ∀ k v, (k, v) ∈ claims ↔ (k, v) ∈ ds.claims ∧ k ∈ Dict.keys named := by
  obtain ⟨s, t, iss, auth, subject, ds, hs, hi, ha, hsub, hds, _, _, hall⟩ := C26_claims_from_authorized_dataset h hc
  refine ⟨s, t, iss, auth, subject, ds, hs, hi, ha, hsub, hds, fun did claims hsays k v => ?_⟩
  rw [hall did claims hsays k v]
  refine ⟨fun h => ⟨h.1, h.2.2 f named hf hn⟩, fun h => ⟨h.1, fun ids hids => ?_, fun f' named' hf' hn' => ?_⟩⟩
  · have hm : ∃ k, (k, auth) ∈ t.credentials := by
      rw [hf] at ha
      cases ha with
      | format _ _ _ _ hm => exact ⟨_, hm⟩
    obtain ⟨k', hm⟩ := hm
    rw [C196_limits_forgotten hw hs hm] at hids; cases hids
  · rw [hf] at hf'; cases hf'
    rw [hn] at hn'; cases hn'
    exact h.2

namespace Demo

/-- The wallet asks for an authorization for the `email` alone. -/
def onlyEmail : RequestObject :=
  { authReq with authorizationDetails := some [{ credential := .configurationId "Employee" (some (.w3c {
      type_ := some ["VerifiableCredential", "EmployeeIDCredential"], credentialSubject := some [("email", .entry {})] })) }] }

/-- The world after that authorization and its code was redeemed. -/
def emailAuthorized : World State :=
  exec env (start 0) [{ provider := provider, req := .authorize (.object onlyEmail) }, { provider := provider, req := .token (codeReq (rng 0)) }]

/-- **C196 is false**, an instance: the wallet asked for the `email` alone, and the credential has the family name too. -/
theorem C196_more_than_asked : ∃ c claims, ((credential provider (credReq (rng 1) (rng 2))).run env emailAuthorized).1 = .ok (Credential.issuedResponse c (rng 3) (rng 4) 0) ∧
    c.Says (some "did:web:holder") claims ∧ ("family_name", Json.str "Person") ∈ claims :=
  ⟨_, _, rfl, .vc _ _ _ _ _ rfl, .tail _ (.head _)⟩

-- the hypotheses are met: the world is reachable, and the session is there
example : Reachable env emailAuthorized ∧ ∃ s t a, Session emailAuthorized (rng 1) s t ∧ ("emp-1", a) ∈ t.credentials :=
  ⟨⟨0, _, rfl⟩, _, _, _, ⟨rfl, rfl⟩, List.mem_cons_self ..⟩

/-- Asking by format for the `email` alone. -/
def byFormat : CredentialRequest :=
  { credReq (rng 1) (rng 2) with credential := .format (.jwtVcJson {
      type_ := some ["VerifiableCredential", "EmployeeIDCredential"], credentialSubject := some [("email", .entry {})] }) }

-- what holds: the claims named in the credential request are kept to
example : ∃ c, ((credential provider byFormat).run env emailAuthorized).1 = .ok (Credential.issuedResponse c (rng 3) (rng 4) 0) ∧
    c.Says (some "did:web:holder") [("email", .str "n@example.com")] :=
  ⟨_, rfl, .vc _ _ _ _ _ rfl⟩

end Demo
end Verif.Issuer
