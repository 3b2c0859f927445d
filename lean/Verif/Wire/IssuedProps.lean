import Verif.Wire.Issued
import Verif.Issuer.CredentialLemmas
import Verif.Issuer.CredentialProps
/-!
# C120: wallets can read the credentials the issuer hands out
-/
namespace Verif.Wire

open Issuer (Provider CredentialRequest CredentialResponse DeferredRequest IssuedCredential State Dataset)

theorem signed_jwt {P : Provider} {ctx : Issuer.Credential.Ctx} {did : String} {req : CredentialRequest} {ds : Dataset} {now at_ : Int} {k : String}
    {vc : Verif.Vc} (h : Issuer.Credential.signed P ctx did req ds now = .ok (.jwtVc k vc at_)) :
    at_ = now.fdiv Issuer.sec ∧ ∃ d, Issuer.Credential.w3cVc P ctx did d ds = .ok vc := by
  simp only [Issuer.Credential.signed, Except.bind_ok, orErr_ok] at h
  obtain ⟨_, _, h⟩ := h
  split at h
  · rename_i d _
    simp only [Except.bind_ok, require_ok, pure, Except.pure, Except.ok.injEq, IssuedCredential.jwtVc.injEq] at h
    obtain ⟨vc, h1, _, _, _, rfl, rfl⟩ := h
    exact ⟨rfl, d, h1⟩
  · simp [Except.bind_ok, require_ok, pure, Except.pure] at h
  · cases h
  · cases h
  · cases h

theorem issued_sound {P : Provider} (hP : PlainSubjects P) {req : CredentialRequest} {e : Env} {w w' : World State} {resp : CredentialResponse}
    (h : (Issuer.credential P req).run e w = (.ok resp, w')) {k : String} {vc : Verif.Vc} {at_ : Int}
    (hc : resp.response = .credential (.jwtVc k vc at_)) :
    (vcOf vc).Sound ∧ at_ = seconds w.now ∧ vc.validUntil = none ∧
      ∃ did claims iss, vc.subject = .one { id := some did, claims := claims } ∧ vc.issuer = .string iss := by
  obtain ⟨s, ctx, t, did, ds, _, _, _, _, _, _, _, hds, hr⟩ := Issuer.credential_ok_iff.1 h
  rcases hr with ⟨_, _, rfl, _⟩ | ⟨_, c', hc', _, _, rfl, _⟩
  · cases hc
  cases hc
  obtain ⟨ha, d, hv⟩ := signed_jwt hc'
  obtain ⟨types, ty, subj, status, _, _, _, h4, h5, _, h7, h8, h9, h10, h11, h12, h13⟩ := Issuer.Credential.w3cVc_ok hv
  simp only [Issuer.Credential.dataset, Except.bind_ok, orErr_ok, pure, Except.pure, Except.ok.injEq] at hds
  obtain ⟨subject, _, ds0, h14, rfl⟩ := hds
  refine ⟨⟨?_, ?_, ?_, ?_, ?_, ?_, ?_, ?_, ?_⟩, ha, h13, _, _, _, h9, h8⟩
  · intro c hc
    simp only [vcOf, h5, baseContext, List.mem_cons, List.not_mem_nil, or_false] at hc
    rcases hc with rfl | rfl <;> exact nofun
  · intro i hi
    simp only [vcOf, h8] at hi
    cases hi
  · simp only [vcOf, h9]
    exact narrow_plain (narrow_plain (hP.claims _ _ _ h14) _) _
  · intro q hq
    simp only [vcOf, h10, Option.map_eq_some_iff] at hq
    obtain ⟨q', rfl, rfl⟩ := hq
    exact quotaMap_all fun a ha => hP.status _ _ _ _ a h4 rfl ha
  · exact nofun
  · intro q hq; simp only [vcOf, h11] at hq; cases hq
  · exact nofun
  · exact nofun
  · exact nofun

/-- The claims of the token that carries a credential. -/
theorem issued_claims {T : TimeText} {vc : Verif.Vc} {at_ : Int} (hs : (vcOf vc).Sound) (hu : vc.validUntil = none) (ht : -2 ^ 63 ≤ at_ ∧ at_ < 2 ^ 63)
    {did : String} {claims : Dict Json} (h : vc.subject = .one { id := some did, claims := claims }) {iss : String} (hi : vc.issuer = .string iss) :
    ∃ c, VcClaims.ofVc (vcOf vc) at_ = some c ∧ ∃ c', readVcClaims T (writeVcClaims T c) = some c' ∧ c'.vc = vcOf vc ∧ c'.iat = at_ ∧
      c'.sub = did ∧ c'.iss = iss := by
  have hq : quotaMap (fun s : CredentialSubject => ({ id := s.id, claims := s.claims } : Subject)) vc.subject = .one { id := some did, claims := claims } := by
    rw [h]; rfl
  have e : VcClaims.ofVc (vcOf vc) at_ = some { sub := did, iss := iss, iat := at_, jti := vc.id.getD "", exp := none, vc := vcOf vc } := by
    simp only [VcClaims.ofVc, Vc.firstSubject, Vc.issuerId, vcOf, hq, hi, hu, Option.map_some, Option.map_none, Option.getD_some]
  refine ⟨_, e, ?_⟩
  obtain ⟨c', h1, h2, h3, -⟩ := C119_token_carries_credential T (vcOf vc) at_ _ hs e ht (fun t ht => by simp [vcOf, hu] at ht)
  refine ⟨c', h1, h2, h3, ?_⟩
  have : readVcClaims T (writeVcClaims T { sub := did, iss := iss, iat := at_, jti := vc.id.getD "", exp := none, vc := vcOf vc }) =
      some { sub := did, iss := iss, iat := at_, jti := vc.id.getD "", exp := none, vc := vcOf vc } := by
    have hn : optional readI64 (some (nullable writeInt none)) = some none := rfl
    have optional_none : optional readI64 none = some none := rfl
    simp only [readVcClaims, writeVcClaims]
    rw [structFields_members (by rfl) (by decide)]
    simp only [List.map_cons, List.map_nil, Option.bind_eq_bind, Option.bind_some, required, readStr, hn, readI64_write ht, readVc_write T hs,
      Option.map_none, optional_none]
  rw [this] at h1
  cases h1
  exact ⟨rfl, rfl⟩

/-- **C120**. Whoever reads the token of a credential the issuer hands out gets the credential that was signed, with the time of issuance as its `iat`, the
subject of the credential as its `sub` and its issuer as its `iss`, provided the Subject service hands out no claim called `id`. -/
theorem C120_issued_credential_can_be_read_partial (T : TimeText) {P : Provider} (hP : PlainSubjects P) {req : CredentialRequest} {e : Env}
    {w w' : World State} {resp : CredentialResponse} (h : (Issuer.credential P req).run e w = (.ok resp, w'))
    (ht : -2 ^ 63 ≤ seconds w.now ∧ seconds w.now < 2 ^ 63) {k : String} {vc : Verif.Vc} {at_ : Int}
    (hc : resp.response = .credential (.jwtVc k vc at_)) :
    ∃ did claims iss, vc.subject = .one { id := some did, claims := claims } ∧ vc.issuer = .string iss ∧
      ∃ c, VcClaims.ofVc (vcOf vc) at_ = some c ∧
        ∃ c', readVcClaims T (writeVcClaims T c) = some c' ∧ c'.vc = vcOf vc ∧ c'.iat = seconds w.now ∧ c'.sub = did ∧ c'.iss = iss := by
  obtain ⟨hs, rfl, hu, did, claims, iss, h1, h2⟩ := issued_sound hP h hc
  exact ⟨did, claims, iss, h1, h2, issued_claims hs hu ht h1 h2⟩

/-- **C120**. The same of credentials that were deferred. -/
theorem C120_deferred_credential_can_be_read_partial (T : TimeText) {P : Provider} (hP : PlainSubjects P) {req : DeferredRequest} {e : Env}
    {w w' : World State} {resp : CredentialResponse} (h : (Issuer.deferred P req).run e w = (.ok resp, w'))
    (ht : -2 ^ 63 ≤ seconds w.now ∧ seconds w.now < 2 ^ 63) {k : String} {vc : Verif.Vc} {at_ : Int}
    (hc : resp.response = .credential (.jwtVc k vc at_)) :
    ∃ did claims iss, vc.subject = .one { id := some did, claims := claims } ∧ vc.issuer = .string iss ∧
      ∃ c, VcClaims.ofVc (vcOf vc) at_ = some c ∧
        ∃ c', readVcClaims T (writeVcClaims T c) = some c' ∧ c'.vc = vcOf vc ∧ c'.iat = seconds w.now ∧ c'.sub = did ∧ c'.iss = iss := by
  obtain ⟨_, _, _, _, _, _, _, _, h', _⟩ := Issuer.deferred_ok_iff.1 h
  exact C120_issued_credential_can_be_read_partial T hP h' ht hc

theorem unreadable_claims {T : TimeText} {c : VcClaims} (h : readVc T (writeVc T c.vc) = none) : readVcClaims T (writeVcClaims T c) = none := by
  cases hr : readVcClaims T (writeVcClaims T c) with
  | none => rfl
  | some c' =>
    simp only [readVcClaims, writeVcClaims] at hr
    rw [structFields_members (by rfl) (by decide)] at hr
    simp only [List.map_cons, List.map_nil, Option.bind_eq_bind, Option.bind_some] at hr
    iterate 6 obtain ⟨_, -, hr⟩ := Option.bind_eq_some_iff.1 hr
    obtain ⟨_, h', -⟩ := Option.bind_eq_some_iff.1 hr
    simp only [required] at h'
    rw [h] at h'
    cases h'

/-- C120 fails if the Subject service has a claim called `id` for the subject: unless the request or what was authorized leaves that claim out, the issuer signs and
hands out a credential no one can read. -/
theorem C120_claim_named_id_unreadable (T : TimeText) {P : Provider} (hP : ∀ subject id ds, P.dataset subject id = some ds → "id" ∈ Dict.keys ds.claims)
    {id : String} {req : CredentialRequest} (hid : req.credential = .identifier id) {e : Env} {w w' : World State} {resp : CredentialResponse}
    (hall : ∀ s t auth, Issuer.Session w req.accessToken s t → (id, auth) ∈ t.credentials → auth.claimIds = none)
    (h : (Issuer.credential P req).run e w = (.ok resp, w')) {k : String} {vc : Verif.Vc} {at_ : Int}
    (hc : resp.response = .credential (.jwtVc k vc at_)) :
    ∃ c, VcClaims.ofVc (vcOf vc) at_ = some c ∧ readVcClaims T (writeVcClaims T c) = none := by
  obtain ⟨s, ctx, t, did, ds, _, hs, hctx, hst, _, _, _, hds, hr⟩ := Issuer.credential_ok_iff.1 h
  rcases hr with ⟨_, _, rfl, _⟩ | ⟨_, c', hc', _, _, rfl, _⟩
  · cases hc
  cases hc
  obtain ⟨_, d, hv⟩ := signed_jwt hc'
  obtain ⟨types, ty, subj, status, _, _, _, h4, h5, _, h7, h8, h9, h10, h11, h12, h13⟩ := Issuer.Credential.w3cVc_ok hv
  simp only [Issuer.Credential.dataset, Except.bind_ok, orErr_ok, pure, Except.pure, Except.ok.injEq] at hds
  obtain ⟨subject, _, ds0, h14, rfl⟩ := hds
  have hauth := Issuer.Credential.authorized_ok hst (Issuer.Credential.context_ok.1 hctx).2.2.1
  rw [hid] at hauth
  have hn : ctx.authorized.claimIds = none := by
    cases hauth with
    | identifier _ _ hm => exact hall _ _ _ ⟨hs, hst⟩ hm
  have hr : Issuer.Credential.narrowing req = none := by simp [Issuer.Credential.narrowing, hid]
  simp only [hn, hr, Issuer.Credential.narrow] at h9
  have hq : (vcOf vc).subject = .one { id := some did, claims := ds0.claims } := by simp only [vcOf, h9, quotaMap]
  refine ⟨_, by simp only [VcClaims.ofVc, Vc.firstSubject, hq]; rfl, ?_⟩
  exact unreadable_claims (C119_claim_named_id_unreadable T _ _ hq nofun (hP _ _ _ h14))

/-! ### Examples -/

/-- The Subject service of the sample provider hands out plain claims. -/
theorem demo_plain : PlainSubjects Issuer.Demo.provider where
  claims := by
    intro s id ds h
    simp only [Issuer.Demo.provider, Option.ite_none_right_eq_some, Option.some.injEq] at h
    obtain ⟨_, rfl⟩ := h
    exact ⟨by unfold Dict.Nodup; decide, by decide⟩
  status := by
    intro s id st q c h e
    cases h
    cases e

/-- The sample provider issues a credential with the two claims of its dataset. -/
example : ∃ resp k vc at_, ((Issuer.credential Issuer.Demo.provider Issuer.Demo.formatReq).run Issuer.Demo.env Issuer.Demo.validated).1 = .ok resp ∧
    resp.response = .credential (.jwtVc k vc at_) ∧ PlainSubjects Issuer.Demo.provider ∧ -2 ^ 63 ≤ seconds Issuer.Demo.validated.now ∧
    seconds Issuer.Demo.validated.now < 2 ^ 63 :=
  ⟨_, _, _, _, rfl, rfl, demo_plain, by decide +kernel, by decide +kernel⟩

/-- A provider whose subjects have a claim called `id`. -/
def idProvider : Provider := { Issuer.Demo.provider with dataset := fun _ _ => some { claims := [("id", .str "E-17"), ("email", .str "n@example.com")], pending := false } }

example : ∃ resp k vc at_, ((Issuer.credential idProvider (Issuer.Demo.credReq (Issuer.Demo.rng 2) (Issuer.Demo.rng 3))).run Issuer.Demo.env
      Issuer.Demo.validated).1 = .ok resp ∧
    resp.response = .credential (.jwtVc k vc at_) ∧ (∀ subject id ds, idProvider.dataset subject id = some ds → "id" ∈ Dict.keys ds.claims) ∧
    ∀ s t auth, Issuer.Session Issuer.Demo.validated (Issuer.Demo.rng 2) s t → ("emp-1", auth) ∈ t.credentials → auth.claimIds = none := by
  refine ⟨_, _, _, _, rfl, rfl, ?_, ?_⟩
  · intro s i ds h
    cases h
    decide
  · rintro s t auth ⟨h1, h2⟩ hm
    cases h1
    cases h2
    cases hm with
    | head => rfl
    | tail _ h => cases h

end Verif.Wire
