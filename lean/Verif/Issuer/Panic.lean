import Verif.Issuer.EndToEnd
import Verif.Issuer.Overlap
/-!
# Calls that do not panic: C98
-/
namespace Verif.Issuer
open Prog

/-! ### Programs that cannot panic -/

/-- Is an error a panic? -/
def isPanic : Err → Bool
  | .panic _ => true
  | _ => false

/-- A result that is not a panic. -/
structure Calm {α : Type} (r : Res α) : Prop where
  no : ∀ x, r = .error x → isPanic x = false

/-- A program that does not panic, whatever its effects return. -/
def CalmProg {α : Type} : IProg α → Prop
  | .ret r => Calm r
  | .get _ c => ∀ o, CalmProg (c o)
  | .put _ _ c => ∀ b, CalmProg (c b)
  | .purge _ c => ∀ b, CalmProg (c b)
  | .draw c => ∀ s, CalmProg (c s)
  | .now c => ∀ t, CalmProg (c t)

theorem Calm.ok {α : Type} (a : α) : Calm (.ok a : Res α) := ⟨fun _ h => by cases h⟩

theorem Calm.pure {α : Type} (a : α) : Calm (Pure.pure a : Res α) := ⟨fun _ h => by cases h⟩

theorem Calm.error {α : Type} {x : Err} (h : isPanic x = false) : Calm (.error x : Res α) := ⟨fun _ e => by cases e; exact h⟩

theorem Calm.bind {α β : Type} {r : Res α} {f : α → Res β} (h : Calm r) (hf : ∀ a, r = .ok a → Calm (f a)) :
    Calm (r >>= f) := by
  constructor
  intro m hm
  rcases Except.bind_err.1 hm with hm | ⟨a, ha, hm⟩
  · exact h.no m hm
  · exact (hf a ha).no m hm

theorem Calm.orErr {α : Type} {o : Option α} {x : Err} (hx : isPanic x = false) : Calm (orErr o x) := by
  exact ⟨fun m hm => (orErr_err.1 hm).2 ▸ hx⟩

theorem Calm.require {c : Bool} {x : Err} (hx : isPanic x = false) : Calm (require c x) := by
  exact ⟨fun m hm => (require_err.1 hm).2 ▸ hx⟩

theorem CalmProg.bind {α β : Type} {p : IProg α} {f : α → IProg β} (h : CalmProg p) (hf : ∀ a, CalmProg (f a)) :
    CalmProg (p >>= f) := by
  show CalmProg (p.bind f)
  induction p with
  | ret r =>
    cases r with
    | ok a => exact hf a
    | error x => exact Calm.error (h.no x rfl)
  | get k c ih => exact fun o => ih o (h o)
  | put k v c ih => exact fun o => ih o (h o)
  | purge k c ih => exact fun o => ih o (h o)
  | draw c ih => exact fun o => ih o (h o)
  | now c ih => exact fun o => ih o (h o)

theorem CalmProg.liftBind {α β : Type} {r : Res α} {f : α → IProg β} (h : Calm r) (hf : ∀ a, r = .ok a → CalmProg (f a)) :
    CalmProg (Prog.lift r >>= f) := by
  cases r with
  | ok a => exact hf a rfl
  | error x => exact Calm.error (h.no x rfl)

theorem CalmProg.lift {α : Type} {r : Res α} (h : Calm r) : CalmProg (Prog.lift r) := h
theorem CalmProg.pure {α : Type} (a : α) : CalmProg (Pure.pure a : IProg α) := Calm.ok a
theorem CalmProg.getE {k : String} {x : Err} (hx : isPanic x = false) : CalmProg (getE k x) := by
  rintro (_ | v)
  · exact Calm.error hx
  · exact Calm.ok v
theorem CalmProg.putE {k : String} {v : State} {x : Err} (hx : isPanic x = false) : CalmProg (putE k v x) := by
  rintro (_ | _)
  · exact Calm.error hx
  · exact Calm.ok ()
theorem CalmProg.purgeE {k : String} {x : Err} (hx : isPanic x = false) : CalmProg (purgeE k x) := by
  rintro (_ | _)
  · exact Calm.error hx
  · exact Calm.ok ()
theorem CalmProg.drawE : CalmProg (Prog.drawE : IProg String) := fun s => Calm.ok s
theorem CalmProg.nowE : CalmProg (Prog.nowE : IProg Int) := fun s => Calm.ok s

theorem CalmProg.run {α : Type} {p : IProg α} (h : CalmProg p) (e : Env) (w : World State) : Calm (p.run e w).1 := by
  induction p generalizing w with
  | ret r => exact h
  | get k c ih => exact ih _ (h _) _
  | put k v c ih => exact ih _ (h _) _
  | purge k c ih => exact ih _ (h _) _
  | draw c ih => exact ih _ (h _) _
  | now c ih => exact ih _ (h _) _

/-- Walk through a program or result. -/
macro "calm" : tactic => `(tactic| repeat' first
  | assumption
  | with_reducible exact CalmProg.pure _
  | with_reducible exact Calm.ok _
  | with_reducible exact Calm.pure _
  | ((with_reducible refine Calm.error ?_); exact rfl)
  | with_reducible exact CalmProg.drawE
  | with_reducible exact CalmProg.nowE
  | ((with_reducible refine CalmProg.getE ?_); exact rfl)
  | ((with_reducible refine CalmProg.putE ?_); exact rfl)
  | ((with_reducible refine CalmProg.purgeE ?_); exact rfl)
  | ((with_reducible refine Calm.orErr ?_); exact rfl)
  | ((with_reducible refine Calm.require ?_); exact rfl)
  | with_reducible refine CalmProg.liftBind ?_ (fun _ _ => ?_)
  | with_reducible refine CalmProg.bind ?_ (fun _ => ?_)
  | with_reducible refine Calm.bind ?_ (fun _ _ => ?_)
  | with_reducible apply CalmProg.lift
  | split
  | dsimp only)

/-! ### Every endpoint -/

theorem calm_checkScopes (c : Client) (s : Server) : Calm (Authorize.checkScopes c s) := by
  unfold Authorize.checkScopes; calm

theorem calm_detailTarget (iss : Issuer) (d : AuthorizationDetail) : Calm (Authorize.detailTarget iss d) := by
  unfold Authorize.detailTarget; calm

theorem calm_checkClaims (iss : Issuer) (id : String) (c : Option (Dict Claim)) : Calm (Authorize.checkClaims iss id c) := by
  unfold Authorize.checkClaims; calm

theorem calm_verifyDetails (iss : Issuer) (l : List AuthorizationDetail) : ∀ acc, Calm (Authorize.verifyDetails iss l acc) := by
  induction l with
  | nil => exact fun acc => Calm.ok acc
  | cons d l ih =>
    intro acc
    exact (calm_detailTarget iss d).bind fun t _ => (calm_checkClaims iss t.1 t.2).bind fun _ _ => ih _

theorem calm_verifyScope (iss : Issuer) (ds : Dict AuthorizationDetail) (s : String) : Calm (Authorize.verifyScope iss ds s) := by
  unfold Authorize.verifyScope; calm

theorem calm_verifyPre (c : Client) (s : Server) (b : Bool) (r : RequestObject) : Calm (Authorize.verifyPre c s b r) := by
  have := calm_checkScopes c s
  unfold Authorize.verifyPre; calm

theorem calm_verifyPost (iss : Issuer) (c : Client) (s : Server) (r : RequestObject) : Calm (Authorize.verifyPost iss c s r) := by
  have h1 : Calm (Authorize.verifyDetailsOpt iss r.authorizationDetails) := by
    cases r.authorizationDetails with
    | none => exact Calm.ok _
    | some l => exact calm_verifyDetails iss l []
  have h2 : ∀ ds, Calm (Authorize.verifyScopeOpt iss ds r.scope) := by
    intro ds
    cases r.scope with
    | none => exact Calm.ok _
    | some l => exact calm_verifyScope iss ds l
  unfold Authorize.verifyPost
  refine Calm.bind (Calm.require rfl) fun _ _ => Calm.bind h1 fun ds _ => Calm.bind (h2 ds) fun _ _ => ?_
  calm

theorem calm_verify (P : Provider) (iss : Issuer) (b : Bool) (r : RequestObject) : CalmProg (Authorize.verify P iss b r) := by
  unfold Authorize.verify
  refine CalmProg.liftBind (Calm.orErr rfl) fun c _ => CalmProg.liftBind (Calm.orErr rfl) fun s _ =>
    CalmProg.liftBind (calm_verifyPre c s b r) fun _ _ => CalmProg.bind ?_ fun _ => calm_verifyPost iss c s r
  unfold Authorize.checkIssuerState; calm

theorem calm_authorizeDetails (P : Provider) (subj : String) (l : List (String × AuthorizationDetail)) :
    Calm (Authorize.authorizeDetails P subj l) := by
  induction l with
  | nil => exact Calm.ok _
  | cons d l ih => obtain ⟨id, d⟩ := d; unfold Authorize.authorizeDetails; calm

theorem calm_authorizeScopes (P : Provider) (subj : String) (l : List (String × String)) :
    Calm (Authorize.authorizeScopes P subj l) := by
  induction l with
  | nil => exact Calm.ok _
  | cons d l ih => obtain ⟨id, d⟩ := d; unfold Authorize.authorizeScopes; calm

theorem calm_authorize (P : Provider) (r : AuthorizationRequest) : CalmProg (authorize P r) := by
  unfold authorize
  refine CalmProg.bind ?_ fun r => CalmProg.liftBind (Calm.orErr rfl) fun iss _ => CalmProg.bind (calm_verify ..) fun v => ?_
  · unfold Authorize.resolve Authorize.pushed; calm
  · unfold Authorize.process Authorize.authorizeItems
    refine CalmProg.liftBind ?_ fun _ _ => ?_
    · exact (calm_authorizeDetails ..).bind fun _ _ => (calm_authorizeScopes ..).bind fun _ _ => by calm
    · unfold Authorize.purgeOffer; calm

theorem calm_par (P : Provider) (r : RequestObject) : CalmProg (par P r) := by
  unfold par
  refine CalmProg.liftBind (Calm.orErr rfl) fun iss _ => CalmProg.bind (calm_verify ..) fun v => ?_
  calm

theorem calm_retainLoop (iss : Issuer) (items : List AuthorizedItem) (l : List AuthorizationDetail) :
    Calm (Token.retainLoop iss items l) := by
  induction l with
  | nil => exact Calm.ok _
  | cons d l ih =>
    unfold Token.retainLoop
    refine Calm.bind (Calm.orErr rfl) fun it _ => Calm.bind ?_ fun _ _ => by calm
    unfold Token.verifyClaims Token.claimsTarget
    calm

theorem calm_token (P : Provider) (r : TokenRequest) : CalmProg (token P r) := by
  have h1 : ∀ c s, Calm (Authorize.checkScopes c s) := calm_checkScopes
  have h2 : ∀ iss items l, Calm (Token.retainLoop iss items l) := calm_retainLoop
  unfold token
  refine CalmProg.bind (CalmProg.getE rfl) fun s => CalmProg.bind (CalmProg.purgeE rfl) fun _ =>
    CalmProg.bind CalmProg.nowE fun now => CalmProg.liftBind ?_ fun _ _ => ?_
  · unfold Token.verify
    refine Calm.bind (Calm.require rfl) fun _ _ => Calm.bind (Calm.orErr rfl) fun sv _ => Calm.bind (Calm.orErr rfl)
      fun sup _ => Calm.bind ?_ fun _ _ => ?_
    · unfold Token.checkGrant; calm
    · unfold Token.checkClient
      split
      · exact Calm.ok _
      · exact Calm.bind (Calm.orErr rfl) fun c _ => h1 c sv
  · unfold Token.process
    refine CalmProg.liftBind ?_ fun _ _ => by calm
    unfold Token.grantedItems Token.retainDetails
    split
    · split
      · refine Calm.bind (Calm.orErr rfl) fun items _ => ?_
        split
        · exact Calm.ok _
        · exact Calm.bind (Calm.orErr rfl) fun iss _ => h2 iss items _
      · exact Calm.error rfl
    · calm

/-- The formats for which issuing is implemented. -/
def Format.Implemented : Format → Prop
  | .jwtVcJson _ => True
  | .isoMdl _ _ => True
  | _ => False

theorem calm_w3cVc (P : Provider) (ctx : Credential.Ctx) (did : String) (d : CredentialDefinition) (ds : Dataset) :
    Calm (Credential.w3cVc P ctx did d ds) := by
  unfold Credential.w3cVc; calm

theorem calm_credential {P : Provider} (hP : ∀ i iss, P.issuer i = some iss → ∀ id cfg, (id, cfg) ∈ iss.configs →
    Format.Implemented cfg.format) (r : CredentialRequest) : CalmProg (credential P r) := by
  have hinv : ∀ {α} (s : State) (h : String), CalmProg (Credential.invalidProof (α := α) s h) := by
    intro α s h; unfold Credential.invalidProof; calm
  unfold credential
  refine CalmProg.bind (CalmProg.getE rfl) fun s => CalmProg.liftBind ?_ fun ctx hctx => CalmProg.bind ?_ fun did => ?_
  · unfold Credential.context Credential.authorized; calm
  · unfold Credential.verify
    refine CalmProg.bind CalmProg.nowE fun _ => CalmProg.liftBind (Calm.require rfl) fun _ _ => ?_
    split
    · refine CalmProg.bind CalmProg.nowE fun _ => CalmProg.liftBind (Calm.require rfl) fun _ _ => ?_
      split
      · calm
      · split
        · exact hinv _ _
        · refine CalmProg.liftBind (Calm.require rfl) fun _ _ => ?_
          split
          · exact hinv _ _
          · calm
    · calm
  · obtain ⟨_, hiss, _, hcfg⟩ := Credential.context_ok.1 hctx
    have himp := hP _ _ hiss _ _ (Dict.mem_of_get? hcfg)
    unfold Credential.process
    refine CalmProg.liftBind ?_ fun ds _ => ?_
    · unfold Credential.dataset; calm
    · split
      · unfold Credential.deferResponse; calm
      · unfold Credential.issueResponse
        refine CalmProg.bind CalmProg.nowE fun now => CalmProg.liftBind ?_ fun _ _ => by calm
        unfold Credential.signed
        refine Calm.bind (Calm.orErr rfl) fun k _ => ?_
        split
        · exact (calm_w3cVc ..).bind fun _ _ => by calm
        · calm
        all_goals rename_i hf; rw [hf] at himp; cases himp

theorem calm_createOffer {P : Provider} (hP : ∀ i iss, P.issuer i = some iss → iss.authorizationServers ≠ some [])
    (r : CreateOfferRequest) : CalmProg (createOffer P r) := by
  have hauth : ∀ subj ids, Calm (CreateOffer.authorize P subj ids) := by
    intro subj ids
    induction ids with
    | nil => exact Calm.ok _
    | cons id ids ih => unfold CreateOffer.authorize; calm
  unfold createOffer
  refine CalmProg.liftBind (Calm.orErr rfl) fun iss hiss => CalmProg.liftBind (Calm.orErr rfl) fun srv _ =>
    CalmProg.liftBind ?_ fun _ _ => ?_
  · unfold CreateOffer.verify; calm
  · unfold CreateOffer.process
    refine CalmProg.bind CalmProg.drawE fun code => CalmProg.liftBind ?_ fun offer _ => CalmProg.bind ?_ fun tx =>
      CalmProg.bind ?_ fun _ => ?_
    · unfold CreateOffer.credentialOffer
      refine Calm.bind ?_ fun _ _ => Calm.ok _
      unfold CreateOffer.authorizationServer
      split
      · exact Calm.ok _
      · rename_i h; exact absurd h (hP _ _ (orErr_ok.1 hiss))
      · exact Calm.ok _
    · unfold CreateOffer.txCode; calm
    · unfold CreateOffer.saveOffer
      split
      · refine CalmProg.liftBind ?_ fun _ _ => CalmProg.liftBind ?_ fun _ _ => by calm
        · unfold CreateOffer.offerItems
          split
          · refine ⟨fun m hm => ?_⟩
            cases h : CreateOffer.authorize P (r.subjectId.getD "") r.configIds with
            | ok l => rw [h] at hm; cases hm
            | error x => rw [h] at hm; cases hm; exact (hauth _ _).no m h
          · exact Calm.ok _
        · unfold CreateOffer.stateKey; calm
      · calm
    · unfold CreateOffer.respond; calm

/-- Issuer metadata the endpoints can handle: formats that are implemented, and no empty list of authorization servers. -/
structure GoodIssuer (P : Provider) : Prop where
  formats : ∀ i iss, P.issuer i = some iss → ∀ id cfg, (id, cfg) ∈ iss.configs → Format.Implemented cfg.format
  servers : ∀ i iss, P.issuer i = some iss → iss.authorizationServers ≠ some []

theorem calm_call {P : Provider} (hP : GoodIssuer P) (r : Req) : CalmProg (call P r) := by
  cases r with
  | createOffer r => exact (calm_createOffer hP.servers r).bind fun _ => CalmProg.pure _
  | credentialOffer r =>
    refine CalmProg.bind ?_ fun _ => CalmProg.pure _
    unfold Issuer.credentialOffer pendingOffer; calm
  | par r => exact (calm_par P r).bind fun _ => CalmProg.pure _
  | authorize r => exact (calm_authorize P r).bind fun _ => CalmProg.pure _
  | token r => exact (calm_token P r).bind fun _ => CalmProg.pure _
  | credential r => exact (calm_credential hP.formats r).bind fun _ => CalmProg.pure _
  | deferred r =>
    refine CalmProg.bind ?_ fun _ => CalmProg.pure _
    have := fun r => calm_credential hP.formats r
    unfold deferred
    refine CalmProg.bind (CalmProg.getE rfl) fun s => CalmProg.bind CalmProg.nowE fun _ => CalmProg.liftBind (Calm.require rfl)
      fun _ _ => CalmProg.liftBind ?_ fun r _ => CalmProg.bind (CalmProg.purgeE rfl) fun _ => CalmProg.bind (this _) fun _ => ?_
    · unfold deferredRequest; calm
    · calm
  | notification r => refine CalmProg.bind ?_ fun _ => CalmProg.pure _; unfold notification issuedState; calm
  | register r => refine CalmProg.bind ?_ fun _ => CalmProg.pure _; unfold register; calm
  | metadata c => refine CalmProg.bind ?_ fun _ => CalmProg.pure _; unfold metadata; calm
  | oauthServer c => refine CalmProg.bind ?_ fun _ => CalmProg.pure _; unfold oauthServer; calm

/-! ### C98 -/

/-- **C98**, the part that holds: no request makes an endpoint panic, in any state of the store and with any store faults, provided the
issuer's configurations are all of format `jwt_vc_json` or `mso_mdoc` and its list of authorization servers, if any, is not empty.
Missing: issuers with other metadata (see below). -/
theorem C98_no_panic_partial {s : Step} (hP : GoodIssuer s.provider) (e : Env) (w : World State) (why : String) :
    (step e w s).1 ≠ .error (.panic why) := by
  intro h
  cases ((calm_call hP s.req).run e (World.wait w s.wait)).no _ h

/-- The same for overlapping calls: under every schedule, with every pattern of faults and crashes. -/
theorem C98_no_panic_overlap_partial {rng : Nat → Nat → String} {p : Pool State Resp}
    (hp : ∀ i, ∃ P r, GoodIssuer P ∧ p.prog i = call P r) (l : List Event) {i : Nat} {r : Res Resp}
    (h : (Pool.exec rng p l).Answered i r) (why : String) : r ≠ .error (.panic why) := by
  have hinv : ∀ i, CalmProg ((Pool.exec rng p l).prog i) := by
    refine Pool.exec_inv (I := fun p : Pool State Resp => ∀ i, CalmProg (p.prog i)) ?_ ?_ l
    · intro p ev h j
      cases ev with
      | tick ns => exact h j
      | run i f =>
        by_cases hj : j = i
        · subst hj
          have := h j
          simp only [Pool.step]
          split <;> rename_i heq <;> rw [heq] at this
          · rw [heq]; exact this
          all_goals simp only [setAt_same]; exact this _
        · rw [Pool.step_other hj]; exact h j
    · intro i
      obtain ⟨P, r, hP, hr⟩ := hp i
      rw [hr]; exact calm_call hP r
  rintro rfl
  have := hinv i
  rw [h] at this
  cases this.no _ rfl

/-- **C98**, negation, formats: a valid request for a credential of a configuration in one of the other three formats, which the
metadata types allow, brings the call down. -/
theorem C98_unimplemented_format_panics {P : Provider} {req : CredentialRequest} {e : Env} {w : World State} (hst : Working e w)
    {subj : String} {s : State} {t : Token} (hs : LiveSession w req.accessToken subj s t) {iss : Issuer}
    (hiss : P.issuer req.credentialIssuer = some iss) (hn : Dict.Nodup iss.configs) (hnt : Dict.Nodup t.credentials)
    {id : String} (hid : req.credential = .identifier id)
    {auth : Authorized} (hauth : (id, auth) ∈ t.credentials) {cfg : CredentialConfiguration}
    (hcfg : (auth.configId, cfg) ∈ iss.configs) {did : String} (hp : ProofsFit P cfg t.cNonce req did) {ds : Dataset}
    (hd : P.dataset subj auth.identifier = some ds) (hpend : ds.pending = false)
    (hsig : ∃ k, P.signer req.credentialIssuer = some k) (hf : ¬ Format.Implemented cfg.format) :
    ∃ why w', (credential P req).run e w = (.error (.panic why), w') := by
  have hctx : Credential.context P s req = .ok { state := s, issuer := iss, authorized := auth, config := cfg } :=
    Credential.context_ok.2 ⟨rfl, hiss, by
      simp [Credential.authorized, hs.session.2, hid, Dict.get?_of_mem hnt hauth, orErr], Dict.get?_of_mem hn hcfg⟩
  have hver : (Credential.verify P { state := s, issuer := iss, authorized := auth, config := cfg } req).run e
      { w with ops := w.ops + 1 } = (.ok did, { w with ops := w.ops + 1 }) :=
    Credential.verify_ok_iff.2 ⟨rfl, t, hs.session.2, hs.live, hs.nonce, hp.checked⟩
  obtain ⟨k, hk⟩ := hsig
  have hsg : ∀ ds' now, Credential.signed P { state := s, issuer := iss, authorized := auth, config := cfg } did req ds' now =
      .error (.panic "not yet implemented") := by
    intro ds' now
    simp only [Credential.signed, hk, orErr]
    cases hff : cfg.format with
    | jwtVcJson d => rw [hff] at hf; exact absurd trivial hf
    | isoMdl d c => rw [hff] at hf; exact absurd trivial hf
    | jwtVcJsonLd d => rfl
    | ldpVc d => rfl
    | vcSdJwt v c => rfl
  have hds : Credential.dataset P { state := s, issuer := iss, authorized := auth, config := cfg } req = .ok { ds with
      claims := Credential.narrow (Credential.narrow ds.claims auth.claimIds) (Credential.narrowing req) } := by
    simp only [Credential.dataset, Except.bind_ok, orErr_ok, pure, Except.pure]
    exact ⟨subj, hs.subject, ds, hd, rfl⟩
  refine ⟨"not yet implemented", { w with ops := w.ops + 1 }, ?_⟩
  simp only [credential, run_bind_err, run_getE_ok, run_lift_ok]
  refine .inr ⟨s, _, ⟨hst _ (Nat.le_refl _), hs.session.1, rfl⟩, .inr ⟨_, _, ⟨hctx, rfl⟩, .inr ⟨did, _, hver, ?_⟩⟩⟩
  unfold Credential.process
  simp only [run_bind_err, run_lift_ok]
  refine .inr ⟨_, _, ⟨hds, rfl⟩, ?_⟩
  rw [if_neg (by simp [hpend])]
  unfold Credential.issueResponse
  simp only [run_bind_err, run_nowE_ok]
  exact .inr ⟨_, _, ⟨rfl, rfl⟩, .inl (by rw [hsg]; rfl)⟩

/-- **C98**, negation, servers: with an empty list of authorization servers in the issuer's metadata, every otherwise valid request for
an offer brings the call down. -/
theorem C98_no_servers_panics {P : Provider} {req : CreateOfferRequest} {iss : Issuer} {srv : Server}
    (hiss : P.issuer req.credentialIssuer = some iss) (hsrv : P.server req.credentialIssuer = some srv)
    (h1 : req.credentialIssuer ≠ "") (h2 : req.configIds ≠ []) (h3 : ∀ id ∈ req.configIds, ∃ cfg, (id, cfg) ∈ iss.configs)
    (h4 : ∀ gts sup, req.grantTypes = some gts → srv.grantTypesSupported = some sup → ∀ g ∈ gts, g ∈ sup)
    (h5 : req.requests .preAuthorizedCode → ∃ subj, req.subjectId = some subj) (h6 : iss.authorizationServers = some [])
    (e : Env) (w : World State) : ∃ why w', (createOffer P req).run e w = (.error (.panic why), w') := by
  have hv : CreateOffer.verify iss srv req = .ok () := by
    refine CreateOffer.verify_ok.2 ⟨h1, h2, fun id hid => ?_, fun gts hg => ⟨fun s hs => h4 gts s hg hs, fun hp => h5 ⟨gts, hg, hp⟩⟩⟩
    obtain ⟨cfg, h⟩ := h3 id hid
    exact List.mem_map.2 ⟨_, h, rfl⟩
  refine ⟨"index out of bounds", { w with drawn := w.drawn + 1 }, ?_⟩
  simp only [createOffer, run_bind_err, run_lift_ok, orErr_ok]
  refine .inr ⟨_, _, ⟨hiss, rfl⟩, .inr ⟨_, _, ⟨hsrv, rfl⟩, .inr ⟨_, _, ⟨hv, rfl⟩, ?_⟩⟩⟩
  unfold CreateOffer.process
  simp only [run_bind_err, run_drawE_ok]
  refine .inr ⟨_, _, ⟨rfl, rfl⟩, .inl ?_⟩
  simp only [CreateOffer.credentialOffer, CreateOffer.authorizationServer, h6]
  rfl

/-- The demo issuer is a good one; with an LDP configuration, or an empty list of servers, it panics. -/
example : GoodIssuer Demo.provider := by
  constructor
  · intro i iss h id cfg hm
    simp only [Demo.provider] at h
    split at h <;> cases h
    rcases List.mem_cons.1 hm with h | h
    · cases h; trivial
    · rcases List.mem_cons.1 h with h | h <;> cases h
      trivial
  · intro i iss h
    simp only [Demo.provider] at h
    split at h <;> cases h
    exact nofun

example : (step Demo.env Demo.validated { Demo.askStep 0 (Demo.rng 2) (Demo.rng 3) with provider := { Demo.provider with
      issuer := fun _ => some { Demo.issuer with configs := [("Employee", { Demo.employee with format := .ldpVc {} })] } } }).1 =
      .error (.panic "not yet implemented") ∧
    (step Demo.env (start 0) { Demo.other with provider := { Demo.provider with
      issuer := fun _ => some { Demo.issuer with authorizationServers := some [] } } }).1 = .error (.panic "index out of bounds") :=
  ⟨rfl, rfl⟩

end Verif.Issuer
