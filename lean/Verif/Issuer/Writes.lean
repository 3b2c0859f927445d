import Verif.Issuer.TokenLemmas
/-!
# What each endpoint may write

For every endpoint, the exact shape of its writes, as instances of the rely/guarantee judgement `Prog.Guar`. All store
invariants of the issuer are derived from these.
-/
namespace Verif.Issuer
open Prog

variable {R : String → State → Prop} {G : String → Option State → Prop} {D : String → Prop}

/-- The items of an offer: none, or what the provider authorized for the offer's subject, each named by its configuration id. -/
def OfferItems (P : Provider) (subjectId : Option String) (items : Option (List AuthorizedItem)) : Prop :=
  ∀ l, items = some l → ∃ subj, subjectId = some subj ∧ ∀ it ∈ l, P.authorize subj it.configId = some it.identifiers ∧
    it.item = .detail { credential := .configurationId it.configId none }

theorem CreateOffer.authorize_spec {P : Provider} {subj : String} {ids : List String} {l : List AuthorizedItem}
    (h : CreateOffer.authorize P subj ids = .ok l) :
    l.map AuthorizedItem.configId = ids ∧
    ∀ it ∈ l, P.authorize subj it.configId = some it.identifiers ∧
      it.item = .detail { credential := .configurationId it.configId none } := by
  induction ids generalizing l with
  | nil => simp [CreateOffer.authorize, pure, Except.pure] at h; subst h; simp
  | cons i ids ih =>
    simp only [CreateOffer.authorize, Except.bind_ok, orErr_ok] at h
    obtain ⟨x, h1, rest, h2, h3⟩ := h
    simp only [pure, Except.pure, Except.ok.injEq] at h3
    subst h3
    obtain ⟨ih1, ih2⟩ := ih h2
    refine ⟨by simp [ih1], ?_⟩
    intro it hit
    rcases List.mem_cons.1 hit with rfl | hit
    · exact ⟨h1, rfl⟩
    · exact ih2 it hit

theorem CreateOffer.stateKey_of {iss : Issuer} {req : CreateOfferRequest} {code k : String} {o : CredentialOffer}
    (ho : CreateOffer.credentialOffer iss req code = .ok o) (hk : CreateOffer.stateKey o.grants = .ok k) : k = code := by
  simp only [CreateOffer.credentialOffer, Except.bind_ok] at ho
  obtain ⟨srv, _, ho⟩ := ho
  simp only [pure, Except.pure, Except.ok.injEq] at ho
  subst ho
  by_cases hp : GrantType.preAuthorizedCode ∈ CreateOffer.grants req
  · simp [hp, CreateOffer.stateKey] at hk; exact hk.symm
  · by_cases ha : GrantType.authorizationCode ∈ CreateOffer.grants req
    · simp [hp, ha, CreateOffer.stateKey, orErr] at hk; exact hk.symm
    · simp [hp, ha, CreateOffer.stateKey] at hk

theorem CreateOffer.verify_ok {iss : Issuer} {srv : Server} {req : CreateOfferRequest} :
    CreateOffer.verify iss srv req = .ok () ↔
      req.credentialIssuer ≠ "" ∧ req.configIds ≠ [] ∧ (∀ id ∈ req.configIds, id ∈ Dict.keys iss.configs) ∧
      ∀ gts, req.grantTypes = some gts →
        (∀ s, srv.grantTypesSupported = some s → ∀ g ∈ gts, g ∈ s) ∧
        (GrantType.preAuthorizedCode ∈ gts → ∃ subj, req.subjectId = some subj) := by
  cases hgt : req.grantTypes with
  | none =>
    simp only [CreateOffer.verify, hgt, Except.bind_ok, require_ok]
    simp [Dict.has_iff, pure, Except.pure]
  | some gts =>
    simp only [CreateOffer.verify, hgt, Except.bind_ok, require_ok]
    cases hs : srv.grantTypesSupported <;> cases hsub : req.subjectId <;>
      simp [Dict.has_iff]

theorem CreateOffer.offerItems_spec {P : Provider} {iss : Issuer} {srv : Server} {req : CreateOfferRequest}
    {items : Option (List AuthorizedItem)} (hv : CreateOffer.verify iss srv req = .ok ())
    (h : CreateOffer.offerItems P req = .ok items) : OfferItems P req.subjectId items := by
  unfold CreateOffer.offerItems at h
  split at h
  · rename_i hp
    cases ha : CreateOffer.authorize P (req.subjectId.getD "") req.configIds with
    | error x => simp [ha, Except.map] at h
    | ok l =>
      simp only [ha, Except.map, Except.ok.injEq] at h
      subst h
      intro l' hl'
      cases hl'
      obtain ⟨_, _, _, hv⟩ := CreateOffer.verify_ok.1 hv
      cases hgt : req.grantTypes with
      | none => simp [CreateOffer.grants, hgt] at hp
      | some gts =>
        obtain ⟨s, hs⟩ := (hv gts hgt).2 (by simpa [CreateOffer.grants, hgt] using hp)
        rw [hs] at ha
        exact ⟨s, hs, fun it hit => (CreateOffer.authorize_spec ha).2 it hit⟩
  · cases h; intro l hl; cases hl

theorem createOffer_guar {P : Provider} {req : CreateOfferRequest}
    (hO : ∀ k t items tx, D k → OfferItems P req.subjectId items →
      G k (some { subjectId := req.subjectId, stage := .offered { items, txCode := tx }, expiresAt := t }))
    (hP : ∀ k t offer, D k → G k (some { subjectId := req.subjectId, stage := .pending offer, expiresAt := t })) :
    Guar R G D (createOffer P req) (fun _ => True) := by
  unfold createOffer
  refine Guar.bind (Q := fun _ => True) (Guar.lift fun _ _ => trivial) fun iss _ => ?_
  refine Guar.bind (Q := fun _ => True) (Guar.lift fun _ _ => trivial) fun srv _ => ?_
  refine Guar.bind (Q := fun _ => CreateOffer.verify iss srv req = .ok ()) (Guar.lift fun _ h => h) fun _ hv => ?_
  unfold CreateOffer.process
  refine Guar.bind (Q := fun s => D s) (Guar.drawE fun _ h => h) fun code hcode => ?_
  refine Guar.bind (Q := fun o => CreateOffer.credentialOffer iss req code = .ok o) (Guar.lift fun _ h => h)
    fun offer hoffer => ?_
  refine Guar.bind (Q := fun _ => True) ?_ fun tx _ => ?_
  · unfold CreateOffer.txCode
    split
    · exact Guar.bind (Q := fun _ => True) (Guar.drawE fun _ _ => trivial) fun _ _ => Guar.pure trivial
    · exact Guar.pure trivial
  refine Guar.bind (Q := fun _ => True) ?_ fun _ _ => ?_
  · unfold CreateOffer.saveOffer
    split
    · refine Guar.bind (Q := fun items => OfferItems P req.subjectId items) ?_ fun items hitems => ?_
      · exact Guar.lift fun items h => CreateOffer.offerItems_spec hv h
      · refine Guar.bind (Q := fun k => CreateOffer.stateKey offer.grants = .ok k) (Guar.lift fun _ h => h) fun k hk => ?_
        refine Guar.bind (Q := fun _ => True) (Guar.nowE fun _ => trivial) fun t _ => ?_
        have := CreateOffer.stateKey_of hoffer hk
        subst this
        exact Guar.putE (hO _ _ _ _ hcode hitems) trivial
    · exact Guar.pure trivial
  · unfold CreateOffer.respond
    split
    · exact Guar.pure trivial
    · refine Guar.bind (Q := fun s => D s) (Guar.drawE fun _ h => h) fun k hk => ?_
      refine Guar.bind (Q := fun _ => True) (Guar.nowE fun _ => trivial) fun t _ => ?_
      refine Guar.bind (Q := fun _ => True) (Guar.putE (hP _ _ _ hk) trivial) fun _ _ => ?_
      exact Guar.pure trivial

theorem credentialOffer_guar {req : CredentialOfferRequest} (hG : G req.id none) :
    Guar R G D (credentialOffer req)
      (fun o => ∃ s, R req.id s ∧ s.stage = .pending o ∧ o.credentialIssuer = req.credentialIssuer) := by
  unfold credentialOffer
  refine Guar.bind (Q := fun s => R req.id s) (Guar.getE fun _ h => h) fun s hs => ?_
  refine Guar.bind (Q := fun _ => True) (Guar.purgeE hG trivial) fun _ _ => ?_
  refine Guar.bind (Q := fun _ => True) (Guar.nowE fun _ => trivial) fun t _ => ?_
  refine Guar.bind (Q := fun _ => True) (Guar.lift fun _ _ => trivial) fun _ _ => ?_
  refine Guar.bind (Q := fun o => s.stage = .pending o) (Guar.lift fun o h => ?_) fun o ho => ?_
  · unfold pendingOffer at h
    split at h <;> simp_all
  refine Guar.bind (Q := fun _ => o.credentialIssuer = req.credentialIssuer) (Guar.lift fun _ h => ?_) fun _ hi => ?_
  · simpa using h
  exact Guar.pure ⟨s, hs, ho, hi⟩

theorem Authorize.verify_guar {P : Provider} {iss : Issuer} {isPar : Bool} {req : RequestObject} :
    Guar R G D (Authorize.verify P iss isPar req) (fun _ => True) := by
  unfold Authorize.verify
  refine Guar.bind (Q := fun _ => True) (Guar.lift fun _ _ => trivial) fun _ _ => ?_
  refine Guar.bind (Q := fun _ => True) (Guar.lift fun _ _ => trivial) fun _ _ => ?_
  refine Guar.bind (Q := fun _ => True) (Guar.lift fun _ _ => trivial) fun _ _ => ?_
  refine Guar.bind (Q := fun _ => True) ?_ fun _ _ => Guar.lift fun _ _ => trivial
  unfold Authorize.checkIssuerState
  split
  · exact Guar.pure trivial
  · refine Guar.bind (Q := fun _ => True) (Guar.getE fun _ _ => trivial) fun _ _ => ?_
    refine Guar.bind (Q := fun _ => True) (Guar.nowE fun _ => trivial) fun _ _ => ?_
    refine Guar.bind (Q := fun _ => True) (Guar.lift fun _ _ => trivial) fun _ _ => ?_
    exact Guar.lift fun _ _ => trivial

theorem Authorize.authorizeDetails_spec {P : Provider} {subj : String} {m : List (String × AuthorizationDetail)}
    {l : List AuthorizedItem} (h : Authorize.authorizeDetails P subj m = .ok l) :
    l.map (fun it => it.configId) = m.map Prod.fst ∧
    ∀ it ∈ l, P.authorize subj it.configId = some it.identifiers ∧ ∃ d, it.item = .detail d ∧ (it.configId, d) ∈ m := by
  induction m generalizing l with
  | nil => simp [Authorize.authorizeDetails] at h; subst h; simp
  | cons x m ih =>
    obtain ⟨i, d⟩ := x
    simp only [Authorize.authorizeDetails, Except.bind_ok, orErr_ok] at h
    obtain ⟨y, h1, rest, h2, h3⟩ := h
    simp only [pure, Except.pure, Except.ok.injEq] at h3
    subst h3
    obtain ⟨ih1, ih2⟩ := ih h2
    refine ⟨by simp [ih1], ?_⟩
    intro it hit
    rcases List.mem_cons.1 hit with rfl | hit
    · exact ⟨h1, d, rfl, by simp⟩
    · obtain ⟨ha, d', hd, hm⟩ := ih2 it hit
      exact ⟨ha, d', hd, by simp [hm]⟩

theorem Authorize.authorizeScopes_spec {P : Provider} {subj : String} {m : List (String × String)}
    {l : List AuthorizedItem} (h : Authorize.authorizeScopes P subj m = .ok l) :
    l.map (fun it => it.configId) = m.map Prod.fst ∧
    ∀ it ∈ l, P.authorize subj it.configId = some it.identifiers ∧ ∃ s, it.item = .scope s ∧ (it.configId, s) ∈ m := by
  induction m generalizing l with
  | nil => simp [Authorize.authorizeScopes] at h; subst h; simp
  | cons x m ih =>
    obtain ⟨i, d⟩ := x
    simp only [Authorize.authorizeScopes, Except.bind_ok, orErr_ok] at h
    obtain ⟨y, h1, rest, h2, h3⟩ := h
    simp only [pure, Except.pure, Except.ok.injEq] at h3
    subst h3
    obtain ⟨ih1, ih2⟩ := ih h2
    refine ⟨by simp [ih1], ?_⟩
    intro it hit
    rcases List.mem_cons.1 hit with rfl | hit
    · exact ⟨h1, d, rfl, by simp⟩
    · obtain ⟨ha, d', hd, hm⟩ := ih2 it hit
      exact ⟨ha, d', hd, by simp [hm]⟩

theorem Authorize.authorizeItems_spec {P : Provider} {subj : String} {ds : Dict AuthorizationDetail} {ss : Dict String}
    {l : List AuthorizedItem} (h : Authorize.authorizeItems P subj ds ss = .ok l) :
    l ≠ [] ∧ (l.map (fun it => it.configId)).Perm (ds.map Prod.fst ++ ss.map Prod.fst) ∧
    ∀ it ∈ l, P.authorize subj it.configId = some it.identifiers ∧
      ((∃ d, it.item = .detail d ∧ (it.configId, d) ∈ ds) ∨ ∃ s, it.item = .scope s ∧ (it.configId, s) ∈ ss) := by
  simp only [Authorize.authorizeItems, Except.bind_ok, require_ok] at h
  obtain ⟨a, ha, b, hb, _, hne, h⟩ := h
  simp only [pure, Except.pure, Except.ok.injEq] at h
  subst h
  obtain ⟨a1, a2⟩ := Authorize.authorizeDetails_spec ha
  obtain ⟨b1, b2⟩ := Authorize.authorizeScopes_spec hb
  refine ⟨by simpa using hne, ?_, ?_⟩
  · rw [List.map_append, a1, b1]
    exact ((P.iter_perm ds).map Prod.fst).append ((P.iter_perm ss).map Prod.fst)
  · intro it hit
    rcases List.mem_append.1 hit with hit | hit
    · obtain ⟨h1, d, h2, h3⟩ := a2 it hit
      exact ⟨h1, .inl ⟨d, h2, (P.iter_perm ds).mem_iff.1 h3⟩⟩
    · obtain ⟨h1, d, h2, h3⟩ := b2 it hit
      exact ⟨h1, .inr ⟨d, h2, (P.iter_perm ss).mem_iff.1 h3⟩⟩

/-- The request object an authorization request stands for, given what may be read from the store. -/
def AuthorizationRequest.Denotes (R : String → State → Prop) (request : AuthorizationRequest) (r : RequestObject) : Prop :=
  match request with
  | .object r' => r = r'
  | .uri u => ∃ s exp, R u s ∧ s.stage = .pushed r exp

theorem authorize_guar {P : Provider} {request : AuthorizationRequest}
    (hA : ∀ r k t a, request.Denotes R r → D k → a.clientId = r.clientId → a.redirectUri = r.redirectUri →
      a.codeChallenge = r.codeChallenge →
      (∀ it ∈ a.items, P.authorize r.subjectId it.configId = some it.identifiers) →
      G k (some { subjectId := some r.subjectId, stage := .authorized a, expiresAt := t }))
    (hI : ∀ r k, request.Denotes R r → r.issuerState = some k → G k none) :
    Guar R G D (authorize P request) (fun _ => True) := by
  unfold authorize
  refine Guar.bind (Q := fun x => request.Denotes R x.2) ?_ fun x hx => ?_
  · unfold Authorize.resolve
    split
    · exact Guar.pure rfl
    · rename_i u
      refine Guar.bind (Q := fun s => R u s) (Guar.getE fun _ h => h) fun s hs => ?_
      refine Guar.bind (Q := fun y => s.stage = .pushed y.1 y.2) (Guar.lift fun y h => ?_) fun y hy => ?_
      · unfold Authorize.pushed at h
        split at h <;> simp_all
        subst h; exact ⟨rfl, rfl⟩
      refine Guar.bind (Q := fun _ => True) (Guar.nowE fun _ => trivial) fun t _ => ?_
      refine Guar.bind (Q := fun _ => True) (Guar.lift fun _ _ => trivial) fun _ _ => ?_
      exact Guar.pure ⟨s, y.2, hs, hy⟩
  · obtain ⟨isPar, r⟩ := x
    refine Guar.bind (Q := fun _ => True) (Guar.lift fun _ _ => trivial) fun iss _ => ?_
    refine Guar.bind (Q := fun _ => True) Authorize.verify_guar fun y _ => ?_
    obtain ⟨ds, ss⟩ := y
    show Guar R G D (Authorize.process P r ds ss) _
    unfold Authorize.process
    refine Guar.bind (Q := fun l => ∀ it ∈ l, P.authorize r.subjectId it.configId = some it.identifiers)
      (Guar.lift fun l h it hit => ((Authorize.authorizeItems_spec h).2.2 it hit).1) fun items hitems => ?_
    refine Guar.bind (Q := fun _ => True) (Guar.nowE fun _ => trivial) fun t _ => ?_
    refine Guar.bind (Q := fun s => D s) (Guar.drawE fun _ h => h) fun k hk => ?_
    refine Guar.bind (Q := fun _ => True) (Guar.putE (hA r k _ _ hx hk rfl rfl rfl hitems) trivial) fun _ _ => ?_
    refine Guar.bind (Q := fun _ => True) ?_ fun _ _ => Guar.pure trivial
    unfold Authorize.purgeOffer
    split
    · exact Guar.pure trivial
    · rename_i k' hk'
      exact Guar.purgeE (hI r k' hx hk') trivial

theorem par_guar {P : Provider} {req : RequestObject}
    (h : ∀ k t t', D k → G (urn ++ k) (some { subjectId := none, stage := .pushed req t, expiresAt := t' })) :
    Guar R G D (par P req) (fun _ => True) := by
  unfold par
  refine Guar.bind (Q := fun _ => True) (Guar.lift fun _ _ => trivial) fun iss _ => ?_
  refine Guar.bind (Q := fun _ => True) Authorize.verify_guar fun y _ => ?_
  refine Guar.bind (Q := fun s => D s) (Guar.drawE fun _ h => h) fun k hk => ?_
  refine Guar.bind (Q := fun _ => True) (Guar.nowE fun _ => trivial) fun t _ => ?_
  refine Guar.bind (Q := fun _ => True) (Guar.nowE fun _ => trivial) fun t' _ => ?_
  exact Guar.bind (Q := fun _ => True) (Guar.putE (h k _ _ hk) trivial) fun _ _ => Guar.pure trivial

theorem token_guar {P : Provider} {req : TokenRequest} (hG : G req.grantType.code none)
    (hV : ∀ s k n t t' items, R req.grantType.code s → D k → D n → Token.verify P s t req = .ok () →
      Token.grantedItems P s req = .ok items → G k (some (Token.stored s k n t' items))) :
    Guar R G D (token P req)
      (fun resp => ∃ s t items k n, R req.grantType.code s ∧ Token.verify P s t req = .ok () ∧
        Token.grantedItems P s req = .ok items ∧ resp = Token.response k n items ∧ D k ∧ D n) := by
  unfold token
  refine Guar.bind (Q := fun s => R req.grantType.code s) (Guar.getE fun _ h => h) fun s hs => ?_
  refine Guar.bind (Q := fun _ => True) (Guar.purgeE hG trivial) fun _ _ => ?_
  refine Guar.bind (Q := fun _ => True) (Guar.nowE fun _ => trivial) fun t _ => ?_
  refine Guar.bind (Q := fun _ => Token.verify P s t req = .ok ()) (Guar.lift fun _ h => h) fun _ hv => ?_
  unfold Token.process
  refine Guar.bind (Q := fun items => Token.grantedItems P s req = .ok items) (Guar.lift fun _ h => h) fun items hi => ?_
  refine Guar.bind (Q := fun s => D s) (Guar.drawE fun _ h => h) fun k hk => ?_
  refine Guar.bind (Q := fun s => D s) (Guar.drawE fun _ h => h) fun n hn => ?_
  refine Guar.bind (Q := fun _ => True) (Guar.nowE fun _ => trivial) fun t' _ => ?_
  refine Guar.bind (Q := fun _ => True) (Guar.putE (hV s k n t t' items hs hk hn hv hi) trivial) fun _ _ => ?_
  exact Guar.pure ⟨s, t, items, k, n, hs, hv, hi, rfl, hk, hn⟩

/-- A token state with a new nonce and expiry, as written by an issuance or a rejected proof. -/
def renewed (s : State) (t : Token) (nonce : String) (expires nonceExpires : Int) : State :=
  { s with expiresAt := expires, stage := .validated { t with cNonce := nonce, cNonceExpiresAt := nonceExpires } }

theorem Credential.invalidProof_guar {α : Type} {s : State} {hint : String} {Q : α → Prop}
    (hS : ∀ t n x y, s.stage = .validated t → D n → G t.accessToken (some (renewed s t n x y))) :
    Guar R G D (Credential.invalidProof s hint : IProg α) Q := by
  unfold Credential.invalidProof
  refine Guar.bind (Q := fun s => D s) (Guar.drawE fun _ h => h) fun n hn => ?_
  refine Guar.bind (Q := fun _ => True) (Guar.nowE fun _ => trivial) fun t' _ => ?_
  split
  · rename_i t ht
    refine Guar.bind (Q := fun _ => True) (Guar.nowE fun _ => trivial) fun t'' _ => ?_
    exact Guar.bind (Q := fun _ => True) (Guar.putE (hS t n _ _ ht hn) trivial) fun _ _ => Guar.lift fun _ h => by cases h
  · exact Guar.lift fun _ h => by cases h

/-- What a successful proof check establishes: `did` is the holder DID. -/
def ProofChecked (P : Provider) (cfg : CredentialConfiguration) (t : Token) (req : CredentialRequest) (did : String) :
    Prop :=
  match cfg.proofTypes with
  | none => did = ""
  | some types => types.contains "jwt" = true ∧ ∃ proof, req.proof = some proof ∧
      Credential.checkProofs P t.cNonce (Credential.proofJwts proof) "" = .ok did

theorem Credential.verify_guar {P : Provider} {ctx : Credential.Ctx} {req : CredentialRequest}
    (hS : ∀ t n x y, ctx.state.stage = .validated t → D n → G t.accessToken (some (renewed ctx.state t n x y))) :
    Guar R G D (Credential.verify P ctx req) (fun did => ∃ t now now', ctx.state.stage = .validated t ∧
      ctx.state.isExpired now = false ∧ t.cNonceExpired now' = false ∧ ProofChecked P ctx.config t req did) := by
  unfold Credential.verify
  refine Guar.bind (Q := fun _ => True) (Guar.nowE fun _ => trivial) fun now _ => ?_
  refine Guar.bind (Q := fun _ => ctx.state.isExpired now = false) (Guar.lift fun _ h => by simpa using h) fun _ hx => ?_
  split
  · rename_i t ht
    refine Guar.bind (Q := fun _ => True) (Guar.nowE fun _ => trivial) fun now' _ => ?_
    refine Guar.bind (Q := fun _ => t.cNonceExpired now' = false) (Guar.lift fun _ h => by simpa using h) fun _ hn => ?_
    split
    · rename_i hp
      exact Guar.pure ⟨t, now, now', ht, hx, hn, by simp [ProofChecked, hp]⟩
    · rename_i types hp
      split
      · exact Credential.invalidProof_guar hS
      · rename_i proof hpr
        refine Guar.bind (Q := fun _ => types.contains "jwt" = true) (Guar.lift fun _ h => by simpa using h) fun _ hj => ?_
        split
        · exact Credential.invalidProof_guar hS
        · rename_i did hd
          refine Guar.pure ⟨t, now, now', ht, hx, hn, ?_⟩
          simp only [ProofChecked, hp]
          exact ⟨hj, proof, hpr, hd⟩
  · exact Guar.lift fun _ h => by cases h

/-- What a successful credential request establishes about its response. -/
inductive Issues (P : Provider) (s : State) (t : Token) (req : CredentialRequest) : CredentialResponse → Prop
  | issued (ctx : Credential.Ctx) (did : String) (ds : Dataset) (c : IssuedCredential) (now x y : Int) (n nid : String) :
      Credential.context P s req = .ok ctx → ProofChecked P ctx.config t req did →
      Credential.dataset P ctx req = .ok ds → ds.pending = false → Credential.signed P ctx did req ds now = .ok c →
      Issues P s t req
        ⟨.credential c, some n, some (numSeconds (y - x)), some nid⟩
  | deferred (ctx : Credential.Ctx) (did : String) (ds : Dataset) (txn : String) :
      Credential.context P s req = .ok ctx → ProofChecked P ctx.config t req did →
      Credential.dataset P ctx req = .ok ds → ds.pending = true →
      Issues P s t req ⟨.transactionId txn, none, none, none⟩

theorem Credential.context_ok {P : Provider} {s : State} {req : CredentialRequest} {ctx : Credential.Ctx} :
    Credential.context P s req = .ok ctx ↔
      ctx.state = s ∧ P.issuer req.credentialIssuer = some ctx.issuer ∧
      Credential.authorized P ctx.issuer s req = .ok ctx.authorized ∧
      ctx.issuer.configs.get? ctx.authorized.configId = some ctx.config := by
  simp only [Credential.context, Except.bind_ok, orErr_ok, pure, Except.pure, Except.ok.injEq]
  constructor
  · rintro ⟨i, h1, a, h2, c, h3, rfl⟩; exact ⟨rfl, h1, h2, h3⟩
  · rintro ⟨h0, h1, h2, h3⟩; exact ⟨_, h1, _, h2, _, h3, by cases ctx; simp_all⟩

theorem credential_guar {P : Provider} {req : CredentialRequest}
    (hS : ∀ s t n x y, R req.accessToken s → s.stage = .validated t → D n →
      G t.accessToken (some (renewed s t n x y)))
    (hN : ∀ s t n k x y, R req.accessToken s → s.stage = .validated t → D n → D k → G k (some (renewed s t n x y)))
    (hD : ∀ k t, D k → G k (some { subjectId := none, stage := .deferred k req, expiresAt := t })) :
    Guar R G D (credential P req) (fun resp => ∃ s t now now', R req.accessToken s ∧ s.stage = .validated t ∧
      s.isExpired now = false ∧ t.cNonceExpired now' = false ∧ Issues P s t req resp) := by
  unfold credential
  refine Guar.bind (Q := fun s => R req.accessToken s) (Guar.getE fun _ h => h) fun s hs => ?_
  refine Guar.bind (Q := fun ctx => Credential.context P s req = .ok ctx) (Guar.lift fun _ h => h) fun ctx hctx => ?_
  have hst : ctx.state = s := (Credential.context_ok.1 hctx).1
  refine Guar.bind (Credential.verify_guar fun t n x y ht hn => ?_) fun did hdid => ?_
  · rw [hst] at ht ⊢; exact hS s t n x y hs ht hn
  obtain ⟨t, now, now', ht, hx, hcn, hp⟩ := hdid
  rw [hst] at ht hx
  unfold Credential.process
  refine Guar.bind (Q := fun ds => Credential.dataset P ctx req = .ok ds) (Guar.lift fun _ h => h) fun ds hds => ?_
  split
  · rename_i hpend
    unfold Credential.deferResponse
    refine Guar.bind (Q := fun s => D s) (Guar.drawE fun _ h => h) fun k hk => ?_
    refine Guar.bind (Q := fun _ => True) (Guar.nowE fun _ => trivial) fun t' _ => ?_
    refine Guar.bind (Q := fun _ => True) (Guar.putE (hD k _ hk) trivial) fun _ _ => ?_
    exact Guar.pure ⟨s, t, now, now', hs, ht, hx, hcn, .deferred ctx did ds k hctx hp hds hpend⟩
  · rename_i hpend
    unfold Credential.issueResponse
    refine Guar.bind (Q := fun _ => True) (Guar.nowE fun _ => trivial) fun t' _ => ?_
    refine Guar.bind (Q := fun c => Credential.signed P ctx did req ds t' = .ok c) (Guar.lift fun _ h => h) fun c hc => ?_
    refine Guar.bind (Q := fun _ => True) (Guar.nowE fun _ => trivial) fun t₁ _ => ?_
    split
    · rename_i t2 ht2
      rw [hst, ht] at ht2
      cases ht2
      refine Guar.bind (Q := fun s => D s) (Guar.drawE fun _ h => h) fun n hn => ?_
      refine Guar.bind (Q := fun _ => True) (Guar.nowE fun _ => trivial) fun t₂ _ => ?_
      have h1 := hS s t n (t₁ + accessDur) (t₂ + nonceDur) hs ht hn
      have h2 := fun k => hN s t n k (t₁ + accessDur) (t₂ + nonceDur) hs ht hn
      refine Guar.bind (Q := fun _ => True) (Guar.putE (by rw [hst]; exact h1) trivial) fun _ _ => ?_
      refine Guar.bind (Q := fun s => D s) (Guar.drawE fun _ h => h) fun k hk => ?_
      refine Guar.bind (Q := fun _ => True) (Guar.putE (by rw [hst]; exact h2 k hk) trivial) fun _ _ => ?_
      refine Guar.bind (Q := fun _ => True) (Guar.nowE fun _ => trivial) fun t₃ _ => ?_
      exact Guar.pure ⟨s, t, now, now', hs, ht, hx, hcn,
        .issued ctx did ds c t' t₃ (t₂ + nonceDur) n k hctx hp hds (by simpa using hpend) hc⟩
    · exact Guar.lift fun _ h => by cases h

theorem deferred_guar {P : Provider} {req : DeferredRequest} (hG : G req.transactionId none)
    (hS : ∀ s t n x y, R req.accessToken s → s.stage = .validated t → D n →
      G t.accessToken (some (renewed s t n x y)))
    (hN : ∀ s t n k x y, R req.accessToken s → s.stage = .validated t → D n → D k → G k (some (renewed s t n x y)))
    (hD : ∀ k t r, D k → G k (some { subjectId := none, stage := .deferred k r, expiresAt := t })) :
    Guar R G D (deferred P req) (fun resp => ∃ d txn saved s t, R req.transactionId d ∧ d.stage = .deferred txn saved ∧
      R req.accessToken s ∧ s.stage = .validated t ∧
      Issues P s t { saved with credentialIssuer := req.credentialIssuer, accessToken := req.accessToken } resp) := by
  unfold deferred
  refine Guar.bind (Q := fun s => R req.transactionId s) (Guar.getE fun _ h => h) fun d hd => ?_
  refine Guar.bind (Q := fun _ => True) (Guar.nowE fun _ => trivial) fun t _ => ?_
  refine Guar.bind (Q := fun _ => True) (Guar.lift fun _ _ => trivial) fun _ _ => ?_
  refine Guar.bind (Q := fun r => ∃ txn, d.stage = .deferred txn r) (Guar.lift fun r h => ?_) fun r hr => ?_
  · unfold deferredRequest at h
    split at h
    · rename_i txn r' hs
      cases h; exact ⟨txn, hs⟩
    · cases h
  refine Guar.bind (Q := fun _ => True) (Guar.purgeE hG trivial) fun _ _ => ?_
  refine Guar.bind (credential_guar hS hN (fun k t => hD k t _)) fun resp hresp => ?_
  obtain ⟨s, t, now, _, h1, h2, _, _, h3⟩ := hresp
  obtain ⟨txn, hr⟩ := hr
  split
  · exact Guar.lift fun _ h => by cases h
  · exact Guar.pure ⟨d, txn, r, s, t, hd, hr, h1, h2, h3⟩

theorem notification_guar {req : NotificationRequest} (hG : G req.notificationId none) :
    Guar R G D (notification req) (fun _ => ∃ s vc, R req.notificationId s ∧ s.stage = .issued vc) := by
  unfold notification
  refine Guar.bind (Q := fun s => R req.notificationId s) (Guar.getE fun _ h => h) fun s hs => ?_
  refine Guar.bind (Q := fun _ => ∃ vc, s.stage = .issued vc) (Guar.lift fun _ h => ?_) fun _ hi => ?_
  · unfold issuedState at h
    split at h
    · rename_i vc hvc; exact ⟨vc, hvc⟩
    · cases h
  obtain ⟨vc, hvc⟩ := hi
  exact Guar.purgeE hG ⟨s, vc, hs, hvc⟩

theorem register_guar {P : Provider} {req : RegistrationRequest} :
    Guar R G D (register P req) (fun c => (∃ s, R req.accessToken s) ∧ P.register req.client = some c) := by
  unfold register
  refine Guar.bind (Q := fun s => R req.accessToken s) (Guar.getE fun _ h => h) fun s hs => ?_
  exact Guar.lift fun c h => ⟨⟨s, hs⟩, by simpa using h⟩

end Verif.Issuer
