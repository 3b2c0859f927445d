import Verif.Holder.Lemmas
/-!
# Receiving credentials: what the loops over responses do
-/
namespace Verif.Holder
open Verif HProg

/-! ### What an event says, for specifications -/

/-- The credential request sent, if the event is one. -/
def Event.credentialRequest : Event → Option Issuer.CredentialRequest
  | ⟨.credential r, _⟩ => some r
  | _ => none

/-- The response to a credential or deferred request. -/
def Event.response : Event → Option CredentialResponse
  | ⟨.credential _, o⟩ => o
  | ⟨.deferred _, o⟩ => o
  | _ => none

/-- The JWTs of a response. -/
def CredentialResponseType.tokens : CredentialResponseType → List String
  | .credential (.string t) => [t]
  | .credential (.object _) => []
  | .credentials l => l.filterMap fun k => match k with | .string t => some t | .object _ => none
  | .transactionId _ => []

/-- The transaction a response puts off to. -/
def CredentialResponseType.transaction : CredentialResponseType → List String
  | .transactionId t => [t]
  | _ => []

/-- The credentials an event brought. -/
def Event.tokens (ev : Event) : List String := match ev.response with | some r => r.response.tokens | none => []

/-- The transactions an event brought. -/
def Event.transactions (ev : Event) : List String := match ev.response with | some r => r.response.transaction | none => []

/-- A stored credential is the content of its own JWT, whose signature was checked. -/
def Verified (J : Jose) (c : Credential) : Prop :=
  ∃ claims, J.decodeVc c.issued = some claims ∧ c.vc = claims.vc ∧ c.issuanceDate = claims.iat ∧
    c.issuer = (match claims.vc.issuer with | .string i => i | .object o => o.id) ∧ (∀ id, claims.vc.id = some id → c.id = id)

/-- Only logos were fetched. -/
def OnlyLogos (evs : List Event) : Prop := ∀ ev ∈ evs, ∃ u, ev.call = .logo u

theorem OnlyLogos.append {a b : List Event} (ha : OnlyLogos a) (hb : OnlyLogos b) : OnlyLogos (a ++ b) := by
  intro ev h
  rcases List.mem_append.mp h with h | h
  · exact ha ev h
  · exact hb ev h

theorem OnlyLogos.nil : OnlyLogos [] := by intro ev h; simp at h

theorem logo_event {ev : Event} (h : ∃ u, ev.call = .logo u) : ev.credentialRequest = none ∧ ev.tokens = [] ∧ ev.transactions = [] := by
  obtain ⟨c, o⟩ := ev
  obtain ⟨u, hu⟩ := h
  simp only at hu
  subst hu
  exact ⟨rfl, rfl, rfl⟩

theorem OnlyLogos.requests {l : List Event} (h : OnlyLogos l) : l.filterMap Event.credentialRequest = [] := by
  rw [List.filterMap_eq_nil_iff]
  intro ev hev; exact (logo_event (h ev hev)).1

theorem OnlyLogos.tokens {l : List Event} (h : OnlyLogos l) : l.flatMap Event.tokens = [] := by
  rw [List.flatMap_eq_nil_iff]
  intro ev hev; exact (logo_event (h ev hev)).2.1

theorem OnlyLogos.transactions {l : List Event} (h : OnlyLogos l) : l.flatMap Event.transactions = [] := by
  rw [List.flatMap_eq_nil_iff]
  intro ev hev; exact (logo_event (h ev hev)).2.2

/-- A result that is not a failed write. -/
def NoStore {α : Type} (r : HRes α) : Prop := r ≠ .error .store

theorem NoStore.ok {α : Type} (a : α) : NoStore (.ok a : HRes α) := by intro h; cases h

theorem NoStore.err {α : Type} {x : HErr} (h : x ≠ .store) : NoStore (.error x : HRes α) := by intro h'; cases h'; exact h rfl

theorem NoStore.ne {α : Type} {x : HErr} (h : NoStore (.error x : HRes α)) : x ≠ .store := by rintro rfl; exact h rfl

theorem NoStore.check (c : Bool) (why : String) : NoStore (check c why) := by cases c <;> simp [NoStore, Holder.check]

theorem NoStore.need {α : Type} (o : Option α) (why : String) : NoStore (need o why) := by cases o <;> simp [NoStore, Holder.need]

theorem NoStore.first {α : Type} (l : List α) : NoStore (first l) := by cases l <;> simp [NoStore, Holder.first]

theorem NoStore.ofRes {α : Type} (r : Res α) : NoStore (ofRes r) := by
  rcases r with x | a
  · cases x <;> simp [NoStore, Holder.ofRes]
  · simp [NoStore, Holder.ofRes]

theorem NoStore.bind {α β : Type} {r : HRes α} {f : α → HRes β} (h : NoStore r) (hf : ∀ a, NoStore (f a)) : NoStore (r >>= f) := by
  cases r with
  | error x =>
    intro h'
    have h2 : (Except.error x : HRes β) = .error .store := h'
    cases h2; exact h rfl
  | ok a => exact hf a

theorem NoStore.pure {α : Type} (a : α) : NoStore (Pure.pure a : HRes α) := .ok a

section
variable {e : HEnv} {w w' : HWorld} {P : Provider}

theorem storableId_inv {vc : Vc} {r : HRes String} (h : (storableId vc).run e w = (r, w')) :
    Eff e w w' [] [] ∧ ∃ id, r = .ok id ∧ ∀ i, vc.id = some i → id = i := by
  unfold storableId at h
  split at h
  · rename_i id hid
    obtain ⟨rfl, rfl⟩ := pure_inv h
    exact ⟨Eff.refl _ _, id, rfl, by rw [hid]; intro i hi; cases hi; rfl⟩
  · rename_i hid
    rcases bind_inv h with ⟨x, h1, rfl⟩ | ⟨a, w1, h1, h2⟩
    · obtain ⟨_, _, h3⟩ := drawE_inv h1; cases h3
    · obtain ⟨hE, _, h3⟩ := drawE_inv h1
      obtain ⟨rfl, rfl⟩ := pure_inv h2
      exact ⟨hE, _, rfl, by rw [hid]; intro i hi; cases hi⟩

theorem fetchLogo_inv {u : Option String} {r : HRes (Option Logo)} (h : (fetchLogo u).run e w = (r, w')) :
    ∃ evs, Eff e w w' evs [] ∧ OnlyLogos evs ∧ NoStore r := by
  cases u with
  | none =>
    obtain ⟨rfl, rfl⟩ := pure_inv h
    exact ⟨[], Eff.refl _ _, .nil, .ok _⟩
  | some u =>
    obtain ⟨o, hE, _, rfl⟩ := callO_inv h
    exact ⟨_, hE, by intro ev hev; simp at hev; subst hev; exact ⟨u, rfl⟩, .ok _⟩

theorem logoUri_noStore (d : Option (List CredentialDisplay)) : NoStore (logoUri d) := by
  cases d with
  | none => exact .ok _
  | some l => exact (NoStore.first l).bind fun _ => .pure _

/-- A response that is one credential. -/
theorem storable_inv {config : CredentialConfiguration} {k : Kind Vc} {r : HRes Credential} (h : (storable P config k).run e w = (r, w')) :
    ∃ evs, Eff e w w' evs [] ∧ OnlyLogos evs ∧ NoStore r ∧
      ∀ c, r = .ok c → k = .string c.issued ∧ Verified P.jose c := by
  unfold storable at h
  rcases bind_inv h with ⟨x, h1, rfl⟩ | ⟨p, w1, h1, h2⟩
  · obtain ⟨h3, rfl⟩ := lift_inv h1
    exact ⟨[], Eff.refl _ _, .nil, .err (NoStore.ne (h3 ▸ NoStore.ofRes _)), by intro c hc; cases hc⟩
  · obtain ⟨h3, rfl⟩ := lift_inv h1
    cases p with
    | vp v c n =>
      obtain ⟨rfl, rfl⟩ := refuse_inv h2
      exact ⟨[], Eff.refl _ _, .nil, .err (by simp), by intro c hc; cases hc⟩
    | vc vc at_ =>
      simp only at h2
      rcases bind_inv h2 with ⟨x, h4, rfl⟩ | ⟨_, w2, h4, h5⟩
      · obtain ⟨h6, rfl⟩ := lift_inv h4
        exact ⟨[], Eff.refl _ _, .nil, .err (NoStore.ne (h6 ▸ NoStore.check _ _)), by intro c hc; cases hc⟩
      · obtain ⟨h6, rfl⟩ := lift_inv h4
        cases k with
        | object v =>
          obtain ⟨rfl, rfl⟩ := refuse_inv h5
          exact ⟨[], Eff.refl _ _, .nil, .err (by simp), by intro c hc; cases hc⟩
        | string t =>
          simp only at h5
          have hdec : ∃ claims, P.jose.decodeVc t = some claims ∧ claims.vc = vc ∧ claims.iat = at_ := by
            simp only [Proof.verifyVc] at h3
            cases hd : P.jose.decodeVc t with
            | none => rw [hd] at h3; simp [orErr, Bind.bind, Except.bind, ofRes] at h3
            | some cl =>
              rw [hd] at h3
              simp only [orErr, Bind.bind, Except.bind, ofRes, Pure.pure, Except.pure, Except.ok.injEq, Payload.vc.injEq] at h3
              exact ⟨cl, rfl, h3.1.symm, h3.2.symm⟩
          rcases bind_inv h5 with ⟨x, h7, rfl⟩ | ⟨id, w3, h7, h8⟩
          · obtain ⟨_, id, hid, _⟩ := storableId_inv h7; cases hid
          · obtain ⟨hE1, id', hid, hidv⟩ := storableId_inv h7
            cases hid
            rcases bind_inv h8 with ⟨x, h9, rfl⟩ | ⟨uri, w4, h9, h10⟩
            · obtain ⟨h11, rfl⟩ := lift_inv h9
              exact ⟨[], hE1, .nil, .err (NoStore.ne (h11 ▸ logoUri_noStore _)), by intro c hc; cases hc⟩
            · obtain ⟨_, rfl⟩ := lift_inv h9
              rcases bind_inv h10 with ⟨x, h11, rfl⟩ | ⟨logo, w5, h11, h12⟩
              · obtain ⟨evs, hE2, hl, hn⟩ := fetchLogo_inv h11
                exact ⟨evs, by simpa using hE1.trans hE2, hl, .err hn.ne, by intro c hc; cases hc⟩
              · obtain ⟨evs, hE2, hl, _⟩ := fetchLogo_inv h11
                obtain ⟨rfl, rfl⟩ := pure_inv h12
                refine ⟨evs, by simpa using hE1.trans hE2, hl, .ok _, ?_⟩
                intro c hc
                cases hc
                obtain ⟨cl, hd, rfl, rfl⟩ := hdec
                exact ⟨rfl, cl, hd, rfl, rfl, rfl, hidv⟩

theorem storables_inv {config : CredentialConfiguration} {l : List (Kind Vc)} {r : HRes (List Credential)}
    (h : (storables P config l).run e w = (r, w')) :
    ∃ evs, Eff e w w' evs [] ∧ OnlyLogos evs ∧ NoStore r ∧
      ∀ cs, r = .ok cs → l = cs.map (fun c => .string c.issued) ∧ ∀ c ∈ cs, Verified P.jose c := by
  induction l generalizing w r w' with
  | nil =>
    obtain ⟨rfl, rfl⟩ := pure_inv h
    exact ⟨[], Eff.refl _ _, .nil, .ok _, by intro cs hc; cases hc; simp⟩
  | cons k l ih =>
    unfold storables at h
    rcases bind_inv h with ⟨x, h1, rfl⟩ | ⟨c, w1, h1, h2⟩
    · obtain ⟨evs, hE, hl, hn, _⟩ := storable_inv h1
      exact ⟨evs, hE, hl, .err hn.ne, by intro c hc; cases hc⟩
    · obtain ⟨evs, hE, hl, hn, hc⟩ := storable_inv h1
      rcases bind_inv h2 with ⟨x, h3, rfl⟩ | ⟨cs, w2, h3, h4⟩
      · obtain ⟨evs2, hE2, hl2, hn2, _⟩ := ih h3
        exact ⟨_, hE.trans hE2, hl.append hl2, .err hn2.ne, by intro c hc; cases hc⟩
      · obtain ⟨evs2, hE2, hl2, hn2, hcs⟩ := ih h3
        obtain ⟨rfl, rfl⟩ := pure_inv h4
        refine ⟨_, hE.trans hE2, hl.append hl2, .ok _, ?_⟩
        intro cs' hcs'
        cases hcs'
        obtain ⟨rfl, hv⟩ := hc c rfl
        obtain ⟨rfl, hvs⟩ := hcs cs rfl
        exact ⟨rfl, by simpa using ⟨hv, hvs⟩⟩

theorem process_inv {config : CredentialConfiguration} {resp : CredentialResponse} {r : HRes (List Credential × Option String)}
    (h : (process P config resp).run e w = (r, w')) :
    ∃ evs, Eff e w w' evs [] ∧ OnlyLogos evs ∧ NoStore r ∧
      ∀ out, r = .ok out → out.1.map (·.issued) = resp.response.tokens ∧ out.2.toList = resp.response.transaction ∧
        ∀ c ∈ out.1, Verified P.jose c := by
  unfold process at h
  split at h
  · rename_i k hk
    rcases bind_inv h with ⟨x, h1, rfl⟩ | ⟨c, w1, h1, h2⟩
    · obtain ⟨evs, hE, hl, hn, _⟩ := storable_inv h1
      exact ⟨evs, hE, hl, .err hn.ne, by intro c hc; cases hc⟩
    · obtain ⟨evs, hE, hl, hn, hc⟩ := storable_inv h1
      obtain ⟨rfl, rfl⟩ := pure_inv h2
      refine ⟨evs, hE, hl, .ok _, ?_⟩
      intro out ho
      cases ho
      obtain ⟨hk', hv⟩ := hc c rfl
      rw [hk, hk']
      exact ⟨rfl, rfl, by simpa using hv⟩
  · rename_i l hl'
    rcases bind_inv h with ⟨x, h1, rfl⟩ | ⟨cs, w1, h1, h2⟩
    · obtain ⟨evs, hE, hl, hn, _⟩ := storables_inv h1
      exact ⟨evs, hE, hl, .err hn.ne, by intro c hc; cases hc⟩
    · obtain ⟨evs, hE, hl, hn, hc⟩ := storables_inv h1
      obtain ⟨rfl, rfl⟩ := pure_inv h2
      refine ⟨evs, hE, hl, .ok _, ?_⟩
      intro out ho
      cases ho
      obtain ⟨hk', hv⟩ := hc cs rfl
      rw [hl', hk']
      refine ⟨?_, rfl, hv⟩
      simp [CredentialResponseType.tokens, List.filterMap_map]
      rw [show ((fun k : Kind Vc => match k with | .string t => some t | .object _ => none) ∘ fun c : Credential => Kind.string c.issued) =
        fun c : Credential => some c.issued from rfl]
      rw [List.filterMap_eq_map']
  · rename_i t ht
    obtain ⟨rfl, rfl⟩ := pure_inv h
    refine ⟨[], Eff.refl _ _, .nil, .ok _, ?_⟩
    intro out ho
    cases ho
    rw [ht]
    exact ⟨rfl, rfl, by simp⟩

end

/-- A flow after some calls: the credentials those calls brought are appended in order, each verified; the transactions they brought are
outstanding; a nonce may be new; nothing else differs. -/
structure Grown (J : Jose) (evs : List Event) (i i' : Issuance) : Prop where
  same : ∃ creds defs nonce exp,
    i' = { i with credentials := i.credentials ++ creds, deferred := defs, token := { i.token with cNonce := nonce, cNonceExpiresIn := exp } } ∧
    creds.map (·.issued) = evs.flatMap Event.tokens ∧ (∀ c ∈ creds, Verified J c) ∧
    ∀ t, t ∈ Dict.keys defs ↔ t ∈ Dict.keys i.deferred ∨ t ∈ evs.flatMap Event.transactions

theorem Grown.refl (J : Jose) (i : Issuance) : Grown J [] i i :=
  ⟨[], i.deferred, i.token.cNonce, i.token.cNonceExpiresIn, by simp, rfl, by simp, by simp⟩

theorem Grown.trans {J : Jose} {a b : List Event} {i j k : Issuance} (h1 : Grown J a i j) (h2 : Grown J b j k) : Grown J (a ++ b) i k := by
  obtain ⟨c1, d1, n1, x1, rfl, t1, v1, k1⟩ := h1.same
  obtain ⟨c2, d2, n2, x2, rfl, t2, v2, k2⟩ := h2.same
  refine ⟨c1 ++ c2, d2, n2, x2, by simp, by simp [t1, t2], ?_, ?_⟩
  · intro c hc
    rcases List.mem_append.mp hc with h | h
    · exact v1 c h
    · exact v2 c h
  · intro t
    rw [k2]
    simp only at k1 ⊢
    rw [k1, List.flatMap_append, List.mem_append, or_assoc]

theorem Grown.record {J : Jose} {ev : Event} {logos : List Event} {i : Issuance} {cfg : String} {resp : CredentialResponse}
    {out : List Credential × Option String} (hev : ev.response = some resp) (hl : OnlyLogos logos)
    (h1 : out.1.map (·.issued) = resp.response.tokens) (h2 : out.2.toList = resp.response.transaction) (h3 : ∀ c ∈ out.1, Verified J c) :
    Grown J (ev :: logos) i (i.record cfg out) := by
  refine ⟨out.1, _, i.token.cNonce, i.token.cNonceExpiresIn, rfl, ?_, h3, ?_⟩
  · simp [hl.tokens, Event.tokens, hev, h1]
  · intro t
    simp only [List.flatMap_cons, hl.transactions, List.append_nil, Event.transactions, hev, ← h2]
    cases out.2 with
    | none => simp
    | some u => simp [Dict.keys_insert, or_comm]

theorem Grown.renew {J : Jose} {evs : List Event} {i j : Issuance} (r : CredentialResponse) (h : Grown J evs i j) : Grown J evs i (j.renew r) := by
  obtain ⟨c1, d1, n1, x1, rfl, t1, v1, k1⟩ := h.same
  exact ⟨c1, d1, _, _, rfl, t1, v1, k1⟩

/-- What a flow is about does not change while credentials are received. -/
theorem Grown.frame {J : Jose} {evs : List Event} {i j : Issuance} (h : Grown J evs i j) :
    j.id = i.id ∧ j.clientId = i.clientId ∧ j.subjectId = i.subjectId ∧ j.status = i.status ∧ j.offer = i.offer ∧ j.issuer = i.issuer ∧
      j.server = i.server ∧ j.accepted = i.accepted ∧ j.pin = i.pin ∧ j.scope = i.scope ∧ j.notificationId = i.notificationId ∧
      j.token.accessToken = i.token.accessToken ∧ j.token.authorizationDetails = i.token.authorizationDetails := by
  obtain ⟨c1, d1, n1, x1, rfl, t1, v1, k1⟩ := h.same
  simp

/-- The request of a credentials call is for this token and carries this proof. -/
def AsksWith (i : Issuance) (jwt : String) (r : Issuer.CredentialRequest) : Prop :=
  r.credentialIssuer = i.issuer.credentialIssuer ∧ r.accessToken = i.token.accessToken ∧ r.proof = some (.single jwt)

/-- Credential requests with one proof and token, and logos. -/
def OnlyRequests (i : Issuance) (jwt : String) (evs : List Event) : Prop :=
  ∀ ev ∈ evs, (∃ r, ev.call = .credential r ∧ AsksWith i jwt r) ∨ ∃ u, ev.call = .logo u

theorem OnlyRequests.append {i : Issuance} {jwt : String} {a b : List Event} (ha : OnlyRequests i jwt a) (hb : OnlyRequests i jwt b) :
    OnlyRequests i jwt (a ++ b) := by
  intro ev h
  rcases List.mem_append.mp h with h | h
  · exact ha ev h
  · exact hb ev h

theorem OnlyRequests.nil {i : Issuance} {jwt : String} : OnlyRequests i jwt [] := by intro ev h; simp at h

theorem OnlyLogos.requestsOnly {i : Issuance} {jwt : String} {l : List Event} (h : OnlyLogos l) : OnlyRequests i jwt l := fun ev hev => .inr (h ev hev)

/-- The identifiers asked for, out of those given. -/
def wantedIds (wanted : Option (List String)) (ids : List String) : List String :=
  ids.filter fun id => match wanted with | some l => l.contains id | none => true

/-- Every credential request among the events was answered. -/
def Answered (evs : List Event) : Prop := ∀ r o, ⟨.credential r, o⟩ ∈ evs → o.isSome = true

theorem Answered.nil : Answered [] := by intro r o h; simp at h

theorem Answered.append {a b : List Event} (ha : Answered a) (hb : Answered b) : Answered (a ++ b) := by
  intro r o h
  rcases List.mem_append.mp h with h | h
  · exact ha r o h
  · exact hb r o h

theorem Answered.one {r : Issuer.CredentialRequest} {a : CredentialResponse} : Answered [⟨.credential r, some a⟩] := by
  intro r' o h
  rw [List.mem_singleton] at h
  cases h; rfl

theorem OnlyLogos.answered {evs : List Event} (h : OnlyLogos evs) : Answered evs := by
  intro r o hm
  obtain ⟨u, hu⟩ := h _ hm
  cases hu

theorem wantedIds_eq (wanted : Option (List String)) (ids : List String) : wantedIds wanted ids = ids.filter (wants wanted) := by
  cases wanted <;> rfl

section
variable {e : HEnv} {w w' : HWorld} {P : Provider}

/-- Requests by identifier: a prefix of those wanted, all of them on success. -/
theorem byIdentifiers_inv {jwt cfg : String} {config : CredentialConfiguration} {wanted : Option (List String)} {ids : List String}
    {i : Issuance} {r : HRes Issuance} (h : (byIdentifiers P jwt cfg config wanted ids i).run e w = (r, w')) :
    ∃ evs, Eff e w w' evs [] ∧ NoStore r ∧ OnlyRequests i jwt evs ∧
      (∃ rest, evs.filterMap Event.credentialRequest ++ rest = (wantedIds wanted ids).map (identifierRequest i jwt) ∧
        ∀ i', r = .ok i' → rest = []) ∧
      (∀ i', r = .ok i' → Grown P.jose evs i i' ∧ Answered evs) := by
  induction ids generalizing i w r w' with
  | nil =>
    obtain ⟨rfl, rfl⟩ := pure_inv h
    exact ⟨[], Eff.refl _ _, .ok _, .nil, ⟨[], by simp [wantedIds], by simp⟩, by intro i' hi'; cases hi'; exact ⟨.refl _ _, .nil⟩⟩
  | cons id ids ih =>
    unfold byIdentifiers at h
    by_cases hw : wants wanted id = true
    · rw [if_pos hw] at h
      have hwant : wantedIds wanted (id :: ids) = id :: wantedIds wanted ids := by
        rw [wantedIds_eq, wantedIds_eq, List.filter_cons, if_pos hw]
      rcases bind_inv h with ⟨x, h1, rfl⟩ | ⟨resp, w1, h1, h2⟩
      · obtain ⟨o, hE, _, ho⟩ := callE_inv h1
        rcases ho with ⟨rfl, hx⟩ | ⟨a, _, hx⟩ <;> cases hx
        exact ⟨_, hE, .err (by simp), by intro ev hev; simp at hev; subst hev; exact .inl ⟨_, rfl, rfl, rfl, rfl⟩,
          ⟨_, by rw [hwant]; rfl, by intro i' hi'; cases hi'⟩, by intro i' hi'; cases hi'⟩
      · obtain ⟨o, hE, _, ho⟩ := callE_inv h1
        rcases ho with ⟨_, hx⟩ | ⟨a, rfl, hx⟩ <;> cases hx
        have hreq : OnlyRequests i jwt [⟨.credential (identifierRequest i jwt id), some resp⟩] := by
          intro ev hev; simp at hev; subst hev; exact .inl ⟨_, rfl, rfl, rfl, rfl⟩
        rcases bind_inv h2 with ⟨x, h3, rfl⟩ | ⟨out, w2, h3, h4⟩
        · obtain ⟨evs, hE2, hl, hn, _⟩ := process_inv h3
          refine ⟨_, hE.trans hE2, .err hn.ne, hreq.append hl.requestsOnly,
            ⟨(wantedIds wanted ids).map (identifierRequest i jwt), ?_, by intro i' hi'; cases hi'⟩, by intro i' hi'; cases hi'⟩
          rw [hwant, List.filterMap_append, hl.requests]; rfl
        · obtain ⟨evs, hE2, hl, hn, hout⟩ := process_inv h3
          obtain ⟨o1, o2, o3⟩ := hout out rfl
          have hg : Grown P.jose (⟨.credential (identifierRequest i jwt id), some resp⟩ :: evs) i ((i.record cfg out).renew resp) :=
            (Grown.record rfl hl o1 o2 o3).renew resp
          obtain ⟨evs3, hE3, hn3, hr3, ⟨rest, hrest, hrest2⟩, hg3⟩ := ih h4
          have hsame : ∀ id, identifierRequest ((i.record cfg out).renew resp) jwt id = identifierRequest i jwt id := fun _ => rfl
          refine ⟨_, (hE.trans hE2).trans hE3, hn3, (hreq.append hl.requestsOnly).append hr3, ⟨rest, ?_, hrest2⟩, ?_⟩
          · rw [hwant, List.filterMap_append, List.filterMap_append, hl.requests, List.append_assoc, hrest]
            simp [Event.credentialRequest, hsame]
          · intro i' hi'
            exact ⟨hg.trans (hg3 i' hi').1, (Answered.one.append hl.answered).append (hg3 i' hi').2⟩
    · rw [if_neg hw] at h
      have hwant : wantedIds wanted (id :: ids) = wantedIds wanted ids := by
        rw [wantedIds_eq, wantedIds_eq, List.filter_cons, if_neg hw]
      rw [hwant]
      exact ih h

theorem OnlyRequests.of_frame {i j : Issuance} {jwt : String} {evs : List Event} (h1 : j.issuer = i.issuer)
    (h2 : j.token.accessToken = i.token.accessToken) (h : OnlyRequests j jwt evs) : OnlyRequests i jwt evs := by
  intro ev hev
  rcases h ev hev with ⟨r, hr, ha⟩ | h
  · exact .inl ⟨r, hr, by rw [← h1]; exact ha.1, by rw [← h2]; exact ha.2.1, ha.2.2⟩
  · exact .inr h

theorem detailConfig_noStore (iss : Verif.Issuer) (d : Issuer.AuthorizedDetail) : NoStore (detailConfig iss d) := by
  unfold detailConfig; split
  · exact .ok _
  · exact .need _ _

/-- All identifiers a token authorizes, in order. -/
def allIds (l : List Issuer.AuthorizedDetail) : List String := l.flatMap (·.identifiers)

theorem byDetails_inv {jwt : String} {wanted : Option (List String)} {l : List Issuer.AuthorizedDetail}
    {i : Issuance} {r : HRes Issuance} (h : (byDetails P jwt wanted l i).run e w = (r, w')) :
    ∃ evs, Eff e w w' evs [] ∧ NoStore r ∧ OnlyRequests i jwt evs ∧
      (∃ rest, evs.filterMap Event.credentialRequest ++ rest = (wantedIds wanted (allIds l)).map (identifierRequest i jwt) ∧
        ∀ i', r = .ok i' → rest = []) ∧
      (∀ i', r = .ok i' → Grown P.jose evs i i' ∧ Answered evs) := by
  induction l generalizing i w r w' with
  | nil =>
    obtain ⟨rfl, rfl⟩ := pure_inv h
    exact ⟨[], Eff.refl _ _, .ok _, .nil, ⟨[], by simp [wantedIds, allIds], by simp⟩, by intro i' hi'; cases hi'; exact ⟨.refl _ _, .nil⟩⟩
  | cons d l ih =>
    unfold byDetails at h
    rcases bind_inv h with ⟨x, h1, rfl⟩ | ⟨cfg, w1, h1, h2⟩
    · obtain ⟨h3, rfl⟩ := lift_inv h1
      exact ⟨[], Eff.refl _ _, .err (NoStore.ne (h3 ▸ detailConfig_noStore _ _)), .nil, ⟨_, rfl, by intro i' hi'; cases hi'⟩,
        by intro i' hi'; cases hi'⟩
    · obtain ⟨h3, rfl⟩ := lift_inv h1
      rcases bind_inv h2 with ⟨x, h4, rfl⟩ | ⟨config, w2, h4, h5⟩
      · obtain ⟨h6, rfl⟩ := lift_inv h4
        exact ⟨[], Eff.refl _ _, .err (NoStore.ne (h6 ▸ NoStore.need _ _)), .nil, ⟨_, rfl, by intro i' hi'; cases hi'⟩,
          by intro i' hi'; cases hi'⟩
      · obtain ⟨h6, rfl⟩ := lift_inv h4
        have happ : wantedIds wanted (allIds (d :: l)) = wantedIds wanted d.identifiers ++ wantedIds wanted (allIds l) := by
          simp [wantedIds, allIds]
        rcases bind_inv h5 with ⟨x, h7, rfl⟩ | ⟨j, w3, h7, h8⟩
        · obtain ⟨evs, hE, hn, hr, ⟨rest, hrest, _⟩, _⟩ := byIdentifiers_inv h7
          refine ⟨evs, hE, .err hn.ne, hr, ⟨rest ++ (wantedIds wanted (allIds l)).map (identifierRequest i jwt), ?_, by intro i' hi'; cases hi'⟩,
            by intro i' hi'; cases hi'⟩
          rw [happ, List.map_append, ← hrest, List.append_assoc]
        · obtain ⟨evs, hE, hn, hr, ⟨rest, hrest, hrest1⟩, hg⟩ := byIdentifiers_inv h7
          obtain ⟨hgj, haj⟩ := hg j rfl
          have hf := hgj.frame
          obtain ⟨evs2, hE2, hn2, hr2, ⟨rest2, hrest2, hrest3⟩, hg2⟩ := ih h8
          have hsame : identifierRequest j jwt = identifierRequest i jwt := by
            funext id; simp [identifierRequest, hf]
          have : rest = [] := hrest1 j rfl
          subst this
          rw [List.append_nil] at hrest
          refine ⟨_, hE.trans hE2, hn2, hr.append (hr2.of_frame hf.2.2.2.2.2.1 hf.2.2.2.2.2.2.2.2.2.2.2.1), ⟨rest2, ?_, hrest3⟩, ?_⟩
          · rw [List.filterMap_append, List.append_assoc, hrest2, hrest, happ, List.map_append, hsame]
          · intro i' hi'
            exact ⟨hgj.trans (hg2 i' hi').1, haj.append (hg2 i' hi').2⟩

/-- What `credentials` asks of the issuer. -/
theorem fetch_inv {i : Issuance} {req : CredentialsRequest} {jwt : String} {r : HRes Issuance} (h : (fetch P i req jwt).run e w = (r, w')) :
    ∃ evs, Eff e w w' evs [] ∧ NoStore r ∧ OnlyRequests i jwt evs ∧
      (i.scope = none → ∀ l, i.token.authorizationDetails = some l →
        ∃ rest, evs.filterMap Event.credentialRequest ++ rest = (wantedIds req.identifiers (allIds l)).map (identifierRequest i jwt) ∧
          ∀ i', r = .ok i' → rest = []) ∧
      (∀ i', r = .ok i' → Grown P.jose evs i i' ∧ Answered evs) := by
  unfold fetch at h
  split at h
  · rename_i hs
    have hns : i.scope ≠ none := by intro hn; rw [hn] at hs; simp at hs
    unfold byFormat at h
    rcases bind_inv h with ⟨x, h1, rfl⟩ | ⟨_, w1, h1, h2⟩
    · obtain ⟨h3, rfl⟩ := lift_inv h1
      exact ⟨[], Eff.refl _ _, .err (NoStore.ne (h3 ▸ NoStore.check _ _)), .nil, fun hn => absurd hn hns, by intro i' hi'; cases hi'⟩
    · obtain ⟨h3, rfl⟩ := lift_inv h1
      rcases bind_inv h2 with ⟨x, h4, rfl⟩ | ⟨format, w2, h4, h5⟩
      · obtain ⟨h6, rfl⟩ := lift_inv h4
        exact ⟨[], Eff.refl _ _, .err (NoStore.ne (h6 ▸ NoStore.need _ _)), .nil, fun hn => absurd hn hns, by intro i' hi'; cases hi'⟩
      · obtain ⟨h6, rfl⟩ := lift_inv h4
        rcases bind_inv h5 with ⟨x, h7, rfl⟩ | ⟨en, w3, h7, h8⟩
        · obtain ⟨h9, rfl⟩ := lift_inv h7
          exact ⟨[], Eff.refl _ _, .err (NoStore.ne (h9 ▸ NoStore.need _ _)), .nil, fun hn => absurd hn hns, by intro i' hi'; cases hi'⟩
        · obtain ⟨h9, rfl⟩ := lift_inv h7
          rcases bind_inv h8 with ⟨x, h10, rfl⟩ | ⟨resp, w4, h10, h11⟩
          · obtain ⟨o, hE, _, ho⟩ := callE_inv h10
            rcases ho with ⟨rfl, hx⟩ | ⟨a, _, hx⟩ <;> cases hx
            exact ⟨_, hE, .err (by simp), by intro ev hev; simp at hev; subst hev; exact .inl ⟨_, rfl, rfl, rfl, rfl⟩,
              fun hn => absurd hn hns, by intro i' hi'; cases hi'⟩
          · obtain ⟨o, hE, _, ho⟩ := callE_inv h10
            rcases ho with ⟨_, hx⟩ | ⟨a, rfl, hx⟩ <;> cases hx
            have hreq : OnlyRequests i jwt [⟨.credential ⟨i.issuer.credentialIssuer, i.token.accessToken, .format en.2.format, some (.single jwt)⟩, some resp⟩] := by
              intro ev hev; simp at hev; subst hev; exact .inl ⟨_, rfl, rfl, rfl, rfl⟩
            rcases bind_inv h11 with ⟨x, h12, rfl⟩ | ⟨out, w5, h12, h13⟩
            · obtain ⟨evs, hE2, hl, hn, _⟩ := process_inv h12
              exact ⟨_, hE.trans hE2, .err hn.ne, hreq.append hl.requestsOnly, fun hn => absurd hn hns, by intro i' hi'; cases hi'⟩
            · obtain ⟨evs, hE2, hl, hn, hout⟩ := process_inv h12
              obtain ⟨o1, o2, o3⟩ := hout out rfl
              obtain ⟨rfl, rfl⟩ := pure_inv h13
              refine ⟨_, hE.trans hE2, .ok _, hreq.append hl.requestsOnly, fun hn => absurd hn hns, ?_⟩
              intro i' hi'
              cases hi'
              exact ⟨Grown.record rfl hl o1 o2 o3, Answered.one.append hl.answered⟩
  · unfold byIdentifier at h
    rcases bind_inv h with ⟨x, h1, rfl⟩ | ⟨l, w1, h1, h2⟩
    · obtain ⟨h3, rfl⟩ := lift_inv h1
      refine ⟨[], Eff.refl _ _, .err (NoStore.ne (h3 ▸ NoStore.need _ _)), .nil, ?_, by intro i' hi'; cases hi'⟩
      intro _ l hl
      exact ⟨_, rfl, by intro i' hi'; cases hi'⟩
    · obtain ⟨h3, rfl⟩ := lift_inv h1
      obtain ⟨evs, hE, hn, hr, hrest, hg⟩ := byDetails_inv h2
      refine ⟨evs, hE, hn, hr, ?_, hg⟩
      intro _ l' hl'
      rw [need_ok h3] at hl'
      cases hl'
      exact hrest

end

end Verif.Holder
