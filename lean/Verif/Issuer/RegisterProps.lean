import Verif.Issuer.Clients
import Verif.Issuer.AcceptProps
import Verif.Issuer.TokenProps
import Verif.Issuer.DeferredProps
import Verif.Issuer.OfferProps
/-!
# Properties of client registration: C171, C172
-/
namespace Verif.Issuer
open Prog

/-! ### C171 -/

/-- The values that a response hands out, one of which is the access token of a token response. -/
inductive HandsOut : Resp → String → Prop
  /-- the pre-authorized code of an offer -/
  | preAuthorized (r : CreateOfferResponse) (o : CredentialOffer) (g : Grants) (p : PreAuthorizedCodeGrant) (hr : r.offerType = .object o)
      (hg : o.grants = some g) (hp : g.preAuthorizedCode = some p) : HandsOut (.createOffer r) p.preAuthorizedCode
  /-- the address of a pushed request -/
  | requestUri (r : ParResponse) : HandsOut (.par r) r.requestUri
  /-- an authorization code -/
  | code (r : AuthorizationResponse) : HandsOut (.authorize r) r.code
  | accessToken (r : TokenResponse) : HandsOut (.token r) r.accessToken
  /-- the identifier under which a credential can be collected later -/
  | transactionId (r : CredentialResponse) (t : String) (hr : r.response = .transactionId t) : HandsOut (.credential r) t
  /-- the identifier for the notification about a credential -/
  | notificationId (r : CredentialResponse) (n : String) (hr : r.notificationId = some n) : HandsOut (.credential r) n

/-- What a response hands out is stored. -/
theorem handsOut_stored {e : Env} (he : Env.Fresh e) {w : World State} (hw : Reachable e w) {s : Step} {r : Resp} {k : String}
    (hok : (step e w s).1 = .ok r) (hk : HandsOut r k) : ∃ v, (step e w s).2.store k = some v := by
  cases hreq : s.req with
  | createOffer q =>
    rw [step_createOffer hreq] at hok ⊢
    obtain ⟨x, hx, rfl⟩ := map_ok.1 hok
    cases hk with
    | preAuthorized _ o g p hr hg hp =>
      obtain ⟨iss, srv, offer, tx, w1, w2, w3, h1, h2, h3, h4, rfl, h5, h6, h7⟩ := createOffer_ok_iff.1 (pair_of_fst hx)
      rcases CreateOffer.respond_ok.1 h7 with ⟨_, rfl, h8⟩ | ⟨_, _, rfl, _⟩
      · cases hr
        obtain ⟨q1, q2, _⟩ := ((CreateOffer.credentialOffer_ok h4).2.2.1 g hg).2 p hp
        rcases CreateOffer.saveOffer_ok.1 h6 with ⟨h9, _⟩ | ⟨_, items, key, _, hkey, _, rfl⟩
        · simp [CreateOffer.saves, q1] at h9
        · have := CreateOffer.stateKey_of h4 hkey
          exact ⟨_, by rw [h8, q2, this]; exact upd_same ..⟩
      · cases hr
  | credentialOffer q =>
    rw [step_credentialOffer hreq] at hok
    obtain ⟨x, hx, rfl⟩ := map_ok.1 hok
    cases hk
  | par q =>
    rw [step_par hreq] at hok ⊢
    obtain ⟨x, hx, rfl⟩ := map_ok.1 hok
    cases hk
    obtain ⟨_, _, _, _, _, _, _, _, _, _, _, _, rfl, h, _⟩ := par_ok (pair_of_fst hx)
    exact ⟨_, by rw [h]; exact upd_same ..⟩
  | authorize q =>
    have h0 := hok
    rw [step_authorize hreq] at hok
    obtain ⟨x, hx, rfl⟩ := map_ok.1 hok
    cases hk
    obtain ⟨_, st, _, _, h, _⟩ := C10_code_carries_binding he hw hreq h0
    exact ⟨st, h⟩
  | token q =>
    rw [step_token hreq] at hok ⊢
    obtain ⟨x, hx, rfl⟩ := map_ok.1 hok
    cases hk
    obtain ⟨_, _, _, _, _, _, _, _, rfl, h⟩ := token_ok_iff.1 (pair_of_fst hx)
    exact ⟨_, by rw [h]; exact upd_same ..⟩
  | credential q =>
    rw [step_credential hreq] at hok ⊢
    obtain ⟨x, hx, rfl⟩ := map_ok.1 hok
    obtain ⟨s', ctx, t, did, ds, _, _, _, _, _, _, _, _, h⟩ := credential_ok_iff.1 (pair_of_fst hx)
    cases hk with
    | transactionId _ t hr =>
      rcases h with ⟨_, _, rfl, h⟩ | ⟨_, c, _, _, _, rfl, h⟩
      · cases hr
        exact ⟨_, by rw [h]; exact upd_same ..⟩
      · cases hr
    | notificationId _ n hr =>
      rcases h with ⟨_, _, rfl, h⟩ | ⟨_, c, _, _, _, rfl, h⟩
      · cases hr
      · cases hr
        exact ⟨_, by rw [h]; exact upd_same ..⟩
  | deferred q =>
    rw [step_deferred hreq] at hok
    obtain ⟨x, hx, rfl⟩ := map_ok.1 hok
    cases hk
  | notification q =>
    rw [step_notification hreq] at hok
    obtain ⟨x, hx, rfl⟩ := map_ok.1 hok
    cases hk
  | register q =>
    rw [step_register hreq] at hok
    obtain ⟨x, hx, rfl⟩ := map_ok.1 hok
    cases hk
  | metadata q =>
    simp only [step, hreq, call, run_map_pure] at hok
    obtain ⟨x, hx, rfl⟩ := map_ok.1 hok
    cases hk
  | oauthServer q =>
    simp only [step, hreq, call, run_map_pure] at hok
    obtain ⟨x, hx, rfl⟩ := map_ok.1 hok
    cases hk

/-- **C171 is false**: whatever the issuer has handed out serves to register a client, be it the address of a pushed request, for which nobody had to log in, a
code that was never redeemed, or the number of a notification; and so it does after any time, `ask.wait`, though the access token is long expired. -/
theorem C171_violated {e : Env} (he : Env.Fresh e) {w : World State} (hw : Reachable e w) {s : Step} {r : Resp} {k : String}
    (hok : (step e w s).1 = .ok r) (hk : HandsOut r k) {ask : Step} {c d : Client} (hreq : ask.req = .register ⟨k, c⟩)
    (hreg : ask.provider.register c = some d) (hst : e.fault (step e w s).2.ops = .ok) :
    (step e (step e w s).2 ask).1 = .ok (.register d) := by
  obtain ⟨v, hv⟩ := handsOut_stored he hw hok hk
  rw [step_register hreq]
  generalize hW : (step e w s).2 = W at hv hst ⊢
  have := (C34_registration_needs_state (P := ask.provider) (req := ⟨k, c⟩) (e := e) (w := World.wait W ask.wait) (c := d)).2
    ⟨hst, ⟨v, hv⟩, hreg, rfl⟩
  rw [this]
  rfl

/-- **C171**, what holds: nothing that the issuer did not make up itself serves, -/
theorem C171_made_up_partial {e : Env} (he : Env.Fresh e) {w : World State} (hw : Reachable e w) {ask : Step} {k : String} {c : Client} {r : Resp}
    (hreq : ask.req = .register ⟨k, c⟩) (hok : (step e w ask).1 = .ok r) :
    ∃ i < w.drawn, k = e.rng i ∨ k = "urn:ietf:params:oauth:request_uri:" ++ e.rng i := by
  rw [step_register hreq] at hok
  obtain ⟨x, hx, rfl⟩ := map_ok.1 hok
  obtain ⟨_, ⟨v, hv⟩, _⟩ := C34_registration_needs_state.1 (pair_of_fst hx)
  exact (hw.sep he).key k v hv

/-- and a code that has been redeemed does not serve any more, whatever happens. -/
theorem C171_redeemed_partial {e : Env} (he : Env.Fresh e) {w : World State} (hw : Reachable e w) {redeem : Step} {treq : TokenRequest} {r : Resp}
    (hredeem : redeem.req = .token treq) (hok : (step e w redeem).1 = .ok r) (between : List Step) {ask : Step} {c : Client}
    (hreq : ask.req = .register ⟨treq.grantType.code, c⟩) : Refused (step e (exec e (step e w redeem).2 between) ask).1 := by
  have h0 := hok
  rw [step_token hredeem] at hok
  obtain ⟨x, hx, rfl⟩ := map_ok.1 hok
  obtain ⟨st, items, _, _, _, hs, hv, _⟩ := token_ok_iff.1 (pair_of_fst hx)
  have hgr : st.isGrant := by
    obtain ⟨_, server, sup, _, _, hg, _⟩ := Token.verify_ok.1 hv
    cases hgt : treq.grantType with
    | preAuthorizedCode c tx =>
      obtain ⟨o, ho, _⟩ := (Token.checkGrant_pre hgt).1 hg
      exact .inl ⟨o, ho⟩
    | authorizationCode c u v =>
      obtain ⟨a, _, ha, _⟩ := (Token.checkGrant_auth hgt).1 hg
      exact .inr ⟨a, ha⟩
  have hgone := C01_token_removes_code he hw hredeem hs (.inr ⟨_, h0⟩)
  have hsp := (token_spent he hw hs hgr hgone).exec he between
  intro y hy
  rw [step_register hreq] at hy
  obtain ⟨z, hz, _⟩ := map_ok.1 hy
  obtain ⟨_, ⟨v, hv⟩, _⟩ := C34_registration_needs_state.1 (pair_of_fst hz)
  exact absurd (hv.symm.trans hsp.gone) (by simp)

/-- C171: a request was pushed; half a year later its address serves to register a client. -/
example : ∃ r, (step Demo.env (start 0) { provider := Demo.provider, req := .par Demo.authReq }).1 = .ok (.par r) ∧
    ∃ d, (step Demo.env (step Demo.env (start 0) { provider := Demo.provider, req := .par Demo.authReq }).2
      { provider := Demo.provider, wait := 15768000 * 1000000000, req := .register ⟨r.requestUri, { Demo.client with redirectUris := some ["http://evil"] }⟩ }).1 =
        .ok (.register d) :=
  ⟨_, rfl, _, C171_violated Demo.env_fresh ⟨0, [], rfl⟩ rfl (.requestUri _) rfl rfl rfl⟩

/-! ### C172 -/

/-- The identifiers given out never repeat, and none of them is that of a client the service was set up with (`Uuid::new_v4` draws 122 bits; collisions are taken
not to happen). -/
structure OwnIds (uuid : Nat → String) (setUp : Dict Client) : Prop where
  inj : ∀ i j, uuid i = uuid j → i = j
  new : ∀ i c, (uuid i, c) ∉ setUp

/-- A service that was set up with some clients, after a history. -/
def deskOf (e : Env) (uuid : Nat → String) (setUp : Dict Client) (t0 : Int) (h : List Step) : Desk := deskExec e uuid ⟨start t0, setUp, 0⟩ h

theorem deskExec_append (e : Env) (uuid : Nat → String) (d : Desk) (a b : List Step) :
    deskExec e uuid d (a ++ b) = deskExec e uuid (deskExec e uuid d a) b := by
  induction a generalizing d with
  | nil => rfl
  | cons s a ih => exact ih _

/-- What a step does to the clients. -/
theorem deskStep_clients (e : Env) (uuid : Nat → String) (d : Desk) (s : Step) :
    (∃ r, s.req = .register r ∧ (deskStep e uuid d s).1 = .ok (.register { r.client with clientId := uuid d.ids }) ∧
      (deskStep e uuid d s).2.clients = d.clients.insert (uuid d.ids) { r.client with clientId := uuid d.ids } ∧
      (deskStep e uuid d s).2.ids = d.ids + 1) ∨
    ((deskStep e uuid d s).2.clients = d.clients ∧ (deskStep e uuid d s).2.ids = d.ids ∧ ∀ c, (deskStep e uuid d s).1 ≠ .ok (.register c)) := by
  have key : ∀ x : Res Resp × World State, step e d.world { s with provider := d.provider uuid s.provider } = x →
      ((∃ r, s.req = .register r ∧ x.1 = .ok (.register { r.client with clientId := uuid d.ids })) ∨
       ((∀ r y, s.req = .register r → x.1 ≠ .ok y) ∧ ∀ c, x.1 ≠ .ok (.register c))) := by
    rintro x rfl
    cases hx : (step e d.world { s with provider := d.provider uuid s.provider }).1 with
    | error er => exact .inr ⟨(fun _ _ _ h => nomatch h), (fun _ h => nomatch h)⟩
    | ok y =>
      by_cases hr : ∃ r, s.req = .register r
      · obtain ⟨r, hr⟩ := hr
        refine .inl ⟨r, hr, ?_⟩
        rw [step_register (s := { s with provider := d.provider uuid s.provider }) hr] at hx
        obtain ⟨z, hz, rfl⟩ := map_ok.1 hx
        obtain ⟨_, _, h, _⟩ := C34_registration_needs_state.1 (pair_of_fst hz)
        simp only [Desk.provider, ClientStore.add, Option.some.injEq] at h
        rw [h]
      · refine .inr ⟨fun r y h => absurd ⟨r, h⟩ hr, fun c h => hr ?_⟩
        cases h
        cases hq : s.req with
        | register r => exact ⟨r, rfl⟩
        | _ =>
          simp only [step, hq, call, run_map_pure] at hx
          obtain ⟨z, _, hz⟩ := map_ok.1 hx
          cases hz
  have hx := key _ rfl
  unfold deskStep
  generalize step e d.world { s with provider := d.provider uuid s.provider } = x at hx ⊢
  obtain ⟨a, w⟩ := x
  rcases hx with ⟨r, h1, h2⟩ | ⟨h1, h2⟩
  · left
    cases h2
    exact ⟨r, h1, rfl, by simp only [Desk.after, h1]; rfl, by simp only [Desk.after, h1]⟩
  · right
    cases a with
    | error er => exact ⟨rfl, rfl, fun _ h => nomatch h⟩
    | ok y =>
      refine ⟨?_, ?_, h2⟩ <;>
      · cases hq : s.req with
        | register r => exact absurd rfl (h1 r y hq)
        | _ => rfl

/-- No identifier that is still to be given out is in use. -/
def Unused (uuid : Nat → String) (d : Desk) : Prop := ∀ i, d.ids ≤ i → d.clients.get? (uuid i) = none

theorem Unused.step {e : Env} {uuid : Nat → String} (hi : ∀ i j, uuid i = uuid j → i = j) {d : Desk} (h : Unused uuid d) (s : Step) :
    Unused uuid (deskStep e uuid d s).2 := by
  intro i hle
  rcases deskStep_clients e uuid d s with ⟨r, _, _, h1, h2⟩ | ⟨h1, h2, _⟩
  · rw [h1, Dict.get?_insert, if_neg]
    · exact h i (by omega)
    · intro he
      have := hi _ _ he
      omega
  · rw [h1]; exact h i (by omega)

theorem kept_step {e : Env} {uuid : Nat → String} {d : Desk} (h : Unused uuid d) (s : Step) {id : String} {c : Client}
    (hc : d.clients.get? id = some c) : (deskStep e uuid d s).2.clients.get? id = some c := by
  rcases deskStep_clients e uuid d s with ⟨r, _, _, h1, h2⟩ | ⟨h1, h2, _⟩
  · rw [h1, Dict.get?_insert, if_neg]
    · exact hc
    · rintro rfl
      rw [h d.ids (Nat.le_refl _)] at hc; cases hc
  · rw [h1]; exact hc

theorem kept {e : Env} {uuid : Nat → String} (hi : ∀ i j, uuid i = uuid j → i = j) {d : Desk} (h : Unused uuid d) {id : String} {c : Client}
    (hc : d.clients.get? id = some c) (l : List Step) : (deskExec e uuid d l).clients.get? id = some c := by
  induction l generalizing d with
  | nil => exact hc
  | cons s l ih => exact ih (h.step hi s) (kept_step h s hc)

theorem unused_start {uuid : Nat → String} {setUp : Dict Client} (ho : OwnIds uuid setUp) (w : World State) : Unused uuid ⟨w, setUp, 0⟩ := by
  intro i _
  cases h : setUp.get? (uuid i) with
  | none => rfl
  | some c => exact absurd (Dict.mem_of_get? h) (ho.new i c)

theorem unused_exec {e : Env} {uuid : Nat → String} (hi : ∀ i j, uuid i = uuid j → i = j) {d : Desk} (h : Unused uuid d) (l : List Step) :
    Unused uuid (deskExec e uuid d l) := by
  induction l generalizing d with
  | nil => exact h
  | cons s l ih => exact ih (h.step hi s)

theorem unused_of {e : Env} {uuid : Nat → String} {setUp : Dict Client} (ho : OwnIds uuid setUp) (t0 : Int) (h : List Step) :
    Unused uuid (deskOf e uuid setUp t0 h) := unused_exec ho.inj (unused_start ho _) h

/-- **C172**, identity: a registered client gets an identifier that no client had before, everything else is registered as it was asked for, and stays so whatever
requests follow. -/
theorem C172_registered_and_kept {e : Env} {uuid : Nat → String} {setUp : Dict Client} (ho : OwnIds uuid setUp) {t0 : Int} {h : List Step} {s : Step} {c : Client}
    (hok : (deskStep e uuid (deskOf e uuid setUp t0 h) s).1 = .ok (.register c)) :
    (∃ r, s.req = .register r ∧ c = { r.client with clientId := c.clientId }) ∧
    (deskOf e uuid setUp t0 h).clients.get? c.clientId = none ∧
    ∀ later, (deskOf e uuid setUp t0 (h ++ s :: later)).clients.get? c.clientId = some c := by
  have hu := unused_of (e := e) ho t0 h
  rcases deskStep_clients e uuid (deskOf e uuid setUp t0 h) s with ⟨r, hr, h0, h1, h2⟩ | ⟨_, _, h0⟩
  · rw [hok] at h0
    cases h0
    refine ⟨⟨r, hr, rfl⟩, hu _ (Nat.le_refl _), fun later => ?_⟩
    rw [deskOf, deskExec_append]
    exact kept ho.inj (hu.step ho.inj s) (by rw [h1, Dict.get?_insert, if_pos rfl]) later
  · exact absurd hok (h0 c)

/-- **C172**, others: a client that is known stays as it is, whoever registers. -/
theorem C172_others_untouched {e : Env} {uuid : Nat → String} {setUp : Dict Client} (ho : OwnIds uuid setUp) {t0 : Int} {h : List Step} {id : String} {c : Client}
    (hc : (deskOf e uuid setUp t0 h).clients.get? id = some c) (later : List Step) :
    (deskOf e uuid setUp t0 (h ++ later)).clients.get? id = some c := by
  rw [deskOf, deskExec_append]
  exact kept ho.inj (unused_of ho t0 h) hc later

/-- Where the clients that are known come from. -/
theorem known_from {e : Env} {uuid : Nat → String} {setUp : Dict Client} {t0 : Int} {h : List Step} {id : String} {c : Client}
    (hc : (deskOf e uuid setUp t0 h).clients.get? id = some c) :
    (id, c) ∈ setUp ∨ ∃ a s b, h = a ++ s :: b ∧ c.clientId = id ∧ (deskStep e uuid (deskOf e uuid setUp t0 a) s).1 = .ok (.register c) := by
  suffices ∀ n, n ≤ h.length → (deskOf e uuid setUp t0 (h.take n)).clients.get? id = some c →
      (id, c) ∈ setUp ∨ ∃ a s b, h = a ++ s :: b ∧ c.clientId = id ∧ (deskStep e uuid (deskOf e uuid setUp t0 a) s).1 = .ok (.register c) from
    this h.length (Nat.le_refl _) (by rw [List.take_length]; exact hc)
  intro n
  induction n with
  | zero => intro _ h0; exact .inl (Dict.mem_of_get? h0)
  | succ n ih =>
    intro hle h0
    have hn : n < h.length := by omega
    rw [List.take_succ_eq_append_getElem hn] at h0
    have hd : deskOf e uuid setUp t0 (h.take n ++ [h[n]]) = (deskStep e uuid (deskOf e uuid setUp t0 (h.take n)) h[n]).2 := by
      rw [deskOf, deskExec_append]; rfl
    rw [hd] at h0
    rcases deskStep_clients e uuid (deskOf e uuid setUp t0 (h.take n)) h[n] with ⟨r, hr, h1, h2, _⟩ | ⟨h2, _, _⟩
    · rw [h2, Dict.get?_insert] at h0
      split at h0
      · rename_i hid
        cases h0
        exact .inr ⟨h.take n, h[n], h.drop (n + 1), by simp, hid.symm, h1⟩
      · exact ih (by omega) h0
    · rw [h2] at h0
      exact ih (by omega) h0

/-- **C172**, safety: a code for a client goes only to an address that the client itself was set up or registered with, whoever else has registered whatever. -/
theorem C172_code_to_own_uri {e : Env} {uuid : Nat → String} {setUp : Dict Client} {t0 : Int} {h : List Step} {s : Step} {request : AuthorizationRequest}
    (hreq : s.req = .authorize request) {resp : AuthorizationResponse} (hok : (deskStep e uuid (deskOf e uuid setUp t0 h) s).1 = .ok (.authorize resp)) :
    ∃ r uri uris c, request.DenotesIn (World.wait (deskOf e uuid setUp t0 h).world s.wait) r ∧ r.redirectUri = some uri ∧ c.redirectUris = some uris ∧ uri ∈ uris ∧
      ((r.clientId, c) ∈ setUp ∨
       ∃ a g b, h = a ++ g :: b ∧ c.clientId = r.clientId ∧ (deskStep e uuid (deskOf e uuid setUp t0 a) g).1 = .ok (.register c)) := by
  have hok' : (step e (deskOf e uuid setUp t0 h).world { s with provider := (deskOf e uuid setUp t0 h).provider uuid s.provider }).1 = .ok (.authorize resp) := hok
  rw [step_authorize (s := { s with provider := (deskOf e uuid setUp t0 h).provider uuid s.provider }) hreq] at hok'
  obtain ⟨x, hx, hxr⟩ := map_ok.1 hok'
  obtain ⟨r, c, server, h1, h2, h3, h4⟩ := C09_code_needs_valid_request (pair_of_fst hx)
  obtain ⟨u, us, h5, h6, h7⟩ := h4.redirectUri
  exact ⟨r, u, us, c, h1, h5, h6, h7, known_from h2⟩

/-- **C172**, use: whoever has registered what an authorization needs gets a code for the address registered, at any later time. -/
theorem C172_registered_client_served {e : Env} {uuid : Nat → String} {setUp : Dict Client} (ho : OwnIds uuid setUp) {t0 : Int} {h : List Step} {s : Step}
    {c : Client} (hok : (deskStep e uuid (deskOf e uuid setUp t0 h) s).1 = .ok (.register c)) (later : List Step) {ask : Step} {r : RequestObject}
    (hreq : ask.req = .authorize (.object r)) (hcid : r.clientId = c.clientId)
    (hst : Working e (deskOf e uuid setUp t0 (h ++ s :: later)).world) {iss : Verif.Issuer} {server : Server}
    (hiss : ask.provider.issuer r.credentialIssuer = some iss) (hn : Dict.Nodup iss.configs) (hsrv : ask.provider.server r.credentialIssuer = some server)
    (hpar : server.requirePar ≠ some true) (hv : ValidAuthorization c server r) (hg : Grantable ask.provider iss r) (hi : r.issuerState = none) :
    ∃ resp, (deskStep e uuid (deskOf e uuid setUp t0 (h ++ s :: later)) ask).1 = .ok (.authorize resp) ∧ r.redirectUri = some resp.redirectUri := by
  have hc := (C172_registered_and_kept ho hok).2.2 later
  generalize deskOf e uuid setUp t0 (h ++ s :: later) = d at hst hc ⊢
  have hg' : Grantable (d.provider uuid ask.provider) iss r := ⟨hg.details, hg.scope, hg.something⟩
  obtain ⟨resp, w', h1, _, h2⟩ := C91_acceptable_request_gets_code (P := d.provider uuid ask.provider) (request := .object r) (e := e)
    (w := World.wait d.world ask.wait) hst (r := r) rfl
    ⟨iss, c, server, hiss, hn, by rw [hcid]; exact hc, hsrv, hv, hg', fun k hk => by rw [hi] at hk; cases hk⟩
    (fun srv hs hp => by rw [show srv = server from Option.some.inj (hs.symm.trans hsrv)] at hp; exact absurd hp hpar)
  refine ⟨resp, ?_, h2⟩
  show (step e d.world { ask with provider := d.provider uuid ask.provider }).1 = _
  rw [step_authorize (s := { ask with provider := d.provider uuid ask.provider }) hreq, h1]
  rfl

/-- **C172 is false** of clients that leave out what can be left out, and for which RFC 7591 has defaults (grant types, response types, scope): they are registered as
they are, and then all their authorization requests are refused; -/
theorem C172_violated_defaults {e : Env} {uuid : Nat → String} {setUp : Dict Client} (ho : OwnIds uuid setUp) {t0 : Int} {h : List Step} {s : Step}
    {c : Client} (hok : (deskStep e uuid (deskOf e uuid setUp t0 h) s).1 = .ok (.register c))
    (hc : c.grantTypes = none ∨ c.responseTypes = none ∨ c.scope = none) (later : List Step) {ask : Step} {r : RequestObject}
    (hreq : ask.req = .authorize (.object r)) (hcid : r.clientId = c.clientId) :
    Refused (deskStep e uuid (deskOf e uuid setUp t0 (h ++ s :: later)) ask).1 := by
  have hk := (C172_registered_and_kept ho hok).2.2 later
  generalize deskOf e uuid setUp t0 (h ++ s :: later) = d at hk ⊢
  intro y hy
  have hy : (step e d.world { ask with provider := d.provider uuid ask.provider }).1 = .ok y := hy
  rw [step_authorize (s := { ask with provider := d.provider uuid ask.provider }) hreq] at hy
  obtain ⟨x, hx, _⟩ := map_ok.1 hy
  obtain ⟨r', c', server, h1, h2, _, h4⟩ := C09_code_needs_valid_request (pair_of_fst hx)
  cases h1
  have : c' = c := Option.some.inj (h2.symm.trans (by rw [hcid]; exact hk))
  subst this
  obtain ⟨_, l1, e1, _⟩ := h4.responseType
  obtain ⟨_, l2, e2, _⟩ := h4.grantType
  obtain ⟨cs, _, e3, _⟩ := h4.scope
  rcases hc with hc | hc | hc <;> simp_all

/-- and without a scope all their token requests as well, also those with a pre-authorized code. -/
theorem C172_violated_no_token {e : Env} {uuid : Nat → String} {setUp : Dict Client} (ho : OwnIds uuid setUp) {t0 : Int} {h : List Step} {s : Step}
    {c : Client} (hok : (deskStep e uuid (deskOf e uuid setUp t0 h) s).1 = .ok (.register c))
    (hc : c.scope = none) (later : List Step) {ask : Step} {r : TokenRequest} (hreq : ask.req = .token r) (hcid : r.clientId = some c.clientId) :
    Refused (deskStep e uuid (deskOf e uuid setUp t0 (h ++ s :: later)) ask).1 := by
  have hk := (C172_registered_and_kept ho hok).2.2 later
  generalize deskOf e uuid setUp t0 (h ++ s :: later) = d at hk ⊢
  intro y hy
  have hy : (step e d.world { ask with provider := d.provider uuid ask.provider }).1 = .ok y := hy
  rw [step_token (s := { ask with provider := d.provider uuid ask.provider }) hreq] at hy
  obtain ⟨x, hx, _⟩ := map_ok.1 hy
  obtain ⟨cid, c', server, scope, _, h1, h2, _, h4, _⟩ := C07_token_client_registered (pair_of_fst hx)
  rw [hcid] at h1
  cases h1
  have : c' = c := Option.some.inj (h2.symm.trans hk)
  subst this
  rw [hc] at h4; cases h4

/-- Identifiers `u`, `uu`, … -/
def Demo.uuid (n : Nat) : String := String.ofList (List.replicate (n + 1) 'u')

/-- The service is set up with the client `wallet`. -/
theorem Demo.ownIds : OwnIds Demo.uuid [("wallet", Demo.client)] := by
  constructor
  · intro i j h
    have h := congrArg List.length (congrArg String.toList h)
    simpa [Demo.uuid] using h
  · intro i c h
    have h := congrArg String.toList (congrArg Prod.fst (List.mem_singleton.1 h))
    simp [Demo.uuid, List.replicate_succ] at h

/-- Somebody has got a token, and registers a client of their own with it. -/
def Demo.registering (c : Client) : List Step :=
  [{ provider := Demo.provider, req := .createOffer Demo.offerReq }, { provider := Demo.provider, req := .token (Demo.tokenReq (Demo.rng 0)) },
   { provider := Demo.provider, req := .register ⟨Demo.rng 2, c⟩ }]

/-- An authorization request of that client. -/
def Demo.ownReq : RequestObject := { Demo.authReq with clientId := "u", redirectUri := some "http://own/cb" }

/-- C172: it is registered under a new identifier and served. -/
example : (deskOf Demo.env Demo.uuid [("wallet", Demo.client)] 0 (Demo.registering { Demo.client with redirectUris := some ["http://own/cb"] })).clients =
      [("wallet", Demo.client), ("u", { Demo.client with clientId := "u", redirectUris := some ["http://own/cb"] })] ∧
    Demo.isOk (deskStep Demo.env Demo.uuid
      (deskOf Demo.env Demo.uuid [("wallet", Demo.client)] 0 (Demo.registering { Demo.client with redirectUris := some ["http://own/cb"] }))
      { provider := Demo.provider, req := .authorize (.object Demo.ownReq) }).1 = true := by decide

/-- C172: without a scope it is registered all the same, and refused. -/
example : (deskOf Demo.env Demo.uuid [("wallet", Demo.client)] 0
      (Demo.registering { Demo.client with redirectUris := some ["http://own/cb"], scope := none })).clients.has "u" = true ∧
    Demo.isOk (deskStep Demo.env Demo.uuid
      (deskOf Demo.env Demo.uuid [("wallet", Demo.client)] 0
        (Demo.registering { Demo.client with redirectUris := some ["http://own/cb"], scope := none }))
      { provider := Demo.provider, req := .authorize (.object Demo.ownReq) }).1 = false := by decide

end Verif.Issuer
