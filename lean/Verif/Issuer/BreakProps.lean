import Verif.Break
import Verif.Issuer.ExactIssueProps
import Verif.Issuer.DeferredProps
import Verif.Issuer.TokenProps
/-!
# C198: a call that was broken off can be made again

A server may stop in the midst of a call, or its store fail. What has been written by then stays. The credential endpoint leaves a session that can be used; the token,
deferred and offer endpoints remove the code, the transaction and the offer first (/repo/vercre-issuer/src/token.rs 52-55, deferred.rs 52-55, credential_offer.rs 40-43).
-/
namespace Verif.Issuer
open Prog

/-- The session under `tok` is as it was or has been renewed. -/
structure Kept (w0 : World State) (tok : String) (s : State) (t : Token) (w : World State) : Prop where
  now : w.now = w0.now
  drawn : w0.drawn ≤ w.drawn
  sess : w.store tok = some s ∨ ∃ n, w.store tok = some (renewed s t n (w0.now + accessDur) (w0.now + nonceDur))

theorem credential_along {P : Provider} {req : CredentialRequest} {e : Env} {w : World State} {s : State} {t : Token} (hs : Session w req.accessToken s t)
    (hacc : t.accessToken = req.accessToken) (hfr : ∀ i, w.drawn ≤ i → e.rng i ≠ req.accessToken) :
    Along e (Kept w req.accessToken s t) (credential P req) w fun _ _ => True := by
  have k0 : Kept w req.accessToken s t w := ⟨rfl, Nat.le_refl _, .inl hs.1⟩
  have k1 : Kept w req.accessToken s t { w with ops := w.ops + 1 } := ⟨rfl, Nat.le_refl _, .inl hs.1⟩
  have kd : ∀ w', Kept w req.accessToken s t w' → Kept w req.accessToken s t { w' with drawn := w'.drawn + 1 } :=
    fun w' h => ⟨h.now, Nat.le_succ_of_le h.drawn, h.sess⟩
  have kp : ∀ (w' : World State) n, Kept w req.accessToken s t w' → ∀ st, (st = w'.store ∨
      st = upd w'.store t.accessToken (some (renewed s t n (w'.now + accessDur) (w'.now + nonceDur)))) →
      Kept w req.accessToken s t { w' with store := st, ops := w'.ops + 1 } := by
    rintro w' n h st (rfl | rfl)
    · exact ⟨h.now, h.drawn, h.sess⟩
    · exact ⟨h.now, h.drawn, .inr ⟨n, by rw [hacc, h.now]; exact upd_same ..⟩⟩
  have kq : ∀ (w' : World State) k v, k ≠ req.accessToken → Kept w req.accessToken s t w' → ∀ st, (st = w'.store ∨ st = upd w'.store k v) →
      Kept w req.accessToken s t { w' with store := st, ops := w'.ops + 1 } := by
    rintro w' k v hk h st (rfl | rfl)
    · exact ⟨h.now, h.drawn, h.sess⟩
    · exact ⟨h.now, h.drawn, by
        show upd w'.store k v req.accessToken = _ ∨ _
        simpa only [upd_other _ _ (Ne.symm hk)] using h.sess⟩
  have rej : ∀ {α : Type} hint w', Kept w req.accessToken s t w' → Along e (Kept w req.accessToken s t) (Credential.invalidProof s hint : IProg α) w' fun _ _ => False := by
    intro α hint w' h
    unfold Credential.invalidProof
    refine Along.bind (Q := fun n w'' => w'' = { w' with drawn := w'.drawn + 1 }) (Along.drawE h (kd _ h) rfl) ?_
    rintro n _ rfl
    refine Along.bind (Q := fun x w'' => x = w'.now ∧ w'' = { w' with drawn := w'.drawn + 1 }) (Along.nowE (kd _ h) ⟨rfl, rfl⟩) ?_
    rintro _ _ ⟨rfl, rfl⟩
    rw [hs.2]
    refine Along.bind (Q := fun x w'' => x = w'.now ∧ w'' = { w' with drawn := w'.drawn + 1 }) (Along.nowE (kd _ h) ⟨rfl, rfl⟩) ?_
    rintro _ _ ⟨rfl, rfl⟩
    refine Along.bind (Q := fun _ w'' => Kept w req.accessToken s t w'') (Along.putE (kd _ h) (fun st hst => kp _ n (kd _ h) st hst) (kp _ n (kd _ h) _ (.inr rfl))) ?_
    rintro _ w'' h''
    exact Along.lift h'' fun _ h => nomatch h
  unfold credential
  refine Along.bind (Q := fun v w' => s = v ∧ w' = { w with ops := w.ops + 1 }) (Along.getE k0 k1 fun v hv => ⟨by rw [hs.1] at hv; cases hv; rfl, rfl⟩) ?_
  rintro _ _ ⟨rfl, rfl⟩
  refine Along.bind (Q := fun (c : Credential.Ctx) w' => c.state = s ∧ w' = { w with ops := w.ops + 1 })
    (Along.lift k1 fun c hc => ⟨(Credential.context_ok.1 hc).1, rfl⟩) ?_
  rintro ctx _ ⟨hctx, rfl⟩
  refine Along.bind (Q := fun _ w' => w' = { w with ops := w.ops + 1 }) ?_ ?_
  · unfold Credential.verify
    refine Along.bind (Q := fun _ w' => w' = { w with ops := w.ops + 1 }) (Along.nowE k1 rfl) ?_
    rintro _ _ rfl
    refine Along.bind (Q := fun _ w' => w' = { w with ops := w.ops + 1 }) (Along.lift k1 fun _ _ => rfl) ?_
    rintro _ _ rfl
    rw [hctx, hs.2]
    refine Along.bind (Q := fun _ w' => w' = { w with ops := w.ops + 1 }) (Along.nowE k1 rfl) ?_
    rintro _ _ rfl
    refine Along.bind (Q := fun _ w' => w' = { w with ops := w.ops + 1 }) (Along.lift k1 fun _ _ => rfl) ?_
    rintro _ _ rfl
    split
    · exact Along.pure k1 rfl
    · split
      · exact Along.weaken (rej _ _ k1) fun _ _ h => h.elim
      · refine Along.bind (Q := fun _ w' => w' = { w with ops := w.ops + 1 }) (Along.lift k1 fun _ _ => rfl) ?_
        rintro _ _ rfl
        split
        · exact Along.weaken (rej _ _ k1) fun _ _ h => h.elim
        · exact Along.pure k1 rfl
  rintro did _ rfl
  unfold Credential.process
  refine Along.bind (Q := fun _ w' => w' = { w with ops := w.ops + 1 }) (Along.lift k1 fun _ _ => rfl) ?_
  rintro ds _ rfl
  have hd : ∀ w', Kept w req.accessToken s t w' → e.rng w'.drawn ≠ req.accessToken := fun w' h => hfr _ h.drawn
  split
  · unfold Credential.deferResponse
    refine Along.bind (Q := fun x w' => x = e.rng w.drawn ∧ Kept w req.accessToken s t w') (Along.drawE k1 (kd _ k1) ⟨rfl, kd _ k1⟩) ?_
    rintro _ w' ⟨rfl, h⟩
    refine Along.bind (Q := fun _ w'' => w'' = w') (Along.nowE h rfl) ?_
    rintro _ _ rfl
    refine Along.bind (Q := fun _ w'' => Kept w req.accessToken s t w'') (Along.putE h (fun st hst => kq _ _ _ (hd _ k0) h st hst) (kq _ _ _ (hd _ k0) h _ (.inr rfl))) ?_
    rintro _ w'' h''
    exact Along.pure h'' trivial
  · unfold Credential.issueResponse
    refine Along.bind (Q := fun x w' => x = w.now ∧ w' = { w with ops := w.ops + 1 }) (Along.nowE k1 ⟨rfl, rfl⟩) ?_
    rintro _ _ ⟨rfl, rfl⟩
    refine Along.bind (Q := fun _ w' => w' = { w with ops := w.ops + 1 }) (Along.lift k1 fun _ _ => rfl) ?_
    rintro c _ rfl
    refine Along.bind (Q := fun x w' => x = w.now ∧ w' = { w with ops := w.ops + 1 }) (Along.nowE k1 ⟨rfl, rfl⟩) ?_
    rintro _ _ ⟨rfl, rfl⟩
    rw [hctx, hs.2]
    refine Along.bind (Q := fun _ w' => w'.now = w.now ∧ Kept w req.accessToken s t w') (Along.drawE k1 (kd _ k1) ⟨rfl, kd _ k1⟩) ?_
    rintro n w' ⟨hn, h⟩
    refine Along.bind (Q := fun x w'' => x = w'.now ∧ w'' = w') (Along.nowE h ⟨rfl, rfl⟩) ?_
    rintro _ _ ⟨rfl, rfl⟩
    refine Along.bind (Q := fun _ w'' => Kept w req.accessToken s t w'')
      (Along.putE h (fun st hst => kp _ n h st (by rw [← hn] at hst; exact hst)) (kp _ n h _ (.inr (by rw [← hn]; rfl)))) ?_
    rintro _ w2 h2
    refine Along.bind (Q := fun x w'' => x ≠ req.accessToken ∧ Kept w req.accessToken s t w'') (Along.drawE h2 (kd _ h2) ⟨hd _ h2, kd _ h2⟩) ?_
    rintro k w3 ⟨hk, h3⟩
    refine Along.bind (Q := fun _ w'' => Kept w req.accessToken s t w'') (Along.putE h3 (fun st hst => kq _ _ _ hk h3 st hst) (kq _ _ _ hk h3 _ (.inr rfl))) ?_
    rintro _ w4 h4
    refine Along.bind (Q := fun _ w'' => w'' = w4) (Along.nowE h4 rfl) ?_
    rintro _ _ rfl
    exact Along.pure h4 trivial

/-- What a credential request needs, except for its proofs. -/
structure AllBut (P : Provider) (w : World State) (req : CredentialRequest) (subj : String) (iss : Issuer) (cfg : CredentialConfiguration) (ds : Dataset) (s : State) (t : Token)
    (auth : Authorized) : Prop where
  issuer : P.issuer req.credentialIssuer = some iss
  live : LiveSession w req.accessToken subj s t
  picks : Picks P iss t req.credential auth
  cfg : (auth.configId, cfg) ∈ iss.configs
  dataset : P.dataset subj auth.identifier = some ds

theorem Picks.congr {P : Provider} {iss : Issuer} {t t' : Token} {c : CredentialIssuance} {auth : Authorized} (h : Picks P iss t c auth) (ht : t'.credentials = t.credentials) :
    Picks P iss t' c auth := by
  cases h with
  | identifier h => exact .identifier (ht ▸ h)
  | format h1 h2 h3 => exact .format h1 (ht ▸ h2) h3

/-- Such a request is served or its proof is rejected. -/
theorem AllBut.answer {P : Provider} {w : World State} {req : CredentialRequest} {subj : String} {iss : Issuer} {cfg : CredentialConfiguration} {ds : Dataset} {s : State} {t : Token}
    {auth : Authorized} (h : AllBut P w req subj iss cfg ds s t auth) {e : Env} (hst : Working e w) (hsign : ∀ k c, P.signOk k c = true)
    (hn : ∀ i iss, P.issuer i = some iss → Dict.Nodup iss.configs) (hnt : Dict.Nodup t.credentials) (hjwt : ∀ types, cfg.proofTypes = some types → "jwt" ∈ types)
    (hcan : ds.pending = false → CanMake P iss req.credentialIssuer cfg subj) :
    (∃ resp w', (credential P req).run e w = (.ok resp, w')) ∨
    ∃ hint w', (credential P req).run e w = (.error (.invalidProof hint (e.rng w.drawn) (numSeconds nonceDur)), w') := by
  have hnt' : ∀ s' t', Session w req.accessToken s' t' → Dict.Nodup t'.credentials := by
    rintro s' t' ⟨g1, g2⟩
    rw [h.live.session.1] at g1; cases g1
    rw [h.live.session.2] at g2; cases g2
    exact hnt
  by_cases hp : ProofsDo P cfg t.cNonce req
  · left
    have hserved : Served P w req subj iss cfg ds := ⟨h.issuer, s, t, auth, h.live, h.picks, h.cfg, hp, h.dataset⟩
    cases hpend : ds.pending with
    | true =>
      obtain ⟨resp, _, w', hr, _⟩ := (C181_deferred_iff hst hn hnt').2 ⟨subj, iss, cfg, ds, hserved, hpend⟩
      exact ⟨resp, w', hr⟩
    | false =>
      obtain ⟨resp, _, w', hr, _⟩ := (C181_credential_given_iff hst hsign hn hnt').2 ⟨subj, iss, cfg, ds, hserved, hpend, hcan hpend⟩
      exact ⟨resp, w', hr⟩
  · right
    have hctx : Credential.context P s req = .ok { state := s, issuer := iss, authorized := auth, config := cfg } :=
      Credential.context_ok.2 ⟨rfl, h.issuer, (picks_iff h.live.session.2 hnt).2 h.picks, Dict.get?_of_mem (hn _ _ h.issuer) h.cfg⟩
    have hx : s.isExpired w.now = false := (isExpired_false_iff _ _).2 h.live.live
    have hc : t.cNonceExpired w.now = false := by
      have := cNonceExpired_iff t w.now
      have h2 := h.live.nonce
      cases hb : t.cNonceExpired w.now
      · rfl
      · rw [hb] at this; simp at this; omega
    have hrej : ∀ hint, ∃ w', (Credential.invalidProof s hint : IProg String).run e { w with ops := w.ops + 1 } =
        (.error (.invalidProof hint (e.rng w.drawn) (numSeconds nonceDur)), w') := by
      intro hint
      refine ⟨(Credential.invalidProof s hint : IProg String).run e { w with ops := w.ops + 1 } |>.2, Prod.ext ?_ rfl⟩
      simp only [Credential.invalidProof, Bind.bind, run_bind, drawE, nowE, run, h.live.session.2, putE, hst (w.ops + 1) (by omega), decide_true, if_true, lift]
    have hver : ∃ hint w', (Credential.verify P { state := s, issuer := iss, authorized := auth, config := cfg } req).run e { w with ops := w.ops + 1 } =
        (.error (.invalidProof hint (e.rng w.drawn) (numSeconds nonceDur)), w') := by
      have hstep : ∀ (r : Res String × World State), (match cfg.proofTypes with
          | none => (pure "" : IProg String)
          | some types => match req.proof with
            | none => Credential.invalidProof s "proof not set"
            | some proof => do
              lift (require (types.contains "jwt") (.invalidCredentialRequest "proof type not supported"))
              match Credential.checkProofs P t.cNonce (Credential.proofJwts proof) "" with
              | .error hint => Credential.invalidProof s hint
              | .ok did => pure did).run e { w with ops := w.ops + 1 } = r →
          (Credential.verify P { state := s, issuer := iss, authorized := auth, config := cfg } req).run e { w with ops := w.ops + 1 } = r := by
        intro r hr
        rw [← hr]
        simp only [Credential.verify, Bind.bind, run_bind, nowE, run, lift, hx, require, Bool.not_false, if_true, h.live.session.2, hc]
        cases cfg.proofTypes <;> cases req.proof <;> rfl
      cases hpt : cfg.proofTypes with
      | none => exact absurd (fun types ht => by rw [hpt] at ht; cases ht) hp
      | some types =>
        cases hpr : req.proof with
        | none =>
          obtain ⟨w', hr⟩ := hrej "proof not set"
          exact ⟨_, w', hstep _ (by simp only [hpt, hpr]; exact hr)⟩
        | some proof =>
          cases hck : Credential.checkProofs P t.cNonce (Credential.proofJwts proof) "" with
          | ok did =>
            exact absurd (proofsDo_iff.1 ⟨did, by
              unfold ProofChecked
              rw [hpt]
              exact ⟨by simpa using hjwt types hpt, proof, hpr, hck⟩⟩) hp
          | error hint =>
            obtain ⟨w', hr⟩ := hrej hint
            refine ⟨hint, w', hstep _ ?_⟩
            simp only [hpt, hpr, hck, show types.contains "jwt" = true by simpa using hjwt types hpt, require, if_true]
            exact hr
    obtain ⟨hint, w', hv⟩ := hver
    refine ⟨hint, w', ?_⟩
    unfold credential
    rw [run_bind_err]
    refine .inr ⟨s, { w with ops := w.ops + 1 }, run_getE_ok.2 ⟨hst _ (Nat.le_refl _), h.live.session.1, rfl⟩, ?_⟩
    rw [run_bind_err]
    refine .inr ⟨_, _, run_lift_ok.2 ⟨hctx, rfl⟩, ?_⟩
    rw [run_bind_err]
    exact .inl hv

/-! ### Properties -/

/-- The part of **C198** that holds. A credential request that would be served is broken off anywhere, with any failures of the store up to there. Then, with the store
working again, the same request is served, or it is answered with `invalid_proof` and a new nonce, and with a proof over this nonce it is served. Missing: the endpoints
that take a code, a transaction id or an offer id, see below. -/
theorem C198_credential_repeatable_partial {P : Provider} {req : CredentialRequest} {e : Env} {w : World State} (hsign : ∀ k c, P.signOk k c = true)
    (hn : ∀ i iss, P.issuer i = some iss → Dict.Nodup iss.configs) {subj : String} {iss : Issuer} {cfg : CredentialConfiguration} {ds : Dataset}
    (hs : Served P w req subj iss cfg ds) (hcan : ds.pending = false → CanMake P iss req.credentialIssuer cfg subj)
    (htok : ∀ s t, Session w req.accessToken s t → t.accessToken = req.accessToken ∧ Dict.Nodup t.credentials) (hfr : ∀ i, w.drawn ≤ i → e.rng i ≠ req.accessToken)
    (n : Nat) (hw : Working e ((credential P req).cut e n w)) :
    (∃ resp w2, (credential P req).run e ((credential P req).cut e n w) = (.ok resp, w2)) ∨
    ∃ hint nonce exp w2, (credential P req).run e ((credential P req).cut e n w) = (.error (.invalidProof hint nonce exp), w2) ∧
      ∀ jwt did, ValidProof P nonce jwt did → ∃ resp w3, (credential P { req with proof := some (.single jwt) }).run e w2 = (.ok resp, w3) := by
  obtain ⟨hiss, s, t, auth, hl, hpk, hcfg, hpd, hds⟩ := hs
  obtain ⟨hacc, hnt⟩ := htok s t hl.session
  have hjwt : ∀ types, cfg.proofTypes = some types → "jwt" ∈ types := fun types ht => (hpd types ht).1
  have hk := (credential_along (P := P) hl.session hacc hfr).cut n
  generalize (credential P req).cut e n w = w1 at hk hw
  have hpos : (0 : Int) < accessDur ∧ (0 : Int) < nonceDur ∧ (0 : Int) < sec := by decide
  -- the session after the break
  have key : ∃ s1 t1, LiveSession w1 req.accessToken subj s1 t1 ∧ t1.credentials = t.credentials ∧ t1.accessToken = req.accessToken := by
    rcases hk.sess with h | ⟨n, h⟩
    · exact ⟨s, t, ⟨⟨h, hl.session.2⟩, by rw [hk.now]; exact hl.live, by rw [hk.now]; exact hl.nonce, hl.subject⟩, rfl, hacc⟩
    · refine ⟨_, { t with cNonce := n, cNonceExpiresAt := w.now + nonceDur }, ⟨⟨h, rfl⟩, ?_, ?_, hl.subject⟩, rfl, hacc⟩
      · show w1.now < (w.now + accessDur) + sec
        rw [hk.now]; omega
      · show w1.now < (w.now + nonceDur) + sec
        rw [hk.now]; omega
  obtain ⟨s1, t1, hl1, hc1, ha1⟩ := key
  have hall : AllBut P w1 req subj iss cfg ds s1 t1 auth := ⟨hiss, hl1, hpk.congr hc1, hcfg, hds⟩
  rcases hall.answer hw hsign hn (hc1 ▸ hnt) hjwt hcan with h | ⟨hint, w2, h⟩
  · exact .inl h
  · refine .inr ⟨hint, _, _, w2, h, fun jwt did hv => ?_⟩
    obtain ⟨s1', ctx, t1', _, g1, _, g2, _, _, _, _, _, g3, g4, g5, g6⟩ := credential_invalidProof h
    rw [hl1.session.1] at g1; cases g1
    rw [hl1.session.2] at g2; cases g2
    rw [ha1] at g3
    have hw2 : Working e w2 := fun i hi => hw i (by omega)
    have hl2 : LiveSession w2 req.accessToken subj (renewed s1 t1 (e.rng w1.drawn) (w1.now + accessDur) (w1.now + nonceDur))
        { t1 with cNonce := e.rng w1.drawn, cNonceExpiresAt := w1.now + nonceDur } := by
      refine ⟨⟨by rw [g3]; exact upd_same .., rfl⟩, ?_, ?_, hl1.subject⟩
      · show w2.now < (w1.now + accessDur) + sec
        rw [g4]; omega
      · show w2.now < (w1.now + nonceDur) + sec
        rw [g4]; omega
    have hserved : Served P w2 { req with proof := some (.single jwt) } subj iss cfg ds := by
      refine ⟨hiss, _, _, auth, hl2, (hpk.congr hc1).congr rfl, hcfg, fun types ht => ⟨hjwt types ht, by simp, fun j hj => ?_⟩, hds⟩
      have : j ∈ [jwt] := (CredentialRequest.hasProof_iff (req := { req with proof := some (.single jwt) }) rfl j).1 hj
      simp only [List.mem_singleton] at this
      exact ⟨did, this ▸ hv⟩
    have hnt2 : ∀ s' t', Session w2 req.accessToken s' t' → Dict.Nodup t'.credentials := by
      rintro s' t' ⟨k1, k2⟩
      rw [hl2.session.1] at k1; cases k1
      rw [hl2.session.2] at k2; cases k2
      show Dict.Nodup t1.credentials
      exact hc1 ▸ hnt
    cases hpend : ds.pending with
    | true =>
      obtain ⟨resp, _, w', hr, _⟩ := (C181_deferred_iff (req := { req with proof := some (.single jwt) }) hw2 hn hnt2).2 ⟨subj, iss, cfg, ds, hserved, hpend⟩
      exact ⟨resp, w', hr⟩
    | false =>
      obtain ⟨resp, _, w', hr, _⟩ := (C181_credential_given_iff (req := { req with proof := some (.single jwt) }) hw2 hsign hn hnt2).2 ⟨subj, iss, cfg, ds, hserved, hpend, hcan hpend⟩
      exact ⟨resp, w', hr⟩

/-- **C198 is false** of the token endpoint: a call that is broken off between the removal of the code and the saving of the token leaves neither. No session has come of
it, and every token request with that code is refused, in every history after it. -/
theorem C198_code_lost {e : Env} (he : Env.Fresh e) {w : World State} (hw : Reachable e w) {P : Provider} {req : TokenRequest} {s : State}
    (hs : w.store req.grantType.code = some s) (hg : s.isGrant) (hf : e.fault w.ops = .ok ∧ e.fault (w.ops + 1) = .ok) :
    (∀ k s' t', Session ((token P req).cut e 2 w) k s' t' → Session w k s' t') ∧
    ∀ (between : List Step) (later : Step) (req' : TokenRequest), later.req = .token req' → req'.grantType.code = req.grantType.code →
      Refused (step e (exec e ((token P req).cut e 2 w) between) later).1 := by
  have hcut : (token P req).cut e 2 w = { w with store := upd w.store req.grantType.code none, ops := w.ops + 2 } := by
    simp only [token, Bind.bind, getE, Prog.bind, Prog.cut, hf.1, hs, getRes, purgeE, hf.2, writeRes]
  have hsep := hw.sep he
  rw [hcut]
  have hold : ∀ k v, upd w.store req.grantType.code none k = some v → w.store k = some v := by
    intro k v hv
    by_cases hk : k = req.grantType.code
    · subst hk; rw [upd_same] at hv; cases hv
    · rwa [upd_other _ _ hk] at hv
  refine ⟨fun k s' t' h => ⟨hold _ _ h.1, h.2⟩, fun between later req' h1 h2 => ?_⟩
  have hsp : Spent e req.grantType.code { w with store := upd w.store req.grantType.code none, ops := w.ops + 2 } :=
    ⟨upd_same .., fun k v t hv ht => hsep.sep _ s k v t hs hg (hold _ _ hv) ht, hsep.key _ _ hs⟩
  refine token_refused_of_gone h1 ?_
  rw [h2]
  exact (hsp.exec he between).gone

/-- **C198 is false** of the deferred endpoint: a call that is broken off after the removal of the transaction leaves nothing to ask again with. The wallet has to start
with a new credential request. -/
theorem C198_transaction_lost {e : Env} (he : Env.Fresh e) {w : World State} (hw : Reachable e w) {P : Provider} {req : DeferredRequest} {st : State} {txn : String}
    {saved : CredentialRequest} (hs : w.store req.transactionId = some st) (hstage : st.stage = .deferred txn saved) (hlive : Live st w.now)
    (hf : e.fault w.ops = .ok ∧ e.fault (w.ops + 1) = .ok) :
    ∀ (between : List Step) (later : Step) (req' : DeferredRequest), later.req = .deferred req' → req'.transactionId = req.transactionId →
      Refused (step e (exec e ((deferred P req).cut e 3 w) between) later).1 := by
  have hx : st.isExpired w.now = false := (isExpired_false_iff _ _).2 hlive
  have hd : deferredRequest st = .ok saved := by unfold deferredRequest; rw [hstage]
  have hcut : (deferred P req).cut e 3 w = { w with store := upd w.store req.transactionId none, ops := w.ops + 2 } := by
    simp only [deferred, Bind.bind, getE, Prog.bind, Prog.cut, hf.1, hs, getRes, purgeE, hf.2, writeRes, nowE, lift, hx, require, Bool.not_false, if_true, hd]
  have hfz := hw.frozen he hs (by rintro ⟨t, ht⟩; rw [hstage] at ht; cases ht)
  rw [hcut]
  intro between later req' h1 h2
  have hsp : Spent e req.transactionId { w with store := upd w.store req.transactionId none, ops := w.ops + 2 } := by
    refine ⟨upd_same .., fun k v t hv ht => ?_, hfz.known⟩
    by_cases hk : k = req.transactionId
    · subst hk; simp only [upd_same] at hv; cases hv
    · simp only [upd_other _ _ hk] at hv
      exact hfz.notTok k v t hv ht
  refine spent_deferred_refused h1 ?_
  rw [h2]
  exact hsp.exec he between

namespace Demo

-- the session of the demonstration: broken off before the nonce is renewed the request is served again; broken off after it, the old proof is refused
example : (∃ r, ((credential provider (credReq (rng 2) (rng 3))).run env ((credential provider (credReq (rng 2) (rng 3))).cut env 6 validated)).1 = .ok r) ∧
    ((credential provider (credReq (rng 2) (rng 3))).run env ((credential provider (credReq (rng 2) (rng 3))).cut env 9 validated)).1 =
      .error (.invalidProof "Proof JWT nonce claim is invalid" (rng 6) 600) ∧
    ∃ r, ((credential provider (credReq (rng 2) (rng 6))).run env
      ((credential provider (credReq (rng 2) (rng 3))).run env ((credential provider (credReq (rng 2) (rng 3))).cut env 9 validated)).2).1 = .ok r :=
  ⟨⟨_, rfl⟩, rfl, _, rfl⟩

-- the hypotheses of the part that holds, for this session and every point of the call
example (n : Nat) : True := by
  have := C198_credential_repeatable_partial (P := provider) (e := env) (fun _ _ => rfl) nodup (served false)
    (fun _ => ⟨⟨_, rfl⟩, .inr ⟨_, _, _, _, _, rfl, rfl, by decide, rfl⟩⟩) (fun s t hs => ⟨by
      have h1 : validated.store (rng 2) = some s := hs.1
      rw [session] at h1; cases h1
      have h2 := hs.2; cases h2; rfl, session_nodup s t hs⟩) (fun i hi h => by
      have h : i = 2 := env_fresh.inj i 2 h
      have hd : validated.drawn = 4 := rfl
      omega) n (working _)
  trivial

-- the hypotheses of the general claims: a grant and a transaction that are there, in reachable worlds
example : (∃ s, offered.store (rng 0) = some s ∧ s.isGrant) ∧
    (∃ st, Demo.deferred.store (rng 4) = some st ∧ st.stage = .deferred (rng 4) (credReq (rng 2) (rng 3)) ∧ Live st Demo.deferred.now) ∧ Env.Fresh env ∧ ∀ n, env.fault n = .ok :=
  ⟨⟨_, rfl, .inl ⟨_, rfl⟩⟩, ⟨_, rfl, rfl, show (_ : Int) < _ by decide⟩, env_fresh, fun _ => rfl⟩

end Demo
end Verif.Issuer
