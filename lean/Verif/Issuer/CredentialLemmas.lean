import Verif.Issuer.AuthorizeLemmas
import Verif.Issuer.StepLemmas
/-!
# Inversion of `credential` and `deferred`
-/
namespace Verif.Issuer
open Prog

theorem Credential.invalidProof_ne_ok {α : Type} {s : State} {hint : String} {e : Env} {w w' : World State} {a : α} :
    (Credential.invalidProof s hint : IProg α).run e w ≠ (.ok a, w') := by
  intro h
  simp only [Credential.invalidProof, run_bind_ok, run_drawE_ok, run_nowE_ok] at h
  obtain ⟨_, _, ⟨rfl, rfl⟩, _, _, ⟨rfl, rfl⟩, h⟩ := h
  split at h
  · simp only [run_bind_ok, run_lift_ok] at h
    obtain ⟨_, _, _, _, _, _, h, _⟩ := h
    cases h
  · simp only [run_lift_ok] at h
    cases h.1

/-- Exactly when verification of a credential request succeeds; it changes nothing. -/
theorem Credential.verify_ok_iff {P : Provider} {ctx : Credential.Ctx} {req : CredentialRequest} {e : Env}
    {w w' : World State} {did : String} :
    (Credential.verify P ctx req).run e w = (.ok did, w') ↔
      w' = w ∧ ∃ t, ctx.state.stage = .validated t ∧ Live ctx.state w.now ∧ w.now < t.cNonceExpiresAt + sec ∧
        ProofChecked P ctx.config t req did := by
  have hn : ∀ t : Token, t.cNonceExpired w.now = false ↔ w.now < t.cNonceExpiresAt + sec := by
    intro t
    have := cNonceExpired_iff t w.now
    cases h : t.cNonceExpired w.now <;> simp_all <;> omega
  simp only [Credential.verify, run_bind_ok, run_nowE_ok, run_lift_ok, require_ok, Bool.not_eq_true', isExpired_false_iff]
  constructor
  · rintro ⟨_, _, ⟨rfl, rfl⟩, _, _, ⟨h1, rfl⟩, h⟩
    split at h
    · rename_i t ht
      simp only [run_bind_ok, run_nowE_ok, run_lift_ok, require_ok, Bool.not_eq_true'] at h
      obtain ⟨_, _, ⟨rfl, rfl⟩, _, _, ⟨h2, rfl⟩, h⟩ := h
      rw [hn] at h2
      split at h
      · rename_i hp
        obtain ⟨rfl, rfl⟩ := run_pure_ok.1 h
        exact ⟨rfl, t, ht, h1, h2, by simp [ProofChecked, hp]⟩
      · rename_i types hp
        split at h
        · exact absurd h Credential.invalidProof_ne_ok
        · rename_i proof hpr
          simp only [run_bind_ok, run_lift_ok, require_ok] at h
          obtain ⟨_, _, ⟨h3, rfl⟩, h⟩ := h
          split at h
          · exact absurd h Credential.invalidProof_ne_ok
          · rename_i did' hd
            obtain ⟨rfl, rfl⟩ := run_pure_ok.1 h
            refine ⟨rfl, t, ht, h1, h2, ?_⟩
            simp only [ProofChecked, hp]
            exact ⟨h3, proof, hpr, hd⟩
    · simp only [run_lift_ok] at h
      cases h.1
  · rintro ⟨rfl, t, ht, h1, h2, h3⟩
    refine ⟨_, _, ⟨rfl, rfl⟩, (), _, ⟨h1, rfl⟩, ?_⟩
    rw [ht]
    simp only [run_bind_ok, run_nowE_ok, run_lift_ok, require_ok, Bool.not_eq_true']
    refine ⟨_, _, ⟨rfl, rfl⟩, (), _, ⟨(hn t).2 h2, rfl⟩, ?_⟩
    unfold ProofChecked at h3
    split at h3
    · rename_i hp
      simp only [hp]
      exact run_pure_ok.2 ⟨h3.symm, rfl⟩
    · rename_i types hp
      obtain ⟨h4, proof, h5, h6⟩ := h3
      simp only [hp, h5, run_bind_ok, run_lift_ok, require_ok, h6]
      exact ⟨(), _, ⟨h4, rfl⟩, run_pure_ok.2 ⟨rfl, rfl⟩⟩

/-- The state written for the transaction of a deferred credential. -/
def Credential.deferredState (txn : String) (req : CredentialRequest) (now : Int) : State :=
  { subjectId := none, stage := .deferred txn req, expiresAt := now + accessDur }

/-- The response of an issuance. -/
def Credential.issuedResponse (c : IssuedCredential) (nonce nid : String) (now : Int) : CredentialResponse :=
  { response := .credential c, cNonce := some nonce, cNonceExpiresIn := some (numSeconds (now + nonceDur - now)),
    notificationId := some nid }

/-- Exactly when the credential endpoint succeeds, and with what. -/
theorem credential_ok_iff {P : Provider} {req : CredentialRequest} {e : Env} {w w' : World State}
    {resp : CredentialResponse} :
    (credential P req).run e w = (.ok resp, w') ↔
      ∃ s ctx t did ds, e.fault w.ops = .ok ∧ w.store req.accessToken = some s ∧
        Credential.context P s req = .ok ctx ∧ s.stage = .validated t ∧ Live s w.now ∧
        w.now < t.cNonceExpiresAt + sec ∧ ProofChecked P ctx.config t req did ∧ Credential.dataset P ctx req = .ok ds ∧
        ((ds.pending = true ∧ e.fault (w.ops + 1) = .ok ∧ resp = { response := .transactionId (e.rng w.drawn) } ∧
            w' = { w with store := upd w.store (e.rng w.drawn) (some (Credential.deferredState (e.rng w.drawn) req w.now)),
                          drawn := w.drawn + 1, ops := w.ops + 2 }) ∨
         (ds.pending = false ∧ ∃ c, Credential.signed P ctx did req ds w.now = .ok c ∧ e.fault (w.ops + 1) = .ok ∧
            e.fault (w.ops + 2) = .ok ∧
            resp = Credential.issuedResponse c (e.rng w.drawn) (e.rng (w.drawn + 1)) w.now ∧
            w' = { w with
              store := upd (upd w.store t.accessToken
                (some (renewed s t (e.rng w.drawn) (w.now + accessDur) (w.now + nonceDur)))) (e.rng (w.drawn + 1))
                (some (renewed s t (e.rng w.drawn) (w.now + accessDur) (w.now + nonceDur)))
              drawn := w.drawn + 2, ops := w.ops + 3 })) := by
  simp only [credential, Credential.process, run_bind_ok, run_getE_ok, run_lift_ok, Credential.verify_ok_iff]
  constructor
  · rintro ⟨s, _, ⟨h1, h2, rfl⟩, ctx, _, ⟨h3, rfl⟩, did, _, ⟨rfl, t, h4, h5, h6, h7⟩, ds, _, ⟨h8, rfl⟩, h⟩
    have hst : ctx.state = s := (Credential.context_ok.1 h3).1
    rw [hst] at h4 h5
    refine ⟨s, ctx, t, did, ds, h1, h2, h3, h4, h5, h6, h7, h8, ?_⟩
    split at h
    · rename_i hp
      left
      simp only [Credential.deferResponse, run_bind_ok, run_drawE_ok, run_nowE_ok, run_putE_ok, run_pure_ok] at h
      obtain ⟨_, _, ⟨rfl, rfl⟩, _, _, ⟨rfl, rfl⟩, _, _, ⟨h9, rfl⟩, rfl, rfl⟩ := h
      exact ⟨hp, h9, rfl, rfl⟩
    · rename_i hp
      right
      simp only [Credential.issueResponse, run_bind_ok, run_nowE_ok, run_lift_ok] at h
      obtain ⟨_, _, ⟨rfl, rfl⟩, c, _, ⟨h9, rfl⟩, _, _, ⟨rfl, rfl⟩, h⟩ := h
      rw [hst, h4] at h
      simp only [run_bind_ok, run_drawE_ok, run_nowE_ok, run_putE_ok, run_pure_ok] at h
      obtain ⟨_, _, ⟨rfl, rfl⟩, _, _, ⟨rfl, rfl⟩, _, _, ⟨h10, rfl⟩, _, _, ⟨rfl, rfl⟩, _, _, ⟨h11, rfl⟩, _, _, ⟨rfl, rfl⟩, rfl, rfl⟩ := h
      exact ⟨by simpa using hp, c, h9, h10, h11, rfl, rfl⟩
  · rintro ⟨s, ctx, t, did, ds, h1, h2, h3, h4, h5, h6, h7, h8, h⟩
    have hst : ctx.state = s := (Credential.context_ok.1 h3).1
    refine ⟨s, _, ⟨h1, h2, rfl⟩, ctx, _, ⟨h3, rfl⟩, did, _, ⟨rfl, t, by rw [hst]; exact h4, by rw [hst]; exact h5, h6, h7⟩,
      ds, _, ⟨h8, rfl⟩, ?_⟩
    rcases h with ⟨hp, h9, rfl, rfl⟩ | ⟨hp, c, h9, h10, h11, rfl, rfl⟩
    · rw [if_pos hp]
      simp only [Credential.deferResponse, run_bind_ok, run_drawE_ok, run_nowE_ok, run_putE_ok, run_pure_ok]
      exact ⟨_, _, ⟨rfl, rfl⟩, _, _, ⟨rfl, rfl⟩, (), _, ⟨h9, rfl⟩, rfl, rfl⟩
    · rw [if_neg (by simp [hp])]
      simp only [Credential.issueResponse, run_bind_ok, run_nowE_ok, run_lift_ok]
      refine ⟨_, _, ⟨rfl, rfl⟩, c, _, ⟨h9, rfl⟩, _, _, ⟨rfl, rfl⟩, ?_⟩
      rw [hst, h4]
      simp only [run_bind_ok, run_drawE_ok, run_nowE_ok, run_putE_ok, run_pure_ok]
      exact ⟨_, _, ⟨rfl, rfl⟩, _, _, ⟨rfl, rfl⟩, (), _, ⟨h10, rfl⟩, _, _, ⟨rfl, rfl⟩, (), _, ⟨h11, rfl⟩, _, _, ⟨rfl, rfl⟩, rfl, rfl⟩

/-- The world after a rejected proof. -/
def Credential.rejected (e : Env) (w : World State) (s : State) (t : Token) : World State :=
  { w with
    store := upd w.store t.accessToken
      (some (renewed s t (e.rng w.drawn) (w.now + accessDur) (w.now + nonceDur)))
    drawn := w.drawn + 1, ops := w.ops + 1 }

/-- An `invalid_proof` error comes with a new nonce, stored for the access token. -/
theorem Credential.invalidProof_err {α : Type} {s : State} {hint : String} {e : Env} {w w' : World State} {hint' n : String}
    {exp : Int} (h : (Credential.invalidProof s hint : IProg α).run e w = (.error (.invalidProof hint' n exp), w')) :
    ∃ t, s.stage = .validated t ∧ hint' = hint ∧ n = e.rng w.drawn ∧ exp = numSeconds nonceDur ∧ e.fault w.ops = .ok ∧
      w' = Credential.rejected e w s t := by
  simp only [Credential.invalidProof, run_bind_err, run_drawE_ok, run_drawE_err, run_nowE_ok, run_nowE_err, false_or] at h
  obtain ⟨_, _, ⟨rfl, rfl⟩, _, _, ⟨rfl, rfl⟩, h⟩ := h
  split at h
  · rename_i t ht
    simp only [run_bind_err, run_nowE_ok, run_nowE_err, false_or, run_putE_err, run_putE_ok, run_lift_err] at h
    obtain ⟨_, _, ⟨rfl, rfl⟩, h⟩ := h
    rcases h with ⟨h, _⟩ | ⟨_, _, ⟨h1, rfl⟩, h2, rfl⟩
    · cases h
    · cases h2
      exact ⟨t, ht, rfl, rfl, rfl, h1, rfl⟩
  · simp only [run_lift_err] at h
    cases h.1

theorem Credential.verify_invalidProof {P : Provider} {ctx : Credential.Ctx} {req : CredentialRequest} {e : Env}
    {w w' : World State} {hint n : String} {exp : Int}
    (h : (Credential.verify P ctx req).run e w = (.error (.invalidProof hint n exp), w')) :
    ∃ t, ctx.state.stage = .validated t ∧ Live ctx.state w.now ∧ w.now < t.cNonceExpiresAt + sec ∧
      ctx.config.proofTypes.isSome ∧
      n = e.rng w.drawn ∧ exp = numSeconds nonceDur ∧ e.fault w.ops = .ok ∧
      w' = Credential.rejected e w ctx.state t := by
  have hn : ∀ t : Token, t.cNonceExpired w.now = false ↔ w.now < t.cNonceExpiresAt + sec := by
    intro t
    have := cNonceExpired_iff t w.now
    cases h : t.cNonceExpired w.now <;> simp_all <;> omega
  simp only [Credential.verify, run_bind_err, run_nowE_ok, run_nowE_err, run_lift_ok, run_lift_err, require_ok, require_err,
    Bool.not_eq_true', isExpired_false_iff, false_or] at h
  obtain ⟨_, w1, ⟨rfl, hw1⟩, h⟩ := h
  subst w
  rcases h with ⟨⟨_, h⟩, _⟩ | ⟨_, w2, ⟨h1, hw2⟩, h⟩
  · cases h
  subst w2
  split at h
  · rename_i t ht
    simp only [run_bind_err, run_nowE_ok, run_nowE_err, false_or, run_lift_ok, run_lift_err, require_ok, require_err, Bool.not_eq_true'] at h
    obtain ⟨_, w2, ⟨rfl, hw2⟩, h⟩ := h
    subst w2
    simp only [hn] at h
    rcases h with ⟨⟨_, h⟩, _⟩ | ⟨_, w2, ⟨h2, hw2⟩, h⟩
    · cases h
    subst w2
    have fin : ∀ {hint'}, (Credential.invalidProof ctx.state hint' : IProg String).run e w1 =
        (.error (.invalidProof hint n exp), w') → n = e.rng w1.drawn ∧ exp = numSeconds nonceDur ∧ e.fault w1.ops = .ok ∧
          w' = Credential.rejected e w1 ctx.state t := by
      intro hint' h
      obtain ⟨t', ht', _, h3, h4, h5, h6⟩ := Credential.invalidProof_err h
      rw [ht] at ht'; cases ht'
      exact ⟨h3, h4, h5, h6⟩
    split at h
    · simp only [run_pure_err] at h
    · rename_i types hp
      split at h
      · obtain ⟨h3, h4, h5, h6⟩ := fin h
        exact ⟨t, ht, h1, h2, by simp [hp], h3, h4, h5, h6⟩
      · simp only [run_bind_err, run_lift_ok, run_lift_err, require_ok, require_err] at h
        rcases h with ⟨⟨_, h⟩, _⟩ | ⟨_, w2, ⟨_, hw2⟩, h⟩
        · cases h
        subst w2
        split at h
        · obtain ⟨h3, h4, h5, h6⟩ := fin h
          exact ⟨t, ht, h1, h2, by simp [hp], h3, h4, h5, h6⟩
        · simp only [run_pure_err] at h
  · simp only [run_lift_err] at h
    cases h.1

theorem Credential.context_err {P : Provider} {s : State} {req : CredentialRequest} {hint n : String} {exp : Int} :
    Credential.context P s req ≠ .error (.invalidProof hint n exp) := by
  intro h
  simp only [Credential.context, Except.bind_err, orErr_err, orErr_ok, pure, Except.pure, reduceCtorEq, and_false, false_or,
    or_false, exists_false] at h
  obtain ⟨iss, _, h⟩ := h
  unfold Credential.authorized at h
  split at h
  · split at h
    · simp at h
    · simp [Except.bind_err] at h
  · cases h

theorem Credential.dataset_err {P : Provider} {ctx : Credential.Ctx} {req : CredentialRequest} {hint n : String} {exp : Int} :
    Credential.dataset P ctx req ≠ .error (.invalidProof hint n exp) := by
  intro h
  simp [Credential.dataset, Except.bind_err, pure, Except.pure] at h

theorem Credential.signed_err {P : Provider} {ctx : Credential.Ctx} {did : String} {req : CredentialRequest} {ds : Dataset}
    {now : Int} {hint n : String} {exp : Int} :
    Credential.signed P ctx did req ds now ≠ .error (.invalidProof hint n exp) := by
  have hw : ∀ d, Credential.w3cVc P ctx did d ds ≠ .error (.invalidProof hint n exp) := by
    intro d h
    simp only [Credential.w3cVc, Except.bind_err, orErr_err, orErr_ok, reduceCtorEq, and_false, false_or] at h
    obtain ⟨_, _, _, _, _, _, _, _, h⟩ := h
    split at h <;> cases h
  intro h
  simp only [Credential.signed, Except.bind_err, orErr_err, reduceCtorEq, and_false, false_or] at h
  obtain ⟨k, _, h⟩ := h
  split at h
  · rename_i d _
    simp only [Except.bind_err, hw d, false_or, require_err, reduceCtorEq, and_false, pure, Except.pure, exists_false] at h
  · simp only [Except.bind_err, require_err, reduceCtorEq, and_false, false_or, pure, Except.pure, exists_false] at h
  · cases h
  · cases h
  · cases h

/-- Everything an `invalid_proof` error of the credential endpoint establishes. -/
theorem credential_invalidProof {P : Provider} {req : CredentialRequest} {e : Env} {w w' : World State} {hint n : String}
    {exp : Int} (h : (credential P req).run e w = (.error (.invalidProof hint n exp), w')) :
    ∃ s ctx t, e.fault w.ops = .ok ∧ w.store req.accessToken = some s ∧ Credential.context P s req = .ok ctx ∧
      s.stage = .validated t ∧ Live s w.now ∧ w.now < t.cNonceExpiresAt + sec ∧ ctx.config.proofTypes.isSome ∧
      n = e.rng w.drawn ∧ exp = numSeconds nonceDur ∧
      w'.store = upd w.store t.accessToken
        (some (renewed s t (e.rng w.drawn) (w.now + accessDur) (w.now + nonceDur))) ∧
      w'.now = w.now ∧ w'.drawn = w.drawn + 1 ∧ w'.ops = w.ops + 2 := by
  simp only [credential, run_bind_err, run_getE_err, run_getE_ok, run_lift_err, run_lift_ok, reduceCtorEq, false_and,
    Credential.context_err, false_or, Credential.verify_ok_iff] at h
  obtain ⟨s, w1, ⟨h1, h2, rfl⟩, ctx, w2, ⟨h3, rfl⟩, h⟩ := h
  have hst : ctx.state = s := (Credential.context_ok.1 h3).1
  rcases h with h | ⟨did, w3, ⟨rfl, _⟩, h⟩
  · obtain ⟨t, h4, h5, h6, h7, h8, h9, h10, rfl⟩ := Credential.verify_invalidProof h
    rw [hst] at h4 h5
    refine ⟨s, ctx, t, h1, h2, h3, h4, h5, h6, h7, h8, h9, ?_, rfl, rfl, rfl⟩
    rw [hst]
    rfl
  · exfalso
    simp only [Credential.process, run_bind_err, run_lift_err, run_lift_ok, Credential.dataset_err, false_and, false_or] at h
    obtain ⟨ds, w4, ⟨_, rfl⟩, h⟩ := h
    split at h
    · simp only [Credential.deferResponse, run_bind_err, run_drawE_ok, run_drawE_err, run_nowE_ok, run_nowE_err, run_putE_ok,
        run_putE_err, run_pure_err, reduceCtorEq, false_and, false_or, and_false, exists_false] at h
    · simp only [Credential.issueResponse, run_bind_err, run_nowE_ok, run_nowE_err, run_lift_err, run_lift_ok,
        Credential.signed_err, false_and, false_or] at h
      obtain ⟨_, _, _, _, _, _, _, _, _, h⟩ := h
      split at h
      · simp only [run_bind_err, run_drawE_ok, run_drawE_err, run_nowE_err, run_putE_ok,
          run_putE_err, run_pure_err, reduceCtorEq, false_and, false_or, and_false, exists_false] at h
      · simp only [run_lift_err, reduceCtorEq, Except.error.injEq, false_and] at h

/-- Exactly when `deferred` succeeds: the saved request succeeds under the caller's token, once the transaction is gone. -/
theorem deferred_ok_iff {P : Provider} {req : DeferredRequest} {e : Env} {w w' : World State} {resp : CredentialResponse} :
    (deferred P req).run e w = (.ok resp, w') ↔
      ∃ st txn saved, e.fault w.ops = .ok ∧ e.fault (w.ops + 1) = .ok ∧ w.store req.transactionId = some st ∧
        Live st w.now ∧ st.stage = .deferred txn saved ∧
        (credential P { saved with credentialIssuer := req.credentialIssuer, accessToken := req.accessToken }).run e
          { w with store := upd w.store req.transactionId none, ops := w.ops + 2 } = (.ok resp, w') ∧
        ∃ c, resp.response = .credential c := by
  have hd : ∀ st r, deferredRequest st = .ok r ↔ ∃ txn, st.stage = .deferred txn r := by
    intro st r; unfold deferredRequest; split <;> simp_all
  simp only [deferred, run_bind_ok, run_getE_ok, run_nowE_ok, run_lift_ok, run_purgeE_ok, require_ok, Bool.not_eq_true',
    isExpired_false_iff, hd]
  constructor
  · rintro ⟨st, _, ⟨h1, h2, rfl⟩, _, _, ⟨rfl, rfl⟩, _, _, ⟨h3, rfl⟩, saved, _, ⟨⟨txn, h4⟩, rfl⟩, _, _, ⟨h5, rfl⟩, r, w2, h6, h7⟩
    split at h7
    · simp only [run_lift_ok, reduceCtorEq, false_and] at h7
    · rename_i c hc
      obtain ⟨rfl, rfl⟩ := run_pure_ok.1 h7
      exact ⟨st, txn, saved, h1, h5, h2, h3, h4, h6, c, hc⟩
  · rintro ⟨st, txn, saved, h1, h5, h2, h3, h4, h6, c, hc⟩
    refine ⟨st, _, ⟨h1, h2, rfl⟩, _, _, ⟨rfl, rfl⟩, (), _, ⟨h3, rfl⟩, saved, _, ⟨⟨txn, h4⟩, rfl⟩, (), _, ⟨h5, rfl⟩, resp, w', h6, ?_⟩
    rw [hc]
    exact run_pure_ok.2 ⟨rfl, rfl⟩

end Verif.Issuer
