import Verif.Holder.EndProps
/-!
# Which nonce a flow holds
-/
namespace Verif.Holder
open Verif HProg

/-! ### Specification -/

/-- The nonce after one more answer: a token response starts afresh, a credential response may bring a new one. -/
def nonceBy (x : Option String) : Event → Option String
  | ⟨.token _, some (t : Issuer.TokenResponse)⟩ => t.cNonce
  | ⟨.credential _, some (r : CredentialResponse)⟩ => r.cNonce.or x
  | _ => x

/-- The nonce of a flow after one more entry: what its successful token, authorization and credential calls brought. -/
def nonceAfter (k : String) (x : Option String) (en : Entry) : Option String :=
  match en.req, en.result with
  | .token id, .ok _ => if id = k then en.events.foldl nonceBy x else x
  | .authorize _, .ok (.authorized id _) => if id = k then en.events.foldl nonceBy x else x
  | .credentials r, .ok _ => if r.issuanceId = k then en.events.foldl nonceBy x else x
  | _, _ => x

/-- The latest nonce received by the successful token, authorization and credential calls of a flow. -/
def latest (k : String) (log : List Entry) : Option String := log.foldl (nonceAfter k) none

/-! ### What the endpoints do with nonces -/

theorem latest_snoc (k : String) (l : List Entry) (en : Entry) : latest k (l ++ [en]) = nonceAfter k (latest k l) en := by simp [latest]

theorem nonceAfter_error {k : String} {x : Option String} {en : Entry} {y : HErr} (h : en.result = .error y) : nonceAfter k x en = x := by
  unfold nonceAfter; rw [h]; split <;> simp_all

theorem OnlyLogos.nonce {l : List Event} (h : OnlyLogos l) (x : Option String) : l.foldl nonceBy x = x := by
  induction l generalizing x with
  | nil => rfl
  | cons ev l ih =>
    have h1 : nonceBy x ev = x := by
      obtain ⟨u, hu⟩ := h ev (.head _)
      cases ev with
      | mk c o => cases hu; rfl
    rw [List.foldl_cons, h1]
    exact ih (fun e he => h e (.tail _ he)) x

theorem Preamble.nonce {l : List Event} (h : Preamble l) (x : Option String) : l.foldl nonceBy x = x := by
  induction l generalizing x with
  | nil => rfl
  | cons ev l ih =>
    have h1 : nonceBy x ev = x := by
      cases ev with
      | mk c o => rcases h ⟨c, o⟩ (.head _) with ⟨u, hu⟩ | ⟨u, hu⟩ <;> cases hu <;> rfl
    rw [List.foldl_cons, h1]
    exact ih (fun e he => h e (.tail _ he)) x

section
variable {e : HEnv} {w w' : HWorld} {P : Provider}

theorem byIdentifiers_nonce {jwt cfg : String} {config : CredentialConfiguration} {wanted : Option (List String)} {ids : List String}
    {i j : Issuance} (h : (byIdentifiers P jwt cfg config wanted ids i).run e w = (.ok j, w')) :
    ∃ evs, w'.recent = w.recent ++ evs ∧ j.token.cNonce = evs.foldl nonceBy i.token.cNonce := by
  induction ids generalizing i w with
  | nil =>
    obtain ⟨h1, rfl⟩ := pure_inv h
    cases h1
    exact ⟨[], by simp, rfl⟩
  | cons id ids ih =>
    unfold byIdentifiers at h
    by_cases hw : wants wanted id = true
    · rw [if_pos hw] at h
      rcases bind_inv h with ⟨x, _, hx⟩ | ⟨resp, w1, h1, h2⟩
      · cases hx
      obtain ⟨o, hE, _, ho⟩ := callE_inv h1
      rcases ho with ⟨_, hx⟩ | ⟨a, rfl, hx⟩ <;> cases hx
      rcases bind_inv h2 with ⟨x, _, hx⟩ | ⟨out, w2, h3, h4⟩
      · cases hx
      obtain ⟨evs, hE2, hl, _⟩ := process_inv h3
      obtain ⟨evs3, hr3, hn3⟩ := ih h4
      refine ⟨⟨.credential (identifierRequest i jwt id), some resp⟩ :: evs ++ evs3, ?_, ?_⟩
      · rw [hr3, hE2.recent, hE.recent]; simp
      · rw [hn3, List.foldl_append, List.foldl_cons, hl.nonce]
        rfl
    · rw [if_neg hw] at h
      exact ih h

theorem byDetails_nonce {jwt : String} {wanted : Option (List String)} {l : List Issuer.AuthorizedDetail}
    {i j : Issuance} (h : (byDetails P jwt wanted l i).run e w = (.ok j, w')) :
    ∃ evs, w'.recent = w.recent ++ evs ∧ j.token.cNonce = evs.foldl nonceBy i.token.cNonce := by
  induction l generalizing i w with
  | nil =>
    obtain ⟨h1, rfl⟩ := pure_inv h
    cases h1
    exact ⟨[], by simp, rfl⟩
  | cons d l ih =>
    unfold byDetails at h
    rcases bind_inv h with ⟨x, _, hx⟩ | ⟨cfg, w1, h1, h2⟩
    · cases hx
    obtain ⟨_, rfl⟩ := lift_inv h1
    rcases bind_inv h2 with ⟨x, _, hx⟩ | ⟨config, w2, h4, h5⟩
    · cases hx
    obtain ⟨_, rfl⟩ := lift_inv h4
    rcases bind_inv h5 with ⟨x, _, hx⟩ | ⟨i1, w3, h7, h8⟩
    · cases hx
    obtain ⟨evs, hr, hn⟩ := byIdentifiers_nonce h7
    obtain ⟨evs2, hr2, hn2⟩ := ih h8
    exact ⟨evs ++ evs2, by rw [hr2, hr]; simp, by rw [hn2, hn, List.foldl_append]⟩

theorem fetch_nonce {i j : Issuance} {req : CredentialsRequest} {jwt : String} (h : (fetch P i req jwt).run e w = (.ok j, w')) :
    (i.scope = none → ∃ evs, w'.recent = w.recent ++ evs ∧ j.token.cNonce = evs.foldl nonceBy i.token.cNonce) ∧
      (i.scope ≠ none → j.token = i.token) := by
  unfold fetch at h
  split at h
  · rename_i hs
    refine ⟨fun hn => by rw [hn] at hs; simp at hs, fun _ => ?_⟩
    unfold byFormat at h
    rcases bind_inv h with ⟨x, _, hx⟩ | ⟨_, w1, h1, h2⟩
    · cases hx
    rcases bind_inv h2 with ⟨x, _, hx⟩ | ⟨_, w1, _, h2⟩
    · cases hx
    rcases bind_inv h2 with ⟨x, _, hx⟩ | ⟨_, w1, _, h2⟩
    · cases hx
    rcases bind_inv h2 with ⟨x, _, hx⟩ | ⟨_, w1, _, h2⟩
    · cases hx
    rcases bind_inv h2 with ⟨x, _, hx⟩ | ⟨_, w1, _, h2⟩
    · cases hx
    obtain ⟨h3, _⟩ := pure_inv h2
    cases h3
    rfl
  · rename_i hs
    refine ⟨fun _ => ?_, fun hn => absurd (Option.isSome_iff_ne_none.2 hn) hs⟩
    unfold byIdentifier at h
    rcases bind_inv h with ⟨x, _, hx⟩ | ⟨l, w1, h1, h2⟩
    · cases hx
    obtain ⟨_, rfl⟩ := lift_inv h1
    exact byDetails_nonce h2

/-- What a flow holds after a credentials call that stored it. -/
structure Asked (evs : List Event) (i j : Issuance) : Prop where
  id : j.id = i.id
  status : j.status = i.status
  scope : j.scope = i.scope
  token : j.token.accessToken = i.token.accessToken
  renewed : i.scope = none → j.token.cNonce = evs.foldl nonceBy i.token.cNonce
  kept : i.scope ≠ none → j.token.cNonce = i.token.cNonce

theorem credentials_nonce {req : CredentialsRequest} {r : HRes Resp} (h : (credentials P req).run e w = (r, w')) :
    ∃ evs ws, Eff e w w' evs ws ∧
      (Fails r ∧ evs = [] ∧ ws = [] ∨
       ∃ i jwt, w.store req.issuanceId = some (.issuance i) ∧ i.status = .tokenReceived ∧ P.signProof (proofClaims i w.now) = some jwt ∧
        OnlyRequests i jwt evs ∧
        (Fails r ∧ ws = [] ∨ ∃ j, Asked evs i j ∧ Ends e (j.id, some (.issuance j)) (.credentials j.id j.outstanding) r ws)) := by
  unfold credentials at h
  rcases getI_step h with ⟨hf, hE, hd⟩ | ⟨i, w1, hi, hE, hd, h⟩
  · exact ⟨_, _, hE, .inl ⟨hf, rfl, rfl⟩⟩
  rcases check_step h with ⟨hf, rfl⟩ | ⟨hs, h⟩
  · exact ⟨_, _, hE, .inl ⟨hf, rfl, rfl⟩⟩
  have hs' : i.status = .tokenReceived := by simpa using hs
  have h := now_step h
  rcases need_step h with ⟨hf, rfl⟩ | ⟨jwt, hj, h⟩
  · exact ⟨_, _, hE, .inl ⟨hf, rfl, rfl⟩⟩
  rw [hE.now] at hj
  rcases bind_inv h with ⟨x, h1, rfl⟩ | ⟨j, w2, h1, h⟩
  · obtain ⟨evs, hE2, hn, hr, hids, _⟩ := fetch_inv h1
    exact ⟨_, _, hE.trans hE2, .inr ⟨i, jwt, hi, hs', hj, hr, .inl ⟨⟨x, rfl, hn.ne⟩, rfl⟩⟩⟩
  · obtain ⟨evs, hE2, hn, hr, hids, hg⟩ := fetch_inv h1
    obtain ⟨ws, hE3, hd3, hends⟩ := put_end h
    obtain ⟨n1, n2⟩ := fetch_nonce h1
    have hfr := (hg j rfl).1.frame
    refine ⟨_, _, by simpa using (hE.trans hE2).trans hE3, .inr ⟨i, jwt, hi, hs', hj, hr, .inr ⟨j, ?_, hends⟩⟩⟩
    refine ⟨hfr.1, hfr.2.2.2.1, hfr.2.2.2.2.2.2.2.2.2.1, hfr.2.2.2.2.2.2.2.2.2.2.2.1, fun hsc => ?_, fun hsc => by rw [n2 hsc]⟩
    obtain ⟨evs', hre, hnn⟩ := n1 hsc
    rw [hE2.recent] at hre
    rw [List.append_cancel_left hre, hnn]

/-- What a flow holds after a deferred call that stored it. -/
theorem deferred_nonce {req : DeferredRequest} {r : HRes Resp} (h : (deferred P req).run e w = (r, w')) :
    ∃ evs ws, Eff e w w' evs ws ∧
      (Fails r ∧ evs = [] ∧ ws = [] ∨
       ∃ i o logos, w.store req.issuanceId = some (.issuance i) ∧ i.status = .tokenReceived ∧ OnlyLogos logos ∧
        evs = ⟨.deferred { transactionId := req.transactionId, credentialIssuer := i.issuer.credentialIssuer, accessToken := i.token.accessToken }, o⟩ :: logos ∧
        (Fails r ∧ ws = [] ∨
         ∃ j, j.id = i.id ∧ j.status = i.status ∧ j.scope = i.scope ∧ j.token = i.token ∧
          Ends e (j.id, stashed j) (.credentials j.id j.outstanding) r ws)) := by
  unfold deferred at h
  rcases getI_step h with ⟨hf, hE, hd⟩ | ⟨i, w1, hi, hE, hd, h⟩
  · exact ⟨_, _, hE, .inl ⟨hf, rfl, rfl⟩⟩
  rcases check_step h with ⟨hf, rfl⟩ | ⟨hs, h⟩
  · exact ⟨_, _, hE, .inl ⟨hf, rfl, rfl⟩⟩
  have hs' : i.status = .tokenReceived := by simpa using hs
  rcases call_step h with ⟨hf, hE2, hd2⟩ | ⟨resp, w2, hE2, hd2, h⟩
  · exact ⟨_, _, hE.trans hE2, .inr ⟨i, none, [], hi, hs', .nil, rfl, .inl ⟨hf, rfl⟩⟩⟩
  rcases need_step h with ⟨hf, rfl⟩ | ⟨config, hc, h⟩
  · exact ⟨_, _, hE.trans hE2, .inr ⟨i, _, [], hi, hs', .nil, rfl, .inl ⟨hf, rfl⟩⟩⟩
  rcases bind_inv h with ⟨x, h1, rfl⟩ | ⟨out, w3, h1, h⟩
  · obtain ⟨logos, hE3, hl, hn, _⟩ := process_inv h1
    exact ⟨_, _, (hE.trans hE2).trans hE3, .inr ⟨i, _, logos, hi, hs', hl, rfl, .inl ⟨⟨x, rfl, hn.ne⟩, rfl⟩⟩⟩
  · obtain ⟨logos, hE3, hl, hn, hout⟩ := process_inv h1
    obtain ⟨ws, hE4, hends⟩ := stash_end h
    exact ⟨_, _, by simpa using ((hE.trans hE2).trans hE3).trans hE4,
      .inr ⟨i, some resp, logos, hi, hs', hl, by simp,
        .inr ⟨({ i with deferred := remove i.deferred req.transactionId } : Issuance).record req.configId out, rfl, rfl, rfl, rfl, hends⟩⟩⟩

end

theorem applyWrites_same (s : String → Option HVal) (k : String) (v : Option HVal) : applyWrites s [(k, v)] k = v := upd_same ..

theorem applyWrites_other {s : String → Option HVal} {x : Write} {k : String} (h : k ≠ x.1) : applyWrites s [x] k = s k := upd_other _ _ h

/-- The flow is stored, or its name was not drawn yet. -/
def Stored (e : HEnv) (w : HWorld) (k : String) : Prop := (∃ i, w.store k = some (.issuance i)) ∨ ∃ m, w.drawn ≤ m ∧ k = e.rng m

/-- How a stored flow came to be what it is after a call. -/
inductive Moves (e : HEnv) (w : HWorld) (k : String) (j : Issuance) (en : Entry) : Prop
  | same : w.store k = some (.issuance j) → (∀ x, nonceAfter k x en = x) → Moves e w k j en
  | early : j.status ≠ .tokenReceived → (∀ i, w.store k = some (.issuance i) → i.status ≠ .tokenReceived) → Stored e w k → Moves e w k j en
  | token (q : Issuer.TokenRequest) (t : Issuer.TokenResponse) : (∀ i, w.store k = some (.issuance i) → i.status ≠ .tokenReceived) →
      Stored e w k → (⟨.token q, some t⟩ : Event) ∈ en.events → j.token = t → (∀ x, nonceAfter k x en = t.cNonce) → Moves e w k j en
  | asked (i : Issuance) (r : CredentialsRequest) (jwt : String) : w.store k = some (.issuance i) → i.status = .tokenReceived →
      en.req = .credentials r → r.issuanceId = k → OnlyRequests i jwt en.events → en.provider.signProof (proofClaims i en.now) = some jwt →
      (∃ resp, en.result = .ok resp) → Asked en.events i j → (∀ x, nonceAfter k x en = en.events.foldl nonceBy x) → Moves e w k j en
  | collected (i : Issuance) (r : DeferredRequest) : w.store k = some (.issuance i) → i.status = .tokenReceived → en.req = .deferred r →
      r.issuanceId = k → j.id = i.id → j.status = i.status → j.scope = i.scope → j.token = i.token → (∀ x, nonceAfter k x en = x) → Moves e w k j en

theorem Ends.noLate {e : HEnv} {x : Write} {b : Resp} {r : HRes Resp} {ws : List Write} (h : Ends e x b r ws) (hn : e.NoLate) :
    r = .ok b ∧ ws = [x] ∨ (∃ y, r = .error y) ∧ ws = [] := by
  cases h with
  | lost => exact .inr ⟨⟨_, rfl⟩, rfl⟩
  | done => exact .inl ⟨rfl, rfl⟩
  | late h => obtain ⟨n, h⟩ := h; exact absurd h (hn n)

theorem Fails.error {r : HRes Resp} (h : Fails r) : ∃ y, r = .error y := by obtain ⟨x, h, _⟩ := h; exact ⟨x, h⟩

/-- The entry a step adds to the history. -/
def entryOf (e : HEnv) (w : HWorld) (s : HStep) : Entry := ⟨s.provider, w.now + s.wait, s.req,
  ((serve s.provider s.req).run e (before w s)).1, ((serve s.provider s.req).run e (before w s)).2.recent⟩

theorem step_entry (e : HEnv) (w : HWorld) (s : HStep) : (step e w s).2.log = w.log ++ [entryOf e w s] := step_log e w s

theorem step_moves {e : HEnv} {w : HWorld} (hf : e.Fresh) (hn : e.NoLate) (hr : Reachable e w) (s : HStep) {k : String} {j : Issuance}
    (h : (step e w s).2.store k = some (.issuance j)) : Moves e w k j (entryOf e w s) := by
  have hI : Inv e (before w s).log (before w s).store (before w s).drawn := by
    have := reachable_inv hf hr
    exact this
  rw [(step_eq e w s).2] at h
  unfold entryOf
  obtain ⟨⟨r, w2⟩, hrun⟩ : ∃ q, (serve s.provider s.req).run e (before w s) = q := ⟨_, rfl⟩
  rw [hrun] at h ⊢
  simp only at h
  have hb : (before w s).store = w.store := rfl
  have fresh : ∀ {n : Nat}, (before w s).drawn ≤ n → w.store (e.rng n) = none := by
    intro n hle
    cases hs : w.store (e.rng n) with
    | none => rfl
    | some v =>
      obtain ⟨m, hm, hk⟩ := hI.key _ _ hs
      have := hf _ _ hk; omega
  have hbn : (before w s).now = w.now + s.wait := rfl
  generalize s.req = q at hrun ⊢
  cases q with
  | offer req =>
    obtain ⟨evs, ws, hE, h1⟩ := offer_did hrun
    rw [hE.store] at h
    rcases h1 with ⟨_, rfl, _⟩ | ⟨md, sv, _, _, ⟨_, rfl⟩ | ⟨rfl, _⟩⟩
    · exact .same h fun x => rfl
    · exact .same h fun x => rfl
    · by_cases hk : k = e.rng (before w s).drawn
      · subst hk
        have h := (applyWrites_same ..).symm.trans h
        cases h
        exact .early (by simp [freshFlow]) (fun i hi => by rw [fresh (Nat.le_refl _)] at hi; cases hi) (.inr ⟨_, Nat.le_refl _, rfl⟩)
      · have h := (applyWrites_other hk).symm.trans h
        exact .same h fun x => rfl
  | accept req =>
    obtain ⟨ws, hE, _, h1⟩ := accept_did hrun
    rw [hE.store] at h
    rcases h1 with ⟨_, rfl⟩ | ⟨i, acc, hi, hst, _, _, hends⟩
    · exact .same h fun x => rfl
    · rcases hends.noLate hn with ⟨_, rfl⟩ | ⟨_, rfl⟩
      · have hid : i.id = req.issuanceId := (hI.val _ _ hi : FlowInv _ _ _ i).id
        by_cases hk : k = i.id
        · subst hk
          have h := (applyWrites_same ..).symm.trans h
          cases h
          refine .early (by simp only; split <;> simp) (fun i' hi' => ?_) (.inl ⟨i, by rw [hid]; exact hi⟩)
          rw [hid, ← hb, hi] at hi'; cases hi'
          rw [hst]; simp
        · have h := (applyWrites_other hk).symm.trans h
          exact .same h fun x => rfl
      · exact .same h fun x => rfl
  | pin req =>
    obtain ⟨ws, hE, _, h1⟩ := pin_did hrun
    rw [hE.store] at h
    rcases h1 with ⟨_, rfl⟩ | ⟨i, hi, hst, hends⟩
    · exact .same h fun x => rfl
    · rcases hends.noLate hn with ⟨_, rfl⟩ | ⟨_, rfl⟩
      · have hid : i.id = req.issuanceId := (hI.val _ _ hi : FlowInv _ _ _ i).id
        by_cases hk : k = i.id
        · subst hk
          have h := (applyWrites_same ..).symm.trans h
          cases h
          refine .early (by simp) (fun i' hi' => ?_) (.inl ⟨i, by rw [hid]; exact hi⟩)
          rw [hid, ← hb, hi] at hi'; cases hi'
          rw [hst]; simp
        · have h := (applyWrites_other hk).symm.trans h
          exact .same h fun x => rfl
      · exact .same h fun x => rfl
  | token id =>
    obtain ⟨evs, ws, hE, _, h1⟩ := token_did hrun
    have hrec : w2.recent = evs := by rw [hE.recent]; rfl
    rw [hE.store] at h
    rcases h1 with ⟨hfl, _, rfl⟩ | ⟨i, p, hi, hst, _, q, _, ⟨hfl, rfl, _⟩ | ⟨t, a, rfl, _, hends⟩⟩
    · obtain ⟨y, rfl⟩ := hfl.error
      exact .same h fun x => nonceAfter_error rfl
    · obtain ⟨y, rfl⟩ := hfl.error
      exact .same h fun x => nonceAfter_error rfl
    · rcases hends.noLate hn with ⟨rfl, rfl⟩ | ⟨⟨y, rfl⟩, rfl⟩
      · have hid : i.id = id := (hI.val _ _ hi : FlowInv _ _ _ i).id
        by_cases hk : k = i.id
        · subst hk
          have h := (applyWrites_same ..).symm.trans h
          cases h
          refine .token q t (fun i' hi' => ?_) (.inl ⟨i, by rw [hid]; exact hi⟩) (by rw [hrec]; exact .head _) rfl fun x => ?_
          · rw [hid, ← hb, hi] at hi'; cases hi'
            rw [hst]; simp
          · simp only [nonceAfter, hid, if_pos, hrec]
            rfl
        · have h := (applyWrites_other hk).symm.trans h
          refine .same h fun x => ?_
          simp only [nonceAfter]
          rw [if_neg (by rw [← hid]; exact Ne.symm hk)]
      · exact .same h fun x => nonceAfter_error rfl
  | authorize req =>
    obtain ⟨evs, ws, hE, h1⟩ := authorize_did hrun
    have hrec : w2.recent = evs := by rw [hE.recent]; rfl
    rw [hE.store] at h
    rcases h1 with ⟨hfl, rfl, _⟩ | ⟨i, p, m, hst, hpre, _, q, _, ⟨hfl, rfl, _⟩ | ⟨a, ⟨o, hfl, rfl, _⟩ | ⟨t, m', hev, _, hends⟩⟩⟩
    · obtain ⟨y, rfl⟩ := hfl.error
      exact .same h fun x => nonceAfter_error rfl
    · obtain ⟨y, rfl⟩ := hfl.error
      exact .same h fun x => nonceAfter_error rfl
    · obtain ⟨y, rfl⟩ := hfl.error
      exact .same h fun x => nonceAfter_error rfl
    · rcases hends.noLate hn with ⟨rfl, rfl⟩ | ⟨⟨y, rfl⟩, rfl⟩
      · by_cases hk : k = i.id
        · subst hk
          have h := (applyWrites_same ..).symm.trans h
          cases h
          refine .token (codeTokenRequest (authorizing s.provider (e.rng m) i req) req a) t (fun i' hi' => ?_) ?_ (by rw [hrec, hev]; simp) rfl fun x => ?_
          · cases hst with
            | stored _ hs ha =>
              have hid : i.id = _ := (hI.val _ _ hs : FlowInv _ _ _ i).id
              rw [hid, ← hb, hs] at hi'; cases hi'
              rw [ha]; simp
            | new _ _ => rw [fresh (Nat.le_refl _)] at hi'; cases hi'
          · cases hst with
            | stored _ hs ha =>
              have hid : i.id = _ := (hI.val _ _ hs : FlowInv _ _ _ i).id
              exact .inl ⟨i, by rw [hid]; exact hs⟩
            | new _ _ => exact .inr ⟨_, Nat.le_refl _, rfl⟩
          · simp only [nonceAfter, if_pos, hrec, hev, List.foldl_append, hpre.nonce]
            rfl
        · have h := (applyWrites_other hk).symm.trans h
          refine .same h fun x => ?_
          simp only [nonceAfter]
          rw [if_neg (Ne.symm hk)]
      · exact .same h fun x => nonceAfter_error rfl
  | credentials req =>
    obtain ⟨evs, ws, hE, h1⟩ := credentials_nonce hrun
    have hrec : w2.recent = evs := by rw [hE.recent]; rfl
    rw [hE.store] at h
    rcases h1 with ⟨hfl, _, rfl⟩ | ⟨i, jwt, hi, hst, hjwt, honly, ⟨hfl, rfl⟩ | ⟨j', hg, hends⟩⟩
    · obtain ⟨y, rfl⟩ := hfl.error
      exact .same h fun x => nonceAfter_error rfl
    · obtain ⟨y, rfl⟩ := hfl.error
      exact .same h fun x => nonceAfter_error rfl
    · rcases hends.noLate hn with ⟨rfl, rfl⟩ | ⟨⟨y, rfl⟩, rfl⟩
      · have hid : j'.id = req.issuanceId := hg.id.trans (hI.val _ _ hi : FlowInv _ _ _ i).id
        by_cases hk : k = j'.id
        · subst hk
          have h := (applyWrites_same ..).symm.trans h
          cases h
          refine .asked i req jwt (by rw [hid]; exact hi) hst rfl hid.symm (by rw [hrec]; exact honly) hjwt ⟨_, rfl⟩ (by rw [hrec]; exact hg) fun x => ?_
          simp only [nonceAfter, if_pos, hid]
        · have h := (applyWrites_other hk).symm.trans h
          refine .same h fun x => ?_
          simp only [nonceAfter]
          rw [if_neg (by rw [← hid]; exact Ne.symm hk)]
      · exact .same h fun x => nonceAfter_error rfl
  | deferred req =>
    obtain ⟨evs, ws, hE, h1⟩ := deferred_nonce hrun
    rw [hE.store] at h
    rcases h1 with ⟨_, _, rfl⟩ | ⟨i, o, logos, hi, hst, _, _, ⟨_, rfl⟩ | ⟨j', e1, e2, e3, e4, hends⟩⟩
    · exact .same h fun x => rfl
    · exact .same h fun x => rfl
    · rcases hends.noLate hn with ⟨rfl, rfl⟩ | ⟨⟨y, rfl⟩, rfl⟩
      · have hid : j'.id = req.issuanceId := e1.trans (hI.val _ _ hi : FlowInv _ _ _ i).id
        by_cases hk : k = j'.id
        · subst hk
          have h := (applyWrites_same ..).symm.trans h
          unfold stashed at h
          split at h
          · cases h
          · cases h
            exact .collected i req (by rw [hid]; exact hi) hst rfl hid.symm e1 e2 e3 e4 fun x => rfl
        · have h := (applyWrites_other hk).symm.trans h
          exact .same h fun x => rfl
      · exact .same h fun x => rfl
  | save id =>
    obtain ⟨evs, ws, hE, _, h1⟩ := save_did (hI.noNote id) hrun
    rw [hE.store] at h
    rcases h1 with ⟨_, _, rfl⟩ | ⟨i, hi, ⟨done, c, rest, _, rfl, _⟩ | ⟨_, ⟨hd, hends⟩ | ⟨_, rfl, _⟩⟩⟩
    · exact .same h fun x => rfl
    · exact .same h fun x => rfl
    · rcases hends.noLate hn with ⟨_, rfl⟩ | ⟨_, rfl⟩
      · by_cases hk : k = id
        · subst hk
          have h := (applyWrites_same ..).symm.trans h
          cases h
        · have h := (applyWrites_other hk).symm.trans h
          exact .same h fun x => rfl
      · exact .same h fun x => rfl
    · exact .same h fun x => rfl
  | cancel id =>
    obtain ⟨ws, hE, _, h1⟩ := cancel_did (hI.noNote id) hrun
    rw [hE.store] at h
    rcases h1 with ⟨_, rfl⟩ | ⟨i, hi, hends⟩
    · exact .same h fun x => rfl
    · rcases hends.noLate hn with ⟨_, rfl⟩ | ⟨_, rfl⟩
      · by_cases hk : k = id
        · subst hk
          have h := (applyWrites_same ..).symm.trans h
          cases h
        · have h := (applyWrites_other hk).symm.trans h
          exact .same h fun x => rfl
      · exact .same h fun x => rfl
  | request url =>
    obtain ⟨evs, ws, hE, _, h1⟩ := request_did hrun
    rw [hE.store] at h
    rcases h1 with ⟨_, rfl⟩ | ⟨q, p, f, cs, _, _, _, _, hends⟩
    · exact .same h fun x => rfl
    · rcases hends.noLate hn with ⟨_, rfl⟩ | ⟨_, rfl⟩
      · rw [applyWrites, List.foldl, List.foldl] at h
        unfold upd at h
        split at h
        · cases h
        · exact .same h fun x => rfl
      · exact .same h fun x => rfl
  | authorizePresentation id =>
    obtain ⟨ws, hE, _, h1⟩ := authorizePresentation_did hrun
    rw [hE.store] at h
    rcases h1 with ⟨_, rfl⟩ | ⟨p, hp, _, hends⟩
    · exact .same h fun x => rfl
    · rcases hends.noLate hn with ⟨_, rfl⟩ | ⟨_, rfl⟩
      · rw [applyWrites, List.foldl, List.foldl] at h
        unfold upd at h
        split at h
        · cases h
        · exact .same h fun x => rfl
      · exact .same h fun x => rfl
  | present id =>
    obtain ⟨evs, hE, _⟩ := present_did hrun
    rw [hE.store] at h
    exact .same h fun x => rfl

end Verif.Holder
