import Verif.Holder.Nonce
/-!
# Proofs of possession and nonces: the true part of C85
-/
namespace Verif.Holder
open Verif HProg

variable {e : HEnv} {w w' : HWorld} {P : Provider}

/-- An answer in this history brought this nonce. -/
def Sent (y : String) (log : List Entry) : Prop :=
  ∃ en ∈ log, (∃ q t, (⟨.token q, some t⟩ : Event) ∈ en.events ∧ t.cNonce = some y) ∨
    ∃ q r, (⟨.credential q, some r⟩ : Event) ∈ en.events ∧ r.cNonce = some y

theorem Sent.append {y : String} {log : List Entry} (l : List Entry) (h : Sent y log) : Sent y (log ++ l) := by
  obtain ⟨en, hen, h⟩ := h
  exact ⟨en, List.mem_append_left _ hen, h⟩

theorem nonceBy_some {x : Option String} {ev : Event} {y : String} (h : nonceBy x ev = some y) :
    x = some y ∨ (∃ q t, ev = ⟨.token q, some t⟩ ∧ t.cNonce = some y) ∨ ∃ q r, ev = ⟨.credential q, some r⟩ ∧ r.cNonce = some y := by
  unfold nonceBy at h
  split at h
  · exact .inr (.inl ⟨_, _, rfl, h⟩)
  · rename_i q r
    cases hr : r.cNonce with
    | none => rw [hr] at h; exact .inl h
    | some z => rw [hr] at h; cases h; exact .inr (.inr ⟨_, _, rfl, hr⟩)
  · exact .inl h

theorem foldl_nonceBy {evs : List Event} {x : Option String} {y : String} (h : evs.foldl nonceBy x = some y) :
    x = some y ∨ (∃ q t, (⟨.token q, some t⟩ : Event) ∈ evs ∧ t.cNonce = some y) ∨
      ∃ q r, (⟨.credential q, some r⟩ : Event) ∈ evs ∧ r.cNonce = some y := by
  induction evs generalizing x with
  | nil => exact .inl h
  | cons ev evs ih =>
    rcases ih h with h | ⟨q, t, h1, h2⟩ | ⟨q, t, h1, h2⟩
    · rcases nonceBy_some h with h | ⟨q, t, rfl, h2⟩ | ⟨q, t, rfl, h2⟩
      · exact .inl h
      · exact .inr (.inl ⟨q, t, .head _, h2⟩)
      · exact .inr (.inr ⟨q, t, .head _, h2⟩)
    · exact .inr (.inl ⟨q, t, .tail _ h1, h2⟩)
    · exact .inr (.inr ⟨q, t, .tail _ h1, h2⟩)

/-- The nonce a flow holds: the latest one, and one that was sent. -/
structure Holds (log : List Entry) (k : String) (i : Issuance) : Prop where
  latest : i.scope = none → i.token.cNonce = latest k log
  sent : ∀ y, i.token.cNonce = some y → Sent y log

theorem reachable_holds (hf : e.Fresh) (hn : e.NoLate) (hr : Reachable e w) {k : String} {i : Issuance} (h : w.store k = some (.issuance i))
    (hs : i.status = .tokenReceived) : Holds w.log k i := by
  refine reachable_induct (P := fun w => ∀ k i, w.store k = some (.issuance i) → i.status = .tokenReceived → Holds w.log k i) ?_ ?_ hr k i h hs
  · intro now k i h; cases h
  · intro w s hw ih k j hj hs
    rw [step_entry]
    cases step_moves hf hn hw s hj with
    | same h1 h2 =>
      obtain ⟨a, b⟩ := ih k j h1 hs
      exact ⟨fun h => by rw [latest_snoc, h2, a h], fun y hy => (b y hy).append _⟩
    | early h1 _ _ => exact absurd hs h1
    | token q t h1 _ h2 h3 h4 =>
      refine ⟨fun _ => by rw [latest_snoc, h4, h3], fun y hy => ⟨_, List.mem_append_right _ (.head _), .inl ⟨q, t, h2, by rw [← h3]; exact hy⟩⟩⟩
    | asked i r jwt h1 h2 h3 h4 h5 _ _ h6 h7 =>
      obtain ⟨a, b⟩ := ih k i h1 h2
      refine ⟨fun h => ?_, fun y hy => ?_⟩
      · rw [h6.scope] at h
        rw [latest_snoc, h7, h6.renewed h, a h]
      · by_cases hsc : i.scope = none
        · rw [h6.renewed hsc] at hy
          rcases foldl_nonceBy hy with h | h | h
          · exact (b y h).append _
          · exact ⟨_, List.mem_append_right _ (.head _), .inl h⟩
          · exact ⟨_, List.mem_append_right _ (.head _), .inr h⟩
        · rw [h6.kept hsc] at hy
          exact (b y hy).append _
    | collected i r h1 h2 _ _ _ _ h5 h6 h7 =>
      obtain ⟨a, b⟩ := ih k i h1 h2
      exact ⟨fun h => by rw [latest_snoc, h7, h6, a (h5 ▸ h)], fun y hy => (b y (h6 ▸ hy)).append _⟩

/-- Flows with a scope ask by format, others by identifier. -/
theorem fetch_names {i : Issuance} {req : CredentialsRequest} {jwt : String} {r : HRes Issuance} (h : (fetch P i req jwt).run e w = (r, w')) :
    ∃ evs, w'.recent = w.recent ++ evs ∧ ∀ q x, (⟨.credential q, x⟩ : Event) ∈ evs → (i.scope = none ↔ ∃ id, q.credential = .identifier id) := by
  by_cases hsc : i.scope = none
  · obtain ⟨evs, hE, _, _, hids, _⟩ := fetch_inv h
    cases hl : i.token.authorizationDetails with
    | none =>
      refine ⟨[], ?_, by simp⟩
      unfold fetch at h
      rw [if_neg (by rw [hsc]; simp)] at h
      unfold byIdentifier at h
      rw [hl] at h
      have := (show (HProg.run e (.ret (.error _)) w = (r, w')) from h)
      cases this
      simp
    | some l =>
      refine ⟨evs, hE.recent, fun q x hq => ⟨fun _ => ?_, fun _ => hsc⟩⟩
      obtain ⟨rest, hrest, _⟩ := hids hsc l hl
      have : q ∈ (wantedIds req.identifiers (allIds l)).map (identifierRequest i jwt) := by
        rw [← hrest]
        exact List.mem_append_left _ (List.mem_filterMap.2 ⟨_, hq, rfl⟩)
      obtain ⟨id, _, rfl⟩ := List.mem_map.1 this
      exact ⟨id, rfl⟩
  · have hne : ∀ (q : Issuer.CredentialRequest) f, q.credential = .format f → (i.scope = none ↔ ∃ id, q.credential = .identifier id) := by
      intro q f hqf
      constructor
      · intro h; exact absurd h hsc
      · rintro ⟨id, h⟩; rw [hqf] at h; cases h
    unfold fetch at h
    rw [if_pos (Option.isSome_iff_ne_none.2 hsc)] at h
    unfold byFormat at h
    rcases bind_inv h with ⟨x, h1, rfl⟩ | ⟨_, w1, h1, h2⟩
    · obtain ⟨_, rfl⟩ := lift_inv h1; exact ⟨[], by simp, by simp⟩
    obtain ⟨_, rfl⟩ := lift_inv h1
    clear h h1
    rcases bind_inv h2 with ⟨x, h1, rfl⟩ | ⟨_, w1, h1, h3⟩
    · obtain ⟨_, rfl⟩ := lift_inv h1; exact ⟨[], by simp, by simp⟩
    obtain ⟨_, rfl⟩ := lift_inv h1
    clear h1 h2
    rcases bind_inv h3 with ⟨x, h1, rfl⟩ | ⟨_, w1, h1, h2⟩
    · obtain ⟨_, rfl⟩ := lift_inv h1; exact ⟨[], by simp, by simp⟩
    obtain ⟨_, rfl⟩ := lift_inv h1
    clear h1 h3
    have hlogos : ∀ {l : List Event}, OnlyLogos l → ∀ q x, (⟨.credential q, x⟩ : Event) ∈ l → False := by
      intro l hl q x hm
      obtain ⟨u, hu⟩ := hl _ hm
      cases hu
    rcases bind_inv h2 with ⟨x, h1, rfl⟩ | ⟨_, w1, h1, h2⟩
    · obtain ⟨o, hE, _⟩ := callE_inv h1
      refine ⟨_, hE.recent, fun q x hq => ?_⟩
      rw [List.mem_singleton] at hq
      cases hq
      exact hne _ _ rfl
    obtain ⟨o, hE, _⟩ := callE_inv h1
    rcases bind_inv h2 with ⟨x, h3, rfl⟩ | ⟨_, w3, h3, h4⟩
    · obtain ⟨evs, hE2, hl, _⟩ := process_inv h3
      refine ⟨_, (hE.trans hE2).recent, fun q x hq => ?_⟩
      rcases List.mem_append.1 hq with hq | hq
      · rw [List.mem_singleton] at hq
        cases hq
        exact hne _ _ rfl
      · exact (hlogos hl q x hq).elim
    · obtain ⟨evs, hE2, hl, _⟩ := process_inv h3
      obtain ⟨_, rfl⟩ := pure_inv h4
      refine ⟨_, (hE.trans hE2).recent, fun q x hq => ?_⟩
      rcases List.mem_append.1 hq with hq | hq
      · rw [List.mem_singleton] at hq
        cases hq
        exact hne _ _ rfl
      · exact (hlogos hl q x hq).elim

/-- Credential requests go out for a stored flow that has its token, with its token, and with a proof over its nonce. -/
theorem credentials_asks {req : CredentialsRequest} {r : HRes Resp} (h : (credentials P req).run e w = (r, w')) (hrec : w.recent = []) :
    w'.recent = [] ∨ ∃ i jwt, w.store req.issuanceId = some (.issuance i) ∧ i.status = .tokenReceived ∧
      P.signProof (proofClaims i w.now) = some jwt ∧ OnlyRequests i jwt w'.recent ∧
      ∀ q x, (⟨.credential q, x⟩ : Event) ∈ w'.recent → (i.scope = none ↔ ∃ id, q.credential = .identifier id) := by
  unfold credentials at h
  rcases getI_step h with ⟨hf, hE, hd⟩ | ⟨i, w1, hi, hE, hd, h⟩
  · left; rw [hE.recent, hrec]; rfl
  have hr1 : w1.recent = [] := by rw [hE.recent, hrec]; rfl
  rcases check_step h with ⟨hf, rfl⟩ | ⟨hs, h⟩
  · exact .inl hr1
  have hs' : i.status = .tokenReceived := by simpa using hs
  have h := now_step h
  rcases need_step h with ⟨hf, rfl⟩ | ⟨jwt, hj, h⟩
  · exact .inl hr1
  rw [hE.now] at hj
  refine .inr ⟨i, jwt, hi, hs', hj, ?_⟩
  rcases bind_inv h with ⟨x, h1, rfl⟩ | ⟨j, w2, h1, h⟩
  · obtain ⟨evs, hE2, hn, hr, hids, _⟩ := fetch_inv h1
    obtain ⟨evs', hr', hnames⟩ := fetch_names h1
    rw [hr1, List.nil_append] at hr'
    rw [hE2.recent, hr1, List.nil_append] at hr'
    subst hr'
    rw [hE2.recent, hr1, List.nil_append]
    exact ⟨hr, hnames⟩
  · obtain ⟨evs, hE2, hn, hr, hids, hg⟩ := fetch_inv h1
    obtain ⟨evs', hr', hnames⟩ := fetch_names h1
    obtain ⟨ws, hE3, hd3, hends⟩ := put_end h
    rw [hE2.recent, hr1, List.nil_append, List.nil_append] at hr'
    subst hr'
    rw [hE3.recent, hE2.recent, hr1, List.nil_append, List.append_nil]
    exact ⟨hr, hnames⟩

/-- **C85**, the true part. A credential named by its identifier is asked for with a proof over the latest nonce that the successful calls of the flow
(for the token, and for credentials) brought. Missing: credentials named by format (refuted by `C85_stale_nonce`), and nonces that come with deferred
credentials or in calls that fail (refuted by C109). -/
theorem C85_proof_over_latest_nonce_partial (hf : e.Fresh) (hn : e.NoLate) (hr : Reachable e w) (s : HStep) {r : CredentialsRequest}
    (hq : s.req = .credentials r) {en : Entry} (hlog : (step e w s).2.log = w.log ++ [en]) {q : Issuer.CredentialRequest}
    {x : Option CredentialResponse} (hev : ⟨.credential q, x⟩ ∈ en.events) (hid : ∃ id, q.credential = .identifier id) :
    ∃ jwt claims, q.proof = some (.single jwt) ∧ s.provider.signProof claims = some jwt ∧ claims.nonce = latest r.issuanceId w.log := by
  rw [step_entry] at hlog
  have hen : en = entryOf e w s := by simpa using hlog.symm
  subst hen
  obtain ⟨⟨res, w2⟩, hrun⟩ : ∃ q, (serve s.provider s.req).run e (before w s) = q := ⟨_, rfl⟩
  have hev : (⟨.credential q, x⟩ : Event) ∈ w2.recent := by
    unfold entryOf at hev
    rw [hrun] at hev
    exact hev
  rw [hq] at hrun
  rcases credentials_asks hrun rfl with h | ⟨i, jwt, hi, hs, hjwt, honly, hnames⟩
  · rw [h] at hev; cases hev
  have hsc := (hnames q x hev).2 hid
  rcases honly _ hev with ⟨q', hq', ha⟩ | ⟨u, hu⟩
  · cases hq'
    exact ⟨jwt, _, ha.2.2, hjwt, (reachable_holds hf hn hr (w := w) hi hs).latest hsc⟩
  · cases hu

end Verif.Holder
