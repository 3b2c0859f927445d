import Verif.Issuer.History
/-!
# Entries that can only disappear

Helper: a stored entry that is not an access token entry is never altered by any later call, only removed.
-/
namespace Verif.Issuer
open Prog

/-- Key `c` holds `v0` or nothing, is no access token, and will not be drawn again. -/
structure Frozen (e : Env) (c : String) (v0 : State) (w : World State) : Prop where
  same : ∀ v, w.store c = some v → v = v0
  notTok : ∀ k s t, w.store k = some s → s.stage = .validated t → t.accessToken ≠ c
  known : Known e w.drawn c

theorem Frozen.step {e : Env} (he : Env.Fresh e) {c : String} {v0 : State} {w : World State} (h : Frozen e c v0 w)
    (s : Step) : Frozen e c v0 (Issuer.step e w s).2 := by
  let R : String → State → Prop := fun k v => (k = c → v = v0) ∧ ∀ t, v.stage = .validated t → t.accessToken ≠ c
  let D : String → Prop := fun x => x ≠ c ∧ urn ++ x ≠ c
  have hg : Guar R (PutOk R) D (call s.provider s.req) (fun _ => True) := by
    refine call_guar ?_ ?_ ?_ ?_ ?_ ?_ ?_ ?_ ?_
    · intro k; trivial
    · rintro k t subj items tx hd _; exact ⟨fun h => absurd h hd.1, fun _ h => by cases h⟩
    · rintro k t subj items hd; exact ⟨fun h => absurd h hd.1, fun _ h => by cases h⟩
    · rintro subj k t a hd _; exact ⟨fun h => absurd h hd.1, fun _ h => by cases h⟩
    · rintro r k t _ hd; exact ⟨fun h => absurd h hd.2, fun _ h => by cases h⟩
    · rintro r c s k n t items _ hd _ _; exact ⟨fun h => absurd h hd.1, fun _ h => by cases h; exact hd.1⟩
    · rintro c s t n x y hr hs _; exact ⟨fun h => absurd h (hr.2 t hs), fun _ h => by cases h; exact hr.2 t hs⟩
    · rintro c s t n k x y hr hs _ hd; exact ⟨fun h => absurd h hd.1, fun _ h => by cases h; exact hr.2 t hs⟩
    · rintro k t r hd; exact ⟨fun h => absurd h hd.1, fun _ h => by cases h⟩
  have hr := (Guar.run (e := e) (w := World.wait w s.wait) hg
    (fun k v hw => ⟨fun hkc => h.same v (hkc ▸ hw), fun t ht => h.notTok k v t hw ht⟩)
    (fun k v h => h)
    (fun n h1 _ => ⟨h.known.ne_fresh he h1, h.known.ne_fresh_urn he h1⟩)).1
  exact ⟨fun v hv => (hr c v hv).1 rfl, fun k v t hv ht => (hr k v hv).2 t ht, h.known.mono (step_drawn_le e w s)⟩

theorem Frozen.exec {e : Env} (he : Env.Fresh e) {c : String} {v0 : State} {w : World State} (h : Frozen e c v0 w)
    (l : List Step) : Frozen e c v0 (Issuer.exec e w l) := exec_inv (I := Frozen e c v0) (fun _ s hw => hw.step he s) h l

theorem Frozen.spent {e : Env} {c : String} {v0 : State} {w : World State} (h : Frozen e c v0 w)
    (hn : w.store c = none) : Spent e c w := ⟨hn, h.notTok, h.known⟩

/-- Is an entry one that the credential endpoint may rewrite? -/
def State.isValidated (s : State) : Prop := ∃ t, s.stage = .validated t

/-- Entries that are neither access tokens nor notification ids sit at keys that are no access token's. Strengthens
`Sep.sep`. -/
structure Sep2 (e : Env) (w : World State) : Prop where
  base : Sep e w
  apart : ∀ c s k s' t, w.store c = some s → ¬ s.isValidated → w.store k = some s' → s'.stage = .validated t →
    t.accessToken ≠ c

/-- Non-token entries only appear at freshly drawn keys. -/
theorem nontoken_fresh {e : Env} {w : World State} (s : Step) (k : String) (v : State)
    (hv : (step e w s).2.store k = some v) (hgr : ¬ v.isValidated) :
    w.store k = some v ∨ ∃ x, Drawn e w.drawn (step e w s).2.drawn x ∧ (k = x ∨ k = urn ++ x) := by
  let D := Drawn e w.drawn (step e w s).2.drawn
  let R : String → State → Prop := fun k v => ¬ v.isValidated → w.store k = some v ∨ ∃ x, D x ∧ (k = x ∨ k = urn ++ x)
  have hg : Guar R (PutOk R) D (call s.provider s.req) (fun _ => True) := by
    refine call_guar ?_ ?_ ?_ ?_ ?_ ?_ ?_ ?_ ?_
    · intro k; trivial
    · rintro k t subj items tx hd _  _; exact .inr ⟨k, hd, .inl rfl⟩
    · rintro k t subj items hd  _; exact .inr ⟨k, hd, .inl rfl⟩
    · rintro subj k t a hd _  _; exact .inr ⟨k, hd, .inl rfl⟩
    · rintro r k t _ hd _; exact .inr ⟨k, hd, .inr rfl⟩
    · rintro r c s k n t items _ hd _ _ _; exact .inr ⟨k, hd, .inl rfl⟩
    · rintro c s t n x y hr hs _ h; exact absurd ⟨_, rfl⟩ h
    · rintro c s t n k x y hr hs _ hd h; exact absurd ⟨_, rfl⟩ h
    · rintro k t r hd _; exact .inr ⟨k, hd, .inl rfl⟩
  exact (Guar.run (e := e) (w := World.wait w s.wait) hg (fun k v hw _ => .inl hw) (fun k v h => h)
    (fun n h1 h2 => ⟨n, h1, h2, rfl⟩)).1 k v hv hgr

/-- Requests that may add an access token to the store. -/
def Req.isToken : Req → Bool
  | .token _ => true
  | _ => false

/-- The token endpoint writes nothing but access tokens. -/
theorem token_writes_validated {e : Env} {w : World State} (s : Step) (h : s.req.isToken = true) (k : String) (v : State)
    (hv : (step e w s).2.store k = some v) (hn : ¬ v.isValidated) : w.store k = some v := by
  let R : String → State → Prop := fun k v => ¬ v.isValidated → w.store k = some v
  have hg : Guar R (PutOk R) (fun _ => True) (call s.provider s.req) (fun _ => True) := by
    cases hr : s.req with
    | token r =>
      refine Guar.bind (token_guar trivial ?_) fun _ _ => Guar.pure trivial
      rintro s k n t t' items _ _ _ _ _ h; exact absurd ⟨_, rfl⟩ h
    | _ => simp [hr, Req.isToken] at h
  exact (Guar.run (e := e) (w := World.wait w s.wait) hg (fun k v hw _ => hw) (fun k v h => h)
    (fun _ _ _ => trivial)).1 k v hv hn

/-- Only the token endpoint brings new access tokens. -/
theorem token_old {e : Env} {w : World State} (s : Step) (h : s.req.isToken = false) (k : String) (v : State)
    (hv : (step e w s).2.store k = some v) (t : Token) (ht : v.stage = .validated t) :
    ∃ k0 v0 t0, w.store k0 = some v0 ∧ v0.stage = .validated t0 ∧ t.accessToken = t0.accessToken := by
  let R : String → State → Prop := fun k v => ∀ t, v.stage = .validated t →
    ∃ k0 v0 t0, w.store k0 = some v0 ∧ v0.stage = .validated t0 ∧ t.accessToken = t0.accessToken
  have hg : Guar R (PutOk R) (fun _ => True) (call s.provider s.req) (fun _ => True) := by
    have hS : ∀ c s t n x y k, R c s → s.stage = .validated t → R k (renewed s t n x y) := by
      rintro c s t n x y k hr hs _ h; cases h; exact hr t hs
    have hDf : ∀ k t r, R k { subjectId := none, stage := .deferred k r, expiresAt := t } := by
      rintro k t r _ h; cases h
    cases hr : s.req with
    | createOffer r =>
      refine Guar.bind (createOffer_guar ?_ ?_) fun _ _ => Guar.pure trivial
      · rintro k t items tx _ _ _ ht; cases ht
      · rintro k t items _ _ ht; cases ht
    | authorize r =>
      refine Guar.bind (authorize_guar ?_ ?_) fun _ _ => Guar.pure trivial
      · rintro r k t a _ _ _ _ _ _ _ ht; cases ht
      · rintro r k _ _; trivial
    | credentialOffer r => exact Guar.bind (credentialOffer_guar trivial) fun _ _ => Guar.pure trivial
    | par r =>
      refine Guar.bind (par_guar ?_) fun _ _ => Guar.pure trivial
      rintro k t _ _ _ h; cases h
    | token r => simp [hr, Req.isToken] at h
    | credential r =>
      exact Guar.bind (credential_guar (fun s t n x y h1 h2 _ => hS r.accessToken s t n x y t.accessToken h1 h2)
        (fun s t n k x y h1 h2 _ _ => hS r.accessToken s t n x y k h1 h2) (fun k t _ => hDf k t r)) fun _ _ => Guar.pure trivial
    | deferred r =>
      exact Guar.bind (deferred_guar trivial (fun s t n x y h1 h2 _ => hS r.accessToken s t n x y t.accessToken h1 h2)
        (fun s t n k x y h1 h2 _ _ => hS r.accessToken s t n x y k h1 h2) (fun k t r _ => hDf k t r)) fun _ _ => Guar.pure trivial
    | notification r => exact Guar.bind (notification_guar trivial) fun _ _ => Guar.pure trivial
    | register r => exact Guar.bind register_guar fun _ _ => Guar.pure trivial
    | metadata c => exact Guar.bind (Q := fun _ => True) (Guar.lift fun _ _ => trivial) fun _ _ => Guar.pure trivial
    | oauthServer c => exact Guar.bind (Q := fun _ => True) (Guar.lift fun _ _ => trivial) fun _ _ => Guar.pure trivial
  exact (Guar.run (e := e) (w := World.wait w s.wait) hg (fun k v hw t ht => ⟨k, v, t, hw, ht, rfl⟩) (fun k v h => h)
    (fun _ _ _ => trivial)).1 k v hv t ht

theorem Sep2.step {e : Env} (he : Env.Fresh e) {w : World State} (h : Sep2 e w) (s : Step) :
    Sep2 e (Issuer.step e w s).2 := by
  refine ⟨h.base.step he s, ?_⟩
  intro c v k v' t hv hgr hv' ht heq
  cases hg : s.req.isToken with
  | true =>
    have hold := token_writes_validated s hg c v hv hgr
    rcases token_old_or_fresh s k v' hv' t ht with ⟨k0, v0, t0, h0, ht0, h1⟩ | ⟨i, hi, _, h1⟩
    · exact h.apart c v k0 v0 t0 hold hgr h0 ht0 (h1 ▸ heq)
    · exact (h.base.key c v hold).ne_fresh he hi (h1 ▸ heq)
  | false =>
    obtain ⟨k0, v0, t0, h0, ht0, h1⟩ := token_old s hg k v' hv' t ht
    rcases nontoken_fresh s c v hv hgr with hc | ⟨x, ⟨i, hi, _, rfl⟩, rfl | rfl⟩
    · exact h.apart c v k0 v0 t0 hc hgr h0 ht0 (h1 ▸ heq)
    · exact (h.base.tok k0 v0 t0 h0 ht0).ne_fresh he hi (h1 ▸ heq.symm)
    · obtain ⟨j, _, hj⟩ := h.base.tok k0 v0 t0 h0 ht0
      exact he.noUrn j i ((h1.trans hj).symm.trans heq)

theorem Reachable.sep2 {e : Env} (he : Env.Fresh e) {w : World State} (h : Reachable e w) : Sep2 e w := by
  refine Reachable.induct (I := Sep2 e) ?_ (fun w s hw => hw.step he s) h
  intro t
  exact ⟨⟨fun k s h => (by cases h), fun k s t h => (by cases h), fun c s k s' t h => (by cases h)⟩,
    fun c s k s' t h => (by cases h)⟩

/-- In a reachable world every non-token entry is frozen. -/
theorem Reachable.frozen {e : Env} (he : Env.Fresh e) {w : World State} (h : Reachable e w) {c : String} {v : State}
    (hc : w.store c = some v) (hv : ¬ v.isValidated) : Frozen e c v w :=
  ⟨fun _ h => Option.some.inj (h.symm.trans hc), fun k s t hk ht => (h.sep2 he).apart c v k s t hc hv hk ht,
    (h.sep he).key c v hc⟩

/-- Removing a non-token entry spends its key. -/
theorem Reachable.spent {e : Env} (he : Env.Fresh e) {w : World State} (h : Reachable e w) {c : String} {v : State}
    (hc : w.store c = some v) (hv : ¬ v.isValidated) (s : Step) (hgone : (Issuer.step e w s).2.store c = none) :
    Spent e c (Issuer.step e w s).2 := ((h.frozen he hc hv).step he s).spent hgone

/-- In a reachable world the next tokens are unused keys. -/
theorem Reachable.unused {e : Env} (he : Env.Fresh e) {w : World State} (h : Reachable e w) {n : Nat}
    (hn : w.drawn ≤ n) : w.store (e.rng n) = none ∧ w.store (urn ++ e.rng n) = none := by
  constructor
  · cases hc : w.store (e.rng n) with
    | none => rfl
    | some v => exact absurd rfl (((h.sep he).key _ v hc).ne_fresh he hn)
  · cases hc : w.store (urn ++ e.rng n) with
    | none => rfl
    | some v => exact absurd rfl (((h.sep he).key _ v hc).ne_fresh_urn he hn)

end Verif.Issuer
