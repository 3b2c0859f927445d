import Verif.Issuer.Writes
/-!
# Invariants of every history

Helper lemmas: facts that hold in every world the issuer can reach from an empty store.
-/
namespace Verif.Issuer
open Prog

/-- A world reachable from an empty store by some history. -/
def Reachable (e : Env) (w : World State) : Prop := ∃ t0 h, w = exec e (start t0) h

theorem Reachable.step {e : Env} {w : World State} (h : Reachable e w) (s : Step) : Reachable e (step e w s).2 := by
  obtain ⟨t0, l, rfl⟩ := h
  exact ⟨t0, l ++ [s], by rw [exec_append]; rfl⟩

theorem Reachable.exec {e : Env} {w : World State} (h : Reachable e w) (l : List Step) : Reachable e (exec e w l) := by
  obtain ⟨t0, l', rfl⟩ := h
  exact ⟨t0, l' ++ l, by rw [exec_append]⟩

/-- Induction over reachable worlds. -/
theorem Reachable.induct {e : Env} {I : World State → Prop} (h0 : ∀ t, I (start t))
    (hs : ∀ w s, I w → I (Issuer.step e w s).2) {w : World State} (h : Reachable e w) : I w := by
  obtain ⟨t0, l, rfl⟩ := h
  suffices ∀ w, I w → I (Issuer.exec e w l) from this _ (h0 t0)
  induction l with
  | nil => exact fun _ h => h
  | cons s l ih => exact fun w hw => ih _ (hs w s hw)

theorem exec_inv {e : Env} {I : World State → Prop} (hs : ∀ w s, I w → I (Issuer.step e w s).2) {w : World State}
    (hw : I w) (l : List Step) : I (exec e w l) := by
  induction l generalizing w with
  | nil => exact hw
  | cons s l ih => exact ih (hs w s hw)

/-- A write is fine if what it stores satisfies `R`. -/
def PutOk (R : String → State → Prop) (k : String) : Option State → Prop
  | none => True
  | some s => R k s

theorem step_drawn_le (e : Env) (w : World State) (s : Step) : w.drawn ≤ (step e w s).2.drawn :=
  run_drawn_le e _ (World.wait w s.wait)

theorem exec_drawn_le (e : Env) (w : World State) (l : List Step) : w.drawn ≤ (exec e w l).drawn := by
  induction l generalizing w with
  | nil => exact Nat.le_refl _
  | cons s l ih => exact Nat.le_trans (step_drawn_le e w s) (ih _)

/-- The general write lemma of one call: all hypotheses of the per-endpoint lemmas at once. The one on sessions is needed for
calls of the token endpoint only. -/
theorem call_guar_req {R : String → State → Prop} {G : String → Option State → Prop} {D : String → Prop} {P : Provider}
    {req : Req}
    (hnone : ∀ k, G k none)
    (hO : ∀ k t subj items tx, D k → OfferItems P subj items →
      G k (some { subjectId := subj, stage := .offered { items, txCode := tx }, expiresAt := t }))
    (hP : ∀ k t subj offer, D k → G k (some { subjectId := subj, stage := .pending offer, expiresAt := t }))
    (hA : ∀ subj k t a, D k → (∀ it ∈ a.items, P.authorize subj it.configId = some it.identifiers) →
      G k (some { subjectId := some subj, stage := .authorized a, expiresAt := t }))
    (hPar : ∀ r k t t', D k → G (urn ++ k) (some { subjectId := none, stage := .pushed r t, expiresAt := t' }))
    (hV : ∀ r c s k n t items, req = .token r → R c s → D k → D n → Token.grantedItems P s r = .ok items →
      G k (some (Token.stored s k n t items)))
    (hS : ∀ c s t n x y, R c s → s.stage = .validated t → D n → G t.accessToken (some (renewed s t n x y)))
    (hN : ∀ c s t n k x y, R c s → s.stage = .validated t → D n → D k → G k (some (renewed s t n x y)))
    (hD : ∀ k t r, D k → G k (some { subjectId := none, stage := .deferred k r, expiresAt := t })) :
    Guar R G D (call P req) (fun _ => True) := by
  cases req with
  | createOffer r =>
    exact Guar.bind (createOffer_guar (fun k t i tx hk hi => hO k t _ i tx hk hi) (fun k t o hk => hP k t _ o hk))
      fun _ _ => Guar.pure trivial
  | credentialOffer r => exact Guar.bind (credentialOffer_guar (hnone _)) fun _ _ => Guar.pure trivial
  | par r => exact Guar.bind (par_guar fun k t t' hk => hPar r k t t' hk) fun _ _ => Guar.pure trivial
  | authorize r =>
    exact Guar.bind (authorize_guar (fun r k t a _ hk _ _ _ hi => hA _ k t a hk hi) (fun _ k _ _ => hnone k))
      fun _ _ => Guar.pure trivial
  | token r =>
    exact Guar.bind (token_guar (hnone _) (fun s k n _ t' items hs hk hn _ hi => hV r _ s k n t' items rfl hs hk hn hi))
      fun _ _ => Guar.pure trivial
  | credential r =>
    exact Guar.bind (credential_guar (fun s t n x y => hS _ s t n x y) (fun s t n k x y => hN _ s t n k x y)
      (fun k t => hD k t r)) fun _ _ => Guar.pure trivial
  | deferred r =>
    exact Guar.bind (deferred_guar (hnone _) (fun s t n x y => hS _ s t n x y) (fun s t n k x y => hN _ s t n k x y) hD)
      fun _ _ => Guar.pure trivial
  | notification r => exact Guar.bind (notification_guar (hnone _)) fun _ _ => Guar.pure trivial
  | register r => exact Guar.bind register_guar fun _ _ => Guar.pure trivial
  | metadata c => exact Guar.bind (Q := fun _ => True) (Guar.lift fun _ _ => trivial) fun _ _ => Guar.pure trivial
  | oauthServer c => exact Guar.bind (Q := fun _ => True) (Guar.lift fun _ _ => trivial) fun _ _ => Guar.pure trivial

/-- The same, for any request. -/
theorem call_guar {R : String → State → Prop} {G : String → Option State → Prop} {D : String → Prop} {P : Provider}
    {req : Req}
    (hnone : ∀ k, G k none)
    (hO : ∀ k t subj items tx, D k → OfferItems P subj items →
      G k (some { subjectId := subj, stage := .offered { items, txCode := tx }, expiresAt := t }))
    (hP : ∀ k t subj offer, D k → G k (some { subjectId := subj, stage := .pending offer, expiresAt := t }))
    (hA : ∀ subj k t a, D k → (∀ it ∈ a.items, P.authorize subj it.configId = some it.identifiers) →
      G k (some { subjectId := some subj, stage := .authorized a, expiresAt := t }))
    (hPar : ∀ r k t t', D k → G (urn ++ k) (some { subjectId := none, stage := .pushed r t, expiresAt := t' }))
    (hV : ∀ r c s k n t items, R c s → D k → D n → Token.grantedItems P s r = .ok items →
      G k (some (Token.stored s k n t items)))
    (hS : ∀ c s t n x y, R c s → s.stage = .validated t → D n → G t.accessToken (some (renewed s t n x y)))
    (hN : ∀ c s t n k x y, R c s → s.stage = .validated t → D n → D k → G k (some (renewed s t n x y)))
    (hD : ∀ k t r, D k → G k (some { subjectId := none, stage := .deferred k r, expiresAt := t })) :
    Guar R G D (call P req) (fun _ => True) :=
  call_guar_req hnone hO hP hA hPar (fun r c s k n t items _ => hV r c s k n t items) hS hN hD

/-! ### Keys are drawn tokens -/

/-- `x` is (or contains) one of the first `n` tokens drawn. -/
def Known (e : Env) (n : Nat) (x : String) : Prop := ∃ i, i < n ∧ (x = e.rng i ∨ x = urn ++ e.rng i)

/-- `x` is one of the first `n` tokens drawn. -/
def KnownTok (e : Env) (n : Nat) (x : String) : Prop := ∃ i, i < n ∧ x = e.rng i

/-- `s` is a grant: an offer or an authorization. -/
def State.isGrant (s : State) : Prop := (∃ o, s.stage = .offered o) ∨ ∃ a, s.stage = .authorized a

/-- Every key and every access token in the store has been drawn; no access token is the code of a grant. -/
structure Sep (e : Env) (w : World State) : Prop where
  key : ∀ k s, w.store k = some s → Known e w.drawn k
  tok : ∀ k s t, w.store k = some s → s.stage = .validated t → KnownTok e w.drawn t.accessToken
  sep : ∀ c s k s' t, w.store c = some s → s.isGrant → w.store k = some s' → s'.stage = .validated t → t.accessToken ≠ c

theorem Known.mono {e : Env} {n m : Nat} {x : String} (h : Known e n x) (hnm : n ≤ m) : Known e m x := by
  obtain ⟨i, hi, h⟩ := h; exact ⟨i, Nat.lt_of_lt_of_le hi hnm, h⟩

theorem KnownTok.mono {e : Env} {n m : Nat} {x : String} (h : KnownTok e n x) (hnm : n ≤ m) : KnownTok e m x := by
  obtain ⟨i, hi, h⟩ := h; exact ⟨i, Nat.lt_of_lt_of_le hi hnm, h⟩

/-- A token drawn later differs from everything known before. -/
theorem Known.ne_fresh {e : Env} (he : Env.Fresh e) {n i : Nat} {x : String} (h : Known e n x) (hi : n ≤ i) :
    e.rng i ≠ x := by
  obtain ⟨j, hj, rfl | rfl⟩ := h
  · intro h; have := he.inj _ _ h; omega
  · exact he.noUrn i j

theorem KnownTok.ne_fresh {e : Env} (he : Env.Fresh e) {n i : Nat} {x : String} (h : KnownTok e n x) (hi : n ≤ i) :
    e.rng i ≠ x := by
  obtain ⟨j, hj, rfl⟩ := h
  intro h; have := he.inj _ _ h; omega

theorem urn_append_inj {a b : String} (h : urn ++ a = urn ++ b) : a = b := by
  have := congrArg String.toList h
  simp only [String.toList_append, List.append_cancel_left_eq] at this
  exact String.toList_inj.1 this

theorem Known.ne_fresh_urn {e : Env} (he : Env.Fresh e) {n i : Nat} {x : String} (h : Known e n x) (hi : n ≤ i) :
    urn ++ e.rng i ≠ x := by
  obtain ⟨j, hj, rfl | rfl⟩ := h
  · exact fun h => he.noUrn j i h.symm
  · intro h; have := he.inj _ _ (urn_append_inj h); omega

/-- Tokens drawn by a run. -/
def Drawn (e : Env) (a b : Nat) (x : String) : Prop := ∃ i, a ≤ i ∧ i < b ∧ x = e.rng i

theorem run_drawn_hyp {e : Env} {α : Type} {p : IProg α} {w : World State} (n : Nat) (h1 : w.drawn ≤ n)
    (h2 : n < (p.run e w).2.drawn) : Drawn e w.drawn (p.run e w).2.drawn (e.rng n) := ⟨n, h1, h2, rfl⟩

theorem step_known {e : Env} {w : World State} (s : Step)
    (hk : ∀ k v, w.store k = some v → Known e w.drawn k ∧ ∀ t, v.stage = .validated t → KnownTok e w.drawn t.accessToken) :
    ∀ k v, (step e w s).2.store k = some v →
      Known e (step e w s).2.drawn k ∧ ∀ t, v.stage = .validated t → KnownTok e (step e w s).2.drawn t.accessToken := by
  have hle := step_drawn_le e w s
  let b := (step e w s).2.drawn
  let R : String → State → Prop := fun k v =>
    Known e b k ∧ ∀ t, v.stage = .validated t → KnownTok e b t.accessToken
  have hD : ∀ x, Drawn e w.drawn b x → KnownTok e b x := fun x ⟨i, _, h, hx⟩ => ⟨i, h, hx⟩
  have hD' : ∀ x, Drawn e w.drawn b x → Known e b x := fun x ⟨i, _, h, hx⟩ => ⟨i, h, .inl hx⟩
  have hg : Guar R (PutOk R) (Drawn e w.drawn b) (call s.provider s.req) (fun _ => True) := by
    refine call_guar ?_ ?_ ?_ ?_ ?_ ?_ ?_ ?_ ?_
    · intro k; trivial
    · rintro k t subj items tx hd _; exact ⟨hD' _ hd, fun _ h => by cases h⟩
    · rintro k t subj items hd; exact ⟨hD' _ hd, fun _ h => by cases h⟩
    · rintro k t subj items hd _; exact ⟨hD' _ (by assumption), fun _ h => by cases h⟩
    · rintro r k t _ ⟨i, _, h, rfl⟩; exact ⟨⟨i, h, .inr rfl⟩, fun _ h => by cases h⟩
    · rintro r c s k n t items _ hd _ _
      exact ⟨hD' _ hd, fun t h => by cases h; exact hD _ hd⟩
    · rintro c s t n x y hr hs _
      have := hr.2 t hs
      refine ⟨?_, fun t' h => by cases h; exact this⟩
      obtain ⟨i, h, hi⟩ := this; exact ⟨i, h, .inl hi⟩
    · rintro c s t n k x y hr hs _ hd
      exact ⟨hD' _ hd, fun t' h => by cases h; exact hr.2 t hs⟩
    · rintro k t r hd; exact ⟨hD' _ hd, fun _ h => by cases h⟩
  have := (Guar.run (e := e) (w := World.wait w s.wait) hg
    (fun k v h => ⟨(hk k v h).1.mono hle, fun t ht => ((hk k v h).2 t ht).mono hle⟩)
    (fun k v h => h) (fun n h1 h2 => ⟨n, h1, h2, rfl⟩)).1
  exact this

/-- Requests that may create grants. -/
def Req.isGranting : Req → Bool
  | .createOffer _ | .authorize _ => true
  | _ => false

/-- Granting endpoints write no access token state. -/
theorem granting_no_validated {e : Env} {w : World State} (s : Step) (h : s.req.isGranting = true) (k : String)
    (v : State) (hv : (step e w s).2.store k = some v) (t : Token) (ht : v.stage = .validated t) : w.store k = some v := by
  let R : String → State → Prop := fun k v => (∃ t, v.stage = .validated t) → w.store k = some v
  have hg : Guar R (PutOk R) (fun _ => True) (call s.provider s.req) (fun _ => True) := by
    cases hr : s.req with
    | createOffer r =>
      refine Guar.bind (createOffer_guar ?_ ?_) fun _ _ => Guar.pure trivial
      · rintro k t items tx _ _ ⟨t, ht⟩; cases ht
      · rintro k t items _ ⟨t, ht⟩; cases ht
    | authorize r =>
      refine Guar.bind (authorize_guar ?_ ?_) fun _ _ => Guar.pure trivial
      · rintro r k t a _ _ _ _ _ _ ⟨t, ht⟩; cases ht
      · rintro r k _ _; trivial
    | _ => simp [hr, Req.isGranting] at h
  exact (Guar.run (e := e) (w := World.wait w s.wait) hg (fun k v hw _ => hw) (fun k v h => h)
    (fun _ _ _ => trivial)).1 k v hv ⟨t, ht⟩

/-- Grants only appear at freshly drawn keys. -/
theorem grant_fresh {e : Env} {w : World State} (s : Step) (k : String) (v : State)
    (hv : (step e w s).2.store k = some v) (hgr : v.isGrant) :
    w.store k = some v ∨ Drawn e w.drawn (step e w s).2.drawn k := by
  let D := Drawn e w.drawn (step e w s).2.drawn
  let R : String → State → Prop := fun k v => v.isGrant → w.store k = some v ∨ D k
  have hg : Guar R (PutOk R) D (call s.provider s.req) (fun _ => True) := by
    refine call_guar ?_ ?_ ?_ ?_ ?_ ?_ ?_ ?_ ?_
    · intro k; trivial
    · rintro k t subj items tx hd _  _; exact .inr hd
    · rintro k t subj items hd  _; exact .inr hd
    · rintro subj k t a hd _  _; exact .inr hd
    · rintro r k t _ _ (⟨_, h⟩ | ⟨_, h⟩) <;> cases h
    · rintro r c s k n t items _ _ _ _ (⟨_, h⟩ | ⟨_, h⟩) <;> cases h
    · rintro c s t n x y hr hs _ (⟨_, h⟩ | ⟨_, h⟩) <;> cases h
    · rintro c s t n k x y hr hs _ hd (⟨_, h⟩ | ⟨_, h⟩) <;> cases h
    · rintro k t r hd (⟨_, h⟩ | ⟨_, h⟩) <;> cases h
  exact (Guar.run (e := e) (w := World.wait w s.wait) hg (fun k v hw _ => .inl hw) (fun k v h => h)
    (fun n h1 h2 => ⟨n, h1, h2, rfl⟩)).1 k v hv hgr

/-- Other endpoints write no grant. -/
theorem nongranting_no_grant {e : Env} {w : World State} (s : Step) (h : s.req.isGranting = false) (k : String)
    (v : State) (hv : (step e w s).2.store k = some v) (hgr : v.isGrant) : w.store k = some v := by
  let R : String → State → Prop := fun k v => v.isGrant → w.store k = some v
  have hg : Guar R (PutOk R) (fun _ => True) (call s.provider s.req) (fun _ => True) := by
    have hS : ∀ s t n x y k, R k (renewed s t n x y) := by
      rintro s t n x y k (⟨_, h⟩ | ⟨_, h⟩) <;> cases h
    have hDf : ∀ k t r, R k { subjectId := none, stage := .deferred k r, expiresAt := t } := by
      rintro k t r (⟨_, h⟩ | ⟨_, h⟩) <;> cases h
    cases hr : s.req with
    | createOffer r => simp [hr, Req.isGranting] at h
    | authorize r => simp [hr, Req.isGranting] at h
    | credentialOffer r =>
      exact Guar.bind (credentialOffer_guar trivial) fun _ _ => Guar.pure trivial
    | par r =>
      refine Guar.bind (par_guar ?_) fun _ _ => Guar.pure trivial
      rintro k t _ _ (⟨_, h⟩ | ⟨_, h⟩) <;> cases h
    | token r =>
      refine Guar.bind (token_guar trivial ?_) fun _ _ => Guar.pure trivial
      rintro s k n t t' items _ _ _ _ _ (⟨_, h⟩ | ⟨_, h⟩) <;> cases h
    | credential r =>
      exact Guar.bind (credential_guar (fun s t n x y _ _ _ => hS s t n x y _) (fun s t n k x y _ _ _ _ => hS s t n x y k)
        (fun k t _ => hDf k t r)) fun _ _ => Guar.pure trivial
    | deferred r =>
      exact Guar.bind (deferred_guar trivial (fun s t n x y _ _ _ => hS s t n x y _)
        (fun s t n k x y _ _ _ _ => hS s t n x y k) (fun k t r _ => hDf k t r)) fun _ _ => Guar.pure trivial
    | notification r => exact Guar.bind (notification_guar trivial) fun _ _ => Guar.pure trivial
    | register r => exact Guar.bind register_guar fun _ _ => Guar.pure trivial
    | metadata c => exact Guar.bind (Q := fun _ => True) (Guar.lift fun _ _ => trivial) fun _ _ => Guar.pure trivial
    | oauthServer c => exact Guar.bind (Q := fun _ => True) (Guar.lift fun _ _ => trivial) fun _ _ => Guar.pure trivial
  exact (Guar.run (e := e) (w := World.wait w s.wait) hg (fun k v hw _ => hw) (fun k v h => h)
    (fun _ _ _ => trivial)).1 k v hv hgr

/-- Access tokens in the store are old or freshly drawn. -/
theorem token_old_or_fresh {e : Env} {w : World State} (s : Step) (k : String) (v : State)
    (hv : (step e w s).2.store k = some v) (t : Token) (ht : v.stage = .validated t) :
    (∃ k0 v0 t0, w.store k0 = some v0 ∧ v0.stage = .validated t0 ∧ t.accessToken = t0.accessToken) ∨
    Drawn e w.drawn (step e w s).2.drawn t.accessToken := by
  let D := Drawn e w.drawn (step e w s).2.drawn
  let R : String → State → Prop := fun k v => ∀ t, v.stage = .validated t →
    (∃ k0 v0 t0, w.store k0 = some v0 ∧ v0.stage = .validated t0 ∧ t.accessToken = t0.accessToken) ∨ D t.accessToken
  have hg : Guar R (PutOk R) D (call s.provider s.req) (fun _ => True) := by
    refine call_guar ?_ ?_ ?_ ?_ ?_ ?_ ?_ ?_ ?_
    · intro k; trivial
    · rintro k t subj items tx hd _ _ h; cases h
    · rintro k t subj items hd _ h; cases h
    · rintro subj k t a hd _ _ h; cases h
    · rintro r k t _ _ _ h; cases h
    · rintro r c s k n t items _ hd _ _ _ h; cases h; exact .inr hd
    · rintro c s t n x y hr hs _ _ h; cases h; exact hr t hs
    · rintro c s t n k x y hr hs _ hd _ h; cases h; exact hr t hs
    · rintro k t r hd _ h; cases h
  exact (Guar.run (e := e) (w := World.wait w s.wait) hg (fun k v hw t ht => .inl ⟨k, v, t, hw, ht, rfl⟩)
    (fun k v h => h) (fun n h1 h2 => ⟨n, h1, h2, rfl⟩)).1 k v hv t ht

theorem Sep.step {e : Env} (he : Env.Fresh e) {w : World State} (h : Sep e w) (s : Step) : Sep e (Issuer.step e w s).2 := by
  have hk := step_known s (fun k v hv => ⟨h.key k v hv, fun t ht => h.tok k v t hv ht⟩)
  refine ⟨fun k v hv => (hk k v hv).1, fun k v t hv ht => (hk k v hv).2 t ht, ?_⟩
  intro c v k v' t hv hgr hv' ht heq
  cases hg : s.req.isGranting with
  | true =>
    have hold := granting_no_validated s hg k v' hv' t ht
    rcases grant_fresh s c v hv hgr with hc | ⟨i, hi, _, rfl⟩
    · exact h.sep c v k v' t hc hgr hold ht heq
    · exact (h.tok k v' t hold ht).ne_fresh he hi heq.symm
  | false =>
    have hold := nongranting_no_grant s hg c v hv hgr
    rcases token_old_or_fresh s k v' hv' t ht with ⟨k0, v0, t0, h0, ht0, h1⟩ | ⟨i, hi, _, h1⟩
    · exact h.sep c v k0 v0 t0 hold hgr h0 ht0 (h1 ▸ heq)
    · exact (h.key c v hold).ne_fresh he hi (h1 ▸ heq)

theorem Reachable.sep {e : Env} (he : Env.Fresh e) {w : World State} (h : Reachable e w) : Sep e w := by
  refine Reachable.induct (I := Sep e) ?_ (fun w s hw => hw.step he s) h
  intro t
  exact ⟨fun k s h => (by cases h), fun k s t h => (by cases h), fun c s k s' t h => (by cases h)⟩

/-! ### Spent codes stay spent -/

/-- Code `c` is not in the store, is no access token, and will not be drawn again. -/
structure Spent (e : Env) (c : String) (w : World State) : Prop where
  gone : w.store c = none
  notTok : ∀ k s t, w.store k = some s → s.stage = .validated t → t.accessToken ≠ c
  known : Known e w.drawn c

theorem Spent.step {e : Env} (he : Env.Fresh e) {c : String} {w : World State} (h : Spent e c w) (s : Step) :
    Spent e c (Issuer.step e w s).2 := by
  let R : String → State → Prop := fun k v => k ≠ c ∧ ∀ t, v.stage = .validated t → t.accessToken ≠ c
  let D : String → Prop := fun x => x ≠ c ∧ urn ++ x ≠ c
  have hg : Guar R (PutOk R) D (call s.provider s.req) (fun _ => True) := by
    refine call_guar ?_ ?_ ?_ ?_ ?_ ?_ ?_ ?_ ?_
    · intro k; trivial
    · rintro k t subj items tx hd _; exact ⟨hd.1, fun _ h => by cases h⟩
    · rintro k t subj items hd; exact ⟨hd.1, fun _ h => by cases h⟩
    · rintro subj k t a hd _; exact ⟨hd.1, fun _ h => by cases h⟩
    · rintro r k t _ hd; exact ⟨hd.2, fun _ h => by cases h⟩
    · rintro r c s k n t items _ hd _ _; exact ⟨hd.1, fun _ h => by cases h; exact hd.1⟩
    · rintro c s t n x y hr hs _; exact ⟨hr.2 t hs, fun _ h => by cases h; exact hr.2 t hs⟩
    · rintro c s t n k x y hr hs _ hd; exact ⟨hd.1, fun _ h => by cases h; exact hr.2 t hs⟩
    · rintro k t r hd; exact ⟨hd.1, fun _ h => by cases h⟩
  have hr := (Guar.run (e := e) (w := World.wait w s.wait) hg
    (fun k v hw => ⟨fun hkc => (by rw [hkc, show (World.wait w s.wait).store c = none from h.gone] at hw; cases hw),
      fun t ht => h.notTok k v t hw ht⟩)
    (fun k v h => h)
    (fun n h1 _ => ⟨h.known.ne_fresh he h1, h.known.ne_fresh_urn he h1⟩)).1
  refine ⟨?_, fun k v t hv ht => (hr k v hv).2 t ht, h.known.mono (step_drawn_le e w s)⟩
  cases hc : (Issuer.step e w s).2.store c with
  | none => rfl
  | some v => exact absurd rfl (hr c v hc).1

theorem Spent.exec {e : Env} (he : Env.Fresh e) {c : String} {w : World State} (h : Spent e c w) (l : List Step) :
    Spent e c (Issuer.exec e w l) := exec_inv (I := Spent e c) (fun _ s hw => hw.step he s) h l

end Verif.Issuer
