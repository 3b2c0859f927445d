import Verif.Issuer.EndToEnd
/-!
# What the endpoints write, with the time of writing

`Prog.Guar` says nothing about the clock. `Prog.TGuar` is the same judgement with an assumption `T` on every reading of it.
-/
namespace Verif
namespace Prog
variable {V α β : Type}

/-- As `Guar`, with every reading of the clock satisfying `T`. -/
def TGuar (R : String → V → Prop) (G : String → Option V → Prop) (D : String → Prop) (T : Int → Prop) :
    Prog V α → (α → Prop) → Prop
  | ret (.ok a), Q => Q a
  | ret (.error _), _ => True
  | get k c, Q => ∀ o, (∀ v, o = some v → R k v) → TGuar R G D T (c o) Q
  | put k v c, Q => G k (some v) ∧ ∀ b, TGuar R G D T (c b) Q
  | purge k c, Q => G k none ∧ ∀ b, TGuar R G D T (c b) Q
  | draw c, Q => ∀ s, D s → TGuar R G D T (c s) Q
  | now c, Q => ∀ t, T t → TGuar R G D T (c t) Q

variable {R : String → V → Prop} {G : String → Option V → Prop} {D : String → Prop} {T : Int → Prop}

theorem TGuar.of {p : Prog V α} {Q : α → Prop} (h : Guar R G D p Q) : TGuar R G D T p Q := by
  induction p with
  | ret r => cases r with
    | ok a => exact h
    | error x => exact True.intro
  | get k c ih => exact fun o ho => ih o (h o ho)
  | put k v c ih => exact ⟨h.1, fun b => ih b (h.2 b)⟩
  | purge k c ih => exact ⟨h.1, fun b => ih b (h.2 b)⟩
  | draw c ih => exact fun s hs => ih s (h s hs)
  | now c ih => exact fun t _ => ih t (h t)

theorem TGuar.bind {p : Prog V α} {f : α → Prog V β} {Q : α → Prop} {Q' : β → Prop}
    (h : TGuar R G D T p Q) (hf : ∀ a, Q a → TGuar R G D T (f a) Q') : TGuar R G D T (p >>= f) Q' := by
  show TGuar R G D T (p.bind f) Q'
  induction p with
  | ret r =>
    cases r with
    | ok a => exact hf a h
    | error x => exact True.intro
  | get k c ih => exact fun o ho => ih o (h o ho)
  | put k v c ih => exact ⟨h.1, fun b => ih b (h.2 b)⟩
  | purge k c ih => exact ⟨h.1, fun b => ih b (h.2 b)⟩
  | draw c ih => exact fun s hs => ih s (h s hs)
  | now c ih => exact fun t ht => ih t (h t ht)

theorem TGuar.nowE {Q : Int → Prop} (h : ∀ t, T t → Q t) : TGuar R G D T (Prog.nowE : Prog V Int) Q := fun t ht => h t ht

theorem TGuar.lift {r : Res α} {Q : α → Prop} (h : ∀ a, r = .ok a → Q a) : TGuar R G D T (Prog.lift r) Q := TGuar.of (Guar.lift h)
theorem TGuar.pure {a : α} {Q : α → Prop} (h : Q a) : TGuar R G D T (Pure.pure a : Prog V α) Q := h
theorem TGuar.getE {k : String} {e : Err} {Q : V → Prop} (h : ∀ v, R k v → Q v) : TGuar R G D T (Prog.getE k e) Q :=
  TGuar.of (Guar.getE h)
theorem TGuar.putE {k : String} {v : V} {e : Err} {Q : Unit → Prop} (h : G k (some v)) (hq : Q ()) :
    TGuar R G D T (Prog.putE k v e) Q := TGuar.of (Guar.putE h hq)
theorem TGuar.purgeE {k : String} {e : Err} {Q : Unit → Prop} (h : G k none) (hq : Q ()) :
    TGuar R G D T (Prog.purgeE k e) Q := TGuar.of (Guar.purgeE h hq)
theorem TGuar.drawE {Q : String → Prop} (h : ∀ s, D s → Q s) : TGuar R G D T (Prog.drawE : Prog V String) Q := fun s hs => h s hs

/-- Sequential soundness. -/
theorem TGuar.run {e : Env} {p : Prog V α} {Q : α → Prop} {w : World V}
    (h : TGuar R G D T p Q) (hR : ∀ k v, w.store k = some v → R k v) (hG : ∀ k v, G k (some v) → R k v)
    (hD : ∀ n, w.drawn ≤ n → n < (p.run e w).2.drawn → D (e.rng n)) (hT : T w.now) :
    (∀ k v, (p.run e w).2.store k = some v → R k v) ∧ (∀ a, (p.run e w).1 = .ok a → Q a) := by
  induction p generalizing w with
  | ret r =>
    refine ⟨hR, ?_⟩
    intro a ha
    simp only [Prog.run] at ha
    subst ha; exact h
  | get k c ih =>
    exact ih _ (w := { w with ops := w.ops + 1 }) (h _ fun v hv => hR k v (getRes_some hv)) hR hD hT
  | put k v c ih =>
    refine ih _ (w := { w with store := writeRes (e.fault w.ops) w.store k (some v), ops := w.ops + 1 })
      (h.2 (decide (e.fault w.ops = .ok))) ?_ hD hT
    intro k' v' hv
    rcases writeRes_eq (f := e.fault w.ops) (s := w.store) (k := k) (k' := k') (v := some v) with hw | ⟨hk, hw⟩
    · exact hR _ _ (hw ▸ hv)
    · simp only [hw] at hv; cases hv; subst hk; exact hG _ _ h.1
  | purge k c ih =>
    refine ih _ (w := { w with store := writeRes (e.fault w.ops) w.store k none, ops := w.ops + 1 })
      (h.2 (decide (e.fault w.ops = .ok))) ?_ hD hT
    intro k' v' hv
    rcases writeRes_eq (f := e.fault w.ops) (s := w.store) (k := k) (k' := k') (v := none) with hw | ⟨hk, hw⟩
    · exact hR _ _ (hw ▸ hv)
    · simp only [hw] at hv; cases hv
  | draw c ih =>
    have hlt : w.drawn < ((draw c).run e w).2.drawn :=
      run_drawn_le e (c (e.rng w.drawn)) { w with drawn := w.drawn + 1 }
    exact ih _ (w := { w with drawn := w.drawn + 1 }) (h _ (hD _ (Nat.le_refl _) hlt)) hR
      (fun n hn hn' => hD n (Nat.le_of_succ_le hn) hn') hT
  | now c ih => exact ih _ (h w.now hT) hR hD hT

end Prog

namespace Issuer
open Prog

variable {R : String → State → Prop} {G : String → Option State → Prop} {D : String → Prop} {T : Int → Prop}

/-- The session `s` of token data `t` is usable at `now`: neither it nor its nonce has expired. -/
def Usable (s : State) (t : Token) (now : Int) : Prop := now < s.expiresAt + sec ∧ now < t.cNonceExpiresAt + sec

theorem usable_iff {s : State} {t : Token} {now : Int} :
    Usable s t now ↔ s.isExpired now = false ∧ t.cNonceExpired now = false := by
  have h1 : t.cNonceExpired now = false ↔ now < t.cNonceExpiresAt + sec := by
    have := cNonceExpired_iff t now
    cases h : t.cNonceExpired now <;> simp_all <;> omega
  rw [h1, isExpired_false_iff]; rfl

/-- Two readings of the clock, one for each check, show that the session was usable at the earlier of them. -/
theorem usable_min {T : Int → Prop} {s : State} {t : Token} {a b : Int} (ha : T a) (hb : T b) (hx : s.isExpired a = false)
    (hn : t.cNonceExpired b = false) : ∃ now, T now ∧ Usable s t now := by
  have h1 := (isExpired_false_iff ..).1 hx
  have h2 : b < t.cNonceExpiresAt + sec := by
    have := cNonceExpired_iff t b
    cases h : t.cNonceExpired b <;> simp_all <;> omega
  by_cases hab : a ≤ b
  · exact ⟨a, ha, h1, by omega⟩
  · exact ⟨b, hb, show _ ∧ _ from ⟨by omega, h2⟩⟩

theorem Credential.invalidProof_tguar {α : Type} {s : State} {hint : String} {Q : α → Prop}
    (hS : ∀ t n x y, s.stage = .validated t → D n → T x → T y →
      G t.accessToken (some (renewed s t n (x + accessDur) (y + nonceDur)))) :
    TGuar R G D T (Credential.invalidProof s hint : IProg α) Q := by
  unfold Credential.invalidProof
  refine TGuar.bind (Q := fun s => D s) (TGuar.drawE fun _ h => h) fun n hn => ?_
  refine TGuar.bind (Q := T) (TGuar.nowE fun _ h => h) fun t' ht' => ?_
  split
  · rename_i t ht
    refine TGuar.bind (Q := T) (TGuar.nowE fun _ h => h) fun y hy => ?_
    exact TGuar.bind (Q := fun _ => True) (TGuar.putE (hS t n _ _ ht hn ht' hy) trivial) fun _ _ => TGuar.lift fun _ h => by cases h
  · exact TGuar.lift fun _ h => by cases h

/-- The writes of the credential endpoint: only for sessions that were usable at some time at which the clock was read. -/
theorem credential_tguar {P : Provider} {req : CredentialRequest}
    (hS : ∀ s t n now x y, R req.accessToken s → s.stage = .validated t → T now → Usable s t now → T x → T y → D n →
      G t.accessToken (some (renewed s t n (x + accessDur) (y + nonceDur))))
    (hN : ∀ s t n k now x y, R req.accessToken s → s.stage = .validated t → T now → Usable s t now → T x → T y → D n → D k →
      G k (some (renewed s t n (x + accessDur) (y + nonceDur))))
    (hD : ∀ k t, D k → T t → G k (some { subjectId := none, stage := .deferred k req, expiresAt := t + accessDur })) :
    TGuar R G D T (credential P req) (fun _ => ∃ s t now, R req.accessToken s ∧ s.stage = .validated t ∧ T now ∧ Usable s t now) := by
  unfold credential
  refine TGuar.bind (Q := fun s => R req.accessToken s) (TGuar.getE fun _ h => h) fun s hs => ?_
  refine TGuar.bind (Q := fun ctx => Credential.context P s req = .ok ctx) (TGuar.lift fun _ h => h) fun ctx hctx => ?_
  have hst : ctx.state = s := (Credential.context_ok.1 hctx).1
  refine TGuar.bind (Q := fun _ => ∃ t now, s.stage = .validated t ∧ T now ∧ Usable s t now) ?_ fun did hdid => ?_
  · unfold Credential.verify
    refine TGuar.bind (Q := T) (TGuar.nowE fun _ h => h) fun now₁ hnow₁ => ?_
    refine TGuar.bind (Q := fun _ => s.isExpired now₁ = false) (TGuar.lift fun _ h => by simpa [hst] using h) fun _ hx => ?_
    rw [hst]
    split
    · rename_i t ht
      refine TGuar.bind (Q := T) (TGuar.nowE fun _ h => h) fun now₂ hnow₂ => ?_
      refine TGuar.bind (Q := fun _ => t.cNonceExpired now₂ = false) (TGuar.lift fun _ h => by simpa using h) fun _ hn => ?_
      obtain ⟨now, hnow, hu⟩ := usable_min hnow₁ hnow₂ hx hn
      have hinv : ∀ hint, TGuar R G D T (Credential.invalidProof (α := String) s hint)
          (fun _ => ∃ t now, s.stage = .validated t ∧ T now ∧ Usable s t now) := fun hint =>
        Credential.invalidProof_tguar fun t' n x y ht' hn' hx hy => by
          rw [ht] at ht'; cases ht'; exact hS s t n now x y hs ht hnow hu hx hy hn'
      split
      · exact TGuar.pure ⟨t, now, ht, hnow, hu⟩
      · split
        · exact hinv _
        · refine TGuar.bind (Q := fun _ => True) (TGuar.lift fun _ _ => trivial) fun _ _ => ?_
          split
          · exact hinv _
          · exact TGuar.pure ⟨t, now, ht, hnow, hu⟩
    · exact TGuar.lift fun _ h => by cases h
  obtain ⟨t, now, ht, hnow, hu⟩ := hdid
  unfold Credential.process
  refine TGuar.bind (Q := fun _ => True) (TGuar.lift fun _ _ => trivial) fun ds _ => ?_
  split
  · unfold Credential.deferResponse
    refine TGuar.bind (Q := fun s => D s) (TGuar.drawE fun _ h => h) fun k hk => ?_
    refine TGuar.bind (Q := T) (TGuar.nowE fun _ h => h) fun t' ht' => ?_
    refine TGuar.bind (Q := fun _ => True) (TGuar.putE (hD k _ hk ht') trivial) fun _ _ => ?_
    exact TGuar.pure ⟨s, t, now, hs, ht, hnow, hu⟩
  · unfold Credential.issueResponse
    refine TGuar.bind (Q := T) (TGuar.nowE fun _ h => h) fun t' ht' => ?_
    refine TGuar.bind (Q := fun _ => True) (TGuar.lift fun _ _ => trivial) fun c _ => ?_
    refine TGuar.bind (Q := T) (TGuar.nowE fun _ h => h) fun x hx => ?_
    rw [hst, ht]
    refine TGuar.bind (Q := fun s => D s) (TGuar.drawE fun _ h => h) fun n hn => ?_
    refine TGuar.bind (Q := T) (TGuar.nowE fun _ h => h) fun y hy => ?_
    refine TGuar.bind (Q := fun _ => True) (TGuar.putE (hS s t n now x y hs ht hnow hu hx hy hn) trivial) fun _ _ => ?_
    refine TGuar.bind (Q := fun s => D s) (TGuar.drawE fun _ h => h) fun k hk => ?_
    refine TGuar.bind (Q := fun _ => True) (TGuar.putE (hN s t n k now x y hs ht hnow hu hx hy hn hk) trivial) fun _ _ => ?_
    refine TGuar.bind (Q := fun _ => True) (TGuar.nowE fun _ _ => trivial) fun _ _ => ?_
    exact TGuar.pure ⟨s, t, now, hs, ht, hnow, hu⟩

theorem deferred_tguar {P : Provider} {req : DeferredRequest} (hG : G req.transactionId none)
    (hS : ∀ s t n now x y, R req.accessToken s → s.stage = .validated t → T now → Usable s t now → T x → T y → D n →
      G t.accessToken (some (renewed s t n (x + accessDur) (y + nonceDur))))
    (hN : ∀ s t n k now x y, R req.accessToken s → s.stage = .validated t → T now → Usable s t now → T x → T y → D n → D k →
      G k (some (renewed s t n (x + accessDur) (y + nonceDur))))
    (hD : ∀ k t r, D k → T t → G k (some { subjectId := none, stage := .deferred k r, expiresAt := t + accessDur })) :
    TGuar R G D T (deferred P req) (fun _ => ∃ s t now, R req.accessToken s ∧ s.stage = .validated t ∧ T now ∧ Usable s t now) := by
  unfold deferred
  refine TGuar.bind (Q := fun _ => True) (TGuar.getE fun _ _ => trivial) fun d hd => ?_
  refine TGuar.bind (Q := fun _ => True) (TGuar.nowE fun _ _ => trivial) fun t _ => ?_
  refine TGuar.bind (Q := fun _ => True) (TGuar.lift fun _ _ => trivial) fun _ _ => ?_
  refine TGuar.bind (Q := fun _ => True) (TGuar.lift fun _ _ => trivial) fun r _ => ?_
  refine TGuar.bind (Q := fun _ => True) (TGuar.purgeE hG trivial) fun _ _ => ?_
  refine TGuar.bind (credential_tguar hS hN (fun k t => hD k t _)) fun resp hresp => ?_
  split
  · exact TGuar.lift fun _ h => by cases h
  · exact TGuar.pure hresp

theorem token_tguar {P : Provider} {req : TokenRequest} (hG : G req.grantType.code none)
    (hV : ∀ s k n now items, R req.grantType.code s → D k → D n → T now → G k (some (Token.stored s k n now items))) :
    TGuar R G D T (token P req) (fun _ => True) := by
  unfold token
  refine TGuar.bind (Q := fun s => R req.grantType.code s) (TGuar.getE fun _ h => h) fun s hs => ?_
  refine TGuar.bind (Q := fun _ => True) (TGuar.purgeE hG trivial) fun _ _ => ?_
  refine TGuar.bind (Q := fun _ => True) (TGuar.nowE fun _ _ => trivial) fun t _ => ?_
  refine TGuar.bind (Q := fun _ => True) (TGuar.lift fun _ _ => trivial) fun _ hv => ?_
  unfold Token.process
  refine TGuar.bind (Q := fun _ => True) (TGuar.lift fun _ _ => trivial) fun items hi => ?_
  refine TGuar.bind (Q := fun s => D s) (TGuar.drawE fun _ h => h) fun k hk => ?_
  refine TGuar.bind (Q := fun s => D s) (TGuar.drawE fun _ h => h) fun n hn => ?_
  refine TGuar.bind (Q := T) (TGuar.nowE fun _ h => h) fun t' ht' => ?_
  exact TGuar.bind (Q := fun _ => True) (TGuar.putE (hV s k n t' items hs hk hn ht') trivial) fun _ _ => TGuar.pure trivial

/-- The access token a request presents as its authority to be issued a credential. -/
def Req.bearer : Req → Option String
  | .credential r => some r.accessToken
  | .deferred r => some r.accessToken
  | _ => none

/-- The session writes of any call. -/
theorem call_tguar {P : Provider} {req : Req} (hnone : ∀ k, G k none)
    (hO : ∀ k v, (∀ t, v.stage ≠ .validated t) → G k (some v))
    (hV : ∀ c s k n now items, R c s → D k → D n → T now → G k (some (Token.stored s k n now items)))
    (hS : ∀ c s t n k now x y, req.bearer = some c → R c s → s.stage = .validated t → T now → Usable s t now → T x → T y →
      D n → k = t.accessToken ∨ D k → G k (some (renewed s t n (x + accessDur) (y + nonceDur)))) :
    TGuar R G D T (call P req) (fun _ => True) := by
  cases req with
  | credential r =>
    exact TGuar.bind (credential_tguar (fun s t n a x y h1 h2 h3 h4 h5 h5' h6 => hS r.accessToken s t n _ a x y rfl h1 h2 h3 h4 h5 h5' h6 (.inl rfl))
      (fun s t n c a x y h1 h2 h3 h4 h5 h5' h6 h7 => hS r.accessToken s t n _ a x y rfl h1 h2 h3 h4 h5 h5' h6 (.inr h7))
      (fun c t _ _ => hO c _ nofun)) fun _ _ => TGuar.pure trivial
  | deferred r =>
    exact TGuar.bind (deferred_tguar (hnone _)
      (fun s t n a x y h1 h2 h3 h4 h5 h5' h6 => hS r.accessToken s t n _ a x y rfl h1 h2 h3 h4 h5 h5' h6 (.inl rfl))
      (fun s t n c a x y h1 h2 h3 h4 h5 h5' h6 h7 => hS r.accessToken s t n _ a x y rfl h1 h2 h3 h4 h5 h5' h6 (.inr h7))
      (fun c t r' _ _ => hO c _ nofun)) fun _ _ => TGuar.pure trivial
  | createOffer r =>
    exact TGuar.of (Guar.bind (createOffer_guar (fun k t i tx hk hi => hO k _ nofun) (fun k t o hk => hO k _ nofun))
      fun _ _ => Guar.pure trivial)
  | credentialOffer r => exact TGuar.of (Guar.bind (credentialOffer_guar (hnone _)) fun _ _ => Guar.pure trivial)
  | par r => exact TGuar.of (Guar.bind (par_guar fun k t _ hk => hO _ _ nofun) fun _ _ => Guar.pure trivial)
  | authorize r =>
    exact TGuar.of (Guar.bind (authorize_guar (fun r k t a _ hk _ _ _ hi => hO k _ nofun) (fun _ k _ _ => hnone k))
      fun _ _ => Guar.pure trivial)
  | token r =>
    exact TGuar.bind (token_tguar (hnone _) (fun s k n t items hs hk hn ht => hV _ s k n t items hs hk hn ht))
      fun _ _ => TGuar.pure trivial
  | notification r => exact TGuar.of (Guar.bind (notification_guar (hnone _)) fun _ _ => Guar.pure trivial)
  | register r => exact TGuar.of (Guar.bind register_guar fun _ _ => Guar.pure trivial)
  | metadata c => exact TGuar.bind (Q := fun _ => True) (TGuar.lift fun _ _ => trivial) fun _ _ => TGuar.pure trivial
  | oauthServer c => exact TGuar.bind (Q := fun _ => True) (TGuar.lift fun _ _ => trivial) fun _ _ => TGuar.pure trivial

/-! ### Specification -/

/-- Every record of the session of access token `k` has expired, or its nonce has. (There may be several records: one under the token
itself and one under each notification id.) -/
def Lapsed (k : String) (w : World State) : Prop :=
  ∀ c s t, Session w c s t → t.accessToken = k → ¬ Usable s t w.now

/-- The call presents a bearer token of the session of access token `k`. -/
def Uses (k : String) (w : World State) (st : Step) : Prop :=
  ∃ c s t, st.req.bearer = some c ∧ Session w c s t ∧ t.accessToken = k

/-- No call of the history uses the session of `k`. -/
def Idle (e : Env) (k : String) (w : World State) : List Step → Prop
  | [] => True
  | s :: rest => ¬ Uses k w s ∧ Idle e k (step e w s).2 rest

/-- The call was served, or was refused with a new nonce to try again with. -/
def Gains {α : Type} (r : Res α) : Prop := (∃ a, r = .ok a) ∨ ∃ hint n exp, r = .error (.invalidProof hint n exp)

/-! ### Invariants -/

theorem Lapsed.step {e : Env} (he : Env.Fresh e) {k : String} {w : World State} (hk : KnownTok e w.drawn k) (h : Lapsed k w)
    (s : Step) : Lapsed k (Issuer.step e w s).2 := by
  let now := w.now + s.wait
  let R : String → State → Prop := fun _ v => ∀ t, v.stage = .validated t → t.accessToken = k → ¬ Usable v t now
  have hR : ∀ c v, (World.wait w s.wait).store c = some v → R c v := by
    intro c v hv t ht hkt hu
    refine h c v t ⟨hv, ht⟩ hkt ⟨?_, ?_⟩
    · have := hu.1; simp only [now] at this; omega
    · have := hu.2; simp only [now] at this; omega
  have hg : TGuar R (PutOk R) (fun x => x ≠ k) (fun t => t = now) (call s.provider s.req) (fun _ => True) := by
    refine call_tguar (fun _ => trivial) (fun k v hv t ht => absurd ht (hv t)) ?_ ?_
    · rintro c s k' n t items _ hd _ _ t' ht'
      cases ht'
      exact fun h => absurd h hd
    · rintro c s t n k' t1 t2 t3 _ hr ht rfl hu rfl _ _ _ t' ht' hk'
      cases ht'
      exact absurd hu (hr t ht hk')
  have hr := (TGuar.run (e := e) (w := World.wait w s.wait) hg hR (fun k v h => h) (fun n h1 _ => hk.ne_fresh he h1) rfl).1
  intro c v t hses hkt hu
  refine hr c v hses.1 t hses.2 hkt ?_
  rw [step_now] at hu; exact hu

theorem Lapsed.exec {e : Env} (he : Env.Fresh e) {k : String} {w : World State} (hk : KnownTok e w.drawn k) (h : Lapsed k w)
    (l : List Step) : Lapsed k (Issuer.exec e w l) := by
  induction l generalizing w with
  | nil => exact h
  | cons s rest ih => exact ih (hk.mono (step_drawn_le e w s)) (h.step he hk s)

/-- Nonces never last longer than ten minutes. -/
theorem Reachable.nonceBound {e : Env} {w : World State} (hw : Reachable e w) :
    ∀ c s t, Session w c s t → t.cNonceExpiresAt ≤ w.now + nonceDur := by
  refine Reachable.induct (I := fun w => ∀ c s t, Session w c s t → t.cNonceExpiresAt ≤ w.now + nonceDur) ?_ ?_ hw
  · intro now c s t h; cases h.1
  · intro w s h
    let now := w.now + s.wait
    let R : String → State → Prop := fun _ v => ∀ t, v.stage = .validated t → t.cNonceExpiresAt ≤ now + nonceDur
    have hg : TGuar R (PutOk R) (fun _ => True) (fun t => t = now) (call s.provider s.req) (fun _ => True) := by
      refine call_tguar (fun _ => trivial) (fun k v hv t ht => absurd ht (hv t)) ?_ ?_
      · rintro c s k' n t items _ _ _ rfl t' ht'
        cases ht'; exact Int.le_refl _
      · rintro c s t n k' t1 t2 t3 _ hr ht rfl hu _ rfl _ _ t' ht'
        cases ht'; exact Int.le_refl _
    have hr := (TGuar.run (e := e) (w := World.wait w s.wait) hg (fun c v hv t ht => by
      have := h c v t ⟨hv, ht⟩; simp only [now]; omega) (fun k v h => h) (fun _ _ _ => trivial) rfl).1
    intro c v t hs
    rw [step_now]; exact hr c v hs.1 t hs.2

/-- While the session of `k` is not used, none of its nonces is replaced. -/
theorem idle_bound {e : Env} (he : Env.Fresh e) {k : String} {w : World State} (hk : KnownTok e w.drawn k) {x : Int}
    (h : ∀ c s t, Session w c s t → t.accessToken = k → t.cNonceExpiresAt ≤ x) {l : List Step} (hi : Idle e k w l) :
    ∀ c s t, Session (Issuer.exec e w l) c s t → t.accessToken = k → t.cNonceExpiresAt ≤ x := by
  induction l generalizing w with
  | nil => exact h
  | cons s rest ih =>
    refine ih (hk.mono (step_drawn_le e w s)) ?_ hi.2
    let R : String → State → Prop := fun c v => ∀ t, v.stage = .validated t → t.accessToken = k →
      t.cNonceExpiresAt ≤ x ∧ s.req.bearer ≠ some c
    have hR : ∀ c v, (World.wait w s.wait).store c = some v → R c v := fun c v hv t ht hkt =>
      ⟨h c v t ⟨hv, ht⟩ hkt, fun hb => hi.1 ⟨c, v, t, hb, ⟨hv, ht⟩, hkt⟩⟩
    have hg : TGuar R (PutOk R) (fun x => x ≠ k) (fun _ => True) (call s.provider s.req) (fun _ => True) := by
      refine call_tguar (fun _ => trivial) (fun k v hv t ht => absurd ht (hv t)) ?_ ?_
      · rintro c s k' n t items _ hd _ _ t' ht'
        cases ht'
        exact fun h => absurd h hd
      · rintro c s t n k' t1 t2 t3 hb hr ht _ hu _ _ _ _ t' ht' hk'
        cases ht'
        exact absurd hb (hr t ht hk').2
    have hr := (TGuar.run (e := e) (w := World.wait w s.wait) hg hR (fun k v h => h) (fun n h1 _ => hk.ne_fresh he h1) trivial).1
    exact fun c v t hs hkt => (hr c v hs.1 t hs.2 hkt).1

/-- What is stored under access token `k` is a session of `k`. -/
def Own (k : String) (w : World State) : Prop := ∀ s t, Session w k s t → t.accessToken = k

theorem Own.step {e : Env} (he : Env.Fresh e) {k : String} {w : World State} (hk : KnownTok e w.drawn k) (h : Own k w)
    (s : Step) : Own k (Issuer.step e w s).2 := by
  let R : String → State → Prop := fun c v => c = k → ∀ t, v.stage = .validated t → t.accessToken = k
  have hg : TGuar R (PutOk R) (fun x => x ≠ k) (fun _ => True) (call s.provider s.req) (fun _ => True) := by
    refine call_tguar (fun _ => trivial) (fun k v hv _ t ht => absurd ht (hv t)) ?_ ?_
    · rintro c s k' n t items _ hd _ _ hk'
      exact absurd hk' hd
    · rintro c s t n k' t1 t2 t3 hb hr ht _ hu _ _ _ (rfl | hd) hk' t' ht'
      · cases ht'; exact hk'
      · exact absurd hk' hd
  have hr := (TGuar.run (e := e) (w := World.wait w s.wait) hg (fun c v hv hc t ht => h v t ⟨hc ▸ hv, ht⟩) (fun k v h => h)
    (fun n h1 _ => hk.ne_fresh he h1) trivial).1
  exact fun v t hs => hr k v hs.1 rfl t hs.2

theorem Own.exec {e : Env} (he : Env.Fresh e) {k : String} {w : World State} (hk : KnownTok e w.drawn k) (h : Own k w)
    (l : List Step) : Own k (Issuer.exec e w l) := by
  induction l generalizing w with
  | nil => exact h
  | cons s rest ih => exact ih (hk.mono (step_drawn_le e w s)) (h.step he hk s)

/-- A token response names a token just drawn, whose session is its own. -/
theorem token_own {e : Env} {w : World State} {s : Step} {treq : TokenRequest} {tr : TokenResponse} (hreq : s.req = .token treq)
    (h : (step e w s).1 = .ok (.token tr)) :
    KnownTok e (step e w s).2.drawn tr.accessToken ∧ Own tr.accessToken (step e w s).2 := by
  rw [step_token hreq] at h ⊢
  obtain ⟨r, h, hr⟩ := map_ok.1 h
  cases hr
  obtain ⟨st, items, _, _, _, _, _, _, rfl, hw⟩ := token_ok_iff.1 (pair_of_fst h)
  simp only [hw]
  refine ⟨⟨w.drawn, by show w.drawn < w.drawn + 2; omega, rfl⟩, ?_⟩
  rintro s t ⟨h1, h2⟩
  have : s = _ := (Option.some.inj ((upd_same ..).symm.trans h1)).symm
  subst this
  cases h2
  rfl

theorem gains_map {α β : Type} {r : Res α} {f : α → β} : Gains (r.map f) ↔ Gains r := by
  cases r <;> simp [Gains, Except.map]

theorem credential_gains {P : Provider} {req : CredentialRequest} {e : Env} {w : World State}
    (h : Gains ((credential P req).run e w).1) : ∃ st t, Session w req.accessToken st t ∧ Usable st t w.now := by
  rcases h with ⟨r, h⟩ | ⟨hint, n, exp, h⟩
  · obtain ⟨st, ctx, t, _, _, _, h1, _, h2, h3, h4, _⟩ := credential_ok_iff.1 (pair_of_fst h)
    exact ⟨st, t, ⟨h1, h2⟩, h3, h4⟩
  · obtain ⟨st, ctx, t, _, h1, _, h2, h3, h4, _⟩ := credential_invalidProof (pair_of_fst h)
    exact ⟨st, t, ⟨h1, h2⟩, h3, h4⟩

theorem deferred_gains {P : Provider} {req : DeferredRequest} {e : Env} {w : World State}
    (h : Gains ((deferred P req).run e w).1) : ∃ st t, Session w req.accessToken st t ∧ Usable st t w.now := by
  have : ∃ saved : CredentialRequest, Gains ((credential P
      { saved with credentialIssuer := req.credentialIssuer, accessToken := req.accessToken }).run e
      { w with store := upd w.store req.transactionId none, ops := w.ops + 2 }).1 := by
    rcases h with ⟨r, h⟩ | ⟨hint, n, exp, h⟩
    · obtain ⟨st, txn, saved, _, _, _, _, _, h, _⟩ := deferred_ok_iff.1 (pair_of_fst h)
      exact ⟨saved, .inl ⟨r, by rw [h]⟩⟩
    · obtain ⟨w', h⟩ : ∃ w', (deferred P req).run e w = (.error (.invalidProof hint n exp), w') := ⟨_, pair_of_fst h⟩
      have hd : ∀ st, deferredRequest st ≠ .error (.invalidProof hint n exp) := by
        intro st hx; unfold deferredRequest at hx; split at hx <;> cases hx
      have hn : ∀ w1, (nowE : IProg Int).run e w1 ≠ (.error (.invalidProof hint n exp), w') := by
        intro w1 hx; simp [nowE, run] at hx
      simp only [deferred, run_bind_err, run_getE_err, run_getE_ok, run_nowE_ok, run_lift_err, run_lift_ok, run_purgeE_ok,
        run_purgeE_err, require_err, require_ok, reduceCtorEq, false_and, and_false, false_or, hd, hn] at h
      obtain ⟨st, _, ⟨h1, h2, rfl⟩, now, _, ⟨rfl, rfl⟩, _, _, ⟨h3, rfl⟩, saved, _, ⟨h4, rfl⟩, _, _, ⟨h5, rfl⟩, h⟩ := h
      refine ⟨saved, ?_⟩
      rcases h with h | ⟨r, w2, h, hx⟩
      · exact .inr ⟨hint, n, exp, by rw [h]⟩
      · exact .inl ⟨r, by rw [h]⟩
  obtain ⟨saved, h⟩ := this
  obtain ⟨st, t, ⟨h1, h2⟩, h3⟩ := credential_gains h
  refine ⟨st, t, ⟨?_, h2⟩, h3⟩
  simp only [upd] at h1
  split at h1
  · cases h1
  · exact h1

/-- A credential or deferred call only gains anything if the session it names is usable. -/
theorem bearer_usable {e : Env} {w : World State} {s : Step} {c : String} (hb : s.req.bearer = some c)
    (h : Gains (step e w s).1) : ∃ st t, Session w c st t ∧ Usable st t (w.now + s.wait) := by
  cases hr : s.req with
  | credential req =>
    rw [hr] at hb; cases hb
    rw [step_credential hr] at h
    exact credential_gains (gains_map.1 h)
  | deferred req =>
    rw [hr] at hb; cases hb
    rw [step_deferred hr] at h
    exact deferred_gains (gains_map.1 h)
  | _ => rw [hr] at hb; cases hb

end Issuer
end Verif
