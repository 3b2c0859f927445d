import Verif.Clock
import Verif.Issuer.Timed
import Verif.Issuer.OverlapDemo
/-!
# Expiry when calls overlap and the clock moves: C178
-/
namespace Verif
namespace Pool
open Prog
variable {V ρ : Type} {rng : Nat → Nat → String}

/-- What call `j` guarantees about its writes it goes on guaranteeing, if what others write is as it relies on. -/
theorem tguar_step {R : String → V → Prop} {G : String → Option V → Prop} {D : String → Prop} {T : Int → Prop} {Q : ρ → Prop} {j : Nat} {p : Pool V ρ}
    (hR : ∀ k v, p.store k = some v → R k v) (hD : ∀ n, D (rng j n)) (hT : T p.now) (h : TGuar R G D T (p.prog j) Q) (ev : Event) :
    TGuar R G D T ((p.step rng ev).prog j) Q := by
  cases ev with
  | tick n => exact h
  | run i f =>
    by_cases e : j = i
    · subst e
      simp only [Pool.step]
      cases hp : p.prog j with
      | ret r => simp only; rw [hp]; rw [hp] at h; exact h
      | get k c => rw [hp] at h; simp only [setAt_same]; exact h _ fun v hv => hR k v (getRes_some hv)
      | put k v c => rw [hp] at h; simp only [setAt_same]; exact h.2 _
      | purge k c => rw [hp] at h; simp only [setAt_same]; exact h.2 _
      | draw c => rw [hp] at h; simp only [setAt_same]; exact h _ (hD _)
      | now c => rw [hp] at h; simp only [setAt_same]; exact h _ hT
    · rw [step_other e]; exact h

/-- The same for all steps, at any times. -/
theorem tguar_exec {R : String → V → Prop} {G : String → Option V → Prop} {D : String → Prop} {Q : ρ → Prop} {j : Nat} {p : Pool V ρ} (s : List Event)
    (hR : ∀ s', s' <+: s → ∀ k v, (p.exec rng s').store k = some v → R k v) (hD : ∀ n, D (rng j n))
    (h : TGuar R G D (fun _ => True) (p.prog j) Q) : TGuar R G D (fun _ => True) ((p.exec rng s).prog j) Q := by
  induction s generalizing p with
  | nil => exact h
  | cons ev s ih =>
    refine ih (p := p.step rng ev) (fun s' hs' => hR (ev :: s') ?_) (tguar_step (hR [] List.nil_prefix) hD trivial h ev)
    obtain ⟨l, rfl⟩ := hs'
    exact ⟨l, rfl⟩

/-- Every stored value satisfies `R`, every call guarantees that for what it still has to do, and it is `lo` or later. Machinery of the proofs; models no code. -/
structure TSafe (R : String → V → Prop) (G : String → Option V → Prop) (D : Nat → String → Prop) (lo : Int) (p : Pool V ρ) : Prop where
  store : ∀ k v, p.store k = some v → R k v
  prog : ∀ i, TGuar R G (D i) (fun t => lo ≤ t) (p.prog i) (fun _ => True)
  late : lo ≤ p.now

theorem TSafe.step {R : String → V → Prop} {G : String → Option V → Prop} {D : Nat → String → Prop} {lo : Int} (hG : ∀ k v, G k (some v) → R k v)
    (hD : ∀ i n, D i (rng i n)) {p : Pool V ρ} (h : TSafe R G D lo p) (ev : Event) : TSafe R G D lo (p.step rng ev) := by
  refine ⟨?_, fun i => tguar_step h.store (hD i) h.late (h.prog i) ev, Int.le_trans h.late (now_le_exec p [ev])⟩
  cases ev with
  | tick n => exact h.store
  | run i f =>
    have hi := h.prog i
    have wr : ∀ k v, (∀ x, v = some x → R k x) → ∀ k' x, writeRes f p.store k v k' = some x → R k' x := by
      intro k v hv k' x hx
      rcases writeRes_eq (f := f) (s := p.store) (k := k) (k' := k') (v := v) with e | ⟨rfl, e⟩
      · exact h.store _ _ (e.symm.trans hx)
      · exact hv x (e.symm.trans hx)
    simp only [Pool.step]
    split <;> rename_i heq
    · exact h.store
    all_goals rw [heq] at hi
    · exact h.store
    · exact wr _ _ fun x hx => by cases hx; exact hG _ _ hi.1
    · exact wr _ none (fun x hx => nomatch hx)
    · exact h.store
    · exact h.store

theorem TSafe.exec {R : String → V → Prop} {G : String → Option V → Prop} {D : Nat → String → Prop} {lo : Int} (hG : ∀ k v, G k (some v) → R k v)
    (hD : ∀ i n, D i (rng i n)) {p : Pool V ρ} (h : TSafe R G D lo p) (s : List Event) : TSafe R G D lo (p.exec rng s) :=
  exec_inv (I := TSafe R G D lo) (fun _ ev h => h.step hG hD ev) h s

/-- A key that was written stays as it is until it is removed. -/
theorem kept_step {R : String → V → Prop} {G : Nat → String → Option V → Prop} {D : Nat → String → Prop} {Q : Nat → ρ → Prop} {T : String → Prop}
    {Own : Nat → String → Prop} (hO : ∀ i k v, G i k (some v) → T k ∨ Own i k) (hI : ∀ i j k, Own i k → Own j k → i = j) {c : String} (hT : ¬ T c) {p : Pool V ρ}
    (h : Keys R G D Q T Own rng p) (hw : Written Own c p) (ev : Event) : (p.step rng ev).store c = p.store c ∨ (p.step rng ev).store c = none := by
  cases ev with
  | tick ns => exact .inl rfl
  | run i f =>
    have h1 := h.once i
    have h2 := h.safe.prog i
    simp only [step]
    split <;> rename_i heq <;> try exact .inl rfl
    · rename_i k v _
      rw [heq] at h1 h2
      refine .inl (writeRes_other ?_)
      rintro rfl
      have ho := (hO _ _ _ h2.1).resolve_left hT
      obtain ⟨g, hg, v, hgw⟩ := hw
      have := hI _ _ _ ho hg
      subst this
      exact (h1.1.resolve_left hT) _ hgw rfl
    · exact writeRes_eq.imp id And.right

theorem kept_exec {R : String → V → Prop} {G : Nat → String → Option V → Prop} {D : Nat → String → Prop} {Q : Nat → ρ → Prop} {T : String → Prop}
    {Own : Nat → String → Prop} (hG : ∀ i k v, G i k (some v) → R k v) (hO : ∀ i k v, G i k (some v) → T k ∨ Own i k) (hD : ∀ i n, D i (rng i n))
    (hI : ∀ i j k, Own i k → Own j k → i = j) {c : String} (hT : ¬ T c) {p : Pool V ρ} (h : Keys R G D Q T Own rng p) {v : V} (hv : p.store c = some v)
    (s : List Event) : (p.exec rng s).store c = some v ∨ (p.exec rng s).store c = none := by
  refine (exec_inv (I := fun p => Keys R G D Q T Own rng p ∧ Written Own c p ∧ (p.store c = some v ∨ p.store c = none)) (fun p ev h => ?_)
    ⟨h, (h.key c v hv).resolve_left hT, .inl hv⟩ s).2.2
  obtain ⟨h1, h2, h3⟩ := h
  refine ⟨h1.step hG hO hD ev, h2.step ev, ?_⟩
  rcases kept_step hO hI hT h1 h2 ev with e | e
  · rw [e]; exact h3
  · exact .inr e

end Pool

namespace Prog
variable {V α : Type}

theorem TGuar.rely {R R' : String → V → Prop} {G : String → Option V → Prop} {D : String → Prop} {T T' : Int → Prop} (hR : ∀ k v, R' k v → R k v)
    (hT : ∀ t, T' t → T t) {p : Prog V α} {Q : α → Prop} (h : TGuar R G D T p Q) : TGuar R' G D T' p Q := by
  induction p with
  | ret r => cases r <;> exact h
  | get k c ih => exact fun o ho => ih o (h o fun v hv => hR k v (ho v hv))
  | put k v c ih => exact ⟨h.1, fun b => ih b (h.2 b)⟩
  | purge k c ih => exact ⟨h.1, fun b => ih b (h.2 b)⟩
  | draw c ih => exact fun s hs => ih s (h s hs)
  | now c ih => exact fun t ht => ih t (h t (hT t ht))

/-- Anything may come before, as long as what it ends with badly is all right. -/
theorem Timed.after {β : Type} {R : String → V → Prop} {C : Int → Prop} {p : Prog V α} {f : α → Prog V β} {Q : Res β → Prop}
    (herr : Timed R C p fun r => ∀ x, r = .error x → Q (.error x)) (h : ∀ a, Timed R C (f a) Q) : Timed R C (p >>= f) Q :=
  Timed.bind herr (fun a _ => h a) fun _ hx => hx _ rfl

theorem Timed.top {R : String → V → Prop} {C : Int → Prop} {p : Prog V α} {Q : Res α → Prop} (h : ∀ r, Q r) : Timed R C p Q := by
  induction p with
  | ret r => exact h r
  | get k c ih => exact fun o _ => ih o
  | put k v c ih => exact ih
  | purge k c ih => exact ih
  | draw c ih => exact ih
  | now c ih => exact fun t _ => ih t

end Prog

namespace Issuer
open Prog Pool

/-! ## Specification -/

/-- The request depends on what is stored under `c`: it redeems, fetches or polls `c`, or authorizes or pushes with `c` as issuer state. Specification; models no
code. -/
def Req.DependsOn (c : String) : Req → Prop
  | .token r => r.grantType.code = c
  | .credentialOffer r => r.id = c
  | .deferred r => r.transactionId = c
  | .authorize (.object r) => r.issuerState = some c
  | .par r => r.issuerState = some c
  | _ => False

/-- Call `j` has started and has not been answered. Specification; models no code. -/
def UnderWay (p : Pool State Resp) (s : List Event) (j : Nat) : Prop := ¬ Pool.Idle j s ∧ ¬ ∃ r, p.Answered j r

/-- `v` is a record of the session of access token `k`. Specification; models no code. -/
def State.OfSession (k : String) (v : State) (t : Token) : Prop := v.stage = .validated t ∧ t.accessToken = k

/-! ## Proofs -/

section Refused
variable {R : String → State → Prop} {lo : Int} {c : String} {v0 : State}

theorem expired_later {v : State} {t : Int} (hx : v.expiresAt + sec ≤ lo) (ht : lo ≤ t) : v.isExpired t = true := by
  cases h : v.isExpired t with
  | true => rfl
  | false => have := (isExpired_false_iff ..).1 h; omega

theorem verify_expired {G : String → Option State → Prop} {D : String → Prop} {P : Provider} {iss : Issuer} {isPar : Bool} {req : RequestObject}
    (hc : req.issuerState = some c) (hR : ∀ v, R c v → v.expiresAt + sec ≤ lo) :
    TGuar R G D (fun t => lo ≤ t) (Authorize.verify P iss isPar req) (fun _ => False) := by
  unfold Authorize.verify
  refine TGuar.bind (Q := fun _ => True) (TGuar.lift fun _ _ => trivial) fun _ _ => ?_
  refine TGuar.bind (Q := fun _ => True) (TGuar.lift fun _ _ => trivial) fun _ _ => ?_
  refine TGuar.bind (Q := fun _ => True) (TGuar.lift fun _ _ => trivial) fun _ _ => ?_
  refine TGuar.bind (Q := fun _ => False) ?_ fun _ h => h.elim
  unfold Authorize.checkIssuerState
  rw [hc]
  refine TGuar.bind (Q := fun s => R c s) (TGuar.getE fun _ h => h) fun s hs => ?_
  refine TGuar.bind (Q := fun t => lo ≤ t) (TGuar.nowE fun _ h => h) fun t ht => ?_
  refine TGuar.bind (Q := fun _ => False) (TGuar.lift fun _ h => ?_) fun _ h => h.elim
  rw [expired_later (hR s hs) ht] at h
  cases h

/-- Nothing that depends on an expired value succeeds. -/
theorem call_expired {P : Provider} {req : Req} (hc : req.DependsOn c) (hR : ∀ v, R c v → v.expiresAt + sec ≤ lo) :
    TGuar R (fun _ _ => True) (fun _ => True) (fun t => lo ≤ t) (call P req) (fun _ => False) := by
  cases req with
  | token r =>
    subst hc
    refine TGuar.bind (Q := fun _ => False) ?_ fun _ h => h.elim
    unfold token
    refine TGuar.bind (Q := fun s => R r.grantType.code s) (TGuar.getE fun _ h => h) fun s hs => ?_
    refine TGuar.bind (Q := fun _ => True) (TGuar.purgeE trivial trivial) fun _ _ => ?_
    refine TGuar.bind (Q := fun t => lo ≤ t) (TGuar.nowE fun _ h => h) fun t ht => ?_
    refine TGuar.bind (Q := fun _ => False) (TGuar.lift fun _ h => ?_) fun _ h => h.elim
    have := (Token.verify_ok.1 h).1
    have h2 := hR s hs
    omega
  | credentialOffer r =>
    subst hc
    refine TGuar.bind (Q := fun _ => False) ?_ fun _ h => h.elim
    unfold credentialOffer
    refine TGuar.bind (Q := fun s => R r.id s) (TGuar.getE fun _ h => h) fun s hs => ?_
    refine TGuar.bind (Q := fun _ => True) (TGuar.purgeE trivial trivial) fun _ _ => ?_
    refine TGuar.bind (Q := fun t => lo ≤ t) (TGuar.nowE fun _ h => h) fun t ht => ?_
    refine TGuar.bind (Q := fun _ => False) (TGuar.lift fun _ h => ?_) fun _ h => h.elim
    rw [expired_later (hR s hs) ht] at h
    cases h
  | deferred r =>
    subst hc
    refine TGuar.bind (Q := fun _ => False) ?_ fun _ h => h.elim
    unfold deferred
    refine TGuar.bind (Q := fun s => R r.transactionId s) (TGuar.getE fun _ h => h) fun s hs => ?_
    refine TGuar.bind (Q := fun t => lo ≤ t) (TGuar.nowE fun _ h => h) fun t ht => ?_
    refine TGuar.bind (Q := fun _ => False) (TGuar.lift fun _ h => ?_) fun _ h => h.elim
    rw [expired_later (hR s hs) ht] at h
    cases h
  | authorize r =>
    cases r with
    | uri u => cases hc
    | object r =>
      refine TGuar.bind (Q := fun _ => False) ?_ fun _ h => h.elim
      unfold authorize
      refine TGuar.bind (Q := fun x => x = (false, r)) (TGuar.pure rfl) fun x hx => ?_
      subst hx
      refine TGuar.bind (Q := fun _ => True) (TGuar.lift fun _ _ => trivial) fun _ _ => ?_
      exact TGuar.bind (Q := fun _ => False) (verify_expired hc hR) fun _ h => h.elim
  | par r =>
    refine TGuar.bind (Q := fun _ => False) ?_ fun _ h => h.elim
    unfold par
    refine TGuar.bind (Q := fun _ => True) (TGuar.lift fun _ _ => trivial) fun _ _ => ?_
    exact TGuar.bind (Q := fun _ => False) (verify_expired hc hR) fun _ h => h.elim
  | _ => cases hc

/-- An expired request URI leads nowhere. -/
theorem uri_expired {P : Provider} {u : String} (hR : ∀ v, R u v → ∃ r x, v.stage = .pushed r x ∧ x < lo) :
    TGuar R (fun _ _ => True) (fun _ => True) (fun t => lo ≤ t) (call P (.authorize (.uri u))) (fun _ => False) := by
  refine TGuar.bind (Q := fun _ => False) ?_ fun _ h => h.elim
  unfold authorize
  refine TGuar.bind (Q := fun _ => False) ?_ fun _ h => h.elim
  unfold Authorize.resolve
  refine TGuar.bind (Q := fun s => R u s) (TGuar.getE fun _ h => h) fun s hs => ?_
  obtain ⟨r, x, hst, hx⟩ := hR s hs
  refine TGuar.bind (Q := fun p => p = (r, x)) (TGuar.lift fun p hp => ?_) fun p hp => ?_
  · simp only [Authorize.pushed, hst] at hp
    cases hp; rfl
  subst hp
  refine TGuar.bind (Q := fun t => lo ≤ t) (TGuar.nowE fun _ h => h) fun t ht => ?_
  refine TGuar.bind (Q := fun _ => False) (TGuar.lift fun _ h => ?_) fun _ h => h.elim
  have : x < t := by omega
  simp [require, this] at h

end Refused

variable {rng : Nat → Nat → String} {t0 : Int} {calls : Nat → Call}

/-- A value that was stored, and is no access token, stays as it is until it is removed. -/
theorem pool_kept (hf : FreshTokens rng) {c : String} (hc : ∀ k n r, (calls k).req = .token r → c ≠ rng k n) {s : List Event} {v : State}
    (hv : ((pool t0 calls).exec rng s).store c = some v) (s' : List Event) {u : State} (hu : ((pool t0 calls).exec rng (s ++ s')).store c = some u) : u = v := by
  have hk := (pool_keys hf t0 calls).exec (fun _ _ _ h => (h _ rfl).1) (fun _ _ _ h => (h _ rfl).2.1) (fun _ n => ⟨n, rfl⟩) s
  rw [Pool.exec_append] at hu
  rcases kept_exec (fun _ _ _ h => (h _ rfl).1) (fun _ _ _ h => (h _ rfl).2.1) (fun _ n => ⟨n, rfl⟩) (fun _ _ _ h1 h2 => h1.unique hf h2)
    (c := c) (fun ⟨k, n, r, hk, he⟩ => hc k n r hk he) hk hv s' with e | e
  · rw [e] at hu; cases hu; rfl
  · rw [e] at hu; cases hu

/-- What a call that starts at `lo` guarantees whatever it reads that is stored from then on, it fulfils. -/
theorem pool_refused {j : Nat} {s s' : List Event} (hidle : Pool.Idle j s) {R : String → State → Prop}
    (hR : ∀ l, l <+: s' → ∀ k v, ((pool t0 calls).exec rng (s ++ l)).store k = some v → R k v)
    (h : TGuar R (fun _ _ => True) (fun _ => True) (fun t => ((pool t0 calls).exec rng s).now ≤ t) (call (calls j).provider (calls j).req) (fun _ => False))
    {b : Resp} : ¬ ((pool t0 calls).exec rng (s ++ s')).Answered j (.ok b) := by
  suffices H : ∀ (l : List Event) (q : Pool State Resp), ((pool t0 calls).exec rng s).now ≤ q.now →
      (∀ l', l' <+: l → ∀ k v, (q.exec rng l').store k = some v → R k v) →
      TGuar R (fun _ _ => True) (fun _ => True) (fun t => ((pool t0 calls).exec rng s).now ≤ t) (q.prog j) (fun _ => False) →
      ¬ (q.exec rng l).Answered j (.ok b) by
    rw [Pool.exec_append]
    refine H s' _ (Int.le_refl _) (fun l hl k v hv => hR l hl k v (by rw [Pool.exec_append]; exact hv)) ?_
    rw [idle_prog hidle]; exact h
  intro l
  induction l with
  | nil =>
    intro q _ _ h ha
    rw [show q.prog j = .ret (.ok b) from ha] at h
    exact h
  | cons ev l ih =>
    intro q hq hR h
    refine ih (q.step rng ev) (Int.le_trans hq (now_le_exec q [ev])) (fun l' hl' => hR (ev :: l') ?_)
      (tguar_step (hR [] List.nil_prefix) (fun _ => trivial) hq h ev)
    obtain ⟨m, rfl⟩ := hl'
    exact ⟨m, rfl⟩

/-! ## C178 -/

/-- **C178** A grant code, offer id, transaction id or issuer state that has expired when a request with it comes in gets nothing, under every schedule: whatever
other requests are under way or come later, fail or break off, and however the clock moves. -/
theorem C178_expired_value_refused (hf : FreshTokens rng) {c : String} (hc : ∀ k n r, (calls k).req = .token r → c ≠ rng k n) {s s' : List Event} {v : State}
    (hv : ((pool t0 calls).exec rng s).store c = some v) (hx : v.expiresAt + 1000000000 ≤ ((pool t0 calls).exec rng s).now) {j : Nat} (hidle : Pool.Idle j s)
    (hj : (calls j).req.DependsOn c) {b : Resp} : ¬ ((pool t0 calls).exec rng (s ++ s')).Answered j (.ok b) := by
  refine pool_refused (R := fun k u => k = c → u = v) hidle (fun l _ k u hu hk => ?_) (call_expired hj fun u hu => ?_)
  · subst hk; exact pool_kept hf hc hv l hu
  · rw [hu rfl]; exact hx

/-- **C178** So does a request URI whose pushed request has expired. -/
theorem C178_expired_request_uri_refused (hf : FreshTokens rng) {u : String} (hc : ∀ k n r, (calls k).req = .token r → u ≠ rng k n) {s s' : List Event} {v : State}
    {r : RequestObject} {x : Int} (hv : ((pool t0 calls).exec rng s).store u = some v) (hst : v.stage = .pushed r x)
    (hx : x < ((pool t0 calls).exec rng s).now) {j : Nat} (hidle : Pool.Idle j s) (hj : (calls j).req = .authorize (.uri u)) {b : Resp} :
    ¬ ((pool t0 calls).exec rng (s ++ s')).Answered j (.ok b) := by
  refine pool_refused (R := fun k w => k = u → w = v) hidle (fun l _ k w hw hk => ?_) ?_
  · subst hk; exact pool_kept hf hc hv l hw
  · rw [hj]; exact uri_expired fun w hw => ⟨r, x, by rw [hw rfl]; exact hst, hx⟩

/-! ### Sessions -/

/-- An access token was drawn by the call that issued it. -/
theorem token_drawn {i : Nat} {treq : TokenRequest} {tr : TokenResponse} (hi : (calls i).req = .token treq) {s : List Event}
    (h : ((pool t0 calls).exec rng s).Answered i (.ok (.token tr))) : ∃ n, tr.accessToken = rng i n := by
  have h0 : TGuar (fun _ _ => True) (fun _ _ => True) (DrawnBy rng i) (fun _ => True) ((pool t0 calls).prog i)
      (fun r => ∀ tr, r = .token tr → ∃ n, tr.accessToken = rng i n) := by
    show TGuar _ _ _ _ (call (calls i).provider (calls i).req) _
    rw [hi]
    refine TGuar.bind (Q := fun tr => ∃ n, tr.accessToken = rng i n) ?_ fun a h => TGuar.pure fun tr e => by cases e; exact h
    unfold token
    refine TGuar.bind (Q := fun _ => True) (TGuar.getE fun _ _ => trivial) fun s hs => ?_
    refine TGuar.bind (Q := fun _ => True) (TGuar.purgeE trivial trivial) fun _ _ => ?_
    refine TGuar.bind (Q := fun _ => True) (TGuar.nowE fun _ _ => trivial) fun t _ => ?_
    refine TGuar.bind (Q := fun _ => True) (TGuar.lift fun _ _ => trivial) fun _ hv => ?_
    unfold Token.process
    refine TGuar.bind (Q := fun _ => True) (TGuar.lift fun _ _ => trivial) fun items hi => ?_
    refine TGuar.bind (Q := DrawnBy rng i) (TGuar.drawE fun _ h => h) fun k hk => ?_
    refine TGuar.bind (Q := fun _ => True) (TGuar.drawE fun _ _ => trivial) fun n hn => ?_
    refine TGuar.bind (Q := fun _ => True) (TGuar.nowE fun _ _ => trivial) fun t' ht' => ?_
    exact TGuar.bind (Q := fun _ => True) (TGuar.putE trivial trivial) fun _ _ => TGuar.pure hk
  have := tguar_exec (rng := rng) s (fun _ _ _ _ _ => trivial) (fun n => ⟨n, rfl⟩) h0
  rw [show ((pool t0 calls).exec rng s).prog i = .ret (.ok (.token tr)) from h] at this
  exact this tr rfl

theorem Usable.earlier {v : State} {t : Token} {a b : Int} (h : Usable v t b) (hab : a ≤ b) : Usable v t a := ⟨by have := h.1; omega, by have := h.2; omega⟩

theorem not_gains {α : Type} {x : Err} (h : ∀ a b c, x ≠ .invalidProof a b c) : ¬ Gains (.error x : Res α) := by
  rintro (⟨a, h'⟩ | ⟨a, b, c, h'⟩)
  · cases h'
  · injection h' with h'; exact h a b c h'

theorem require_not_proof {b : Bool} {x y : Err} (hx : ∀ a b c, x ≠ .invalidProof a b c) (h : require b x = .error y) : ∀ a b c, y ≠ .invalidProof a b c := by
  cases b with
  | true => cases h
  | false => cases h; exact hx

theorem context_not_proof {P : Provider} {v : State} {req : CredentialRequest} {a b : String} {c : Int} :
    Credential.context P v req ≠ .error (.invalidProof a b c) := by
  unfold Credential.context Credential.authorized
  intro h
  cases h1 : P.issuer req.credentialIssuer with
  | none => rw [h1] at h; cases h
  | some iss =>
    simp only [h1, orErr, Bind.bind, Except.bind, Pure.pure, Except.pure] at h
    split at h
    · rename_i x hx
      split at hx
      · split at hx
        · split at hx <;> cases hx
          cases h
        · split at hx
          · rename_i y hy
            split at hy <;> cases hy
            cases hx; cases h
          · split at hx <;> cases hx
            cases h
      · cases hx; cases h
    · split at h
      · rename_i x hx
        split at hx <;> cases hx
        cases h
      · cases h

/-- A credential request under a session that cannot be used is not served, and gets no nonce. -/
theorem credential_lapsed {R : String → State → Prop} {P : Provider} {req : CredentialRequest} {lo hi : Int}
    (hR : ∀ v, R req.accessToken v → ∃ t, v.stage = .validated t ∧ ¬ Usable v t lo) :
    Timed R (fun t => lo ≤ t ∧ t ≤ hi) (credential P req) (fun r => ¬ Gains r) := by
  intro o ho
  cases o with
  | none => exact not_gains (by intros; nofun)
  | some v =>
    obtain ⟨t, hst, hu⟩ := hR v (ho v rfl)
    show Timed R _ (Prog.lift (Credential.context P v req) >>= fun ctx => Credential.verify P ctx req >>= fun did => Credential.process P ctx did req) _
    refine Timed.bind (Q := fun a => a = Credential.context P v req) (Timed.lift rfl) (fun ctx hctx => ?_) fun x hx => not_gains fun a b c h => ?_
    · have hs := (Credential.context_ok.1 hctx.symm).1
      refine Timed.bind (Q := fun r => ¬ Gains r) ?_ (fun a h => absurd (.inl ⟨a, rfl⟩) h) (fun x h => by
        rintro (⟨_, h'⟩ | ⟨a, b, c, h'⟩)
        · cases h'
        · cases h'; exact h (.inr ⟨a, b, c, rfl⟩))
      unfold Credential.verify
      intro t1 ht1
      show Timed R _ (Prog.lift (require (!ctx.state.isExpired t1) _) >>= _) _
      refine Timed.bind (Q := fun a => a = require (!ctx.state.isExpired t1) (.invalidCredentialRequest "token state expired")) (Timed.lift rfl) (fun _ h1 => ?_)
        fun x hx => not_gains (require_not_proof (by intros; nofun) hx.symm)
      rw [hs, hst]
      rw [hs] at h1
      intro t2 ht2
      show Timed R _ (Prog.lift (require (!t.cNonceExpired t2) _) >>= _) _
      refine Timed.bind (Q := fun a => a = require (!t.cNonceExpired t2) (.accessDenied "c_nonce has expired")) (Timed.lift rfl) (fun _ h2 => ?_)
        fun x hx => not_gains (require_not_proof (by intros; nofun) hx.symm)
      have h1 := require_ok.1 h1.symm
      have h2 := require_ok.1 h2.symm
      obtain ⟨now, hn, hu'⟩ := usable_min (T := fun t => lo ≤ t ∧ t ≤ hi) ht1 ht2 (s := v) (t := t) (by simpa using h1) (by simpa using h2)
      exact absurd (hu'.earlier hn.1) hu
    · subst h
      exact context_not_proof hx.symm

theorem deferred_lapsed {R : String → State → Prop} {P : Provider} {req : DeferredRequest} {lo hi : Int}
    (hR : ∀ v, R req.accessToken v → ∃ t, v.stage = .validated t ∧ ¬ Usable v t lo) :
    Timed R (fun t => lo ≤ t ∧ t ≤ hi) (deferred P req) (fun r => ¬ Gains r) := by
  intro o ho
  cases o with
  | none => exact not_gains (by intros; nofun)
  | some v =>
    intro t1 _
    show Timed R _ (Prog.lift (require (!v.isExpired t1) (.invalidRequest "state expired")) >>= _) _
    refine Timed.bind (Q := fun a => a = require (!v.isExpired t1) (.invalidRequest "state expired")) (Timed.lift rfl) (fun _ h1 => ?_)
      fun x hx => not_gains (require_not_proof (by intros; nofun) hx.symm)
    refine Timed.bind (Q := fun a => a = deferredRequest v) (Timed.lift rfl) (fun saved h2 => ?_) fun x hx => not_gains fun a b c h => ?_
    · intro b
      cases b with
      | false => exact not_gains (by intros; nofun)
      | true =>
        show Timed R _ (credential P { saved with credentialIssuer := req.credentialIssuer, accessToken := req.accessToken } >>= _) _
        refine Timed.bind (credential_lapsed hR) (fun a h => absurd (.inl ⟨a, rfl⟩) h) (fun x h => ?_)
        rintro (⟨_, h'⟩ | ⟨a, b, c, h'⟩)
        · cases h'
        · cases h'; exact h (.inr ⟨a, b, c, rfl⟩)
    · subst h
      unfold deferredRequest at hx
      split at hx <;> cases hx

theorem bearer_lapsed {R : String → State → Prop} {P : Provider} {req : Req} {k : String} {lo hi : Int} (hb : req.bearer = some k)
    (hR : ∀ v, R k v → ∃ t, v.stage = .validated t ∧ ¬ Usable v t lo) :
    Timed R (fun t => lo ≤ t ∧ t ≤ hi) (call P req) (fun r => ¬ Gains r) := by
  have map : ∀ {α : Type} {p : IProg α} {f : α → Resp}, Timed R (fun t => lo ≤ t ∧ t ≤ hi) p (fun r => ¬ Gains r) →
      Timed R (fun t => lo ≤ t ∧ t ≤ hi) (p >>= fun a => pure (f a)) (fun r => ¬ Gains r) := fun h =>
    Timed.bind h (fun a h => absurd (.inl ⟨a, rfl⟩) h) fun x h => by
      rintro (⟨_, h'⟩ | ⟨a, b, c, h'⟩)
      · cases h'
      · cases h'; exact h (.inr ⟨a, b, c, rfl⟩)
  cases req with
  | credential r => cases hb; exact map (credential_lapsed hR)
  | deferred r => cases hb; exact map (deferred_lapsed hR)
  | _ => cases hb

/-- Nothing of the session of `k` is written. Machinery of the proofs; models no code. -/
def NotOf (k : String) (_ : String) (v : Option State) : Prop := ∀ u, v = some u → ∀ t, u.stage = .validated t → t.accessToken ≠ k

/-- Calls that do not read the session of `k`, and do not draw `k`, do not write it. -/
theorem call_notOf {P : Provider} {req : Req} {k : String} {D : String → Prop} (hD : ∀ x, D x → x ≠ k) {R : String → State → Prop} {T : Int → Prop}
    (hR : ∀ b, req.bearer = some b → ∀ v t now, R b v → v.stage = .validated t → T now → Usable v t now → t.accessToken ≠ k) :
    TGuar R (NotOf k) D T (call P req) (fun _ => True) := by
  refine call_tguar (fun _ u h => nomatch h) (fun _ v hv u hu t ht => ?_) ?_ ?_
  · cases hu; exact absurd ht (hv t)
  · rintro c s k' n now items _ hk' _ _ u hu t ht
    cases hu; cases ht
    exact hD _ hk'
  · rintro c s t n k' now x y hb hr hs hnow hu _ _ _ _ u hu' t' ht'
    cases hu'; cases ht'
    exact hR c hb s t now hr hs hnow hu

/-- **C178**, the part that holds of sessions. Let an access token `k` have been issued, and let every record of its session have expired (or its nonce), at a
moment when no request that reads such a record is under way. Then no credential or deferred request with `k` that comes in later is served, or given a new nonce to
try again with, under every schedule. -/
theorem C178_expired_session_refused_partial (hf : FreshTokens rng) {s s' : List Event} {i : Nat} {treq : TokenRequest} {tr : TokenResponse}
    (hi : (calls i).req = .token treq) (hdone : ((pool t0 calls).exec rng s).Answered i (.ok (.token tr)))
    (hl : ∀ c v t, ((pool t0 calls).exec rng s).store c = some v → v.OfSession tr.accessToken t → ¬ Usable v t ((pool t0 calls).exec rng s).now)
    (hw : ∀ j b, UnderWay ((pool t0 calls).exec rng s) s j → (calls j).req.bearer = some b →
      ∀ l, l <+: s → ∀ v t, ((pool t0 calls).exec rng l).store b = some v → ¬ v.OfSession tr.accessToken t)
    {j : Nat} (hidle : Pool.Idle j s) (hj : (calls j).req.bearer = some tr.accessToken) {r : Res Resp}
    (hr : ((pool t0 calls).exec rng (s ++ s')).Answered j r) : ¬ Gains r := by
  have hk : ∃ n, tr.accessToken = rng i n := token_drawn hi hdone
  generalize hkk : tr.accessToken = k at *
  generalize hp : (pool t0 calls).exec rng s = p at *
  let R : String → State → Prop := fun c v => ∀ t, v.OfSession k t → p.store c = some v
  have hsafe : Pool.TSafe R (NotOf k) (DrawnBy rng) p.now p := by
    refine ⟨fun c v h _ _ => h, fun m => ?_, Int.le_refl _⟩
    by_cases hm : ∃ r, p.Answered m r
    · obtain ⟨r, hm⟩ := hm
      rw [show p.prog m = .ret r from hm]
      cases r <;> exact trivial
    have hne : ∀ x, DrawnBy rng m x → x ≠ k := by
      rintro x ⟨n, rfl⟩ he
      obtain ⟨n', hk⟩ := hk
      obtain ⟨rfl, _⟩ := hf.inj _ _ _ _ (he.trans hk)
      exact hm ⟨_, hdone⟩
    by_cases hid : Pool.Idle m s
    · have : p.prog m = call (calls m).provider (calls m).req := by rw [← hp, idle_prog hid]; rfl
      rw [this]
      refine call_notOf hne fun b _ v t now hr ht hnow hu he => ?_
      exact hl b v t (hr t ⟨ht, he⟩) ⟨ht, he⟩ (hu.earlier hnow)
    · have h0 : TGuar (fun c v => (calls m).req.bearer = some c → ∀ t, ¬ v.OfSession k t) (NotOf k) (DrawnBy rng m) (fun _ => True)
          ((pool t0 calls).prog m) (fun _ => True) :=
        call_notOf hne fun b hb v t now hr ht _ _ he => hr hb t ⟨ht, he⟩
      have h1 := tguar_exec (rng := rng) s (fun l hlp c v hv hb t => hw m c ⟨hid, hm⟩ hb l hlp v t hv) (fun n => ⟨n, rfl⟩) h0
      rw [hp] at h1
      refine h1.rely (fun c v hv hb t ht => ?_) fun _ _ => trivial
      exact hw m c ⟨hid, hm⟩ hb s List.prefix_rfl v t (by rw [hp]; exact hv t ht) ht
  have hG : ∀ c v, NotOf k c (some v) → R c v := fun c v h t ht => absurd ht.2 (h v rfl t ht.1)
  have hplaced : ∀ l c v, (p.exec rng l).store c = some v → Placed rng calls c v := fun l c v h =>
    pool_placed hf t0 calls (s ++ l) (by rw [Pool.exec_append, hp]; exact h)
  rw [Pool.exec_append, hp] at hr
  have := timed_exec (rng := rng) (R := fun c v => Placed rng calls c v ∧ R c v) (j := j) (p := p) (T := (p.exec rng s').now) (Q := fun r => ¬ Gains r) s'
    (fun l _ c v h => ⟨hplaced l c v h, (hsafe.exec hG (fun _ n => ⟨n, rfl⟩) l).store c v h⟩) (by
      have : p.prog j = call (calls j).provider (calls j).req := by rw [← hp, idle_prog hidle]; rfl
      rw [this]
      refine bearer_lapsed hj fun v hv => ?_
      obtain ⟨n, hn⟩ := hk
      obtain ⟨t, ht, he⟩ := hv.1.2 ⟨i, n, treq, hi, hn⟩
      exact ⟨t, ht, hl k v t (hv.2 t ⟨ht, he⟩) ⟨ht, he⟩⟩) (Int.le_refl _)
  rw [show (p.exec rng s').prog j = .ret r from hr] at this
  exact this


namespace Demo

/-- As `calls`, but call 4 answers the nonce that call 3 brings. Example; models no code. -/
def lateCalls : Nat → Call
  | 4 => ⟨strict, .credential (credReq (tokens 1 0) (tokens 3 0))⟩
  | i => Demo.calls i

/-- An offer is made and redeemed; call 3 asks for the credential and passes the checks; then 601 seconds pass. Example; models no code. -/
def late : List Event := all 0 ++ all 1 ++ [.run 3 .ok, .run 3 .ok, .run 3 .ok, .tick 601000000000]

theorem late_store (c : String) (v : State) (h : ((pool 0 lateCalls).exec tokens late).store c = some v) : c = tokens 1 0 := by
  have : ((pool 0 lateCalls).exec tokens late).store = fun c => if c = tokens 1 0 then ((pool 0 lateCalls).exec tokens late).store (tokens 1 0)
    else if c = tokens 0 0 then none else if c = tokens 0 0 then ((pool 0 lateCalls).exec tokens (all 0)).store (tokens 0 0) else none := rfl
  rw [this] at h
  by_cases e : c = tokens 1 0
  · exact e
  · simp only [e, if_false] at h
    by_cases e' : c = tokens 0 0
    · simp [e'] at h
    · simp [e'] at h

/-- The session of the demo is left alone for 601 seconds. Example; models no code. -/
def lapse : List Event := all 0 ++ all 1 ++ [.tick 601000000000]

/-- C178 applies: the code of the offer has expired after 901 seconds. -/
example (s' : List Event) (b : Resp) : ¬ ((pool 0 Demo.calls).exec tokens ((all 0 ++ [.tick 901000000000]) ++ s')).Answered 1 (.ok b) :=
  C178_expired_value_refused (calls := Demo.calls) (t0 := 0) tokens_fresh (j := 1) (s := all 0 ++ [.tick 901000000000]) (c := tokens 0 0) (by
    intro k n r hk he
    obtain ⟨rfl, _⟩ := tokens_fresh.inj _ _ _ _ he
    cases hk) (v := _) rfl (by decide) (by intro f hf; cases f <;> revert hf <;> decide) rfl

/-- Call 0 pushes a request, the others use it. Example; models no code. -/
def pushCalls : Nat → Call
  | 0 => ⟨provider, .par authReq⟩
  | _ => ⟨provider, .authorize (.uri (urn ++ tokens 0 0))⟩

/-- C178 applies: the pushed request has expired after 601 seconds, not at once. -/
example (s' : List Event) (b : Resp) : ¬ ((pool 0 pushCalls).exec tokens ((all 0 ++ [.tick 601000000000]) ++ s')).Answered 1 (.ok b) ∧
    ∃ b, ((pool 0 pushCalls).exec tokens ((all 0 ++ [.tick 599000000000]) ++ all 1)).Answered 1 (.ok b) :=
  ⟨C178_expired_request_uri_refused (calls := pushCalls) (t0 := 0) tokens_fresh (j := 1) (s := all 0 ++ [.tick 601000000000]) (u := urn ++ tokens 0 0) (by
    intro k n r hk
    cases k <;> cases hk) (v := _) (r := authReq) (x := 600000000000) rfl rfl (by decide) (by intro f hf; cases f <;> revert hf <;> decide) rfl, _, rfl⟩

/-- C178 applies: once the session has been left alone for 601 seconds, call 3 with its token gains nothing. -/
example (s' : List Event) (r : Res Resp) (hr : ((pool 0 lateCalls).exec tokens (lapse ++ s')).Answered 3 r) : ¬ Gains r := by
  refine C178_expired_session_refused_partial (calls := lateCalls) (t0 := 0) tokens_fresh (s := lapse) (i := 1) (treq := tokenReq (tokens 0 0)) (tr := _) rfl rfl (fun c v t hv ht hu => ?_)
    (fun j b hu hb => ?_) (j := 3) (by intro f hf; cases f <;> revert hf <;> decide) rfl hr
  · have h : ((pool 0 lateCalls).exec tokens lapse).store = ((pool 0 lateCalls).exec tokens late).store := rfl
    have := late_store c v (h ▸ hv)
    subst this
    have h1 := hu.2
    have : some v = _ := hv.symm.trans rfl
    cases this
    cases ht.1
    revert h1
    decide
  · obtain ⟨hu, hn⟩ := hu
    match j, hu, hn with
    | 0, _, hn => exact absurd ⟨_, rfl⟩ hn
    | 1, _, hn => exact absurd ⟨_, rfl⟩ hn
    | n + 2, hu, _ => exact absurd (fun f hf => by simp [lapse, all] at hf) hu

/-- **C178** is false of sessions when requests overlap: a request that came in just in time renews the session after it has expired, so that another one that came
in when all records of the session had expired gets the credential. -/
theorem C178_violated_session_revived :
    ∃ (calls : Nat → Call) (s s' : List Event) (treq : TokenRequest) (tr : TokenResponse) (c : CredentialResponse),
      (calls 1).req = .token treq ∧ ((pool 0 calls).exec tokens s).Answered 1 (.ok (.token tr)) ∧
      (∀ c v t, ((pool 0 calls).exec tokens s).store c = some v → v.OfSession tr.accessToken t → ¬ Usable v t ((pool 0 calls).exec tokens s).now) ∧
      Pool.Idle 4 s ∧ (calls 4).req.bearer = some tr.accessToken ∧ ((pool 0 calls).exec tokens (s ++ s')).Answered 4 (.ok (.credential c)) ∧
      ∃ x, c.response = .credential x := by
  refine ⟨lateCalls, late, all 3 ++ all 4, tokenReq (tokens 0 0), _, _, rfl, rfl, fun c v t hv ht hu => ?_, ?_, rfl, rfl, _, rfl⟩
  · have := late_store c v hv
    subst this
    have h1 := hu.2
    have : some v = _ := hv.symm.trans rfl
    cases this
    cases ht.1
    revert h1
    decide
  · intro f hf
    cases f <;> revert hf <;> decide

end Demo

end Issuer
end Verif
