/-!
# Base of the model: errors, effectful programs and their two semantics

An endpoint of vercre is an `async` Rust function that talks to a `StateStore`
(/repo/crates/openid/src/provider.rs 13-25), reads the clock and draws random tokens. It is modelled as a value of type
`Prog V α`: a tree of atomic effects. The same tree is run
* sequentially by `Prog.run` (one call at a time, with an arbitrary schedule of store faults), and
* concurrently by `Pool.step` (any interleaving of the atomic effects of any number of calls), see `Verif/Sched.lean`.
-/
namespace Verif

/-- Errors returned by the endpoints.
Models /repo/crates/openid/src/error.rs 19-165 (one constructor per variant, with its description text), plus `panic`
for Rust panics. Simplification: text that interpolates a provider's own error message omits that message. -/
inductive Err where
  | invalidRequest (d : String)
  | invalidClient (d : String)
  | invalidGrant (d : String)
  | unauthorizedClient (d : String)
  | unsupportedGrantType (d : String)
  | invalidScope (d : String)
  | invalidAuthorizationDetails (d : String)
  | accessDenied (d : String)
  | unsupportedResponseType (d : String)
  | serverError (d : String)
  | temporarilyUnavailable (d : String)
  | invalidCredentialRequest (d : String)
  | unsupportedCredentialType (d : String)
  | unsupportedFormat (d : String)
  | invalidProof (hint : String) (cNonce : String) (cNonceExpiresIn : Int)
  | invalidEncryptionParameters (d : String)
  | issuancePending (interval : Int)
  | invalidTransactionId (d : String)
  | vpFormatsNotSupported (d : String)
  | invalidPresentationDefinitionUri (d : String)
  | invalidPresentationDefinitionReference (d : String)
  | walletUnavailable (d : String)
  | panic (what : String)
  deriving DecidableEq, Repr

/-- A Rust `Result<T, Error>`. Machinery of the model; the store is that of /repo/crates/openid/src/provider.rs 13-25. -/
abbrev Res (α : Type) := Except Err α

/-- Atomic effects of an endpoint and what it does with their results.
`get` models `StateStore::get` (provider.rs 21; `none` stands for `Err`, whatever the cause), `put` and `purge` model
`StateStore::put` / `StateStore::purge` (provider.rs 16 and 24; the Boolean is `is_ok()`), `draw` models the generators
of /repo/crates/core/src/gen.rs, `now` models `Utc::now()`. The `expiry` argument of `put` is dropped: the store may use
it to evict entries, which the model covers by letting `get` fail. -/
inductive Prog (V : Type) (α : Type) where
  | ret (r : Res α)
  | get (k : String) (cont : Option V → Prog V α)
  | put (k : String) (v : V) (cont : Bool → Prog V α)
  | purge (k : String) (cont : Bool → Prog V α)
  | draw (cont : String → Prog V α)
  | now (cont : Int → Prog V α)

namespace Prog
variable {V α β : Type}

/-- Sequencing with early return on error (the `?` operator). Machinery of the model; the store is that of /repo/crates/openid/src/provider.rs 13-25. -/
def bind : Prog V α → (α → Prog V β) → Prog V β
  | ret (.ok a), f => f a
  | ret (.error e), _ => ret (.error e)
  | get k c, f => get k fun o => (c o).bind f
  | put k v c, f => put k v fun b => (c b).bind f
  | purge k c, f => purge k fun b => (c b).bind f
  | draw c, f => draw fun s => (c s).bind f
  | now c, f => now fun t => (c t).bind f

/-- Machinery of the model; the store is that of /repo/crates/openid/src/provider.rs 13-25. -/
instance : Monad (Prog V) where
  pure a := ret (.ok a)
  bind := bind

/-- A pure `Result` as a program. Machinery of the model; the store is that of /repo/crates/openid/src/provider.rs 13-25. -/
def lift (r : Res α) : Prog V α := ret r

/-- `StateStore::get(..)` followed by `map_err(|_| e)?` (or `let Ok(_) = .. else { return Err(e) }`).
Machinery of the model; the store is that of /repo/crates/openid/src/provider.rs 13-25. -/
def getE (k : String) (e : Err) : Prog V V :=
  get k fun o => match o with
    | some v => ret (.ok v)
    | none => ret (.error e)

/-- `StateStore::put(..).map_err(|_| e)?`. Machinery of the model; the store is that of /repo/crates/openid/src/provider.rs 13-25. -/
def putE (k : String) (v : V) (e : Err) : Prog V Unit :=
  put k v fun b => if b then ret (.ok ()) else ret (.error e)

/-- `StateStore::purge(..).map_err(|_| e)?`. Machinery of the model; the store is that of /repo/crates/openid/src/provider.rs 13-25. -/
def purgeE (k : String) (e : Err) : Prog V Unit :=
  purge k fun b => if b then ret (.ok ()) else ret (.error e)

/-- One random token (`gen::token()`, `gen::nonce()`, …). Machinery of the model; the store is that of /repo/crates/openid/src/provider.rs 13-25. -/
def drawE : Prog V String := draw fun s => ret (.ok s)

/-- `Utc::now()`. Machinery of the model; the store is that of /repo/crates/openid/src/provider.rs 13-25. -/
def nowE : Prog V Int := now fun t => ret (.ok t)

end Prog

/-- What a store operation does: take effect and report success, fail without effect, or take effect and report
failure. Machinery of the model; the store is that of /repo/crates/openid/src/provider.rs 13-25. -/
inductive Fault where
  | ok
  | failBefore
  | failAfter
  deriving DecidableEq, Repr

/-- Uncontrolled behaviour of the environment of the state store and random generator. `rng n` is the n-th token drawn,
`fault n` the outcome of the n-th store operation. Both are arbitrary functions.
Machinery of the model; the store is that of /repo/crates/openid/src/provider.rs 13-25. -/
structure Env where
  rng : Nat → String
  fault : Nat → Fault

/-- What the endpoints act on: the store, the clock (nanoseconds), how many tokens were drawn and how many store
operations were made. Machinery of the model; the store is that of /repo/crates/openid/src/provider.rs 13-25. -/
structure World (V : Type) where
  store : String → Option V
  now : Int
  drawn : Nat
  ops : Nat

/-- Function update. Machinery of the model; the store is that of /repo/crates/openid/src/provider.rs 13-25. -/
def upd {V : Type} (s : String → Option V) (k : String) (v : Option V) : String → Option V :=
  fun k' => if k' = k then v else s k'

@[simp] theorem upd_same {V : Type} (s : String → Option V) (k : String) (v : Option V) : upd s k v k = v := by
  simp [upd]

@[simp] theorem upd_other {V : Type} (s : String → Option V) {k k' : String} (v : Option V) (h : k' ≠ k) :
    upd s k v k' = s k' := by
  simp [upd, h]

namespace Prog
variable {V α β : Type}

/-- Outcome of a `get` under a fault. Machinery of the model; the store is that of /repo/crates/openid/src/provider.rs 13-25. -/
def getRes (f : Fault) (o : Option V) : Option V :=
  match f with
  | .ok => o
  | _ => none

/-- Store after a write (`put`: `v := some _`; `purge`: `v := none`) under a fault.
Machinery of the model; the store is that of /repo/crates/openid/src/provider.rs 13-25. -/
def writeRes (f : Fault) (s : String → Option V) (k : String) (v : Option V) : String → Option V :=
  match f with
  | .failBefore => s
  | _ => upd s k v

/-- Sequential semantics of one call. Simplification: the clock does not advance during a call (it may change
arbitrarily between calls); the concurrent semantics in `Verif/Sched.lean` drops this restriction.
Machinery of the model; the store is that of /repo/crates/openid/src/provider.rs 13-25. -/
def run (e : Env) : Prog V α → World V → Res α × World V
  | ret r, w => (r, w)
  | get k c, w => (c (getRes (e.fault w.ops) (w.store k))).run e { w with ops := w.ops + 1 }
  | put k v c, w =>
      (c (decide (e.fault w.ops = .ok))).run e
        { w with store := writeRes (e.fault w.ops) w.store k (some v), ops := w.ops + 1 }
  | purge k c, w =>
      (c (decide (e.fault w.ops = .ok))).run e
        { w with store := writeRes (e.fault w.ops) w.store k none, ops := w.ops + 1 }
  | draw c, w => (c (e.rng w.drawn)).run e { w with drawn := w.drawn + 1 }
  | now c, w => (c w.now).run e w

end Prog

/-- `if !c { return Err(e) }`. Machinery of the model; the store is that of /repo/crates/openid/src/provider.rs 13-25. -/
def require (c : Bool) (e : Err) : Res Unit := if c then .ok () else .error e

/-- `let Some(a) = o else { return Err(e) }`. Machinery of the model; the store is that of /repo/crates/openid/src/provider.rs 13-25. -/
def orErr {α : Type} (o : Option α) (e : Err) : Res α :=
  match o with
  | some a => .ok a
  | none => .error e

/-! ### Inversion lemmas -/

@[simp] theorem require_ok {c : Bool} {e : Err} {u : Unit} : require c e = .ok u ↔ c = true := by
  unfold require; split <;> simp_all

@[simp] theorem orErr_ok {α : Type} {o : Option α} {e : Err} {a : α} : orErr o e = .ok a ↔ o = some a := by
  unfold orErr; split <;> simp_all

@[simp] theorem require_err {c : Bool} {e y : Err} : require c e = .error y ↔ c = false ∧ e = y := by
  unfold require; split <;> simp_all

@[simp] theorem orErr_err {α : Type} {o : Option α} {e y : Err} : orErr o e = .error y ↔ o = none ∧ e = y := by
  unfold orErr; split <;> simp_all

theorem Except.bind_err {α β : Type} {m : Res α} {f : α → Res β} {y : Err} :
    (m >>= f) = .error y ↔ m = .error y ∨ ∃ a, m = .ok a ∧ f a = .error y := by
  cases m with
  | error e => simp [bind, Except.bind]
  | ok a => simp [bind, Except.bind]

theorem Except.bind_ok {α β : Type} {m : Res α} {f : α → Res β} {b : β} :
    (m >>= f) = .ok b ↔ ∃ a, m = .ok a ∧ f a = .ok b := by
  cases m with
  | error e => simp [bind, Except.bind]
  | ok a => simp [bind, Except.bind]

namespace Prog
variable {V α β : Type}

theorem run_bind (e : Env) (p : Prog V α) (f : α → Prog V β) (w : World V) :
    (p.bind f).run e w =
      match p.run e w with
      | (.ok a, w') => (f a).run e w'
      | (.error x, w') => (.error x, w') := by
  induction p generalizing w with
  | ret r => cases r <;> simp [Prog.bind, run]
  | get k c ih => simp only [Prog.bind, run]; exact ih _ _
  | put k v c ih => simp only [Prog.bind, run]; exact ih _ _
  | purge k c ih => simp only [Prog.bind, run]; exact ih _ _
  | draw c ih => simp only [Prog.bind, run]; exact ih _ _
  | now c ih => simp only [Prog.bind, run]; exact ih _ _

/-- Success of a sequence means success of both parts. -/
theorem run_bind_ok {e : Env} {p : Prog V α} {f : α → Prog V β} {w w' : World V} {b : β} :
    (p >>= f).run e w = (.ok b, w') ↔
      ∃ a w1, p.run e w = (.ok a, w1) ∧ (f a).run e w1 = (.ok b, w') := by
  show (p.bind f).run e w = _ ↔ _
  rw [run_bind]
  rcases h : p.run e w with ⟨r, w1⟩
  cases r with
  | ok a =>
    constructor
    · intro hb; exact ⟨a, w1, rfl, hb⟩
    · rintro ⟨a', w1', h1, h2⟩
      cases h1; exact h2
  | error x => simp

theorem run_lift_ok {e : Env} {r : Res α} {w w' : World V} {a : α} :
    (lift r : Prog V α).run e w = (.ok a, w') ↔ r = .ok a ∧ w' = w := by
  simp only [lift, run, Prod.mk.injEq]
  constructor <;> rintro ⟨h1, h2⟩ <;> exact ⟨h1, h2.symm⟩

theorem run_pure_ok {e : Env} {x : α} {w w' : World V} {a : α} :
    (pure x : Prog V α).run e w = (.ok a, w') ↔ x = a ∧ w' = w := by
  simp only [pure, run, Prod.mk.injEq, Except.ok.injEq]
  constructor <;> rintro ⟨h1, h2⟩ <;> exact ⟨h1, h2.symm⟩

theorem run_getE_ok {e : Env} {k : String} {x : Err} {w w' : World V} {v : V} :
    (getE k x).run e w = (.ok v, w') ↔
      e.fault w.ops = .ok ∧ w.store k = some v ∧ w' = { w with ops := w.ops + 1 } := by
  simp only [getE, run, getRes]
  cases hf : e.fault w.ops <;> cases hs : w.store k <;> simp [run, eq_comm]

theorem run_putE_ok {e : Env} {k : String} {v : V} {x : Err} {w w' : World V} {u : Unit} :
    (putE k v x).run e w = (.ok u, w') ↔
      e.fault w.ops = .ok ∧ w' = { w with store := upd w.store k (some v), ops := w.ops + 1 } := by
  simp only [putE, run, writeRes]
  cases hf : e.fault w.ops <;> simp [run, eq_comm]

theorem run_purgeE_ok {e : Env} {k : String} {x : Err} {w w' : World V} {u : Unit} :
    (purgeE k x).run e w = (.ok u, w') ↔
      e.fault w.ops = .ok ∧ w' = { w with store := upd w.store k none, ops := w.ops + 1 } := by
  simp only [purgeE, run, writeRes]
  cases hf : e.fault w.ops <;> simp [run, eq_comm]

theorem run_drawE_ok {e : Env} {w w' : World V} {s : String} :
    (drawE : Prog V String).run e w = (.ok s, w') ↔
      s = e.rng w.drawn ∧ w' = { w with drawn := w.drawn + 1 } := by
  simp [drawE, run, eq_comm]

theorem run_nowE_ok {e : Env} {w w' : World V} {t : Int} :
    (nowE : Prog V Int).run e w = (.ok t, w') ↔ t = w.now ∧ w' = w := by
  simp [nowE, run, eq_comm]

/-- Failure of a sequence is failure of one of its parts. -/
theorem run_bind_err {e : Env} {p : Prog V α} {f : α → Prog V β} {w w' : World V} {y : Err} :
    (p >>= f).run e w = (.error y, w') ↔
      p.run e w = (.error y, w') ∨ ∃ a w1, p.run e w = (.ok a, w1) ∧ (f a).run e w1 = (.error y, w') := by
  show (p.bind f).run e w = _ ↔ _
  rw [run_bind]
  rcases h : p.run e w with ⟨r, w1⟩
  cases r with
  | ok a =>
    constructor
    · intro hb; exact .inr ⟨a, w1, rfl, hb⟩
    · rintro (h1 | ⟨a', w1', h1, h2⟩)
      · cases h1
      · cases h1; exact h2
  | error x => simp

theorem run_lift_err {e : Env} {r : Res α} {w w' : World V} {y : Err} :
    (lift r : Prog V α).run e w = (.error y, w') ↔ r = .error y ∧ w' = w := by
  simp only [lift, run, Prod.mk.injEq]
  constructor <;> rintro ⟨h1, h2⟩ <;> exact ⟨h1, h2.symm⟩

theorem run_pure_err {e : Env} {x : α} {w w' : World V} {y : Err} :
    (pure x : Prog V α).run e w = (.error y, w') ↔ False := by
  simp [pure, run]

theorem run_getE_err {e : Env} {k : String} {x y : Err} {w w' : World V} :
    (getE k x).run e w = (.error y, w') ↔
      y = x ∧ (e.fault w.ops = .ok → w.store k = none) ∧ w' = { w with ops := w.ops + 1 } := by
  simp only [getE, run, getRes]
  cases hf : e.fault w.ops <;> cases hs : w.store k <;> simp [run, eq_comm]

theorem run_putE_err {e : Env} {k : String} {v : V} {x y : Err} {w w' : World V} :
    (putE k v x).run e w = (.error y, w') ↔
      y = x ∧ e.fault w.ops ≠ .ok ∧
      w' = { w with store := writeRes (e.fault w.ops) w.store k (some v), ops := w.ops + 1 } := by
  simp only [putE, run]
  cases hf : e.fault w.ops <;> simp [run, eq_comm]

theorem run_purgeE_err {e : Env} {k : String} {x y : Err} {w w' : World V} :
    (purgeE k x).run e w = (.error y, w') ↔
      y = x ∧ e.fault w.ops ≠ .ok ∧
      w' = { w with store := writeRes (e.fault w.ops) w.store k none, ops := w.ops + 1 } := by
  simp only [purgeE, run]
  cases hf : e.fault w.ops <;> simp [run, eq_comm]

theorem run_drawE_err {e : Env} {w w' : World V} {y : Err} :
    (drawE : Prog V String).run e w = (.error y, w') ↔ False := by
  simp [drawE, run]

theorem run_nowE_err {e : Env} {w w' : World V} {y : Err} :
    (nowE : Prog V Int).run e w = (.error y, w') ↔ False := by
  simp [nowE, run]

/-! ### A rely/guarantee judgement

`Guar R G D p Q`: if every value read from key `k` satisfies `R k` and every token drawn satisfies `D`, then every write
`k := v` (`none` = removal) of `p` satisfies `G k v`, and a successful result satisfies `Q`. It says nothing about which
store operations fail and nothing about what other calls do in between, so it is valid for every schedule. -/

/-- See above. Machinery of the model; the store is that of /repo/crates/openid/src/provider.rs 13-25. -/
def Guar (R : String → V → Prop) (G : String → Option V → Prop) (D : String → Prop) :
    Prog V α → (α → Prop) → Prop
  | ret (.ok a), Q => Q a
  | ret (.error _), _ => True
  | get k c, Q => ∀ o, (∀ v, o = some v → R k v) → Guar R G D (c o) Q
  | put k v c, Q => G k (some v) ∧ ∀ b, Guar R G D (c b) Q
  | purge k c, Q => G k none ∧ ∀ b, Guar R G D (c b) Q
  | draw c, Q => ∀ s, D s → Guar R G D (c s) Q
  | now c, Q => ∀ t, Guar R G D (c t) Q

variable {R : String → V → Prop} {G : String → Option V → Prop} {D : String → Prop}

theorem Guar.bind {p : Prog V α} {f : α → Prog V β} {Q : α → Prop} {Q' : β → Prop}
    (h : Guar R G D p Q) (hf : ∀ a, Q a → Guar R G D (f a) Q') : Guar R G D (p >>= f) Q' := by
  show Guar R G D (p.bind f) Q'
  induction p with
  | ret r =>
    cases r with
    | ok a => exact hf a h
    | error x => exact True.intro
  | get k c ih => exact fun o ho => ih o (h o ho)
  | put k v c ih => exact ⟨h.1, fun b => ih b (h.2 b)⟩
  | purge k c ih => exact ⟨h.1, fun b => ih b (h.2 b)⟩
  | draw c ih => exact fun s hs => ih s (h s hs)
  | now c ih => exact fun t => ih t (h t)

theorem Guar.mono {p : Prog V α} {Q Q' : α → Prop} (h : Guar R G D p Q) (hq : ∀ a, Q a → Q' a) :
    Guar R G D p Q' := by
  induction p with
  | ret r =>
    cases r with
    | ok a => exact hq a h
    | error x => exact True.intro
  | get k c ih => exact fun o ho => ih o (h o ho)
  | put k v c ih => exact ⟨h.1, fun b => ih b (h.2 b)⟩
  | purge k c ih => exact ⟨h.1, fun b => ih b (h.2 b)⟩
  | draw c ih => exact fun s hs => ih s (h s hs)
  | now c ih => exact fun t => ih t (h t)

theorem Guar.lift {r : Res α} {Q : α → Prop} (h : ∀ a, r = .ok a → Q a) : Guar R G D (Prog.lift r) Q := by
  cases r with
  | ok a => exact h a rfl
  | error x => exact True.intro

theorem Guar.pure {a : α} {Q : α → Prop} (h : Q a) : Guar R G D (Pure.pure a : Prog V α) Q := h

theorem Guar.getE {k : String} {e : Err} {Q : V → Prop} (h : ∀ v, R k v → Q v) : Guar R G D (Prog.getE k e) Q := by
  intro o ho
  cases o with
  | none => exact True.intro
  | some v => exact h v (ho v rfl)

theorem Guar.putE {k : String} {v : V} {e : Err} {Q : Unit → Prop} (h : G k (some v)) (hq : Q ()) :
    Guar R G D (Prog.putE k v e) Q :=
  ⟨h, fun b => by cases b <;> first | exact hq | exact True.intro⟩

theorem Guar.purgeE {k : String} {e : Err} {Q : Unit → Prop} (h : G k none) (hq : Q ()) :
    Guar R G D (Prog.purgeE k e) Q :=
  ⟨h, fun b => by cases b <;> first | exact hq | exact True.intro⟩

theorem Guar.drawE {Q : String → Prop} (h : ∀ s, D s → Q s) : Guar R G D (Prog.drawE : Prog V String) Q :=
  fun s hs => h s hs

theorem Guar.nowE {Q : Int → Prop} (h : ∀ t, Q t) : Guar R G D (Prog.nowE : Prog V Int) Q :=
  fun t => h t

theorem getRes_some {f : Fault} {o : Option V} {v : V} (h : getRes f o = some v) : o = some v := by
  cases f <;> simp_all [getRes]

theorem writeRes_other {f : Fault} {s : String → Option V} {k k' : String} {v : Option V} (h : k' ≠ k) :
    writeRes f s k v k' = s k' := by
  cases f <;> simp [writeRes, h]

theorem writeRes_eq {f : Fault} {s : String → Option V} {k k' : String} {v : Option V} :
    writeRes f s k v k' = s k' ∨ k' = k ∧ writeRes f s k v k' = v := by
  by_cases hk : k' = k
  · subst hk; cases f <;> simp [writeRes]
  · exact .inl (writeRes_other hk)

theorem run_drawn_le (e : Env) (p : Prog V α) (w : World V) : w.drawn ≤ (p.run e w).2.drawn := by
  induction p generalizing w with
  | ret r => exact Nat.le_refl _
  | get k c ih => exact ih _ { w with ops := w.ops + 1 }
  | put k v c ih =>
    exact ih _ { w with store := writeRes (e.fault w.ops) w.store k (some v), ops := w.ops + 1 }
  | purge k c ih =>
    exact ih _ { w with store := writeRes (e.fault w.ops) w.store k none, ops := w.ops + 1 }
  | draw c ih => exact Nat.le_of_succ_le (ih _ { w with drawn := w.drawn + 1 })
  | now c ih => exact ih _ w

/-- Sequential soundness: a store whose entries satisfy `R` keeps doing so, keys no write may touch are unchanged, and
a successful result satisfies `Q`. -/
theorem Guar.run {e : Env} {p : Prog V α} {Q : α → Prop} {w : World V}
    (h : Guar R G D p Q) (hR : ∀ k v, w.store k = some v → R k v) (hG : ∀ k v, G k (some v) → R k v)
    (hD : ∀ n, w.drawn ≤ n → n < (p.run e w).2.drawn → D (e.rng n)) :
    (∀ k v, (p.run e w).2.store k = some v → R k v) ∧
    (∀ k, (∀ v, ¬ G k v) → (p.run e w).2.store k = w.store k) ∧
    (∀ a, (p.run e w).1 = .ok a → Q a) ∧ (p.run e w).2.now = w.now := by
  induction p generalizing w with
  | ret r =>
    refine ⟨hR, fun _ _ => rfl, ?_, rfl⟩
    intro a ha
    simp only [Prog.run] at ha
    subst ha; exact h
  | get k c ih =>
    have hk : ∀ v, getRes (e.fault w.ops) (w.store k) = some v → R k v := by
      intro v hv
      exact hR k v (getRes_some hv)
    exact ih _ (w := { w with ops := w.ops + 1 }) (h _ hk) hR hD
  | put k v c ih =>
    have hR' : ∀ k' v', writeRes (e.fault w.ops) w.store k (some v) k' = some v' → R k' v' := by
      intro k' v' hv
      rcases writeRes_eq (f := e.fault w.ops) (s := w.store) (k := k) (k' := k') (v := some v) with hw | ⟨hk, hw⟩
      · exact hR _ _ (hw ▸ hv)
      · rw [hw] at hv; cases hv; subst hk; exact hG _ _ h.1
    obtain ⟨h1, h2, h3, h5⟩ := ih _ (w := { w with store := writeRes (e.fault w.ops) w.store k (some v), ops := w.ops + 1 })
      (h.2 (decide (e.fault w.ops = .ok))) hR' hD
    refine ⟨h1, ?_, h3, h5⟩
    intro k' hk'
    refine (h2 k' hk').trans ?_
    have : k' ≠ k := by rintro rfl; exact hk' _ h.1
    exact writeRes_other this
  | purge k c ih =>
    have hR' : ∀ k' v', writeRes (e.fault w.ops) w.store k none k' = some v' → R k' v' := by
      intro k' v' hv
      rcases writeRes_eq (f := e.fault w.ops) (s := w.store) (k := k) (k' := k') (v := none) with hw | ⟨hk, hw⟩
      · exact hR _ _ (hw ▸ hv)
      · rw [hw] at hv; cases hv
    obtain ⟨h1, h2, h3, h5⟩ := ih _ (w := { w with store := writeRes (e.fault w.ops) w.store k none, ops := w.ops + 1 })
      (h.2 (decide (e.fault w.ops = .ok))) hR' hD
    refine ⟨h1, ?_, h3, h5⟩
    intro k' hk'
    refine (h2 k' hk').trans ?_
    have : k' ≠ k := by rintro rfl; exact hk' _ h.1
    exact writeRes_other this
  | draw c ih =>
    have hlt : w.drawn < ((draw c).run e w).2.drawn :=
      run_drawn_le e (c (e.rng w.drawn)) { w with drawn := w.drawn + 1 }
    exact ih _ (w := { w with drawn := w.drawn + 1 }) (h _ (hD _ (Nat.le_refl _) hlt)) hR
      (fun n hn hn' => hD n (Nat.le_of_succ_le hn) hn')
  | now c ih => exact ih _ (h w.now) hR hD

end Prog

end Verif
