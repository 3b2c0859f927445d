import Verif.Holder.KeepProps
/-!
# A wallet that stops in the middle of a call: C202
-/
namespace Verif.Holder
open Verif HProg

/-! ### Specification -/

/-- The world in which a call of the wallet is broken off after `n` of its effects (or has ended before).
Machinery of the model; the services are those of /repo/vercre-holder/src/provider.rs 28-122. -/
def HProg.cut {α : Type} (e : HEnv) : Nat → HProg α → HWorld → HWorld
  | 0, _, w => w
  | _ + 1, .ret _, w => w
  | n + 1, .get k c, w => cut e n (c (Prog.getRes (e.fault w.ops) (w.store k))) { w with ops := w.ops + 1 }
  | n + 1, .put k v c, w =>
    cut e n (c (e.fault w.ops == .ok)) { w with store := Prog.writeRes (e.fault w.ops) w.store k (some v), ops := w.ops + 1 }
  | n + 1, .purge k c, w =>
    cut e n (c (e.fault w.ops == .ok)) { w with store := Prog.writeRes (e.fault w.ops) w.store k none, ops := w.ops + 1 }
  | n + 1, .draw c, w => cut e n (c (e.rng w.drawn)) { w with drawn := w.drawn + 1 }
  | n + 1, .now c, w => cut e n (c w.now) w
  | n + 1, .call c k, w => cut e n (k (e.oracle w.log w.recent c)) { w with recent := w.recent ++ [⟨c, e.oracle w.log w.recent c⟩] }

/-- The wallet after it stopped in the middle of a call, `n` effects into it, and was started again: its store as it is by then, and in the history
the calls that it had made. Nobody has got an answer; as for a write that was reported as failed, it may have taken effect.
Machinery of the model; the services are those of /repo/vercre-holder/src/provider.rs 28-122. -/
def stopped (e : HEnv) (n : Nat) (w : HWorld) (s : HStep) : HWorld :=
  let out := (serve s.provider s.req).cut e n { w with now := w.now + s.wait, recent := [] }
  { out with log := out.log ++ [⟨s.provider, w.now + s.wait, s.req, .error .store, out.recent⟩], recent := [] }

/-- A history in which the wallet may stop: each call is served to its end, or stops after some effects. Machinery of the model. -/
def live (e : HEnv) (w : HWorld) : List (HStep × Option Nat) → HWorld
  | [] => w
  | (s, none) :: l => live e (step e w s).2 l
  | (s, some n) :: l => live e (stopped e n w s) l

/-! ### Helpers -/

/-- The program writes at most once, and ends with that. -/
inductive EndsInWrite {α : Type} : HProg α → Prop
  | ret (r) : EndsInWrite (ret r)
  | get (k c) : (∀ o, EndsInWrite (c o)) → EndsInWrite (get k c)
  | put (k v c) : (∀ b, ∃ r, c b = ret r) → EndsInWrite (put k v c)
  | purge (k c) : (∀ b, ∃ r, c b = ret r) → EndsInWrite (purge k c)
  | draw (c) : (∀ s, EndsInWrite (c s)) → EndsInWrite (draw c)
  | now (c) : (∀ t, EndsInWrite (c t)) → EndsInWrite (now c)
  | call (c k) : (∀ o, EndsInWrite (k o)) → EndsInWrite (call c k)

/-- The program writes nothing. -/
inductive Reads {α : Type} : HProg α → Prop
  | ret (r) : Reads (ret r)
  | get (k c) : (∀ o, Reads (c o)) → Reads (get k c)
  | draw (c) : (∀ s, Reads (c s)) → Reads (draw c)
  | now (c) : (∀ t, Reads (c t)) → Reads (now c)
  | call (c k) : (∀ o, Reads (k o)) → Reads (call c k)

section
variable {α β : Type}

theorem Reads.bindR {p : HProg α} {f : α → HProg β} (hp : Reads p) (hf : ∀ a, Reads (f a)) : Reads (p >>= f) := by
  show Reads (HProg.bind p f)
  induction hp with
  | ret r => cases r with
    | ok a => exact hf a
    | error x => exact .ret _
  | get k c _ ih => exact .get _ _ ih
  | draw c _ ih => exact .draw _ ih
  | now c _ ih => exact .now _ ih
  | call c k _ ih => exact .call _ _ ih

theorem Reads.bind {p : HProg α} {f : α → HProg β} (hp : Reads p) (hf : ∀ a, EndsInWrite (f a)) : EndsInWrite (p >>= f) := by
  show EndsInWrite (HProg.bind p f)
  induction hp with
  | ret r => cases r with
    | ok a => exact hf a
    | error x => exact .ret _
  | get k c _ ih => exact .get _ _ ih
  | draw c _ ih => exact .draw _ ih
  | now c _ ih => exact .now _ ih
  | call c k _ ih => exact .call _ _ ih

theorem Reads.lift (r : HRes α) : Reads (HProg.lift r) := .ret r
theorem Reads.pure (a : α) : Reads (Pure.pure a : HProg α) := .ret _
theorem Reads.getI (k : String) : Reads (getIssuance k) := .get _ _ fun o => by
  split <;> exact .ret _
theorem Reads.getP (k : String) : Reads (getPresentation k) := .get _ _ fun o => by
  split <;> exact .ret _
theorem Reads.drawE : Reads HProg.drawE := .draw _ fun _ => .ret _
theorem Reads.nowE : Reads HProg.nowE := .now _ fun _ => .ret _
theorem Reads.callE (c : Call) : Reads (HProg.callE c) := .call _ _ fun _ => .ret _
theorem Reads.callO (c : Call) : Reads (HProg.callO c) := .call _ _ fun _ => .ret _

theorem EndsInWrite.putE (k : String) (v : HVal) {r : HRes α} : EndsInWrite (HProg.putE k v >>= fun _ => HProg.lift r) :=
  .put _ _ _ fun b => by cases b <;> exact ⟨_, rfl⟩

theorem EndsInWrite.purgeE (k : String) {r : HRes α} : EndsInWrite (HProg.purgeE k >>= fun _ => HProg.lift r) :=
  .purge _ _ fun b => by cases b <;> exact ⟨_, rfl⟩

theorem Reads.last {p : HProg α} (h : Reads p) : EndsInWrite p := by
  induction h with
  | ret r => exact .ret _
  | get k c _ ih => exact .get _ _ ih
  | draw c _ ih => exact .draw _ ih
  | now c _ ih => exact .now _ ih
  | call c k _ ih => exact .call _ _ ih

end

/-- What a call broken off has done by then: it has added some calls, and either has not written, or has ended. -/
theorem EndsInWrite.cut {α : Type} {e : HEnv} {p : HProg α} (hp : EndsInWrite p) (n : Nat) (w : HWorld) :
    (p.cut e n w).log = w.log ∧ w.drawn ≤ (p.cut e n w).drawn ∧
    ((p.cut e n w).store = w.store ∨ (p.cut e n w) = (p.run e w).2) := by
  induction hp generalizing n w with
  | ret r => cases n <;> exact ⟨rfl, Nat.le_refl _, .inr rfl⟩
  | get k c _ ih => cases n with
    | zero => exact ⟨rfl, Nat.le_refl _, .inl rfl⟩
    | succ n => exact ih _ n _
  | put k v c hc => cases n with
    | zero => exact ⟨rfl, Nat.le_refl _, .inl rfl⟩
    | succ n =>
      obtain ⟨r, hr⟩ := hc (e.fault w.ops == .ok)
      simp only [HProg.cut, run, hr]
      cases n <;> exact ⟨rfl, Nat.le_refl _, .inr rfl⟩
  | purge k c hc => cases n with
    | zero => exact ⟨rfl, Nat.le_refl _, .inl rfl⟩
    | succ n =>
      obtain ⟨r, hr⟩ := hc (e.fault w.ops == .ok)
      simp only [HProg.cut, run, hr]
      cases n <;> exact ⟨rfl, Nat.le_refl _, .inr rfl⟩
  | draw c _ ih => cases n with
    | zero => exact ⟨rfl, Nat.le_refl _, .inl rfl⟩
    | succ n =>
      obtain ⟨h1, h2, h3⟩ := ih (e.rng w.drawn) n { w with drawn := w.drawn + 1 }
      exact ⟨h1, Nat.le_trans (Nat.le_succ _) h2, h3⟩
  | now c _ ih => cases n with
    | zero => exact ⟨rfl, Nat.le_refl _, .inl rfl⟩
    | succ n => exact ih _ n _
  | call c k _ ih => cases n with
    | zero => exact ⟨rfl, Nat.le_refl _, .inl rfl⟩
    | succ n => exact ih _ n _

theorem cut_ops {α : Type} (e : HEnv) (n : Nat) (p : HProg α) (w : HWorld) : w.ops ≤ (p.cut e n w).ops := by
  induction p generalizing n w with
  | ret r => cases n <;> exact Nat.le_refl _
  | get k c ih | put k v c ih | purge k c ih => cases n with
    | zero => exact Nat.le_refl _
    | succ n =>
      simp only [HProg.cut]
      refine Nat.le_trans ?_ (ih _ n _)
      exact Nat.le_succ w.ops
  | draw c ih | now c ih | call c k ih => cases n with
    | zero => exact Nat.le_refl _
    | succ n =>
      simp only [HProg.cut]
      refine Nat.le_trans ?_ (ih _ n _)
      exact Nat.le_refl w.ops

theorem setIssuer_reads (i : Issuance) (c : String) : Reads (setIssuer i c) := by
  unfold setIssuer
  exact (Reads.callE _).bindR fun _ => (Reads.callE _).bindR fun _ => .ret _

theorem newIssuance_reads (c : String) : Reads (newIssuance c) := by
  unfold newIssuance
  exact Reads.drawE.bindR fun _ => .ret _

theorem startFlow_reads (req : AuthorizeRequest) : Reads (startFlow req) := by
  unfold startFlow
  split
  · exact (Reads.getI _).bindR fun _ => (Reads.lift _).bindR fun _ => .ret _
  · exact (Reads.lift _).bindR fun _ => (newIssuance_reads _).bindR fun _ => (setIssuer_reads _ _).bindR fun _ => .ret _

theorem storable_reads (P : Provider) (cfg : CredentialConfiguration) (k : Kind Vc) : Reads (storable P cfg k) := by
  unfold storable
  refine (Reads.lift _).bindR fun p => ?_
  cases p with
  | vp => exact .ret _
  | vc vc t =>
    refine (Reads.lift _).bindR fun _ => ?_
    cases k with
    | object o => exact .ret _
    | string tok =>
      refine Reads.bindR ?_ fun _ => (Reads.lift _).bindR fun u => Reads.bindR ?_ fun _ => .ret _
      · unfold storableId
        split
        · exact .ret _
        · exact Reads.drawE.bindR fun _ => .ret _
      · cases u with
        | none => exact .ret _
        | some u => exact Reads.callO _

theorem storables_reads (P : Provider) (cfg : CredentialConfiguration) (l : List (Kind Vc)) : Reads (storables P cfg l) := by
  induction l with
  | nil => exact .ret _
  | cons k l ih => exact (storable_reads P cfg k).bindR fun _ => ih.bindR fun _ => .ret _

theorem process_reads (P : Provider) (cfg : CredentialConfiguration) (r : CredentialResponse) : Reads (process P cfg r) := by
  unfold process
  split
  · exact (storable_reads ..).bindR fun _ => .ret _
  · exact (storables_reads ..).bindR fun _ => .ret _
  · exact .ret _

theorem byIdentifiers_reads (P : Provider) (jwt cfg : String) (c : CredentialConfiguration) (wanted : Option (List String)) (l : List String) (i : Issuance) :
    Reads (byIdentifiers P jwt cfg c wanted l i) := by
  induction l generalizing i with
  | nil => exact .ret _
  | cons a l ih =>
    unfold byIdentifiers
    split
    · exact (Reads.callE _).bindR fun _ => (process_reads ..).bindR fun _ => ih _
    · exact ih _

theorem byDetails_reads (P : Provider) (jwt : String) (wanted : Option (List String)) (l : List Issuer.AuthorizedDetail) (i : Issuance) :
    Reads (byDetails P jwt wanted l i) := by
  induction l generalizing i with
  | nil => exact .ret _
  | cons a l ih =>
    unfold byDetails
    exact (Reads.lift _).bindR fun _ => (Reads.lift _).bindR fun _ => (byIdentifiers_reads ..).bindR fun _ => ih _

theorem fetch_reads (P : Provider) (i : Issuance) (req : CredentialsRequest) (jwt : String) : Reads (fetch P i req jwt) := by
  unfold fetch
  split
  · unfold byFormat
    exact (Reads.lift _).bindR fun _ => (Reads.lift _).bindR fun _ => (Reads.lift _).bindR fun _ => (Reads.callE _).bindR fun _ =>
      (process_reads ..).bindR fun _ => .ret _
  · unfold byIdentifier
    exact (Reads.lift _).bindR fun _ => byDetails_reads ..

theorem notifyOutcome_reads (i : Issuance) (ev : NotificationEvent) : Reads (notifyOutcome i ev) := by
  unfold notifyOutcome
  split
  · exact .ret _
  · exact (Reads.callE _).bindR fun _ => .ret _

theorem saveAll_reads (i : Issuance) (l : List Credential) : Reads (saveAll i l) := by
  induction l with
  | nil => exact .ret _
  | cons c l ih =>
    unfold saveAll
    refine (Reads.callO _).bindR fun o => ?_
    cases o with
    | some u => exact ih
    | none =>
      refine Reads.bindR ?_ fun _ => .ret _
      unfold notifyFailure
      split
      · exact .ret _
      · exact (Reads.callO _).bindR fun _ => .ret _

theorem stash_last (i : Issuance) (r : Resp) : EndsInWrite (stash i >>= fun _ => (pure r : HProg Resp)) := by
  unfold stash
  split
  · exact .purgeE _
  · exact .putE _ _

/-- Every endpoint of the wallet writes at most once, and last. -/
theorem serve_endsInWrite (P : Provider) (r : Req) : EndsInWrite (serve P r) := by
  cases r with
  | offer r =>
    refine (Reads.lift _).bind fun _ => (newIssuance_reads _).bind fun _ => (setIssuer_reads _ _).bind fun i => ?_
    refine .put _ _ _ fun b => ?_
    cases b
    · exact ⟨_, rfl⟩
    · cases h : offeredConfigs i.issuer.configs r.offer.configIds [] with
      | ok o => exact ⟨_, by simp only [HProg.bind, if_true, Bind.bind, HProg.lift]; rfl⟩
      | error x => exact ⟨_, by simp only [HProg.bind, if_true, Bind.bind, HProg.lift]; rfl⟩
  | accept r => exact (Reads.getI _).bind fun _ => (Reads.lift _).bind fun _ => (Reads.lift _).bind fun _ => (Reads.lift _).bind fun _ => .putE _ _
  | pin r => exact (Reads.getI _).bind fun _ => (Reads.lift _).bind fun _ => .putE _ _
  | token k =>
    exact (Reads.getI _).bind fun _ => (Reads.lift _).bind fun _ => (Reads.lift _).bind fun _ => (Reads.callE _).bind fun _ =>
      (Reads.lift _).bind fun _ => .putE _ _
  | authorize r =>
    exact (startFlow_reads _).bind fun _ => Reads.drawE.bind fun _ => (Reads.lift _).bind fun _ => (Reads.callE _).bind fun _ =>
      (Reads.callE _).bind fun _ => (Reads.lift _).bind fun _ => .putE _ _
  | credentials r =>
    exact (Reads.getI _).bind fun _ => (Reads.lift _).bind fun _ => Reads.nowE.bind fun _ => (Reads.lift _).bind fun _ =>
      (fetch_reads ..).bind fun _ => .putE _ _
  | deferred r =>
    refine (Reads.getI _).bind fun _ => (Reads.lift _).bind fun _ => (Reads.callE _).bind fun _ => (Reads.lift _).bind fun _ =>
      (process_reads ..).bind fun _ => ?_
    exact stash_last _ _
  | save k =>
    refine (Reads.getI _).bind fun i => (saveAll_reads ..).bind fun _ => (notifyOutcome_reads ..).bind fun _ => ?_
    unfold endFlow
    split
    · exact .purgeE _
    · exact .ret _
  | cancel k => exact (Reads.getI _).bind fun _ => (notifyOutcome_reads ..).bind fun _ => .purgeE _
  | request u =>
    refine (Reads.lift _).bind fun _ => Reads.drawE.bind fun _ => Reads.bind ?_ fun _ => (Reads.lift _).bind fun _ => (Reads.callE _).bind fun _ => .putE _ _
    unfold obtainRequest
    split
    · exact .ret _
    · exact (Reads.callE _).bindR fun _ => .ret _
  | authorizePresentation k => exact (Reads.getP _).bind fun _ => (Reads.lift _).bind fun _ => .putE _ _
  | present k =>
    refine Reads.last ((Reads.getP _).bindR fun p => (Reads.lift _).bindR fun _ => Reads.bindR ?_ fun _ => Reads.bindR ?_ fun _ =>
      Reads.nowE.bindR fun _ => (Reads.lift _).bindR fun _ => (Reads.callE _).bindR fun _ => .ret _)
    · unfold createSubmission
      split
      · exact .ret _
      · exact Reads.drawE.bindR fun _ => .ret _
    · unfold createVp
      refine Reads.drawE.bindR fun _ => ?_
      dsimp only
      split
      · exact .ret _
      · exact .ret _

section
variable {e : HEnv} {w : HWorld}

theorem stopped_store (n : Nat) (s : HStep) : w.drawn ≤ (stopped e n w s).drawn ∧ (∃ en, (stopped e n w s).log = w.log ++ [en]) ∧
    ((stopped e n w s).store = w.store ∨
      (stopped e n w s).store = (step e w s).2.store ∧ (stopped e n w s).drawn = (step e w s).2.drawn ∧ (stopped e n w s).ops = (step e w s).2.ops ∧
      (stopped e n w s).log = w.log ++ [⟨s.provider, w.now + s.wait, s.req, .error .store, ((serve s.provider s.req).run e (before w s)).2.recent⟩]) := by
  obtain ⟨h1, h2, h3⟩ := (serve_endsInWrite s.provider s.req).cut (e := e) n (before w s)
  refine ⟨h2, ⟨_, congrArg (· ++ _) h1⟩, ?_⟩
  rcases h3 with h3 | h3
  · exact .inl h3
  · have e1 := congrArg HWorld.store h3
    have e2 := congrArg HWorld.drawn h3
    have e3 := congrArg HWorld.ops h3
    refine .inr ⟨e1, e2, e3, ?_⟩
    show ((serve s.provider s.req).cut e n (before w s)).log ++ [⟨_, _, _, _, ((serve s.provider s.req).cut e n (before w s)).recent⟩] = _
    rw [h1, h3]; rfl

theorem save_works {k : String} {i : Issuance} (hi : w.store k = some (.issuance i)) (hnote : i.notificationId = none) {s : HStep} (hq : s.req = .save k)
    (hst : ∀ n, w.ops ≤ n → e.fault n = .ok) (ho : ∀ recent c, e.oracle w.log recent (.save c) = some ()) :
    (step e w s).1 = .ok (.flow k) ∧ (step e w s).2.log.map (·.events) = w.log.map (·.events) ++ [i.credentials.map fun c => ⟨.save c, some ()⟩] := by
  have hok : (step e w s).1 = .ok (.flow k) := by
    rw [(step_eq e w s).1, hq]
    show ((save k).run e (before w s)).1 = _
    have hi' : (before w s).store k = some (.issuance i) := hi
    have hops : (before w s).ops = w.ops := rfl
    obtain ⟨w', h1, h2⟩ := saveAll_works (e := e) (i := i) (l := i.credentials) (w := { before w s with ops := (before w s).ops + 1 }) ho
    have h2 : w'.ops = w.ops + 1 := h2
    have hget : (getIssuance k).run e (before w s) = (.ok i, { before w s with ops := (before w s).ops + 1 }) := by
      simp only [getIssuance, run, hi', hst _ (Nat.le_refl w.ops), hops, Prog.getRes]
    unfold save
    rw [run_bind, hget]
    simp only
    rw [run_bind, h1]
    simp only
    rw [run_bind]
    have hno : (notifyOutcome i .accepted).run e w' = (.ok (), w') := by unfold notifyOutcome; rw [hnote]; rfl
    rw [hno]
    simp only
    unfold endFlow
    split
    · rw [run_bind]
      simp only [purgeE, run, h2, hst _ (Nat.le_succ w.ops)]
      rfl
    · rfl
  refine ⟨hok, ?_⟩
  rw [step_log, List.map_append]
  congr 1
  simp only [List.map_cons, List.map_nil, List.cons.injEq, and_true]
  obtain ⟨⟨r, w2⟩, hrun⟩ : ∃ q, (serve s.provider s.req).run e (before w s) = q := ⟨_, rfl⟩
  rw [(step_eq e w s).1, hrun] at hok
  simp only at hok
  subst hok
  rw [hrun]
  rw [hq] at hrun
  obtain ⟨evs, ws, hE, _, h1⟩ := save_did (fun j hj => by
    have hj : w.store k = some (.issuance j) := hj
    rw [hi] at hj; cases hj; exact hnote) hrun
  show w2.recent = _
  rw [hE.recent]
  rcases h1 with ⟨hf', _⟩ | ⟨j, hj, ⟨done, c, rest, hf', _⟩ | ⟨rfl, _⟩⟩
  · exact absurd rfl hf'.ne_ok
  · exact absurd rfl hf'.ne_ok
  · have hj : w.store k = some (.issuance j) := hj
    rw [hi] at hj; cases hj
    rfl

/-! ### Properties -/

/-- **C202**, what is kept. At whatever point of a call the wallet stops, everything it keeps of its flows is as it was before the call, or as the call
leaves it when it is not disturbed. There is nothing in between, in no world the wallet could be in. -/
theorem C202_before_or_after (n : Nat) (s : HStep) :
    (stopped e n w s).store = w.store ∨ (stopped e n w s).store = (step e w s).2.store := by
  rcases (stopped_store n s).2.2 with h | ⟨h, _⟩
  · exact .inl h
  · exact .inr h

/-- **C202**, saving. If the wallet stops while it saves the credentials of a flow, at whatever point, nothing is lost: either all that was received has
been handed to the storage by then and the flow is over, or saving it again hands over all of it, once each and in order. (The credentials that
were handed over before the stop are handed over a second time.) -/
theorem C202_save_again (hf : e.Fresh) (hn : e.NoLate) (hr : Reachable e w) {k : String} (h : received k w.log ≠ []) (hx : ¬ Ended k w.log)
    (s : HStep) (hq : s.req = .save k) (hst : ∀ n, w.ops ≤ n → e.fault n = .ok) (ho : ∀ log recent c, e.oracle log recent (.save c) = some ()) :
    ∃ cs : List Credential, cs.map (·.issued) = received k w.log ∧ ∀ n,
      ((stopped e n w s).store k = none ∧
        (stopped e n w s).log.map (·.events) = w.log.map (·.events) ++ [cs.map fun c => ⟨.save c, some ()⟩]) ∨
      ∀ again : HStep, again.req = .save k → (step e (stopped e n w s) again).1 = .ok (.flow k) ∧
        (step e (stopped e n w s) again).2.log.map (·.events) =
          (stopped e n w s).log.map (·.events) ++ [cs.map fun c => ⟨.save c, some ()⟩] := by
  obtain ⟨i, hi⟩ := received_kept hf hn hr h hx
  have hv : FlowInv e w.log k i := (reachable_inv hf hr).val _ _ hi
  refine ⟨i.credentials, hv.received hn, fun n => ?_⟩
  have hops : w.ops ≤ (stopped e n w s).ops := cut_ops e n (serve s.provider s.req) (before w s)
  by_cases hk : (stopped e n w s).store k = some (.issuance i)
  · exact .inr fun again ha => save_works hk hv.note ha (fun m hm => hst m (Nat.le_trans hops hm)) fun _ _ => ho ..
  · left
    rcases (stopped_store (e := e) (w := w) n s).2.2 with hs | ⟨hs, _, _, hlog⟩
    · exact absurd (hs ▸ hi) hk
    · have hall := (save_works hi hv.note hq hst fun _ _ => ho ..).2
      rw [step_log] at hall
      refine ⟨?_, by rw [hlog]; simpa using hall⟩
      rw [hs] at hk ⊢
      obtain ⟨⟨r, w2⟩, hrun⟩ : ∃ q, (serve s.provider s.req).run e (before w s) = q := ⟨_, rfl⟩
      rw [(step_eq e w s).2, hrun] at hk ⊢
      rw [hq] at hrun
      obtain ⟨evs, ws, hE, _, h1⟩ := save_did (fun j hj => by
        have hj : w.store k = some (.issuance j) := hj
        rw [hi] at hj; cases hj; exact hv.note) hrun
      simp only [hE.store] at hk ⊢
      have hi' : (before w s).store k = some (.issuance i) := hi
      rcases h1 with ⟨_, _, rfl⟩ | ⟨j, hj, ⟨_, _, _, _, rfl, _⟩ | ⟨_, ⟨_, hends⟩ | ⟨_, rfl, _⟩⟩⟩
      · exact absurd hi' hk
      · exact absurd hi' hk
      · cases hends with
        | done => simp [applyWrites, upd]
        | lost => exact absurd hi' hk
        | late _ => simp [applyWrites, upd]
      · exact absurd hi' hk

end

end Verif.Holder
