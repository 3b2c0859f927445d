import Verif.Holder.Overlap
/-!
# Overlapping wallet calls: what holds in every schedule (C110 – C112)

`overlapped rng t0 calls s` is a wallet that was asked to serve the calls `calls` (numbered, as many as one likes), after schedule `s`:
an arbitrary interleaving of single effects of these calls, with arbitrary storage faults, arbitrary answers by everybody else, and calls left off
anywhere.
-/
namespace Verif.Holder
open Verif HProg

/-- A wallet after a schedule. -/
def overlapped (rng : Nat → Nat → String) (t0 : Int) (calls : Nat → Provider × Req) (s : List Turn) : HPool :=
  HPool.turns rng (HPool.start t0 calls) s

theorem overlapped_inv {rng : Nat → Nat → String} {t0 : Int} {calls : Nat → Provider × Req} {I : HPool → Prop} (h0 : I (HPool.start t0 calls))
    (hs : ∀ p t, I p → I (HPool.turn rng p t)) (s : List Turn) : I (overlapped rng t0 calls s) := HPool.turns_inv hs h0 s

theorem overlapped_append {rng : Nat → Nat → String} {t0 : Int} {calls : Nat → Provider × Req} (a b : List Turn) :
    overlapped rng t0 calls (a ++ b) = HPool.turns rng (overlapped rng t0 calls a) b := HPool.turns_append ..

section
variable {rng : Nat → Nat → String} {calls : Nat → Provider × Req} {t0 : Int} {s : List Turn}

/-! ### C110 -/

/-- C110: a token is asked for, with the code of an offer, only for the flow of that offer, after an acceptance of that flow, and after its PIN was
given if the offer requires one; and by authorizing, only after acceptance of the flow that is authorized. -/
theorem C110_token_after_acceptance {pre post : Trace} {i : Nat} {q : Issuer.TokenRequest} {o : Option Issuer.TokenResponse}
    (h : (overlapped rng t0 calls s).trace = pre ++ (i, .made ⟨.token q, o⟩) :: post) :
    (∃ k o g p pin, (calls i).2 = .token k ∧ WasOffered rng calls pre k o ∧ WasAccepted calls pre k ∧ o.grants = some g ∧
      g.preAuthorizedCode = some p ∧ q.grantType = .preAuthorizedCode p.preAuthorizedCode pin ∧
      (RequiresTxCode o → ∃ t, pin = some t ∧ PinGiven calls pre k t)) ∨
    ∃ r, (calls i).2 = .authorize r ∧ ∀ k, r.initiator = .issuer k → WasAccepted calls pre k ∧ ∃ o, WasOffered rng calls pre k o :=
  (pool_safe rng calls t0 s).made _ _ _ _ h

/-- C110: a credential is asked for only with an access token that came for the same flow. -/
theorem C110_credential_after_token {pre post : Trace} {i : Nat} {q : Issuer.CredentialRequest} {o : Option CredentialResponse}
    (h : (overlapped rng t0 calls s).trace = pre ++ (i, .made ⟨.credential q, o⟩) :: post) :
    ∃ r t, (calls i).2 = .credentials r ∧ TokenCame calls pre r.issuanceId t ∧ q.accessToken = t.accessToken :=
  (pool_safe rng calls t0 s).made _ _ _ _ h

/-- C110: the same for a deferred credential, which is asked for under the transaction the caller named. -/
theorem C110_deferred_after_token {pre post : Trace} {i : Nat} {q : Issuer.DeferredRequest} {o : Option CredentialResponse}
    (h : (overlapped rng t0 calls s).trace = pre ++ (i, .made ⟨.deferred q, o⟩) :: post) :
    ∃ r t, (calls i).2 = .deferred r ∧ TokenCame calls pre r.issuanceId t ∧ q.accessToken = t.accessToken ∧ q.transactionId = r.transactionId :=
  (pool_safe rng calls t0 s).made _ _ _ _ h

/-- C110: only credentials that came for the flow, and whose signature was checked, are put into the holder's store. -/
theorem C110_saved_came {pre post : Trace} {i : Nat} {c : Credential} {o : Option Unit}
    (h : (overlapped rng t0 calls s).trace = pre ++ (i, .made ⟨.save c, o⟩) :: post) :
    ∃ k, (calls i).2 = .save k ∧ CredentialCame calls pre k c :=
  (pool_safe rng calls t0 s).made _ _ _ _ h

/-- C110: only what was requested and then authorized by the holder is presented, with the credentials found for it. -/
theorem C110_presented_authorized {pre post : Trace} {i : Nat} {uri : Option String} {rr : Verifier.ResponseRequest} {o : Option Verifier.ResponseResponse}
    (h : (overlapped rng t0 calls s).trace = pre ++ (i, .made ⟨.present uri rr, o⟩) :: post) :
    ∃ k q creds, (calls i).2 = .present k ∧ WasRequested rng calls pre k q creds ∧ WasAuthorized calls pre k ∧ Answers (calls i).1 q creds uri rr :=
  (pool_safe rng calls t0 s).made _ _ _ _ h

/-- C110: an issuer is never notified of anything, however calls overlap (see C67). -/
theorem C110_never_notifies {pre post : Trace} {i : Nat} {n : Notification} {o : Option Unit} :
    (overlapped rng t0 calls s).trace ≠ pre ++ (i, .made ⟨.notification n, o⟩) :: post :=
  fun h => (pool_safe rng calls t0 s).made _ _ _ _ h

/-- Calls by which the holder consents to something. -/
inductive Consent : Req → Prop
  | accept (r : AcceptRequest) : Consent (.accept r)
  | pin (r : PinRequest) : Consent (.pin r)
  | authorizePresentation (k : String) : Consent (.authorizePresentation k)

/-- Programs whose only write comes last. -/
def WritesLast : HProg Resp → Prop
  | ret _ => True
  | HProg.get _ c => ∀ o, WritesLast (c o)
  | put _ _ c => ∀ b, c b = ret (.error .store) ∨ ∃ a, c b = ret (.ok a)
  | purge _ _ => False
  | draw c => ∀ t, WritesLast (c t)
  | HProg.now c => ∀ t, WritesLast (c t)
  | call _ k => ∀ o, WritesLast (k o)

theorem writesLast_lift {α : Type} {r : HRes α} {f : α → HProg Resp} (h : ∀ a, WritesLast (f a)) : WritesLast (lift r >>= f) := by
  cases r with
  | ok a => exact h a
  | error x => trivial

theorem writesLast_flow {k : String} {f : Issuance → HProg Resp} (h : ∀ a, WritesLast (f a)) : WritesLast (getIssuance k >>= f) := by
  intro o
  match o with
  | none => trivial
  | some (.presentation p) => trivial
  | some (.issuance f) => exact h f

theorem writesLast_presentation {k : String} {f : Presentation → HProg Resp} (h : ∀ a, WritesLast (f a)) : WritesLast (getPresentation k >>= f) := by
  intro o
  match o with
  | none => trivial
  | some (.issuance p) => trivial
  | some (.presentation f) => exact h f

theorem writesLast_put {k : String} {v : HVal} {a : Resp} : WritesLast (putE k v >>= fun _ => pure a) := by
  intro b
  cases b
  · exact .inl rfl
  · exact .inr ⟨a, rfl⟩

theorem writesLast_serve {P : Provider} {r : Req} (h : Consent r) : WritesLast (serve P r) := by
  cases h with
  | accept r => exact writesLast_flow fun _ => writesLast_lift fun _ => writesLast_lift fun _ => writesLast_lift fun _ => writesLast_put
  | pin r => exact writesLast_flow fun _ => writesLast_lift fun _ => writesLast_put
  | authorizePresentation k => exact writesLast_presentation fun _ => writesLast_lift fun _ => writesLast_put

/-- C110: consent counts (`WasAccepted`, `PinGiven`, `WasAuthorized`) only if it was given by a call that did not fail, or failed to store. -/
theorem C110_refused_consent_is_none {i : Nat} (hc : Consent (calls i).2) (hw : (i, .wrote) ∈ (overlapped rng t0 calls s).trace) :
    (overlapped rng t0 calls s).Ended i (.error .store) ∨ ∃ a, (overlapped rng t0 calls s).Ended i (.ok a) := by
  have key : WritesLast ((overlapped rng t0 calls s).prog i) ∧ ((i, .wrote) ∈ (overlapped rng t0 calls s).trace →
      (overlapped rng t0 calls s).Ended i (.error .store) ∨ ∃ a, (overlapped rng t0 calls s).Ended i (.ok a)) := by
    refine overlapped_inv (I := fun p => WritesLast (p.prog i) ∧ ((i, .wrote) ∈ p.trace → p.Ended i (.error .store) ∨ ∃ a, p.Ended i (.ok a)))
      ⟨writesLast_serve hc, fun h => by cases h⟩ (fun p t h => ?_) s
    cases t with
    | tick ns => exact h
    | run j f answer =>
      by_cases e : j = i
      · subst e
        have hp := h.1
        simp only [HPool.turn]
        split <;> rename_i heq <;> rw [heq] at hp
        · exact h
        all_goals
          have no : (j, Act.wrote) ∉ p.trace := fun hm => by
            rcases h.2 hm with h | ⟨a, h⟩ <;> (simp only [HPool.Ended] at h; rw [heq] at h; cases h)
        · exact ⟨by simp only [setAt_same]; exact hp _, fun hm => by simp [no] at hm⟩
        · refine ⟨?_, fun _ => ?_⟩
          · simp only [setAt_same]
            rcases hp (decide (f = .ok)) with hp | ⟨a, hp⟩ <;> rw [hp] <;> trivial
          · simp only [HPool.Ended, setAt_same]; exact hp _
        · exact hp.elim
        · exact ⟨by simp only [setAt_same]; exact hp _, fun hm => by simp [no] at hm⟩
        · exact ⟨by simp only [setAt_same]; exact hp _, fun hm => by simp [no] at hm⟩
        · exact ⟨by simp only [setAt_same]; exact hp _, fun hm => by simp [no] at hm⟩
      · have hprog := HPool.turn_other (rng := rng) (p := p) (f := f) (answer := answer) (Ne.symm e)
        refine ⟨by rw [hprog]; exact h.1, fun hm => ?_⟩
        simp only [HPool.Ended, hprog]
        refine h.2 ?_
        simp only [HPool.turn] at hm
        split at hm <;> simp_all [Ne.symm e]
  exact key.2 hw

/-! ### C111 -/

/-- C111: a call touches no flow but its own. -/
theorem C111_own_flow_only {i : Nat} {f : Fault} {answer : (c : Call) → Option c.Reply} {k : String}
    (h : (overlapped rng t0 calls (s ++ [.run i f answer])).store k ≠ (overlapped rng t0 calls s).store k) : Own rng calls i k := by
  rw [overlapped_append] at h
  have hi : Keeps (pact rng calls) i ((overlapped rng t0 calls s).prog i) (overlapped rng t0 calls s).trace (fun _ _ => True) :=
    (pool_safe rng calls t0 s).prog i
  generalize overlapped rng t0 calls s = p at h hi
  simp only [HPool.turns, HPool.turn] at h
  split at h <;> rename_i heq
  · exact absurd rfl h
  all_goals rw [heq] at hi
  · exact absurd rfl h
  · rename_i k' v c
    rcases Prog.writeRes_eq (f := f) (s := p.store) (k := k') (k' := k) (v := some v) with e | ⟨rfl, _⟩
    · exact absurd e h
    · exact hi.1
  · rename_i k' c
    rcases Prog.writeRes_eq (f := f) (s := p.store) (k := k') (k' := k) (v := none) with e | ⟨rfl, _⟩
    · exact absurd e h
    · exact hi.1
  all_goals exact absurd rfl h

/-- The turns of the calls in `A`, and the passing of time. -/
def among (A : Nat → Bool) : Turn → Bool
  | .tick _ => true
  | .run i _ _ => A i

theorem writeRes_same {f : Fault} {s s' : String → Option HVal} {k k' : String} {v : Option HVal} (h : s k' = s' k') :
    Prog.writeRes f s k v k' = Prog.writeRes f s' k v k' := by
  cases f <;> simp only [Prog.writeRes, upd, h]

/-- Two wallets that agree on the calls in `A` and their flows; the second has done nothing else. -/
structure Agree (rng : Nat → Nat → String) (calls : Nat → Provider × Req) (A : Nat → Bool) (p q : HPool) : Prop where
  now : p.now = q.now
  prog : ∀ i, A i = true → p.prog i = q.prog i
  drawn : ∀ i, A i = true → p.drawn i = q.drawn i
  trace : p.trace.filter (fun x => A x.1) = q.trace
  store : ∀ i k, A i = true → Own rng calls i k → p.store k = q.store k

theorem Agree.outside {A : Nat → Bool} (hd : ∀ i j k, A i = true → A j = false → Own rng calls i k → ¬ Own rng calls j k) {p q : HPool}
    (hs : HPool.Safe (pact rng calls) p) (h : Agree rng calls A p q) {j : Nat} (hA : A j = false) (f : Fault) (answer : (c : Call) → Option c.Reply) :
    Agree rng calls A (HPool.turn rng p (.run j f answer)) q := by
  have hj := hs.prog j
  have hne : ∀ i, A i = true → i ≠ j := fun i hi e => by rw [e, hA] at hi; cases hi
  have hprog : ∀ c i, A i = true → setAt p.prog j c i = q.prog i := fun c i hi => by rw [setAt_other _ _ (hne i hi)]; exact h.prog i hi
  have htr : ∀ a, (p.trace ++ [(j, a)]).filter (fun x => A x.1) = q.trace := fun a => by rw [List.filter_append, h.trace]; simp [hA]
  have hst : ∀ k' v, Own rng calls j k' → ∀ i k, A i = true → Own rng calls i k → Prog.writeRes f p.store k' v k = q.store k := by
    intro k' v hk' i k hi hk
    rcases Prog.writeRes_eq (f := f) (s := p.store) (k := k') (k' := k) (v := v) with e | ⟨rfl, _⟩
    · exact e.trans (h.store i k hi hk)
    · exact absurd hk' (hd i j _ hi hA hk)
  simp only [HPool.turn]
  split <;> rename_i heq
  · exact h
  all_goals rw [heq] at hj
  · exact ⟨h.now, hprog _, h.drawn, htr _, h.store⟩
  · exact ⟨h.now, hprog _, h.drawn, htr _, hst _ _ hj.1⟩
  · exact ⟨h.now, hprog _, h.drawn, htr _, hst _ _ hj.1⟩
  · exact ⟨h.now, hprog _, fun i hi => (setAt_other _ _ (hne i hi)).trans (h.drawn i hi), htr _, h.store⟩
  · exact ⟨h.now, hprog _, h.drawn, htr _, h.store⟩
  · exact ⟨h.now, hprog _, h.drawn, htr _, h.store⟩

theorem Agree.inside {A : Nat → Bool} {p q : HPool} (hs : HPool.Safe (pact rng calls) p) (h : Agree rng calls A p q) {j : Nat} (hA : A j = true)
    (f : Fault) (answer : (c : Call) → Option c.Reply) :
    Agree rng calls A (HPool.turn rng p (.run j f answer)) (HPool.turn rng q (.run j f answer)) := by
  have hj := hs.prog j
  have hprog : ∀ c i, A i = true → setAt p.prog j c i = setAt q.prog j c i := fun c i hi => by
    by_cases e : i = j
    · subst e; rw [setAt_same, setAt_same]
    · rw [setAt_other _ _ e, setAt_other _ _ e]; exact h.prog i hi
  have htr : ∀ a, (p.trace ++ [(j, a)]).filter (fun x => A x.1) = q.trace ++ [(j, a)] := fun a => by rw [List.filter_append, h.trace]; simp [hA]
  have hst : ∀ k' v i k, A i = true → Own rng calls i k → Prog.writeRes f p.store k' v k = Prog.writeRes f q.store k' v k :=
    fun k' v i k hi hk => writeRes_same (h.store i k hi hk)
  have hq := h.prog j hA
  simp only [HPool.turn]
  rw [← hq]
  split <;> rename_i heq
  · exact h
  all_goals rw [heq] at hj
  · rename_i k c
    have hg : p.store k = q.store k := h.store j k hA hj.1
    simp only [hg]
    exact ⟨h.now, hprog _, h.drawn, htr _, h.store⟩
  · exact ⟨h.now, hprog _, h.drawn, htr _, hst _ _⟩
  · exact ⟨h.now, hprog _, h.drawn, htr _, hst _ _⟩
  · simp only [h.drawn j hA]
    refine ⟨h.now, hprog _, fun i hi => ?_, htr _, h.store⟩
    by_cases e : i = j
    · subst e; simp only [setAt_same]
    · simp only [setAt_other _ _ e]; exact h.drawn i hi
  · simp only [h.now]
    exact ⟨rfl, hprog _, h.drawn, htr _, h.store⟩
  · exact ⟨h.now, hprog _, h.drawn, htr _, h.store⟩

/-- C111: calls about other flows make no difference. Take any set of calls that shares no flow with the calls outside it. Leaving the others out
of a schedule changes neither how the calls of the set end, nor what they do, nor what is stored for their flows. -/
theorem C111_flows_independent (A : Nat → Bool) (hd : ∀ i j k, A i = true → A j = false → Own rng calls i k → ¬ Own rng calls j k) :
    (∀ i r, A i = true → ((overlapped rng t0 calls s).Ended i r ↔ (overlapped rng t0 calls (s.filter (among A))).Ended i r)) ∧
    (overlapped rng t0 calls s).trace.filter (fun x => A x.1) = (overlapped rng t0 calls (s.filter (among A))).trace ∧
    ∀ i k, A i = true → Own rng calls i k → (overlapped rng t0 calls s).store k = (overlapped rng t0 calls (s.filter (among A))).store k := by
  have key : ∀ (s : List Turn) (p q : HPool), HPool.Safe (pact rng calls) p → Agree rng calls A p q →
      Agree rng calls A (HPool.turns rng p s) (HPool.turns rng q (s.filter (among A))) := by
    intro s
    induction s with
    | nil => exact fun p q _ h => h
    | cons t s ih =>
      intro p q hs h
      have hs' : HPool.Safe (pact rng calls) (HPool.turn rng p t) := HPool.Safe.turn (T := pact rng calls) (rng := rng) (fun _ n => ⟨n, rfl⟩) hs t
      cases t with
      | tick ns =>
        exact ih _ _ hs' ⟨by simp only [HPool.turn, h.now], h.prog, h.drawn, h.trace, h.store⟩
      | run j f answer =>
        cases hA : A j with
        | false =>
          rw [List.filter_cons_of_neg (by simp [among, hA])]
          exact ih _ _ hs' (h.outside hd hs hA f answer)
        | true =>
          rw [List.filter_cons_of_pos (by simp [among, hA])]
          exact ih _ _ hs' (h.inside hs hA f answer)
  have h := key s (HPool.start t0 calls) (HPool.start t0 calls) (HPool.Safe.start serve_keeps) ⟨rfl, fun _ _ => rfl, fun _ _ => rfl, rfl, fun _ _ _ _ => rfl⟩
  exact ⟨fun i r hi => by unfold HPool.Ended overlapped; rw [h.prog i hi], h.trace, h.store⟩

/-! ### C112 -/

/-- Call `i` has not done anything yet. -/
def Unstarted (p : HPool) (i : Nat) : Prop := ∀ a, (i, a) ∉ p.trace

theorem unstarted_prog {i : Nat} (h : Unstarted (overlapped rng t0 calls s) i) :
    (overlapped rng t0 calls s).prog i = serve (calls i).1 (calls i).2 := by
  revert h
  refine overlapped_inv (I := fun p => Unstarted p i → p.prog i = serve (calls i).1 (calls i).2) (fun _ => rfl) (fun p t h hu => ?_) s
  have hu' : Unstarted p i := fun a ha => hu a ((HPool.turn_trace rng p t).subset ha)
  cases t with
  | tick ns => exact h hu'
  | run j f answer =>
    by_cases e : i = j
    · subst e
      revert hu
      simp only [HPool.turn]
      split <;> rename_i heq
      · exact fun _ => h hu'
      all_goals exact fun hu => absurd (List.mem_append_right _ (.head _)) (hu _)
    · rw [HPool.turn_other e]; exact h hu'

/-- A call that names a flow first looks for it, and fails if it is not there. -/
theorem serve_named {P : Provider} {r : Req} {k : String} (h : Concerns r k) : ∃ c x, serve P r = .get k c ∧ c none = .ret (.error x) := by
  cases h with
  | authorize r k hk =>
    simp only [serve, authorize, startFlow, hk]
    exact ⟨_, _, rfl, rfl⟩
  | _ => exact ⟨_, _, rfl, rfl⟩

theorem writeRes_other {f : Fault} {s : String → Option HVal} {k k' : String} {v : Option HVal} (h : k ≠ k') : Prog.writeRes f s k v k' = s k' := by
  rcases Prog.writeRes_eq (f := f) (s := s) (k := k) (k' := k') (v := v) with e | ⟨rfl, _⟩
  · exact e
  · exact absurd rfl h

/-- C112: once nothing is stored for a flow, and no call about it is under way, nothing ever is again, and every later call about the flow fails. -/
theorem C112_ended_stays_ended_partial {k : String} (hk : (overlapped rng t0 calls s).store k = none)
    (hi : ∀ i, Own rng calls i k → (∃ r, (overlapped rng t0 calls s).Ended i r) ∨
      Unstarted (overlapped rng t0 calls s) i ∧ Concerns (calls i).2 k) (s' : List Turn) :
    (overlapped rng t0 calls (s ++ s')).store k = none ∧
    ∀ i r, Concerns (calls i).2 k → Unstarted (overlapped rng t0 calls s) i → (overlapped rng t0 calls (s ++ s')).Ended i r →
      ∃ x, r = .error x := by
  have hU : ∀ i, Unstarted (overlapped rng t0 calls s) i → Concerns (calls i).2 k →
      (overlapped rng t0 calls s).prog i = serve (calls i).1 (calls i).2 := fun i h _ => unstarted_prog h
  have key : HPool.Safe (pact rng calls) (overlapped rng t0 calls (s ++ s')) ∧ (overlapped rng t0 calls (s ++ s')).store k = none ∧
      ∀ i, Own rng calls i k → (overlapped rng t0 calls (s ++ s')).prog i = serve (calls i).1 (calls i).2 ∧ Concerns (calls i).2 k ∨
        ∃ r, (overlapped rng t0 calls (s ++ s')).Ended i r ∧ (Unstarted (overlapped rng t0 calls s) i → Concerns (calls i).2 k → ∃ x, r = .error x) := by
    rw [overlapped_append]
    refine HPool.turns_inv (I := fun p => HPool.Safe (pact rng calls) p ∧ p.store k = none ∧
      ∀ i, Own rng calls i k → p.prog i = serve (calls i).1 (calls i).2 ∧ Concerns (calls i).2 k ∨
        ∃ r, p.Ended i r ∧ (Unstarted (overlapped rng t0 calls s) i → Concerns (calls i).2 k → ∃ x, r = .error x))
      (fun p t h => ?_) ⟨pool_safe rng calls t0 s, hk, fun i ho => ?_⟩ s'
    · obtain ⟨hs, hn, h⟩ := h
      have hs' : HPool.Safe (pact rng calls) (HPool.turn rng p t) := HPool.Safe.turn (T := pact rng calls) (rng := rng) (fun _ n => ⟨n, rfl⟩) hs t
      refine ⟨hs', ?_⟩
      cases t with
      | tick ns => exact ⟨hn, h⟩
      | run j f answer =>
        by_cases hj : Own rng calls j k
        · rcases h j hj with ⟨hp, hc⟩ | ⟨r, hr, hx⟩
          · obtain ⟨c, x, hget, hnone⟩ := serve_named (P := (calls j).1) hc
            rw [hget] at hp
            have hres : Prog.getRes f (p.store k) = none := by rw [hn]; cases f <;> rfl
            simp only [HPool.turn, hp]
            refine ⟨hn, fun i hi => ?_⟩
            by_cases e : i = j
            · subst e
              refine .inr ⟨.error x, ?_, fun _ _ => ⟨x, rfl⟩⟩
              simp only [HPool.Ended, setAt_same]
              rw [hres, hnone]
            · simp only [HPool.Ended, setAt_other _ _ e]; exact h i hi
          · have : HPool.turn rng p (.run j f answer) = p := by
              simp only [HPool.Ended] at hr
              simp only [HPool.turn, hr]
            rw [this]; exact ⟨hn, h⟩
        · have hne : ∀ i, Own rng calls i k → i ≠ j := fun i hi e => hj (e ▸ hi)
          refine ⟨?_, fun i hi => ?_⟩
          · have hsj := hs.prog j
            simp only [HPool.turn]
            split <;> rename_i heq <;> rw [heq] at hsj
            · exact hn
            · exact hn
            · have ho : Own rng calls j _ := hsj.1
              refine (writeRes_other fun e => ?_).trans hn
              rw [e] at ho; exact hj ho
            · have ho : Own rng calls j _ := hsj.1
              refine (writeRes_other fun e => ?_).trans hn
              rw [e] at ho; exact hj ho
            all_goals exact hn
          · simp only [HPool.Ended, HPool.turn_other (hne i hi)]; exact h i hi
    · rcases hi i ho with ⟨r, hr⟩ | ⟨hu, hc⟩
      · by_cases hcu : Unstarted (overlapped rng t0 calls s) i ∧ Concerns (calls i).2 k
        · exact .inl ⟨hU i hcu.1 hcu.2, hcu.2⟩
        · exact .inr ⟨r, hr, fun h1 h2 => absurd ⟨h1, h2⟩ hcu⟩
      · exact .inl ⟨hU i hu hc, hc⟩
  refine ⟨key.2.1, fun i r hc hu hr => ?_⟩
  rcases key.2.2 i (.inl hc) with ⟨hp, _⟩ | ⟨r', hr', hx⟩
  · obtain ⟨c, x, hget, _⟩ := serve_named (P := (calls i).1) hc
    simp only [HPool.Ended] at hr
    rw [hp, hget] at hr; cases hr
  · simp only [HPool.Ended] at hr hr'
    rw [hr] at hr'; cases hr'
    exact hx hu hc

end

end Verif.Holder
