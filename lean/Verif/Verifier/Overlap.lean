import Verif.Sched
import Verif.Verifier.Demo
/-!
# Overlapping calls of the verifier's endpoints: C89
-/
namespace Verif.Verifier
open Prog Pool

/-- A call of an endpoint, with what the provider answers during it. Specification or example; models no code. -/
structure Call where
  provider : Provider
  req : Req

/-- Calls that have not started, over an empty store. Specification or example; models no code. -/
def pool (t0 : Int) (calls : Nat → Call) : Pool VState Resp := Pool.start t0 fun i => Verifier.call (calls i).provider (calls i).req

/-- Tokens of all calls are different. Specification or example; models no code. -/
def Distinct (rng : Nat → Nat → String) : Prop := ∀ i n j m, rng i n = rng j m → i = j ∧ n = m

/-- State `v`, stored under `k`, is the request that call `i` made: `k` and the nonce are tokens drawn by that call, and it asks for what
the caller asked for. Specification or example; models no code. -/
def Asked (rng : Nat → Nat → String) (calls : Nat → Call) (i : Nat) (k : String) (v : VState) : Prop :=
  ∃ cr d, (calls i).req = .createRequest cr ∧ (∃ n, k = rng i n) ∧ (∃ n, v.requestObject.nonce = rng i n) ∧
    v.requestObject.state = some k ∧ v.requestObject.presentationDefinition = .object d ∧ d.inputDescriptors = cr.inputDescriptors ∧
    d.purpose = some cr.purpose

/-- What a response was answered for. Specification or example; models no code. -/
def Outcome (rng : Nat → Nat → String) (calls : Nat → Call) (j : Nat) (_ : Resp) : Prop :=
  ∀ r, (calls j).req = .response r →
    ∃ i k v now, r.state = some k ∧ Asked rng calls i k v ∧ Answers (calls j).provider now v.requestObject r

/-- What is fulfilled at one time was fulfilled before. -/
theorem Fulfilled.earlier {P : Provider} {t t' : Int} {value : Json} {maps : List Dif.DescriptorMap} {i : Dif.InputDescriptor} (h : Fulfilled P t' value maps i)
    (hle : t ≤ t') : Fulfilled P t value maps i := by
  obtain ⟨l1, m, l2, h1, h2, h3, h4, tok, c, h5, h6, h7, h8⟩ := h
  exact ⟨l1, m, l2, h1, h2, h3, h4, tok, c, h5, h6, h7, fun t ht => Int.le_trans hle (h8 t ht)⟩

/-- Passing the checks one after the other means to answer the request at some time, although the clock may move. -/
theorem verify_answers {R : String → VState → Prop} {G : String → Option VState → Prop} {D : String → Prop} {P : Provider} {ro : RequestObject} {r : ResponseRequest} :
    Guar R G D (Response.verify P ro r) (fun _ => ∃ now, Answers P now ro r) := by
  refine Guar.bind (Q := fun p => Response.prepare P ro r = .ok p) (Guar.lift fun _ h => h) fun p hp => ?_
  have key : ∀ is, Guar R G D (Response.inTurn P p.1 p.2.1 is) (fun _ => ∃ now, ∀ i ∈ is, Fulfilled P now p.1 p.2.1 i) := by
    intro is
    induction is with
    | nil => exact Guar.pure ⟨0, fun _ h => nomatch h⟩
    | cons i is ih =>
      refine Guar.bind (Q := fun _ => True) (Guar.nowE fun _ => trivial) fun now _ => ?_
      refine Guar.bind (Q := fun _ => Fulfilled P now p.1 p.2.1 i) (Guar.lift fun _ h => checkInput_ok.1 h) fun _ hi => ?_
      refine ih.mono fun _ ⟨now', h⟩ => ⟨min now now', fun j hj => ?_⟩
      rcases List.mem_cons.1 hj with rfl | hj
      · exact hi.earlier (Int.min_le_left _ _)
      · exact (h j hj).earlier (Int.min_le_right _ _)
  refine (key p.2.2).mono fun _ ⟨t, h⟩ => ⟨t, check_ok.1 ?_⟩
  simp only [Response.check, hp]
  exact checkInputs_ok.2 h

theorem call_asks {rng : Nat → Nat → String} (calls : Nat → Call) (i : Nat) :
    Guar (fun k v => ∃ j, Asked rng calls j k v) (fun k v => ∀ s, v = some s → Asked rng calls i k s) (fun k => ∃ n, k = rng i n)
      (Verifier.call (calls i).provider (calls i).req) (Outcome rng calls i) := by
  cases hreq : (calls i).req with
  | createRequest r =>
    refine Guar.bind (Q := fun _ => True) ?_ fun _ _ => Guar.pure fun r hr => by rw [hreq] at hr; cases hr
    unfold createRequest
    refine Guar.bind (Q := fun _ => True) (Guar.lift fun _ _ => trivial) fun _ _ => ?_
    refine Guar.bind (Q := fun _ => True) (Guar.drawE fun _ _ => trivial) fun uuid _ => ?_
    refine Guar.bind (Q := fun k => ∃ n, k = rng i n) (Guar.drawE fun _ h => h) fun k hk => ?_
    refine Guar.bind (Q := fun _ => True) (Guar.lift fun _ _ => trivial) fun md _ => ?_
    refine Guar.bind (Q := fun k => ∃ n, k = rng i n) (Guar.drawE fun _ h => h) fun nonce hn => ?_
    refine Guar.bind (Q := fun _ => True) (Guar.nowE fun _ => trivial) fun now _ => ?_
    refine Guar.bind (Q := fun _ => True) (Guar.putE ?_ trivial) fun _ _ => Guar.pure trivial
    intro s hs
    cases hs
    refine ⟨r, CreateRequest.definition uuid r, hreq, hk, ?_, ?_, ?_, rfl, rfl⟩
    · simp only [CreateRequest.object]; split <;> exact hn
    · simp only [CreateRequest.object]; split <;> rfl
    · simp only [CreateRequest.object]; split <;> rfl
  | requestObject r =>
    refine Guar.bind (Q := fun _ => True) ?_ fun _ _ => Guar.pure fun r hr => by rw [hreq] at hr; cases hr
    unfold requestObject
    exact Guar.bind (Q := fun _ => True) (Guar.getE fun _ _ => trivial) fun _ _ =>
      Guar.bind (Q := fun _ => True) (Guar.lift fun _ _ => trivial) fun _ _ =>
      Guar.bind (Q := fun _ => True) (Guar.lift fun _ _ => trivial) fun _ _ => Guar.lift fun _ _ => trivial
  | response r =>
    refine Guar.bind (Q := fun _ => ∃ j k v now, r.state = some k ∧ Asked rng calls j k v ∧
      Answers (calls i).provider now v.requestObject r) ?_ fun _ h => Guar.pure fun r' hr => by rw [hreq] at hr; cases hr; exact h
    unfold response
    refine Guar.bind (Q := fun k => r.state = some k) (Guar.lift fun _ h => orErr_ok.1 h) fun k hk => ?_
    refine Guar.bind (Q := fun v => ∃ j, Asked rng calls j k v) (Guar.getE fun _ h => h) fun v hv => ?_
    refine Guar.bind (Q := fun _ => ∃ now, Answers (calls i).provider now v.requestObject r) verify_answers fun _ ⟨t, ha⟩ => ?_
    refine Guar.bind (Q := fun _ => True) (Guar.purgeE (fun s h => (nomatch h)) trivial) fun _ _ => Guar.pure ?_
    obtain ⟨j, hj⟩ := hv
    exact ⟨j, k, v, t, hk, hj, ha⟩
  | metadata c =>
    exact Guar.bind (Q := fun _ => True) (Guar.lift fun _ _ => trivial) fun _ _ =>
      Guar.pure fun r hr => by rw [hreq] at hr; cases hr

theorem verify_once {R : String → VState → Prop} {N : String → VState → List (String × VState) → Prop} {rng : Nat → String} {P : Provider} {ro : RequestObject} {req : ResponseRequest} {n : Nat}
    {u : List (String × VState)} : Once R N rng (Response.verify P ro req) n u (fun _ _ _ => True) := by
  refine Once.bind (Q := fun _ _ _ => True) (Once.lift fun _ _ => trivial) fun p n' u' _ => ?_
  generalize p.2.2 = is
  induction is with
  | nil => exact Once.pure trivial
  | cons i is ih =>
    exact Once.bind (Q := fun _ n u => n = n' ∧ u = u') (Once.nowE fun _ => ⟨rfl, rfl⟩) fun _ _ _ ⟨h1, h2⟩ =>
      Once.bind (Q := fun _ n u => n = n' ∧ u = u') (Once.lift fun _ _ => ⟨h1, h2⟩) fun _ _ _ ⟨h1, h2⟩ => by rw [h1, h2]; exact ih

/-- Every call writes at most once. -/
theorem call_once {R : String → VState → Prop} {rng : Nat → String} (P : Provider) (req : Req) :
    Once R (NewKey fun _ => False) rng (Verifier.call P req) 0 [] (fun _ _ _ => True) := by
  cases req with
  | createRequest r =>
    refine Once.bind (Q := fun _ _ _ => True) ?_ fun _ _ _ _ => Once.pure trivial
    unfold createRequest
    refine Once.bind (Q := fun _ _ u => u = []) (Once.lift fun _ _ => rfl) fun _ _ _ hu => ?_
    refine Once.bind (Q := fun _ _ u => u = []) (Once.drawE hu) fun _ _ _ hu => ?_
    refine Once.bind (Q := fun _ _ u => u = []) (Once.drawE hu) fun _ _ _ hu => ?_
    refine Once.bind (Q := fun _ _ u => u = []) (Once.lift fun _ _ => hu) fun _ _ _ hu => ?_
    refine Once.bind (Q := fun _ _ u => u = []) (Once.drawE hu) fun _ _ _ hu => ?_
    refine Once.bind (Q := fun _ _ u => u = []) (Once.nowE fun _ => hu) fun _ _ _ hu => ?_
    subst hu
    exact Once.bind (Q := fun _ _ _ => True) (Once.putE NewKey.nil trivial) fun _ _ _ _ => Once.pure trivial
  | requestObject r =>
    refine Once.bind (Q := fun _ _ _ => True) ?_ fun _ _ _ _ => Once.pure trivial
    unfold requestObject
    exact Once.bind (Q := fun _ _ _ => True) (Once.getE fun _ _ => trivial) fun _ _ _ _ =>
      Once.bind (Q := fun _ _ _ => True) (Once.lift fun _ _ => trivial) fun _ _ _ _ =>
      Once.bind (Q := fun _ _ _ => True) (Once.lift fun _ _ => trivial) fun _ _ _ _ => Once.lift fun _ _ => trivial
  | response r =>
    refine Once.bind (Q := fun _ _ _ => True) ?_ fun _ _ _ _ => Once.pure trivial
    unfold response
    exact Once.bind (Q := fun _ _ _ => True) (Once.lift fun _ _ => trivial) fun _ _ _ _ =>
      Once.bind (Q := fun _ _ _ => True) (Once.getE fun _ _ => trivial) fun _ _ _ _ =>
      Once.bind (Q := fun _ _ _ => True) verify_once fun _ _ _ _ =>
      Once.bind (Q := fun _ _ _ => True) (Once.purgeE trivial) fun _ _ _ _ => Once.pure trivial
  | metadata c => exact Once.bind (Q := fun _ _ _ => True) (Once.lift fun _ _ => trivial) fun _ _ _ _ => Once.pure trivial

/-- The invariant of every schedule. -/
theorem pool_keys {rng : Nat → Nat → String} (t0 : Int) (calls : Nat → Call) :
    Pool.Keys (fun k v => ∃ j, Asked rng calls j k v) (fun i k v => ∀ s, v = some s → Asked rng calls i k s)
      (fun i k => ∃ n, k = rng i n) (Outcome rng calls) (fun _ => False) (fun i k => ∃ n, k = rng i n) rng (pool t0 calls) where
  safe := ⟨fun _ _ h => (nomatch h), call_asks calls⟩
  once := fun _ => call_once _ _
  key := fun _ _ h => nomatch h

/-- The request uses the stored request `k`: it answers it. -/
theorem response_takes {P : Provider} {r : ResponseRequest} {k : String} (h : r.state = some k) :
    Takes k (Verifier.call P (.response r)) := by
  refine Takes.bind ?_
  unfold response
  rw [h]
  show Takes k (Prog.lift (.ok k) >>= _)
  exact Takes.getE (e := .invalidRequest "state not found") fun _ => Eats.after fun _ => Eats.purgeE.bind

/-- Fetching the request object reads it. -/
theorem requestObject_reads {P : Provider} {r : RequestObjectRequest} : Reads r.id (Verifier.call P (.requestObject r)) := by
  refine Reads.bind ?_
  unfold requestObject
  exact ⟨fun _ => True.intro, fun h => absurd rfl h⟩

/-! ### C89 -/

/-- **C89**, the part that holds under every schedule, with faults and crashes anywhere: once a response has been accepted, every response
with the same state and every fetch of that request object that starts later is refused, whatever else runs in between or at the same
time. (The full claim would say the same of calls that overlap.) -/
theorem C89_answered_once_partial {rng : Nat → Nat → String} (hf : Distinct rng) {t0 : Int} {calls : Nat → Call} {i j : Nat}
    {r : ResponseRequest} {k : String} (hi : (calls i).req = .response r) (hk : r.state = some k)
    (hj : (∃ r', (calls j).req = .response r' ∧ r'.state = some k) ∨ ∃ c, (calls j).req = .requestObject ⟨c, k⟩) {s s' : List Event}
    {a b : Resp} (hdone : ((pool t0 calls).exec rng s).Answered i (.ok a)) (hidle : Idle j s) :
    ¬ ((pool t0 calls).exec rng (s ++ s')).Answered j (.ok b) := by
  refine taken_once (c := k) (fun i _ _ h => ⟨i, h _ rfl⟩)
    (fun i k v h => .inr (by obtain ⟨_, _, _, h, _⟩ := h _ rfl; exact h)) (fun _ n => ⟨n, rfl⟩)
    (fun i j k => ?_) (fun h => h) (pool_keys t0 calls) ?_ ?_ hdone hidle
  · rintro ⟨n, rfl⟩ ⟨m, h⟩
    exact (hf _ _ _ _ h).1
  · show Takes k (Verifier.call _ (calls i).req)
    rw [hi]; exact response_takes hk
  · show Reads k (Verifier.call _ (calls j).req)
    rcases hj with ⟨r', hj, hk'⟩ | ⟨c, hj⟩
    · rw [hj]; exact (response_takes hk').reads
    · rw [hj]; exact requestObject_reads (r := ⟨c, k⟩)

/-- **C89**, under every schedule: a response is accepted only if it answers, in the sense of C52, a request that one `create_request` call
made: with the state and nonce that this call drew, and the input descriptors and purpose that its caller gave. -/
theorem C89_accepted_answers {rng : Nat → Nat → String} {t0 : Int} {calls : Nat → Call} {s : List Event} {j : Nat} {r : ResponseRequest}
    (hj : (calls j).req = .response r) {a : Resp} (h : ((pool t0 calls).exec rng s).Answered j (.ok a)) :
    ∃ (i : Nat) (cr : CreateRequestRequest) (k : String) (v : VState) (d : Dif.PresentationDefinition) (now : Int),
      (calls i).req = .createRequest cr ∧ r.state = some k ∧ (∃ n, k = rng i n) ∧
      (∃ n, v.requestObject.nonce = rng i n) ∧ v.requestObject.state = some k ∧ v.requestObject.presentationDefinition = .object d ∧
      d.inputDescriptors = cr.inputDescriptors ∧ d.purpose = some cr.purpose ∧
      Answers (calls j).provider now v.requestObject r := by
  have := (pool_keys (rng := rng) t0 calls).safe.exec (fun i _ _ h => ⟨i, h _ rfl⟩) (fun _ n => ⟨n, rfl⟩) s
  obtain ⟨i, k, v, now, hk, ⟨cr, d, h1, h2, h3, h4, h5, h6, h7⟩, h8⟩ := this.answered h r hj
  exact ⟨i, cr, k, v, d, now, h1, hk, h2, h3, h4, h5, h6, h7, h8⟩

namespace Demo

/-- Tokens of call `i`. Specification or example; models no code. -/
def tokens (i n : Nat) : String := String.ofList (List.replicate i 'a' ++ List.replicate (n + 1) 't')

theorem tokens_distinct : Distinct tokens := by
  intro i n j m h0
  have h := congrArg String.toList h0
  clear h0
  simp only [tokens, String.toList_ofList] at h
  induction i generalizing j with
  | zero =>
    cases j with
    | zero =>
      have := congrArg List.length h
      simp at this
      exact ⟨rfl, this⟩
    | succ j => simp [List.replicate_succ] at h
  | succ i ih =>
    cases j with
    | zero => simp [List.replicate_succ] at h
    | succ j =>
      simp only [List.replicate_succ, List.cons_append, List.cons.injEq, true_and] at h
      obtain ⟨h1, h2⟩ := ih j (by simpa [List.replicate_succ] using h)
      exact ⟨congrArg Nat.succ h1, h2⟩

/-- Call 0 makes a request; the others answer it. Specification or example; models no code. -/
def calls : Nat → Call
  | 0 => ⟨provider, .createRequest (createReq .crossDevice)⟩
  | _ => ⟨provider, .response (resp (.string "vp.jwt"))⟩

/-- Call `i` runs to its end. Specification or example; models no code. -/
def all (i : Nat) : List Event := List.replicate 8 (.run i .ok)

/-- Both responses read the state before either removes it. Specification or example; models no code. -/
def race : List Event := all 0 ++ [.run 1 .ok, .run 2 .ok] ++ all 1 ++ all 2

/-- **C89** fails for responses that overlap: two responses to one request (two different wallets, say) can both be accepted. The state is
read and removed by two separate accesses to the store. -/
theorem C89_overlapping_both_accepted :
    ∃ (calls : Nat → Call) (s : List Event) (r r' : ResponseRequest) (a b : ResponseResponse), r.state = r'.state ∧
      (calls 1).req = .response r ∧ (calls 2).req = .response r' ∧
      ((pool 0 calls).exec tokens s).Answered 1 (.ok (.response a)) ∧ ((pool 0 calls).exec tokens s).Answered 2 (.ok (.response b)) :=
  ⟨calls, race, _, _, accepted, accepted, rfl, rfl, rfl, rfl, rfl⟩

/-- C89 is not vacuous: call 1 is accepted, then call 2 starts and is refused. -/
example : (∀ b, ¬ ((pool 0 calls).exec tokens (all 0 ++ all 1 ++ all 2)).Answered 2 (.ok b)) ∧
    ∃ e, ((pool 0 calls).exec tokens (all 0 ++ all 1 ++ all 2)).Answered 2 (.error e) := by
  refine ⟨fun _ => C89_answered_once_partial tokens_distinct (t0 := 0) (calls := calls) (i := 1) (j := 2) (s := all 0 ++ all 1) (s' := all 2)
    rfl rfl (.inl ⟨_, rfl, rfl⟩) (a := .response accepted) rfl ?_, ⟨_, rfl⟩⟩
  intro f hf
  rcases List.mem_append.1 hf with h | h <;> cases List.eq_of_mem_replicate h

example : ∃ i cr, (calls i).req = .createRequest cr :=
  let ⟨i, cr, _, _, _, _, h, _⟩ := C89_accepted_answers (rng := tokens) (t0 := 0) (calls := calls) (s := all 0 ++ all 1) (j := 1) rfl
    (a := .response accepted) rfl
  ⟨i, cr, h⟩

end Demo

end Verif.Verifier
