import Verif.Clock
import Verif.Verifier.Overlap
/-!
# The clock moves while a response is checked: C177
-/
namespace Verif
namespace Verifier
open Prog Pool

/-! ## Proofs -/

theorem inTurn_timed {R : String → VState → Prop} {P : Provider} {value : Json} {maps : List Dif.DescriptorMap} {lo hi : Int} (is : List Dif.InputDescriptor) :
    Timed R (fun t => lo ≤ t ∧ t ≤ hi) (Response.inTurn P value maps is)
      (fun r => (r = .ok () → ∀ i ∈ is, Fulfilled P lo value maps i) ∧ (r ≠ .ok () → ¬ ∀ i ∈ is, Fulfilled P hi value maps i)) := by
  induction is with
  | nil => exact ⟨fun _ _ h => (nomatch h), fun h => absurd rfl h⟩
  | cons i is ih =>
    intro t ht
    show Timed R _ ((Prog.lift (Response.checkInput P t value maps i)) >>= fun _ => Response.inTurn P value maps is) _
    refine Timed.bind (Q := fun r => r = Response.checkInput P t value maps i) (Timed.lift rfl) (fun u hu => ?_) fun x hx => ⟨fun h => (nomatch h), fun _ h => ?_⟩
    · have h1 := checkInput_ok.1 hu.symm
      refine Timed.mono ih fun r hr => ⟨fun h j hj => ?_, fun h hall => hr.2 h fun j hj => hall j (List.mem_cons_of_mem _ hj)⟩
      rcases List.mem_cons.1 hj with rfl | hj
      · exact h1.earlier ht.1
      · exact hr.1 h j hj
    · have := checkInput_ok.2 ((h i (List.mem_cons_self ..)).earlier ht.2)
      rw [← hx] at this
      cases this

theorem verify_timed {R : String → VState → Prop} {P : Provider} {ro : RequestObject} {r : ResponseRequest} {lo hi : Int} :
    Timed R (fun t => lo ≤ t ∧ t ≤ hi) (Response.verify P ro r) (fun a => (a = .ok () → Answers P lo ro r) ∧ (a ≠ .ok () → ¬ Answers P hi ro r)) := by
  refine Timed.bind (Q := fun a => a = Response.prepare P ro r) (Timed.lift rfl) (fun p hp => ?_) fun x hx => ⟨fun h => (nomatch h), fun _ h => ?_⟩
  · refine Timed.mono (inTurn_timed p.2.2) fun a ha => ⟨fun h => check_ok.1 ?_, fun h hall => ha.2 h ?_⟩
    · simp only [Response.check, ← hp]
      exact checkInputs_ok.2 (ha.1 h)
    · have := check_ok.2 hall
      simp only [Response.check, ← hp] at this
      exact checkInputs_ok.1 this
  · have := check_ok.2 h
    simp only [Response.check, ← hx] at this
    cases this

/-- What became of a response, for a request stored under its state. Specification; models no code. -/
def Judged (P : Provider) (r : ResponseRequest) (R : String → VState → Prop) (lo hi : Int) (a : Res Resp) : Prop :=
  (∀ x, a = .ok x → ∃ k v, r.state = some k ∧ R k v ∧ Answers P lo v.requestObject r) ∧
  (∀ x, a = .error x → x ≠ .invalidRequest "client state not found" → x ≠ .invalidRequest "state not found" → x ≠ .serverError "issue purging state" →
    ∃ k v, r.state = some k ∧ R k v ∧ ¬ Answers P hi v.requestObject r)

theorem response_timed {R : String → VState → Prop} {P : Provider} {r : ResponseRequest} {lo hi : Int} :
    Timed R (fun t => lo ≤ t ∧ t ≤ hi) (call P (.response r)) (Judged P r R lo hi) := by
  refine Timed.bind (Q := fun a =>
    (∀ x, a = .ok x → ∃ k v, r.state = some k ∧ R k v ∧ Answers P lo v.requestObject r) ∧
    (∀ x, a = .error x → x ≠ .invalidRequest "client state not found" → x ≠ .invalidRequest "state not found" → x ≠ .serverError "issue purging state" →
      ∃ k v, r.state = some k ∧ R k v ∧ ¬ Answers P hi v.requestObject r)) ?_ (fun a h => ⟨fun x _ => h.1 a rfl, fun x h => (nomatch h)⟩)
      (fun x h => ⟨fun _ h => (nomatch h), fun y hy => h.2 y (by cases hy; rfl)⟩)
  refine Timed.bind (Q := fun a => a = orErr r.state (.invalidRequest "client state not found")) (Timed.lift rfl) (fun k hk => ?_) fun x hx => ?_
  · have hk : r.state = some k := orErr_ok.1 hk.symm
    intro o ho
    cases o with
    | none => exact ⟨fun _ h => (nomatch h), fun x hx _ h2 => by cases hx; exact absurd rfl h2⟩
    | some v =>
      have hv := ho v rfl
      show Timed R _ (Response.verify P v.requestObject r >>= fun _ => purgeE k _ >>= fun _ => pure _) _
      refine Timed.bind verify_timed (fun u hu => ?_) fun x hx => ⟨fun _ h => (nomatch h), fun y hy _ _ _ => ⟨k, v, hk, hv, hx.2 (fun h => nomatch h)⟩⟩
      intro b
      cases b with
      | true => exact ⟨fun _ _ => ⟨k, v, hk, hv, hu.1 rfl⟩, fun _ h => (nomatch h)⟩
      | false => exact ⟨fun _ h => (nomatch h), fun x hx _ _ h3 => by cases hx; exact absurd rfl h3⟩
  · refine ⟨fun _ h => (nomatch h), fun y hy h1 => ?_⟩
    cases hy
    exact absurd (orErr_err.1 hx.symm).2.symm h1

/-! ## C177 -/

variable {rng : Nat → Nat → String} {t0 : Int} {calls : Nat → Call}

theorem judged {s s' : List Event} {j : Nat} {r : ResponseRequest} (hj : (calls j).req = .response r) (hidle : Idle j s) {a : Res Resp}
    (h : ((pool t0 calls).exec rng (s ++ s')).Answered j a) :
    Judged (calls j).provider r (fun k v => ∃ i, Asked rng calls i k v) ((pool t0 calls).exec rng s).now ((pool t0 calls).exec rng (s ++ s')).now a := by
  have hsafe : ∀ s k v, ((pool t0 calls).exec rng s).store k = some v → ∃ i, Asked rng calls i k v := fun s k v h =>
    ((pool_keys (rng := rng) t0 calls).safe.exec (fun i _ _ h => ⟨i, h _ rfl⟩) (fun _ n => ⟨n, rfl⟩) s).store k v h
  have hp : ((pool t0 calls).exec rng s).prog j = call (calls j).provider (.response r) := by
    rw [idle_prog hidle, ← hj]; rfl
  rw [Pool.exec_append] at h ⊢
  have := timed_exec (rng := rng) (R := fun k v => ∃ i, Asked rng calls i k v) (j := j) (p := (pool t0 calls).exec rng s)
    (T := (((pool t0 calls).exec rng s).exec rng s').now) (Q := Judged (calls j).provider r (fun k v => ∃ i, Asked rng calls i k v)
      ((pool t0 calls).exec rng s).now (((pool t0 calls).exec rng s).exec rng s').now) s'
    (fun l _ k v h => hsafe (s ++ l) k v (by rw [Pool.exec_append]; exact h)) (by rw [hp]; exact response_timed) (Int.le_refl _)
  rw [show (((pool t0 calls).exec rng s).exec rng s').prog j = .ret a from h] at this
  exact this

/-- **C177** A response is not accepted unless it answered a request of the verifier when it came in (see `Answers`); so no credential is accepted that had expired
by then, however long the checks take and whatever is called meanwhile. -/
theorem C177_good_when_it_came {s s' : List Event} {j : Nat} {r : ResponseRequest} (hj : (calls j).req = .response r) (hidle : Idle j s) {a : Resp}
    (h : ((pool t0 calls).exec rng (s ++ s')).Answered j (.ok a)) :
    ∃ k v i, r.state = some k ∧ Asked rng calls i k v ∧ Answers (calls j).provider ((pool t0 calls).exec rng s).now v.requestObject r := by
  obtain ⟨k, v, h1, ⟨i, h2⟩, h3⟩ := (judged hj hidle h).1 a rfl
  exact ⟨k, v, i, h1, h2, h3⟩

/-- **C177** A response is refused only if its state is unknown, or the store fails, or it no longer answers the request when the refusal goes out. -/
theorem C177_refused_for_a_reason {s : List Event} {j : Nat} {r : ResponseRequest} (hj : (calls j).req = .response r) {x : Err}
    (h : ((pool t0 calls).exec rng s).Answered j (.error x)) (h1 : x ≠ .invalidRequest "client state not found") (h2 : x ≠ .invalidRequest "state not found")
    (h3 : x ≠ .serverError "issue purging state") :
    ∃ k v i, r.state = some k ∧ Asked rng calls i k v ∧ ¬ Answers (calls j).provider ((pool t0 calls).exec rng s).now v.requestObject r := by
  obtain ⟨k, v, h4, ⟨i, h5⟩, h6⟩ := (judged (s := []) hj (fun f hf => nomatch hf) h).2 x rfl h1 h2 h3
  exact ⟨k, v, i, h4, h5, h6⟩

namespace Demo

/-- As `provider`, but the credential is good until time 10. Example; models no code. -/
def short : Provider := { provider with jose := { provider.jose with
  decodeVc := fun t => if t = "vc.jwt" then some ⟨"did:alice", none, "https://issuer.example", 0, "", none, { vc with validUntil := some 10 }⟩ else none } }

/-- Call 0 makes a request; the others answer it. Example; models no code. -/
def shortCalls : Nat → Call
  | 0 => ⟨short, .createRequest (createReq .crossDevice)⟩
  | _ => ⟨short, .response (resp (.string "vp.jwt"))⟩

/-- The response comes in at time 9, and is accepted although the answer goes out at time 13: it answered the request when it came. -/
example : ∃ k v i, some "tt" = some k ∧ Asked tokens shortCalls i k v ∧ Answers short 9 v.requestObject (resp (.string "vp.jwt")) :=
  C177_good_when_it_came (rng := tokens) (t0 := 0) (calls := shortCalls) (s := all 0 ++ [Event.tick 9])
    (s' := [Event.run 1 .ok, Event.run 1 .ok, Event.tick 4] ++ all 1) (j := 1) rfl
    (by intro f hf; simp only [all, List.mem_append, List.mem_replicate, List.mem_singleton] at hf; rcases hf with ⟨_, h⟩ | h <;> cases h)
    (a := .response accepted) rfl

/-- The response comes in at time 9 and is refused because the checks take until time 13: it no longer answers the request. -/
example : ∃ k v i, some "tt" = some k ∧ Asked tokens shortCalls i k v ∧ ¬ Answers short 13 v.requestObject (resp (.string "vp.jwt")) :=
  C177_refused_for_a_reason (rng := tokens) (t0 := 0) (calls := shortCalls) 
    (s := all 0 ++ [Event.tick 9, Event.run 1 .ok, Event.tick 4] ++ all 1) (j := 1) rfl
    (x := .invalidRequest "credential has expired") rfl (by decide) (by decide) (by decide)

end Demo
end Verifier
end Verif
