import Verif.Apart
import Verif.Verifier.Overlap
/-!
# Requests for presentation do not affect each other: C176
-/
namespace Verif.Verifier
open Prog Pool

/-! ## Specification -/

/-- What a request to the verifier presents: the identifier or the state of a request for presentation. Specification; models no code. -/
def Req.Presents : Req → String → Prop
  | .requestObject r, k => k = r.id
  | .response r, k => r.state = some k
  | .createRequest _, _ => False
  | .metadata _, _ => False

/-- Call `i` has to do with `k`: its request presents it, or the verifier has drawn it for this call. Specification; models no code. -/
def Concerns (rng : Nat → Nat → String) (calls : Nat → Call) (i : Nat) (k : String) : Prop := (calls i).req.Presents k ∨ ∃ n, k = rng i n

/-! ## Proofs -/

theorem verify_stays {K D : String → Prop} {P : Provider} {ro : RequestObject} {req : ResponseRequest} :
    Stays K (fun _ => True) D (Response.verify P ro req) (fun _ => True) := by
  refine Stays.bind (Q := fun _ => True) (Stays.lift fun _ _ => trivial) fun p _ => ?_
  generalize p.2.2 = is
  induction is with
  | nil => exact Stays.pure trivial
  | cons i is ih =>
    exact Stays.bind (Q := fun _ => True) (Stays.nowE fun _ => trivial) fun _ _ =>
      Stays.bind (Q := fun _ => True) (Stays.lift fun _ _ => trivial) fun _ _ => ih

/-- Every call stays with the entries that it presents and those that it draws. -/
theorem call_stays {K D : String → Prop} {P : Provider} {req : Req} (hD : ∀ s, D s → K s) (hK : ∀ k, req.Presents k → K k) :
    Stays K (fun _ => True) D (call P req) (fun _ => True) := by
  cases req with
  | createRequest r =>
    refine Stays.bind (Q := fun _ => True) ?_ fun _ _ => Stays.pure trivial
    refine Stays.bind (Q := fun _ => True) (Stays.lift fun _ _ => trivial) fun _ _ => ?_
    refine Stays.bind (Q := fun _ => True) (Stays.drawE fun _ _ => trivial) fun uuid _ => ?_
    refine Stays.bind (Q := K) (Stays.drawE hD) fun k hk => ?_
    refine Stays.bind (Q := fun _ => True) (Stays.lift fun _ _ => trivial) fun md _ => ?_
    refine Stays.bind (Q := fun _ => True) (Stays.drawE fun _ _ => trivial) fun nonce _ => ?_
    refine Stays.bind (Q := fun _ => True) (Stays.nowE fun _ => trivial) fun now _ => ?_
    exact Stays.bind (Q := fun _ => True) (Stays.putE hk trivial trivial) fun _ _ => Stays.pure trivial
  | requestObject r =>
    refine Stays.bind (Q := fun _ => True) ?_ fun _ _ => Stays.pure trivial
    exact Stays.bind (Q := fun _ => True) (Stays.getE (hK _ rfl) fun _ _ => trivial) fun _ _ =>
      Stays.bind (Q := fun _ => True) (Stays.lift fun _ _ => trivial) fun _ _ =>
      Stays.bind (Q := fun _ => True) (Stays.lift fun _ _ => trivial) fun _ _ => Stays.lift fun _ _ => trivial
  | response r =>
    refine Stays.bind (Q := fun _ => True) ?_ fun _ _ => Stays.pure trivial
    refine Stays.bind (Q := K) (Stays.lift fun k h => hK k ?_) fun k hk => ?_
    · cases hs : r.state with
      | none => rw [hs] at h; cases h
      | some x => rw [hs] at h; cases h; exact hs
    exact Stays.bind (Q := fun _ => True) (Stays.getE hk fun _ _ => trivial) fun _ _ =>
      Stays.bind (Q := fun _ => True) verify_stays fun _ _ =>
      Stays.bind (Q := fun _ => True) (Stays.purgeE hk trivial) fun _ _ => Stays.pure trivial
  | metadata c => exact Stays.bind (Q := fun _ => True) (Stays.lift fun _ _ => trivial) fun _ _ => Stays.pure trivial

/-! ## C176 -/

variable {rng : Nat → Nat → String} {calls : Nat → Call} {t0 : Int}

/-- **C176**: requests for presentation do not affect each other, however the calls overlap and break off. Take any set of calls such that no state or identifier
that one of them presents or is given is presented by or given to a call outside the set. Whether the calls in the set are answered, with what, and what the verifier
keeps for them, is the same as if the calls outside it were never made. -/
theorem C176_requests_do_not_interfere (A : Nat → Bool)
    (hd : ∀ i j k, A i = true → A j = false → Concerns rng calls i k → ¬ Concerns rng calls j k) (s : List Event) :
    (∀ i r, A i = true → (((pool t0 calls).exec rng s).Answered i r ↔ ((pool t0 calls).exec rng (s.filter (concerns A))).Answered i r)) ∧
    ∀ i k, A i = true → Concerns rng calls i k →
      ((pool t0 calls).exec rng s).store k = ((pool t0 calls).exec rng (s.filter (concerns A))).store k := by
  let K : String → Prop := fun k => ∃ i, A i = true ∧ Concerns rng calls i k
  have h0 : Alike A K (fun _ => True) (fun _ => True) (fun i s => ∃ n, s = rng i n) (pool t0 calls) (pool t0 calls) :=
    { now := rfl
      prog := fun _ _ => rfl
      drawn := fun _ _ => rfl
      store := fun _ _ => rfl
      inside := fun _ _ _ _ => trivial
      outside := fun _ _ _ _ => trivial
      mine := fun i hi => call_stays (fun s hs => ⟨i, hi, .inr hs⟩) fun k hk => ⟨i, hi, .inl hk⟩
      others := fun j hj => call_stays (fun s hs ⟨i, hi, h⟩ => hd i j _ hi hj h (.inr hs)) fun k hk ⟨i, hi, h⟩ => hd i j k hi hj h (.inl hk) }
  have h := h0.exec (rng := rng) (fun i n => ⟨n, rfl⟩) s
  refine ⟨fun i r hi => ?_, fun i k hi hk => h.store k ⟨i, hi, hk⟩⟩
  unfold Pool.Answered
  rw [h.prog i hi]

/-- **C176**: with tokens that never repeat, it is enough that the calls in the set present only what the verifier gave to calls in the set, and that the calls outside
present nothing of that. -/
theorem C176_keep_your_state (hf : Distinct rng) (A : Nat → Bool) (hin : ∀ i k, A i = true → (calls i).req.Presents k → ∃ j n, A j = true ∧ k = rng j n)
    (hout : ∀ i j n, A i = false → A j = true → ¬ (calls i).req.Presents (rng j n)) (s : List Event) :
    (∀ i r, A i = true → (((pool t0 calls).exec rng s).Answered i r ↔ ((pool t0 calls).exec rng (s.filter (concerns A))).Answered i r)) ∧
    ∀ i n, A i = true → ((pool t0 calls).exec rng s).store (rng i n) = ((pool t0 calls).exec rng (s.filter (concerns A))).store (rng i n) := by
  have h := C176_requests_do_not_interfere (t0 := t0) (rng := rng) (calls := calls) A ?_ s
  · exact ⟨h.1, fun i n hi => h.2 i _ hi (.inr ⟨n, rfl⟩)⟩
  · intro i j k hi hj hc hc'
    have own : ∃ j n, A j = true ∧ k = rng j n := hc.elim (hin i k hi) fun ⟨n, h⟩ => ⟨i, n, hi, h⟩
    obtain ⟨i', n, hi', rfl⟩ := own
    rcases hc' with h | ⟨m, h⟩
    · exact hout j i' n hj hi' h
    · rw [(hf _ _ _ _ h).1, hj] at hi'
      cases hi'

namespace Demo

/-- Calls 0 and 2 make a request each; call 1 answers the first; the others answer the second, or try to. Example; models no code. -/
def two : Nat → Call
  | 0 => ⟨provider, .createRequest (createReq .crossDevice)⟩
  | 1 => ⟨provider, .response (resp (.string "vp.jwt"))⟩
  | 2 => ⟨provider, .createRequest (createReq .crossDevice)⟩
  | _ => ⟨provider, .response { resp (.string "vp.jwt") with state := some (tokens 2 1) }⟩

/-- **C176** applies: the first request is answered, whatever is done with the second meanwhile. -/
example : ((pool 0 two).exec tokens ((List.range 8).flatMap (fun _ => [.run 0 .ok, .run 2 .ok]) ++ [.run 3 .ok, .run 4 .ok] ++ all 1 ++ all 3 ++ all 4)).Answered 1
    (.ok (.response accepted)) := by
  refine ((C176_keep_your_state tokens_distinct (fun i => decide (i < 2)) ?_ ?_ _).1 1 _ rfl).2 rfl
  · intro i k hi hk
    match i, hi with
    | 0, _ => exact hk.elim
    | 1, _ => exact ⟨0, 1, rfl, (Option.some.inj hk).symm⟩
  · intro i j n hi hj hp
    have hj : j < 2 := of_decide_eq_true hj
    match i with
    | 0 | 1 => cases hi
    | 2 => exact hp.elim
    | _ + 3 =>
      have := (tokens_distinct _ _ _ _ (Option.some.inj hp)).1
      omega

end Demo
end Verif.Verifier
