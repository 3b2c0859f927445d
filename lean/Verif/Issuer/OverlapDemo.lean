import Verif.Issuer.NonceOverlap
import Verif.Issuer.Demo
/-!
# Overlapping calls on the small concrete issuer: what goes wrong, and that the theorems are not vacuous (C86-C88)
-/
namespace Verif.Issuer.Demo
open Verif Prog Pool

/-- Tokens of call `i`: `i` times `a`, then `b`, then as many `c` as it has drawn before. -/
def tokens (i n : Nat) : String := String.ofList (List.replicate i 'a' ++ 'b' :: List.replicate n 'c')

theorem tokens_list {i n j m : Nat}
    (h : List.replicate i 'a' ++ 'b' :: List.replicate n 'c' = List.replicate j 'a' ++ 'b' :: List.replicate m 'c') : i = j ∧ n = m := by
  induction i generalizing j with
  | zero =>
    cases j with
    | zero =>
      simp only [List.replicate_zero, List.nil_append, List.cons.injEq, true_and] at h
      have := congrArg List.length h
      simp at this
      exact ⟨rfl, this⟩
    | succ j => simp [List.replicate_succ] at h
  | succ i ih =>
    cases j with
    | zero => simp [List.replicate_succ] at h
    | succ j =>
      simp only [List.replicate_succ, List.cons_append, List.cons.injEq, true_and] at h
      obtain ⟨h1, h2⟩ := ih h
      exact ⟨congrArg Nat.succ h1, h2⟩

theorem tokens_fresh : FreshTokens tokens where
  inj := by
    intro i n j m h
    have h := congrArg String.toList h
    simp only [tokens, String.toList_ofList] at h
    exact tokens_list h
  noUrn := by
    intro i n j m h
    have h := congrArg String.toList h
    simp only [tokens, String.toList_ofList, String.toList_append, urn_toList] at h
    cases i with
    | zero => simp at h
    | succ i => simp [List.replicate_succ] at h

/-- The demo issuer, offering only the credential that requires proofs. -/
def strict : Provider := { provider with
  issuer := fun i => if i = "http://vercre.io" then some { issuer with configs := [("Employee", employee)] } else none }

theorem strict_needs (req : Req) : Call.NeedsProofs ⟨strict, req⟩ := by
  intro url iss id cfg h hm
  simp only [strict] at h
  split at h
  · cases h
    simp only [List.mem_singleton, Prod.mk.injEq] at hm
    rw [hm.2]; decide
  · cases h

/-- Call 0 makes a pre-authorized offer; calls 1 and 2 redeem its code; calls 3 and 4 ask for the credential with the token of call 1,
with the same proof; call 5 again with the proof. Call 6 redeems with a wrong transaction code. -/
def calls : Nat → Call
  | 0 => ⟨strict, .createOffer offerReq⟩
  | 1 => ⟨strict, .token (tokenReq (tokens 0 0))⟩
  | 2 => ⟨strict, .token (tokenReq (tokens 0 0))⟩
  | 6 => ⟨strict, .token (tokenReq (tokens 0 0) (some "000000"))⟩
  | _ => ⟨strict, .credential (credReq (tokens 1 0) (tokens 1 1))⟩

/-- Call `i` runs to its end. -/
def all (i : Nat) : List Event := List.replicate 12 (.run i .ok)

/-- The pool after a schedule. -/
def after (s : List Event) : Pool State Resp := (pool 0 calls).exec tokens s

/-- Calls 1 and 2 both read the code before either removes it. -/
def race : List Event := all 0 ++ [.run 1 .ok, .run 2 .ok] ++ all 1 ++ all 2

/-- Calls 3 and 4 both read the session before either renews its nonce. -/
def raceCredential : List Event := all 0 ++ all 1 ++ [.run 3 .ok, .run 4 .ok] ++ all 3 ++ all 4

/-- Call 6, with a wrong transaction code, and call 1 both read the code before either removes it. -/
def raceGuess : List Event := all 0 ++ [.run 6 .ok, .run 1 .ok] ++ all 6 ++ all 1

/-- **C86** fails for calls that overlap: two redemptions of one code (by anybody who has it) can both be answered with an access token,
and both tokens are live sessions. The code is read and removed by two separate accesses to the store. -/
theorem C86_overlapping_redeemed_twice :
    ∃ (calls : Nat → Call) (s : List Event) (req : TokenRequest) (tr tr' : TokenResponse),
      (calls 1).req = .token req ∧ (calls 2).req = .token req ∧
      ((pool 0 calls).exec tokens s).Answered 1 (.ok (.token tr)) ∧ ((pool 0 calls).exec tokens s).Answered 2 (.ok (.token tr')) ∧
      tr.accessToken ≠ tr'.accessToken ∧
      (∃ v t, ((pool 0 calls).exec tokens s).store tr.accessToken = some v ∧ v.stage = .validated t) ∧
      ∃ v t, ((pool 0 calls).exec tokens s).store tr'.accessToken = some v ∧ v.stage = .validated t :=
  ⟨calls, race, tokenReq (tokens 0 0), _, _, rfl, rfl, rfl, rfl, by decide, ⟨_, _, rfl, rfl⟩, ⟨_, _, rfl, rfl⟩⟩

/-- **C86** (and C21 under overlap): a wrong transaction code does not use up the pre-authorized code if another redemption has already
read it, so guesses sent at the same time are all checked. -/
theorem C86_overlapping_guesses :
    ∃ (calls : Nat → Call) (s : List Event) (code : String) (e : Err) (tr : TokenResponse),
      (calls 6).req = .token (tokenReq code (some "000000")) ∧ (calls 1).req = .token (tokenReq code (some "123456")) ∧
      ((pool 0 calls).exec tokens s).Answered 6 (.error e) ∧ ((pool 0 calls).exec tokens s).Answered 1 (.ok (.token tr)) ∧
      -- the wrong guess was answered before the right one
      ((pool 0 calls).exec tokens (s.take 26)).Answered 6 (.error e) ∧
      ¬ ∃ r, ((pool 0 calls).exec tokens (s.take 26)).Answered 1 r := by
  refine ⟨calls, raceGuess, tokens 0 0, _, _, rfl, rfl, rfl, rfl, rfl, ?_⟩
  rintro ⟨r, h⟩
  cases h

/-- **C88** fails for calls that overlap: one proof of possession can be answered with two credentials, ... -/
theorem C88_overlapping_proof_used_twice :
    ∃ (calls : Nat → Call) (s : List Event) (req : CredentialRequest) (a b : CredentialResponse) (c d : IssuedCredential),
      (calls 3).NeedsProofs ∧ (calls 4).NeedsProofs ∧ (calls 3).req = .credential req ∧ (calls 4).req = .credential req ∧
      ((pool 0 calls).exec tokens s).Answered 3 (.ok (.credential a)) ∧ a.response = .credential c ∧
      ((pool 0 calls).exec tokens s).Answered 4 (.ok (.credential b)) ∧ b.response = .credential d :=
  ⟨calls, raceCredential, credReq (tokens 1 0) (tokens 1 1), _, _, _, _, strict_needs _, strict_needs _, rfl, rfl, rfl, rfl, rfl, rfl⟩

/-- ... and one of the two answers tells the client a nonce that was never going to be accepted: the other call has overwritten it. -/
theorem C88_overlapping_nonce_lost :
    ∃ (calls : Nat → Call) (s : List Event) (req : CredentialRequest) (a : CredentialResponse) (n : String) (v : State) (t : Token),
      (calls 3).req = .credential req ∧ ((pool 0 calls).exec tokens s).Answered 3 (.ok (.credential a)) ∧ a.cNonce = some n ∧
      ((pool 0 calls).exec tokens s).store req.accessToken = some v ∧ v.stage = .validated t ∧ t.cNonce ≠ n :=
  ⟨calls, raceCredential, credReq (tokens 1 0) (tokens 1 1), _, _, _, _, rfl, rfl, rfl, rfl, rfl, by decide⟩

/-! ### The theorems are not vacuous -/

theorem idle_all {i j : Nat} (h : i ≠ j) : Idle j (all i) := by
  simp only [Idle, all]
  intro f hf
  have := List.eq_of_mem_replicate hf
  cases this
  exact h rfl

theorem idle_append {j : Nat} {a b : List Event} (ha : Idle j a) (hb : Idle j b) : Idle j (a ++ b) := by
  intro f hf
  rcases List.mem_append.1 hf with h | h
  · exact ha f h
  · exact hb f h

/-- Call 1 redeems the code, then call 2 starts: C86 applies, and call 2 is answered with an error. -/
example : (∀ b, ¬ (after (all 0 ++ all 1 ++ all 2)).Answered 2 (.ok b)) ∧
    (∃ tr, (after (all 0 ++ all 1)).Answered 1 (.ok (.token tr))) ∧ ∃ e, (after (all 0 ++ all 1 ++ all 2)).Answered 2 (.error e) :=
  ⟨fun _ => C86_codes_refused_after_answer_partial tokens_fresh (i := 1) (j := 2) (t0 := 0) (calls := calls) (s := all 0 ++ all 1)
    (s' := all 2) rfl rfl rfl rfl (idle_append (idle_all (by decide)) (idle_all (by decide))), ⟨_, rfl⟩, ⟨_, rfl⟩⟩

/-- The same with a redemption whose removal of the code is reported as failed although it happened: no token, and the code is gone. -/
example : (∃ e, (after (all 0 ++ [.run 1 .ok, .run 1 .failAfter] ++ all 1 ++ all 2)).Answered 1 (.error e)) ∧
    ∃ e, (after (all 0 ++ [.run 1 .ok, .run 1 .failAfter] ++ all 1 ++ all 2)).Answered 2 (.error e) := ⟨⟨_, rfl⟩, ⟨_, rfl⟩⟩

/-- Calls 3 and 4 overlap and are both answered; call 5, which starts later with the same proof, is not: C88 applies. -/
example : (∀ b, ¬ (after (raceCredential ++ all 5)).Answered 5 (.ok b)) ∧ ∃ e, (after (raceCredential ++ all 5)).Answered 5 (.error e) := by
  refine ⟨fun _ => ?_, ⟨_, rfl⟩⟩
  refine C88_proof_refused_after_answer_partial tokens_fresh (k := 1) (i := 3) (j := 5) (t0 := 0) (calls := calls) (s := raceCredential)
    (s' := all 5) (jwt := tokens 1 1) rfl rfl rfl rfl (.single _ rfl) (.single _ rfl) rfl (strict_needs _) (strict_needs _) rfl rfl rfl rfl ?_
  have h3 : ∀ f, f ∈ ([.run 3 .ok, .run 4 .ok] : List Event) → f = .run 3 .ok ∨ f = .run 4 .ok := by simp
  refine idle_append (idle_append (idle_append (idle_append (idle_all (by decide)) (idle_all (by decide))) ?_) (idle_all (by decide)))
    (idle_all (by decide))
  intro f hf
  rcases h3 _ hf with h | h <;> cases h

/-- C87 on the overlapping credential requests: the demo provider authorizes `normal` for `emp-1` and `dev-1`. -/
example : ∃ subject cfg id ds resp c, (after raceCredential).Answered 4 (.ok (.credential resp)) ∧ resp.response = .credential c ∧
    (subject = "normal" ∧ (id = "emp-1" ∨ id = "dev-1") ∧ cfg ∈ ["Employee", "Developer"]) ∧
    strict.dataset subject id = some ds ∧ ∀ did claims, c.Says did claims → ∀ x ∈ claims, x ∈ ds.claims := by
  have hP : ∀ i, (calls i).provider.Within
      fun subject cfg id => subject = "normal" ∧ (id = "emp-1" ∨ id = "dev-1") ∧ cfg ∈ ["Employee", "Developer"] := by
    intro i
    have : (calls i).provider = strict := by unfold calls; split <;> rfl
    rw [this]
    intro subject cfg ids h id hid
    simp only [strict, provider] at h
    split at h
    · rename_i hs
      split at h
      · rename_i hc; cases h; simp_all
      · split at h
        · rename_i hc; cases h; simp_all
        · cases h
    · cases h
  obtain ⟨subject, cfg, id, ds, h1, h2, h3⟩ := C87_issued_within hP (rng := tokens) (t0 := 0) raceCredential (i := 4) (.inl rfl) rfl
  exact ⟨subject, cfg, id, ds, _, _, rfl, rfl, h1, h2, h3⟩

end Verif.Issuer.Demo
