import Verif.Issuer.ExpungeProps
import Verif.Issuer.Demo
/-!
# C204 on a small issuer, and where it fails
-/
namespace Verif.Issuer.ExpungeDemo
open Verif Demo

/-- Whether an answer is a success. Example; models no code. -/
def oks (l : List (Res Resp)) : List Bool := l.map isOk

/-- An offer is made; within its five minutes it is redeemed and a credential is collected; an hour later somebody tries all of it again, when the store has thrown
everything away that it may. Example; models no code. -/
def visits : List Visit :=
  [⟨{ provider := provider, req := .createOffer offerReq }, fun _ => true⟩,
   ⟨{ provider := provider, wait := 299000000000, req := .token (tokenReq (rng 0)) }, fun _ => true⟩,
   ⟨{ provider := provider, req := .credential (credReq (rng 2) (rng 3)) }, fun _ => true⟩,
   ⟨{ provider := provider, wait := 3600000000000, req := .credential (credReq (rng 2) (rng 4)) }, fun _ => true⟩,
   ⟨{ provider := provider, req := .token (tokenReq (rng 0)) }, fun _ => true⟩]

/-- **C204** applies: the answers are the same over both stores. -/
example : ∃ a b, (answersExpunging env sec (start 0) visits)[2]? = some a ∧ (answers env (start 0) (visits.map (·.step)))[2]? = some b ∧ SameAnswer a b := by
  obtain ⟨a, b, h1, h2, _, h3⟩ := C204_may_expunge_partial (e := env) (fun _ => rfl) 0 visits 2 _ rfl
  exact ⟨a, b, h1, h2, h3 fun _ h => by cases h⟩

example : oks (answersExpunging env sec (start 0) visits) = [true, true, true, false, false] ∧
    oks (answers env (start 0) (visits.map (·.step))) = [true, true, true, false, false] := by decide +kernel

/-- An offer is redeemed in the second that follows its five minutes. Example; models no code. -/
def late : List Visit :=
  [⟨{ provider := provider, req := .createOffer offerReq }, fun _ => false⟩,
   ⟨{ provider := provider, wait := 300000000000, req := .token (tokenReq (rng 0)) }, fun _ => true⟩]

/-- **C204 is false** in the last second: a state is still good for a second after the expiry that the store was given for it, since whole seconds are compared. A store
that throws the entry away as soon as it may makes the issuer refuse a code that it would accept otherwise. -/
theorem C204_violated_last_second : oks (answers env (start 0) (late.map (·.step))) = [true, true] ∧ oks (answersExpunging env 0 (start 0) late) = [true, false] := by
  decide +kernel

/-- An offer is redeemed; the access token is used for registration an hour later. Example; models no code. -/
def registering : List Visit :=
  [⟨{ provider := provider, req := .createOffer offerReq }, fun _ => false⟩,
   ⟨{ provider := provider, req := .token (tokenReq (rng 0)) }, fun _ => false⟩,
   ⟨{ provider := provider, wait := 3600000000000, req := .register { accessToken := rng 2, client := client } }, fun _ => true⟩]

/-- **C204 is false** of registration: whether an access token that has expired long ago can be used to register a client depends on whether the store has thrown it
away, as the expiry is not checked. -/
theorem C204_violated_registration : oks (answers env (start 0) (registering.map (·.step))) = [true, true, true] ∧
    oks (answersExpunging env sec (start 0) registering) = [true, true, false] := by
  decide +kernel

end Verif.Issuer.ExpungeDemo
