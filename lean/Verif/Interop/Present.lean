import Verif.Interop.Model
import Verif.Verifier.Props
import Verif.Holder.PresentProps
/-!
# The wallet connected to a verifier

/repo/vercre-holder/tests/provider.rs 97-117 connects the wallet to the verifier by serving the two calls of the wallet's `Verifier` provider with the
verifier's endpoints. Here the same connection is made between the two models. Between any two calls of the wallet the verifier may serve any other
calls, of any other clients.
-/
namespace Verif.Interop
open Verif

/-- Cutting a text at its last slash. /repo/vercre-holder/tests/provider.rs 98-108. -/
def cutLast (l : List Char) : Option (List Char × List Char) :=
  match l.reverse.dropWhile (· != '/') with
  | [] => none
  | _ :: b => some (b.reverse, (l.reverse.takeWhile (· != '/')).reverse)

/-- The client id and the request id in the URL of a request object, provider.rs 98-106: `rsplitn(3, '/')`, the first and the last part. -/
def splitUrl (url : String) : Option (String × String) :=
  match cutLast url.toList with
  | none => none
  | some (front, id) =>
    match cutLast front with
    | none => none
    | some (client, _) => some (String.ofList client, String.ofList id)

/-- The verifier endpoint a call of the wallet goes to, provider.rs 97-117. The URI a presentation is sent to is not looked at. -/
def verifierRequest : Holder.Call → Option Verifier.Req
  | .requestObject url => (splitUrl url).map fun p => .requestObject { clientId := p.1, id := p.2 }
  | .present _ r => some (.response r)
  | _ => none

/-- A verifier and its surroundings: `provider i` and `others i` are the verifier's provider at the wallet's `i`-th call, and what the verifier serves
to others before it; `rest` is everything that is not the verifier. Connects wallet and verifier as /repo/vercre-holder/tests/provider.rs 97-116 does. -/
structure VNet where
  env : Env
  provider : Nat → Verifier.Provider
  others : Nat → List Verifier.Step
  rest : List Holder.Entry → List Holder.Event → (c : Holder.Call) → Option c.Reply

namespace VNet
variable (n : VNet)

/-- The verifier when the wallet's `i`-th call arrives. Connects wallet and verifier as /repo/vercre-holder/tests/provider.rs 97-116 does. -/
def arrival (i : Nat) (v : World Verifier.VState) : World Verifier.VState := Verifier.exec n.env v (n.others i)

/-- The verifier serving that call. Connects wallet and verifier as /repo/vercre-holder/tests/provider.rs 97-116 does. -/
def serve (i : Nat) (v : World Verifier.VState) (r : Verifier.Req) : Res Verifier.Resp × World Verifier.VState :=
  Verifier.step n.env (n.arrival i v) { provider := n.provider i, req := r }

/-- One more call of the wallet: how many reached the verifier, and the verifier after it.
Connects wallet and verifier as /repo/vercre-holder/tests/provider.rs 97-116 does. -/
def next (s : Nat × World Verifier.VState) (c : Holder.Call) : Nat × World Verifier.VState :=
  match verifierRequest c with
  | none => s
  | some r => (s.1 + 1, (n.serve s.1 s.2 r).2)

/-- The verifier after some calls of the wallet. Connects wallet and verifier as /repo/vercre-holder/tests/provider.rs 97-116 does. -/
def after (v : World Verifier.VState) (calls : List Holder.Call) : Nat × World Verifier.VState := calls.foldl n.next (0, v)

/-- The answer to a request that reaches the verifier after some calls. Connects wallet and verifier as /repo/vercre-holder/tests/provider.rs 97-116 does. -/
def answer (v : World Verifier.VState) (calls : List Holder.Call) (r : Verifier.Req) : Res Verifier.Resp :=
  (n.serve (n.after v calls).1 (n.after v calls).2 r).1

/-- What the wallet makes of an answer to `request_object`: a signed request object, provider.rs 107. -/
def objectReply : Res Verifier.Resp → Option Holder.RequestObjectType
  | .ok (.requestObject jwt) => some (.jwt jwt)
  | _ => none

/-- What the wallet makes of an answer to `response`, provider.rs 113. -/
def presentReply : Res Verifier.Resp → Option Verifier.ResponseResponse
  | .ok (.response r) => some r
  | _ => none

/-- What the wallet's calls answer: the verifier was in world `v` when the wallet had `skip` entries in its history.
Connects wallet and verifier as /repo/vercre-holder/tests/provider.rs 97-116 does. -/
def oracle (v : World Verifier.VState) (skip : Nat) (log : List Holder.Entry) (recent : List Holder.Event) : (c : Holder.Call) → Option c.Reply
  | .requestObject url => (verifierRequest (.requestObject url)).bind fun r => objectReply (n.answer v (Net.made skip log recent) r)
  | .present _ r => presentReply (n.answer v (Net.made skip log recent) (.response r))
  | c => n.rest log recent c

end VNet

/-! ### The verifier between the wallet's calls -/

/-- A step that answers the request with the given state. Specification; models no code. -/
def Verifier.Step.Answering (tok : String) (s : Verifier.Step) : Prop := ∃ r, s.req = .response r ∧ r.state = some tok

/-- A call of the wallet that answers the request with the given state. Specification; models no code. -/
def Answering (tok : String) (c : Holder.Call) : Prop := ∃ uri r, c = .present uri r ∧ r.state = some tok

section
variable {n : VNet}

/-- An entry whose key was drawn stays through steps that do not answer it. -/
theorem exec_entry (he : ∀ i j, n.env.rng i = n.env.rng j → i = j) {tok : String} {i : Nat} (hk : tok = n.env.rng i) (l : List Verifier.Step)
    (hl : ∀ s ∈ l, ¬ Verifier.Step.Answering tok s) (v : World Verifier.VState) (hi : i < v.drawn) :
    (Verifier.exec n.env v l).store tok = v.store tok ∧ i < (Verifier.exec n.env v l).drawn := by
  induction l generalizing v with
  | nil => exact ⟨rfl, hi⟩
  | cons s l ih =>
    have hd := Verifier.step_drawn_le n.env v s
    obtain ⟨h1, h2⟩ := ih (fun s hs => hl s (.tail _ hs)) (Verifier.step n.env v s).2 (by omega)
    refine ⟨h1.trans (Verifier.step_keeps n.env v s tok (fun r hr hst => hl s (.head _) ⟨r, hr, hst⟩) ?_), h2⟩
    rintro ⟨j, hj, _, he'⟩
    have := he _ _ (hk.symm.trans he'); omega

theorem next_entry (he : ∀ i j, n.env.rng i = n.env.rng j → i = j) {tok : String} {i : Nat} (hk : tok = n.env.rng i)
    (hl : ∀ j, ∀ s ∈ n.others j, ¬ Verifier.Step.Answering tok s) (s : Nat × World Verifier.VState) (hi : i < s.2.drawn) {c : Holder.Call}
    (hc : ¬ Answering tok c) : (n.next s c).2.store tok = s.2.store tok ∧ i < (n.next s c).2.drawn := by
  unfold VNet.next
  cases hr : verifierRequest c with
  | none => exact ⟨rfl, hi⟩
  | some r =>
    have := exec_entry he hk (n.others s.1 ++ [{ provider := n.provider s.1, req := r }]) (by
      intro st hst
      rcases List.mem_append.1 hst with hst | hst
      · exact hl _ _ hst
      · rw [List.mem_singleton] at hst
        subst hst
        rintro ⟨q, h1, h2⟩
        cases h1
        cases c <;> simp only [verifierRequest, reduceCtorEq] at hr
        · rename_i url
          cases hu : splitUrl url <;> rw [hu] at hr <;> cases hr
        · rename_i uri r'
          cases hr
          exact hc ⟨uri, _, rfl, h2⟩) s.2 hi
    rw [Verifier.exec_append] at this
    exact this

/-- The entry of a request stays through any calls of the wallet, and anything others do meanwhile, that do not answer it. -/
theorem after_entry (he : ∀ i j, n.env.rng i = n.env.rng j → i = j) {tok : String} {i : Nat} (hk : tok = n.env.rng i)
    (hl : ∀ j, ∀ s ∈ n.others j, ¬ Verifier.Step.Answering tok s) (v : World Verifier.VState) (hi : i < v.drawn) {calls : List Holder.Call}
    (hc : ∀ c ∈ calls, ¬ Answering tok c) : (n.after v calls).2.store tok = v.store tok ∧ i < (n.after v calls).2.drawn := by
  have : ∀ (calls : List Holder.Call) (s : Nat × World Verifier.VState), i < s.2.drawn → (∀ c ∈ calls, ¬ Answering tok c) →
      (calls.foldl n.next s).2.store tok = s.2.store tok ∧ i < (calls.foldl n.next s).2.drawn := by
    intro calls
    induction calls with
    | nil => intro s hs _; exact ⟨rfl, hs⟩
    | cons c l ih =>
      intro s hs hc
      obtain ⟨h1, h2⟩ := next_entry he hk hl s hs (hc c (.head _))
      obtain ⟨h3, h4⟩ := ih (n.next s c) h2 fun c hm => hc c (.tail _ hm)
      exact ⟨h3.trans h1, h4⟩
  exact this calls (0, v) hi hc

theorem arrival_entry (he : ∀ i j, n.env.rng i = n.env.rng j → i = j) {tok : String} {i : Nat} (hk : tok = n.env.rng i)
    (hl : ∀ j, ∀ s ∈ n.others j, ¬ Verifier.Step.Answering tok s) (v : World Verifier.VState) (hi : i < v.drawn) {calls : List Holder.Call}
    (hc : ∀ c ∈ calls, ¬ Answering tok c) :
    (n.arrival (n.after v calls).1 (n.after v calls).2).store tok = v.store tok := by
  obtain ⟨h1, h2⟩ := after_entry he hk hl v hi hc
  exact (exec_entry he hk _ (hl _) _ h2).1.trans h1

end

/-! ### URLs -/

theorem dropWhile_free {l m : List Char} (h : '/' ∉ l) : (l ++ '/' :: m).dropWhile (· != '/') = '/' :: m := by
  induction l with
  | nil => simp
  | cons a l ih =>
    have ha : a ≠ '/' := fun e => h (e ▸ .head _)
    simp [ha, ih fun hm => h (.tail _ hm)]

theorem takeWhile_free {l m : List Char} (h : '/' ∉ l) : (l ++ '/' :: m).takeWhile (· != '/') = l := by
  induction l with
  | nil => simp
  | cons a l ih =>
    have ha : a ≠ '/' := fun e => h (e ▸ .head _)
    simp [ha, ih fun hm => h (.tail _ hm)]

theorem cutLast_eq {front id : List Char} (h : '/' ∉ id) : cutLast (front ++ '/' :: id) = some (front, id) := by
  have h' : '/' ∉ id.reverse := by simpa using h
  unfold cutLast
  rw [List.reverse_append, List.reverse_cons, List.append_assoc, List.singleton_append, dropWhile_free h', takeWhile_free h']
  simp

/-- The URL of a cross device request names the client and the request. -/
theorem splitUrl_request {client id : String} (h : '/' ∉ id.toList) : splitUrl (client ++ "/request/" ++ id) = some (client, id) := by
  unfold splitUrl
  have h1 : (client ++ "/request/" ++ id).toList = (client.toList ++ '/' :: "request".toList) ++ '/' :: id.toList := by
    rw [String.toList_append, String.toList_append]
    rw [show ("/request/" : String).toList = '/' :: "request".toList ++ ['/'] from by decide +kernel]
    simp
  rw [h1, cutLast_eq h]
  simp only
  rw [cutLast_eq (by decide +kernel)]
  simp

end Verif.Interop
