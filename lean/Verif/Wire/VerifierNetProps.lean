import Verif.Wire.VerifierNet
import Verif.Wire.AnswerProps
import Verif.Wire.NetLemmas
import Verif.Holder.Asks
import Verif.Interop.PresentProps
/-!
# C129: the wallet and the verifier connected by text
-/
namespace Verif.Wire
open Interop (Net VNet)

/-! ### Specification -/

/-- What Rust's types allow of a verifier's metadata and of requests made to it, at whatever time. -/
def TextVNet.Typed (n : TextVNet) : Prop := (∀ i r, (∀ c, r ≠ .createRequest c) → RustTyped (n.provider i) r) ∧ ∀ i, ∀ s ∈ n.others i, RustTyped s.provider s.req

/-! ### The verifier's side -/

abbrev AllAsks (w : World Verifier.VState) : Prop := ∀ k v, w.store k = some v → SoundAsk v.requestObject

/-- The world of the verifier whose store keeps text, and that of the verifier whose store keeps values. -/
def Mirrors (T : TimeText) (a : World (List Char)) (b : World Verifier.VState) : Prop := a = b.encode (vStateText T) ∧ AllAsks b

theorem mirrors_step {T : TimeText} {e : Env} {a : World (List Char)} {b : World Verifier.VState} (h : Mirrors T a b) {s : Verifier.Step} (hs : RustTyped s.provider s.req) :
    (vStepText T e a s).1 = (Verifier.step e b s).1 ∧ Mirrors T (vStepText T e a s).2 (Verifier.step e b s).2 := by
  obtain ⟨rfl, hb⟩ := h
  obtain ⟨h1, h2⟩ := run_viaText (fun v => textVState_write T) e (Verifier.call s.provider s.req) (rustTyped_keeps hs) { b with now := b.now + s.wait } hb
  have h1' : vStepText T e (b.encode (vStateText T)) s = _ := h1
  rw [h1']
  exact ⟨rfl, rfl, h2⟩

theorem mirrors_exec {T : TimeText} {e : Env} {l : List Verifier.Step} (hl : ∀ s ∈ l, RustTyped s.provider s.req) {a : World (List Char)} {b : World Verifier.VState}
    (h : Mirrors T a b) : Mirrors T (vExecText T e a l) (Verifier.exec e b l) := by
  induction l generalizing a b with
  | nil => exact h
  | cons s l ih => exact ih (fun x hx => hl x (.tail _ hx)) (mirrors_step h (hl s (.head _))).2

theorem mirrors_start (T : TimeText) (t0 : Int) : Mirrors T (startText t0) (Verifier.start t0) := ⟨rfl, vstart_empty⟩

/-! ### The connection -/

/-- An answer made of signed presentations. -/
def Signed : Holder.Call → Prop
  | .present _ r => ∃ l : List String, r.vpToken = some (l.map .string)
  | _ => True

theorem answerSeen_of (r : Verifier.ResponseRequest) : answerSeen (answerOf r) = r := rfl

theorem sent_answer {α : Type} (rd : Json → Option α) (wr : α → Json) {a : Answer α} (h : ∃ l : List String, a.vpToken = some (l.map .string)) :
    sent (writeAnswer wr a) (readAnswer rd) = some a := by
  obtain ⟨l, hl⟩ := h
  have hno : ∀ l', a.vpToken = some l' → ∀ v, Kind.object v ∉ l' := by
    intro l' e v hv
    rw [hl] at e
    cases e
    obtain ⟨t, -, e⟩ := List.mem_map.1 hv
    cases e
  rw [sent_eq (wf_answer fun l' e v hv => absurd hv (hno l' e v))]
  exact readAnswer_write fun l' e v hv => absurd hv (hno l' e v)

theorem vcarried_eq (n : TextVNet) {c : Holder.Call} (h : Signed c) : n.carried c = Interop.verifierRequest c := by
  cases c with
  | present u r =>
    rw [TextVNet.carried, sent_answer n.readPlain n.writePlain (a := answerOf r) h]
    rfl
  | _ => rfl

theorem verifierRequest_reads {c : Holder.Call} {r : Verifier.Req} (h : Interop.verifierRequest c = some r) : ∀ x, r ≠ .createRequest x := by
  rintro x rfl
  cases c with
  | requestObject url =>
    obtain ⟨_, -, e⟩ := Option.map_eq_some_iff.1 h
    cases e
  | _ => cases h

theorem vserve_same {n : TextVNet} (hn : n.Typed) (i : Nat) {a : World (List Char)} {b : World Verifier.VState} (h : Mirrors n.T a b) {r : Verifier.Req}
    (hr : ∀ x, r ≠ .createRequest x) : (n.serve i a r).1 = (n.toVNet.serve i b r).1 ∧ Mirrors n.T (n.serve i a r).2 (n.toVNet.serve i b r).2 :=
  mirrors_step (s := { provider := n.provider i, req := r }) (mirrors_exec (hn.2 i) h) (hn.1 i r hr)

theorem vafter_same {n : TextVNet} (hn : n.Typed) {calls : List Holder.Call} (hc : ∀ c ∈ calls, Signed c) {i : Nat} {a : World (List Char)} {b : World Verifier.VState}
    (h : Mirrors n.T a b) : (calls.foldl n.next (i, a)).1 = (calls.foldl n.toVNet.next (i, b)).1 ∧
      Mirrors n.T (calls.foldl n.next (i, a)).2 (calls.foldl n.toVNet.next (i, b)).2 := by
  induction calls generalizing i a b with
  | nil => exact ⟨rfl, h⟩
  | cons c l ih =>
    simp only [List.foldl_cons, TextVNet.next, VNet.next, vcarried_eq n (hc c (.head _))]
    cases hr : Interop.verifierRequest c with
    | none => exact ih (fun x hx => hc x (.tail _ hx)) h
    | some r => exact ih (fun x hx => hc x (.tail _ hx)) (vserve_same hn i h (verifierRequest_reads hr)).2

theorem objectReply_eq (q : Res Verifier.Resp) : TextVNet.objectReply q = VNet.objectReply q := by
  cases q with
  | error e => rfl
  | ok q => cases q <;> first | exact C124_signed_request_round_trip _ | rfl

theorem presentReply_eq (q : Res Verifier.Resp) : TextVNet.presentReply q = VNet.presentReply q := by
  cases q with
  | error e => rfl
  | ok q => cases q <;> first | exact C124_reply_round_trip _ | rfl

theorem voracle_same {n : TextVNet} (hn : n.Typed) {a : World (List Char)} {b : World Verifier.VState} (h : Mirrors n.T a b) {skip : Nat} {log : List Holder.Entry}
    {recent : List Holder.Event} (hc : ∀ c ∈ Net.made skip log recent, Signed c) {c : Holder.Call} (h' : Signed c) :
    n.oracle a skip log recent c = n.toVNet.oracle b skip log recent c := by
  obtain ⟨h1, h2⟩ := vafter_same hn hc (i := 0) h
  have h1 : (n.after a (Net.made skip log recent)).1 = (n.toVNet.after b (Net.made skip log recent)).1 := h1
  have h2 : Mirrors n.T (n.after a (Net.made skip log recent)).2 (n.toVNet.after b (Net.made skip log recent)).2 := h2
  have key : ∀ r, (∀ x, r ≠ .createRequest x) → (n.serve (n.after a (Net.made skip log recent)).1 (n.after a (Net.made skip log recent)).2 r).1 =
      n.toVNet.answer b (Net.made skip log recent) r := by
    intro r hr
    rw [h1]
    exact (vserve_same hn _ h2 hr).1
  cases c with
  | requestObject url =>
    show (n.answer a (Net.made skip log recent) (.requestObject url)).bind TextVNet.objectReply =
      (Interop.verifierRequest (.requestObject url)).bind fun r => VNet.objectReply (n.toVNet.answer b (Net.made skip log recent) r)
    rw [TextVNet.answer, vcarried_eq n h']
    cases hr : Interop.verifierRequest (.requestObject url) with
    | none => rfl
    | some r => rw [Option.map_some, Option.bind_some, Option.bind_some, key r (verifierRequest_reads hr), objectReply_eq]
  | present u r =>
    show (n.answer a (Net.made skip log recent) (.present u r)).bind TextVNet.presentReply = VNet.presentReply (n.toVNet.answer b (Net.made skip log recent) (.response r))
    rw [TextVNet.answer, vcarried_eq n h', Interop.verifierRequest, Option.map_some, Option.bind_some, key (.response r) (fun _ h => nomatch h), presentReply_eq]
  | _ => rfl

/-! ### The wallet's side -/

abbrev Signs {α : Type} (p : Holder.HProg α) : Prop := Holder.Asks (fun _ => True) Signed (fun _ _ => True) p fun _ => True

open Holder (Asks)

section
variable {α β : Type}

theorem signs_bind {p : Holder.HProg α} {f : α → Holder.HProg β} (h : Signs p) (hf : ∀ a, Signs (f a)) : Signs (p >>= f) := Asks.bind h fun a _ => hf a

theorem signs_lift {r : Holder.HRes α} {f : α → Holder.HProg β} (hf : ∀ a, Signs (f a)) : Signs (Holder.HProg.lift r >>= f) := signs_bind Asks.lift' hf

theorem signs_pure (a : α) : Signs (Pure.pure a : Holder.HProg α) := trivial

theorem signs_put (k : String) (v : Holder.HVal) : Signs (Holder.HProg.putE k v) := Asks.putE trivial

theorem signs_issuance (k : String) : Signs (Holder.HProg.getIssuance k) := Asks.getIssuance fun _ _ => trivial

theorem signs_presentation (k : String) : Signs (Holder.HProg.getPresentation k) := Asks.getPresentation fun _ _ => trivial

theorem signs_call {c : Holder.Call} (h : Signed c) : Signs (Holder.HProg.callE c) := by
  refine ⟨h, fun o _ => ?_⟩
  cases o <;> trivial

theorem signs_try {c : Holder.Call} (h : Signed c) : Signs (Holder.HProg.callO c) := ⟨h, fun _ _ => trivial⟩

end

theorem signs_setIssuer {i : Holder.Issuance} {c : String} : Signs (Holder.setIssuer i c) :=
  signs_bind (signs_call trivial) fun _ => signs_bind (signs_call trivial) fun _ => signs_pure _

theorem signs_new {c : String} : Signs (Holder.newIssuance c) := signs_bind Asks.drawE fun _ => signs_pure _

theorem signs_logo (o : Option String) : Signs (Holder.fetchLogo o) := by
  unfold Holder.fetchLogo
  split
  · exact signs_pure _
  · exact ⟨trivial, fun _ _ => trivial⟩

theorem signs_storable (P : Holder.Provider) (c : Verif.CredentialConfiguration) (k : Kind Verif.Vc) : Signs (Holder.storable P c k) := by
  unfold Holder.storable
  refine signs_lift fun p => ?_
  split
  · trivial
  · refine signs_lift fun _ => ?_
    split
    · trivial
    · refine signs_bind ?_ fun id => signs_lift fun uri => signs_bind (signs_logo uri) fun _ => signs_pure _
      unfold Holder.storableId
      split
      · exact signs_pure _
      · exact signs_bind Asks.drawE fun _ => signs_pure _

theorem signs_storables (P : Holder.Provider) (c : Verif.CredentialConfiguration) (l : List (Kind Verif.Vc)) : Signs (Holder.storables P c l) := by
  induction l with
  | nil => exact signs_pure _
  | cons k l ih => exact signs_bind (signs_storable P c k) fun _ => signs_bind ih fun _ => signs_pure _

theorem signs_process (P : Holder.Provider) (c : Verif.CredentialConfiguration) (r : Holder.CredentialResponse) : Signs (Holder.process P c r) := by
  unfold Holder.process
  split
  · exact signs_bind (signs_storable P c _) fun _ => signs_pure _
  · exact signs_bind (signs_storables P c _) fun _ => signs_pure _
  · exact signs_pure _

theorem signs_byIdentifiers {P : Holder.Provider} {jwt cfg : String} {c : Verif.CredentialConfiguration} {wanted : Option (List String)} {ids : List String} {i : Holder.Issuance} :
    Signs (Holder.byIdentifiers P jwt cfg c wanted ids i) := by
  induction ids generalizing i with
  | nil => exact signs_pure _
  | cons id ids ih =>
    rw [Holder.byIdentifiers]
    split
    · exact signs_bind (signs_call trivial) fun r => signs_bind (signs_process P c r) fun out => ih
    · exact ih

theorem signs_byDetails {P : Holder.Provider} {jwt : String} {wanted : Option (List String)} {l : List Issuer.AuthorizedDetail} {i : Holder.Issuance} :
    Signs (Holder.byDetails P jwt wanted l i) := by
  induction l generalizing i with
  | nil => exact signs_pure _
  | cons d l ih =>
    rw [Holder.byDetails]
    exact signs_lift fun cfg => signs_lift fun c => signs_bind signs_byIdentifiers fun j => ih

theorem signs_outcome (i : Holder.Issuance) (ev : Holder.NotificationEvent) : Signs (Holder.notifyOutcome i ev) := by
  unfold Holder.notifyOutcome
  split
  · exact signs_pure _
  · exact signs_bind (signs_call trivial) fun _ => signs_pure _

theorem signs_saveAll (i : Holder.Issuance) (l : List Holder.Credential) : Signs (Holder.saveAll i l) := by
  induction l with
  | nil => exact signs_pure _
  | cons c l ih =>
    rw [Holder.saveAll]
    refine signs_bind (signs_try trivial) fun o => ?_
    cases o with
    | some u => exact ih
    | none =>
      refine signs_bind ?_ fun _ => trivial
      unfold Holder.notifyFailure
      split
      · exact signs_pure _
      · exact signs_bind (signs_try trivial) fun _ => signs_pure _

theorem signs_present (P : Holder.Provider) (k : String) : Signs (Holder.present P k) := by
  unfold Holder.present
  refine signs_bind (signs_presentation k) fun p => signs_lift fun _ => signs_bind ?_ fun sub => signs_bind ?_ fun vp =>
    signs_bind Asks.nowE fun t => signs_lift fun jwt => signs_bind (signs_call ⟨[jwt], rfl⟩) fun _ => signs_pure _
  · unfold Holder.createSubmission
    split
    · trivial
    · exact signs_bind Asks.drawE fun _ => signs_pure _
  · unfold Holder.createVp
    refine signs_bind Asks.drawE fun _ => ?_
    simp only []
    split
    · trivial
    · exact Asks.lift'

theorem signs_serve (P : Holder.Provider) (r : Holder.Req) : Signs (Holder.serve P r) := by
  cases r with
  | offer r =>
    exact signs_lift fun _ => signs_bind signs_new fun i => signs_bind signs_setIssuer fun j => signs_bind (signs_put _ _) fun _ => signs_lift fun _ => signs_pure _
  | accept r =>
    exact signs_bind (signs_issuance _) fun i => signs_lift fun _ => signs_lift fun _ => signs_lift fun a => signs_bind (signs_put _ _) fun _ => signs_pure _
  | pin r => exact signs_bind (signs_issuance _) fun i => signs_lift fun _ => signs_bind (signs_put _ _) fun _ => signs_pure _
  | token k =>
    exact signs_bind (signs_issuance _) fun i => signs_lift fun _ => signs_lift fun r => signs_bind (signs_call trivial) fun t => signs_lift fun _ =>
      signs_bind (signs_put _ _) fun _ => signs_pure _
  | authorize r =>
    refine signs_bind ?_ fun i => signs_bind Asks.drawE fun v => signs_lift fun q => signs_bind (signs_call trivial) fun a => signs_bind (signs_call trivial) fun t =>
      signs_lift fun _ => signs_bind (signs_put _ _) fun _ => signs_pure _
    unfold Holder.startFlow
    split
    · exact signs_bind (signs_issuance _) fun i => signs_lift fun _ => signs_pure _
    · exact signs_lift fun _ => signs_bind signs_new fun i => signs_bind signs_setIssuer fun j => signs_pure _
  | credentials r =>
    refine signs_bind (signs_issuance _) fun i => signs_lift fun _ => signs_bind Asks.nowE fun t => signs_lift fun jwt => signs_bind ?_ fun j =>
      signs_bind (signs_put _ _) fun _ => signs_pure _
    unfold Holder.fetch
    split
    · exact signs_lift fun _ => signs_lift fun f => signs_lift fun e => signs_bind (signs_call trivial) fun a => signs_bind (signs_process P e.2 a) fun out => signs_pure _
    · exact signs_lift fun l => signs_byDetails
  | deferred r =>
    refine signs_bind (signs_issuance _) fun i => signs_lift fun _ => signs_bind (signs_call trivial) fun a => signs_lift fun c => signs_bind (signs_process P c a) fun out =>
      signs_bind ?_ fun _ => signs_pure _
    unfold Holder.stash
    split
    · exact Asks.purgeE
    · exact signs_put _ _
  | save k =>
    refine signs_bind (signs_issuance _) fun i => signs_bind (signs_saveAll i _) fun _ => signs_bind (signs_outcome i _) fun _ => signs_bind ?_ fun _ => signs_pure _
    unfold Holder.endFlow
    split
    · exact Asks.purgeE
    · exact signs_pure _
  | cancel k => exact signs_bind (signs_issuance _) fun i => signs_bind (signs_outcome i _) fun _ => signs_bind Asks.purgeE fun _ => signs_pure _
  | request u =>
    refine signs_lift fun d => signs_bind Asks.drawE fun id => signs_bind ?_ fun r => signs_lift fun f => signs_bind (signs_call trivial) fun cs =>
      signs_bind (signs_put _ _) fun _ => signs_pure _
    unfold Holder.obtainRequest
    split
    · exact Asks.lift'
    · exact signs_bind (signs_call trivial) fun _ => Asks.lift'
  | authorizePresentation k => exact signs_bind (signs_presentation k) fun p => signs_lift fun _ => signs_bind (signs_put _ _) fun _ => signs_pure _
  | present k => exact signs_present P k

theorem vexec_same {n : TextVNet} (hn : n.Typed) {a : World (List Char)} {b : World Verifier.VState} (h : Mirrors n.T a b) {e e' : Holder.HEnv} (hr : e'.rng = e.rng)
    (hf : e'.fault = e.fault) {skip : Nat} (he : e.oracle = n.toVNet.oracle b skip) (he' : e'.oracle = n.oracle a skip) {steps : List Holder.HStep}
    {x : Holder.HWorld} (hk : skip ≤ x.log.length)
    (hc : ∀ c ∈ Net.made skip x.log [], Signed c) : Holder.exec e' x steps = Holder.exec e x steps ∧ ∀ s, Holder.step e' (Holder.exec e x steps) s = Holder.step e (Holder.exec e x steps) s := by
  have key : ∀ s x, skip ≤ x.log.length → (∀ c ∈ Net.made skip x.log [], Signed c) → Holder.step e' x s = Holder.step e x s ∧
      skip ≤ (Holder.step e x s).2.log.length ∧ ∀ c ∈ Net.made skip (Holder.step e x s).2.log [], Signed c := by
    intro s x hk hc
    have h1 := Holder.run_same (e := e) (e' := e') hr hf (All := fun log recent => skip ≤ log.length ∧ ∀ c ∈ Net.made skip log recent, Signed c)
      (fun log recent c o h hc => ⟨h.1, fun d hd => by
        simp only [Net.made, List.map_append, ← List.append_assoc, List.map_cons, List.map_nil, List.mem_append, List.mem_singleton] at hd
        rcases hd with hd | rfl
        · exact h.2 d (by simpa only [Net.made, List.map_append, List.mem_append] using hd)
        · exact hc⟩)
      (fun log recent c g hc => by rw [he, he']; exact ⟨voracle_same hn h g.2 hc, fun _ _ => trivial⟩) (signs_serve s.provider s.req)
      (w := { x with now := x.now + s.wait, recent := [] }) (fun _ _ _ => trivial) ⟨hk, hc⟩
    refine ⟨by simp only [Holder.step, h1.1], ?_, ?_⟩
    · simp only [Holder.step, List.length_append]
      exact Nat.le_add_right_of_le h1.2.2.1
    · intro c hc
      refine h1.2.2.2 c ?_
      simp only [Holder.step] at hc
      rw [Net.made, List.drop_append_of_le_length h1.2.2.1] at hc
      simpa [Net.made] using hc
  induction steps generalizing x with
  | nil => exact ⟨rfl, fun s => (key s x hk hc).1⟩
  | cons s l ih =>
    obtain ⟨h2, h3, h4⟩ := key s x hk hc
    rw [Holder.exec, Holder.exec, h2]
    exact ih h3 h4

/-! ### Properties -/

/-- **C129**. A wallet and a verifier that send each other JSON text, the verifier's store keeping JSON text as well, do the same as if they handed each other the values
themselves: every call of the wallet's user has the same outcome and leaves the wallet with the same flows, and the same is recorded as asked and answered, whatever the
wallet is asked to do, whatever else the verifier serves meanwhile and served before, and whatever storage faults either has. -/
theorem C129_text_makes_no_difference {n : TextVNet} (hn : n.Typed) {history : List Verifier.Step} (hh : ∀ s ∈ history, RustTyped s.provider s.req) (t0 : Int)
    (x : Holder.HWorld) (steps : List Holder.HStep) (rng : Nat → String) (fault : Nat → Fault)
    {e e' : Holder.HEnv} (he : e = { rng, fault, oracle := n.toVNet.oracle (Verifier.exec n.env (Verifier.start t0) history) x.log.length })
    (he' : e' = { rng, fault, oracle := n.oracle (vExecText n.T n.env (startText t0) history) x.log.length }) :
    Holder.exec e' x steps = Holder.exec e x steps ∧ ∀ s, (Holder.step e' (Holder.exec e' x steps) s).1 = (Holder.step e (Holder.exec e x steps) s).1 := by
  obtain ⟨h1, h2⟩ := vexec_same (e := e) (e' := e') (x := x) (skip := x.log.length) (steps := steps) hn (mirrors_exec (T := n.T) (e := n.env) hh (mirrors_start n.T t0)) (by rw [he, he']) (by rw [he, he'])
    (by rw [he]) (by rw [he']) (Nat.le_refl _) (by intro c hc; simp [Net.made] at hc)
  exact ⟨h1, fun s => by rw [h1, h2 s]⟩

/-- **C129**. What is known of a wallet that answers a request of a verifier of this repository (C114) holds when they send each other JSON text and the verifier's store keeps
JSON text: the wallet takes the request in, and, having been authorized, its presentation is accepted exactly if the request asks for a constant somewhere, the wallet found a credential
for the first input descriptor, and the first credential found is one every input descriptor asks for. -/
theorem C129_accepted_over_text_iff {n : TextVNet} (hn : n.Typed) {history : List Verifier.Step} (hh : ∀ s ∈ history, RustTyped s.provider s.req) {t0 : Int}
    {v1 : World Verifier.VState} (hv : v1 = Verifier.exec n.env (Verifier.start t0) history) {req : Verifier.CreateRequestRequest} {tok : String} {e e' : Holder.HEnv} {hw : Holder.HWorld}
    {W : Holder.Provider} {url : String} {creds : List Holder.Credential} (M : Interop.Meeting n.toVNet req tok v1 e hw W url creds)
    (he' : e' = { e with oracle := n.oracle (vExecText n.T n.env (startText t0) history) hw.log.length })
    {s1 : Holder.HStep} (q1 : s1.req = .request url) (p1 : s1.provider = W) :
    ∃ k w1, Holder.step e' hw s1 = (.ok (.request k .requested creds), w1) ∧
      ∀ mid1 s2, (∀ s ∈ mid1, s.req ≠ .authorizePresentation k) → s2.req = .authorizePresentation k →
      ∃ w2, Holder.step e' (Holder.exec e' w1 mid1) s2 = (.ok (.status .authorized), w2) ∧
        ∀ mid2 s3, (∀ s ∈ mid2, s.req ≠ .authorizePresentation k) → s3.req = .present k → s3.provider = W →
        ∀ w3, w3 = Holder.exec e' w2 mid2 → Interop.NotAnswered tok (w3.log.drop hw.log.length) →
        ∀ at_, at_ = n.toVNet.after v1 (Net.made hw.log.length w3.log []) →
          ((∃ r, (Holder.step e' w3 s3).1 = .ok (.presented r)) ↔
            Interop.AsksConst req.inputDescriptors ∧ ∃ c rest, creds = c :: rest ∧
              ∀ d ∈ req.inputDescriptors, Interop.Fits (n.provider at_.1) (n.toVNet.arrival at_.1 at_.2).now d c) := by
  have key : ∀ l, Holder.exec e' hw l = Holder.exec e hw l ∧ ∀ s, Holder.step e' (Holder.exec e hw l) s = Holder.step e (Holder.exec e hw l) s := fun l =>
    vexec_same (e := e) (e' := e') (x := hw) (skip := hw.log.length) (steps := l) hn (mirrors_exec (T := n.T) (e := n.env) hh (mirrors_start n.T t0))
      (by rw [he']) (by rw [he']) (by rw [M.connected, hv]) (by rw [he']) (Nat.le_refl _) (by intro c hc; simp [Net.made] at hc)
  have app := Holder.exec_append
  have ends : ∀ (f : Holder.HEnv) (w : Holder.HWorld) (s : Holder.HStep), Holder.exec f w [s] = (Holder.step f w s).2 := fun _ _ _ => rfl
  obtain ⟨k, w1, h1, h⟩ := Interop.C114_accepted_iff M q1 p1
  have hw1 : w1 = Holder.exec e hw [s1] := by rw [ends, h1]
  refine ⟨k, w1, ((key []).2 s1).trans h1, fun mid1 s2 hm1 q2 => ?_⟩
  obtain ⟨w2, h2, h⟩ := h mid1 s2 hm1 q2
  have hm : Holder.exec e' w1 mid1 = Holder.exec e w1 mid1 := by
    rw [hw1, ← app e, ← (key ([s1] ++ mid1)).1, app e', (key [s1]).1]
  have hw2 : w2 = Holder.exec e hw ([s1] ++ mid1 ++ [s2]) := by rw [app e, app e, ends, ← hw1, h2]
  refine ⟨w2, ?_, fun mid2 s3 hm2 q3 p3 w3 hw3 ha at_ hat => ?_⟩
  · rw [hm, ← h2, hw1, ← app e, (key _).2]
  · have hm' : Holder.exec e' w2 mid2 = Holder.exec e w2 mid2 := by
      rw [hw2, ← app e, ← (key ([s1] ++ mid1 ++ [s2] ++ mid2)).1, app e' _ ([s1] ++ mid1 ++ [s2]), (key ([s1] ++ mid1 ++ [s2])).1]
    rw [hm'] at hw3
    have hstep : Holder.step e' w3 s3 = Holder.step e w3 s3 := by rw [hw3, hw2, ← app e, (key _).2]
    rw [hstep]
    exact h mid2 s3 hm2 q3 p3 w3 hw3 ha at_ hat

end Verif.Wire
