import Verif.App.ShellBack
import Verif.App.ShellPaste
import Verif.App.ShellDetail
import Verif.App.ShellDelete
import Verif.App.ShellChoose
import Verif.App.Demo
/-!
# The example wallet with its screens: concrete runs

Meets the hypotheses of C182 and C183 and shows how C183 fails.
-/
namespace Verif.App.Demo
open Holder (Credential Entry Call)

set_option maxRecDepth 20000

/-- A credential of a type. -/
def kept (type_ : String) : Credential :=
  { Holder.Demo.held with id := "urn:" ++ type_, vc := { Holder.Demo.vc with type_ := .many ["VerifiableCredential", type_] }, display := some [{ name := type_ }] }

/-- What a former version of the wallet has left. -/
def shelf : Dict Slot := [("urn:Card", .credential (kept "Card")), ("urn:Passport", .credential (kept "Passport"))]

/-- A request for a type. -/
def asksFor (type_ : String) : Dif.PresentationDefinition where
  id := "def"
  inputDescriptors := [{ id := "d", constraints := { fields := some [{ path := ["$.type"], filter := some ⟨"string", .const type_⟩ }] } }]

/-- The first verifier wants a card, others a passport. -/
def curious : Around :=
  { around with
    provider := { Holder.Demo.provider with
      decodeRequest := fun t => some { Holder.Demo.vpRequest (asksFor (if t = v1 then "Card" else "Passport")) with clientId := t } }
    toJson := fun vc => some (.arr (match vc.type_ with | .many l => l.map .str | .one t => [.str t])) }

theorem curious_draws : Draws curious := ⟨(draws fun _ => true).fresh, (draws fun _ => true).nonempty⟩

/-- The wallet starts, and the splash screen gives way to the list. -/
def awake : List Step := [.serve 0 1, .deliver, .timer, .serve 0 1, .deliver]

/-- A link with a request. -/
def asked (u : String) : Step := .link 1 ("openid-vc://request_uri=" ++ u)

/-- What is on the screen, in short. -/
def face (w : Wallet) : String :=
  let ids := match w.shell.view.bind fun j => (property j "presentation").bind fun j => property j "credentials" with
    | some (.obj m) => texts (m.map (·.1))
    | _ => ""
  match w.shell.screen with
  | .blank => "blank"
  | .splash => "splash"
  | .credential _ .list => "list" ++ texts (listed w.shell.view)
  | .credential _ (.detail _ b) => if b then "delete?" else "detail"
  | .credential _ (.add _ t _) => "add " ++ String.ofList t
  | .credential _ (.present _ t _) => "present " ++ String.ofList t
  | .issuance .accept => "accept?"
  | .issuance (.pin p) => "PIN " ++ p
  | .issuance .request => "collecting"
  | .issuance .error => "not issued"
  | .presentation .authorize => "authorize?" ++ ids
  | .presentation .loading => "presenting" ++ ids
  | .presentation .error => "not presented"

/-- What is on the screen after each step. -/
def faces (a : Around) (w : Wallet) : List Step → List String
  | [] => []
  | e :: l => face (w.step a e) :: faces a (w.step a e) l

/-- The credentials of the presentations that were sent: those that had been found for the request. -/
def given (log : List Entry) : List (List String) := log.filterMap fun en => match en.req with
  | .present k => if en.events.any (fun ev => match ev with | ⟨.present _ _, _⟩ => true | _ => false)
      then log.findSome? fun q => match q.result with
        | .ok (.request id _ cs) => if id = k then some (cs.map (·.id)) else none
        | _ => none
      else none
  | _ => none

def raced : List Step := awake ++ [asked v1, .deliver, asked v2]

/-- The user is asked about the card; another link is opened; they press *Authorize*. -/
def pressedOn : List Step := [.click .agree, .serve 0 1, .deliver, .deliver, .serve 0 1, .deliver]

example : faces curious (installed 0 shelf) (raced ++ pressedOn) =
    ["blank", "splash", "splash", "splash", "list urn:Card urn:Passport", "list urn:Card urn:Passport", "authorize? urn:Card", "authorize? urn:Card",
     "authorize? urn:Card", "authorize? urn:Card", "authorize? urn:Passport", "presenting urn:Passport", "presenting urn:Passport",
     "list urn:Card urn:Passport"] := by decide +kernel

/-- **C183** The user sees a request for their card and presses *Authorize*; a link with another request has been opened just before. What is sent, without asking
again, is their passport. -/
theorem C183_violated_raced : ∃ (a : Around) (file : Dict Slot) (before after_ : List Step), Draws a ∧
    (∀ e ∈ after_, ∀ c, e ≠ .click c) ∧
    face ((installed 0 file).run a before) = "authorize? urn:Card" ∧
    face ((installed 0 file).run a (before ++ [.click .agree])) = "authorize? urn:Card" ∧
    given ((installed 0 file).run a before).app.world.log = [] ∧
    given ((installed 0 file).run a (before ++ .click .agree :: after_)).app.world.log = [["urn:Passport"]] := by
  refine ⟨curious, shelf, raced, pressedOn.tail, curious_draws, ?_, by decide +kernel, by decide +kernel, by decide +kernel, by decide +kernel⟩
  intro e he c hc
  simp only [pressedOn, List.tail_cons, List.mem_cons, List.not_mem_nil, or_false] at he
  rcases he with rfl | rfl | rfl | rfl | rfl <;> cases hc

/-- The hypotheses of `C183_calm_partial`: one request, and everything has reached the screen. -/
def calm : List Step := awake ++ [asked v1, .deliver]

example : ∃ w, w = (installed 0 shelf).run curious calm ∧ w.msgs = [] ∧ w.shell.screen = .presentation .authorize ∧
    ∃ v, (serve curious w.app 1 .authorize).1 = .view v := ⟨_, rfl, rfl, rfl, shown _ _ _ _ (by decide +kernel)⟩

/-- The card is sent then, which meets the hypotheses of `C183_pressed_partial`. -/
example : given ((installed 0 shelf).run curious (calm ++ [.click .agree, .serve 0 1, .deliver, .serve 0 1])).app.world.log = [["urn:Card"]] ∧
    presses curious (installed 0 shelf) (calm ++ [.click .agree, .serve 0 1, .deliver, .serve 0 1]) = 1 := by decide +kernel

/-- A presentation was sent if there is an entry that says so. -/
theorem sentFor_of {log : List Entry} {k : String} (h : log.any (fun en => (match en.req with | .present x => x == k | _ => false) &&
    en.events.any (fun ev => match ev with | ⟨.present _ _, _⟩ => true | _ => false)) = true) : SentFor k log := by
  obtain ⟨en, hen, h⟩ := List.any_eq_true.mp h
  obtain ⟨h1, h2⟩ := Bool.and_eq_true_iff.mp h
  obtain ⟨⟨c, o⟩, hev, h⟩ := List.any_eq_true.mp h2
  refine ⟨en, hen, ?_, ?_⟩
  · cases hr : en.req with
    | present x => rw [hr] at h1; rw [beq_iff_eq.mp h1]
    | _ => rw [hr] at h1; cases h1
  · cases c with
    | present uri rr => exact ⟨uri, rr, o, hev⟩
    | _ => cases h

example : ∃ k, SentFor k ((installed 0 shelf).run curious (calm ++ [.click .agree, .serve 0 1, .deliver, .serve 0 1])).app.world.log :=
  ⟨"t", sentFor_of (by decide +kernel)⟩

/-- The hypotheses of `C182_accepted_is_shown_partial`: an offer by a link. -/
def tempted : List Step := awake ++ [.link 1 ("openid-credential-offer://?credential_offer=" ++ good), .deliver]

example : ∃ w, w = (installed 0 []).run around tempted ∧ w.msgs = [] ∧ w.shell.screen = .issuance .accept ∧
    ∃ v, (serve around w.app 1 .accept).1 = .view v := ⟨_, rfl, rfl, rfl, shown _ _ _ _ (by decide +kernel)⟩

/-- C182: the user accepts again and again, and nothing comes of it but the same screen. -/
example : faces around (installed 0 []) (tempted ++ [.click .agree, .serve 0 1, .deliver, .click .agree, .serve 0 1, .deliver, .serve 0 1, .timer, .click .cancel,
      .serve 0 1, .deliver]) =
    ["blank", "splash", "splash", "splash", "list", "list", "accept?", "accept?", "accept?", "accept?", "accept?", "accept?", "accept?", "accept?", "accept?",
     "accept?", "accept?", "list"] := by decide +kernel

/-! ### C184 -/

/-- The user looks at a credential, wants to delete it, and confirms that. -/
def cleared : List Step := awake ++ [.click (.choose 1), .serve 0 1, .deliver, .click .second, .click .delete, .serve 0 1, .deliver, .serve 0 1, .deliver]

example : faces curious (installed 0 shelf) cleared =
    ["blank", "splash", "splash", "splash", "list urn:Card urn:Passport", "list urn:Card urn:Passport", "list urn:Card urn:Passport", "detail", "delete?",
     "list urn:Card urn:Passport", "list urn:Card urn:Passport", "list urn:Card", "list urn:Card", "list urn:Card"] := by decide +kernel

/-- The hypotheses of `C184_deleted_was_confirmed`. -/
example : (∃ x, Dict.get? shelf "urn:Passport" = some x) ∧
    ∀ x, ¬ IsStored "urn:Passport" (some x) ((installed 0 shelf).run curious cleared).app := by
  refine ⟨⟨_, rfl⟩, fun x h => ?_⟩
  have hn : (((installed 0 shelf).run curious cleared).app.files.store.get? "urn:Passport").isNone = true := by decide +kernel
  rw [h.1] at hn
  cases hn

/-! ### C185 -/

/-- A link is opened while the splash screen is up. -/
def early : List Step := [.serve 0 1, .deliver, asked v1, .deliver]

/-- **C185** A request that is opened while the wallet starts is on the screen; the splash screen's timer takes it away again, without the user having decided. -/
theorem C185_violated_taken_away : ∃ (a : Around) (file : Dict Slot) (before after_ : List Step), Draws a ∧ (∀ e ∈ after_, Untouched e) ∧
    face ((installed 0 file).run a before) = "authorize? urn:Card" ∧
    face ((installed 0 file).run a (before ++ after_)) = "list urn:Card urn:Passport" := by
  refine ⟨curious, shelf, early, [.timer, .serve 0 1, .deliver], curious_draws, ?_, by decide +kernel, by decide +kernel⟩
  intro e he
  simp only [List.mem_cons, List.not_mem_nil, or_false] at he
  rcases he with rfl | rfl | rfl <;> trivial

/-- The hypotheses of `C185_stays_partial`. -/
example : ((installed 0 shelf).run curious calm).calls = [] ∧ ((installed 0 shelf).run curious calm).msgs = [] ∧
    ((installed 0 shelf).run curious calm).shell.timers = 0 ∧ face ((installed 0 shelf).run curious calm) = "authorize? urn:Card" :=
  ⟨rfl, rfl, rfl, by decide +kernel⟩

/-! ### C186 -/

/-- No verifier can be reached with an answer. -/
def unreachable : Around :=
  { curious with env := { curious.env with oracle := fun log recent c => match c with
      | .present _ _ => none
      | c => curious.env.oracle log recent c } }

theorem unreachable_draws : Draws unreachable := ⟨(draws fun _ => true).fresh, (draws fun _ => true).nonempty⟩

/-- The user authorizes a request and the presentation cannot be sent. -/
def sunk : List Step := calm ++ [.click .agree, .serve 0 1, .deliver, .serve 0 1, .deliver]

/-- **C186** After that, nothing that the user can press does anything. -/
theorem C186_violated_no_way_back : ∃ (a : Around) (file : Dict Slot) (steps : List Step), Draws a ∧
    face ((installed 0 file).run a steps) = "presenting urn:Card" ∧
    ∀ l : List Step, (∀ e ∈ l, Inside e) → face (((installed 0 file).run a steps).run a l) = "presenting urn:Card" := by
  have h0 : face ((installed 0 shelf).run unreachable sunk) = "presenting urn:Card" := by decide +kernel
  refine ⟨unreachable, shelf, sunk, unreachable_draws, h0, fun l hl => ?_⟩
  have : (((installed 0 shelf).run unreachable sunk).run unreachable l).shell = ((installed 0 shelf).run unreachable sunk).shell :=
    C186_violated_stuck (inst := 0) rfl rfl rfl rfl rfl hl
  unfold face
  rw [this]
  exact h0

/-- The hypotheses of `C186_back_partial`: from the question, and from the form. -/
example : ∃ l, (serve curious ((installed 0 shelf).run curious calm).app 1 .reset).1 = .view (.credential l) := ⟨_, rfl⟩

example : faces curious ((installed 0 shelf).run curious awake) [.click .second, .click (.enter ['x', ' ']), .click .action, .serve 0 1, .deliver] =
    ["present ", "present x", "list urn:Card urn:Passport", "list urn:Card urn:Passport", "list urn:Card urn:Passport"] := by decide +kernel

/-! ### C187 -/

/-- The hypotheses of `C187_offer_pasted_partial`: the form is open, and the offer fits with white space around it. -/
example : (∃ inst n, ((installed 0 shelf).run curious (awake ++ [.click .add])).shell.screen = .credential inst (.add n [] false)) ∧
    units ([' ', '\n'] ++ (Wire.writeCredentialOffer Holder.Demo.theOffer).chars ++ ['\n']) ≤ 1024 := ⟨⟨_, _, rfl⟩, by decide +kernel⟩

/-- The hypotheses of `C187_violated_cut_off`. -/
example : ∃ o : Issuer.CredentialOffer, 1002 ≤ o.credentialIssuer.toList.length ∧
    ∀ c ∈ o.credentialIssuer.toList, 33 ≤ c.toNat ∧ c.toNat < 127 ∧ c ≠ '"' ∧ c ≠ '\\' := by
  refine ⟨{ Holder.Demo.theOffer with credentialIssuer := String.ofList ("https://a.example/".toList ++ List.replicate 1000 'a') }, ?_, ?_⟩
  · rw [String.toList_ofList, List.length_append, List.length_replicate]; decide
  · intro c hc
    rw [String.toList_ofList] at hc
    rcases List.mem_append.mp hc with hc | hc
    · revert c; decide
    · rw [(List.mem_replicate.mp hc).2]; decide

/-- With the decoder of the model. -/
def decoding : Around := { curious with provider := { curious.provider with percentDecode := fun e => (decodeText e.toList).map String.ofList } }

/-- A request by value. -/
def byValue : List Char := "response_type=vp_token&presentation_definition={}".toList

/-- The hypotheses of `C187_request_fetched_partial` and `C187_violated_by_value`. -/
example : (∃ inst n, ((installed 0 shelf).run decoding (awake ++ [.click .second])).shell.screen = .credential inst (.present n [] false)) ∧
    trim (fitting maxLength byValue) = byValue ∧ byValue ≠ [] ∧ ∃ q, Holder.Obtained decoding.provider (String.ofList byValue) q [] :=
  ⟨⟨_, _, rfl⟩, by decide +kernel, by decide, _, .inline rfl (by decide +kernel)⟩

/-- A fetched request, for `C187_request_fetched_partial`. -/
example : ∃ q, Holder.Obtained decoding.provider (String.ofList (encodeComponent "https://v.example/r?a=b".toList)) q
    [⟨.requestObject "https://v.example/r?a=b", some (.jwt v1)⟩] :=
  ⟨_, .fetched (by decide +kernel) rfl (by decide +kernel)⟩

/-! ### C188 -/

/-- A credential with two claims. -/
def claiming (l : List (String × Json)) : Credential :=
  { kept "Card" with vc := { (kept "Card").vc with subject := .one { id := some "did:alice", claims := l } } }

/-- The hypotheses of `C188_values_shown_partial`, `C188_nothing_else` and `C188_violated_names_not_shown`: someone is owed, or owes. -/
example : ∃ d d', detailOf (claiming [("owes", .num "5"), ("name", .str "Alice")]) = some d ∧ detailOf (claiming [("is owed", .num "5"), ("name", .str "Alice")]) = some d' ∧
    claimRows d = [("5", "5"), ("\"Alice\"", "\"Alice\"")] ∧ claimRows d' = claimRows d := ⟨_, _, rfl, rfl, by decide +kernel, by decide +kernel⟩

/-- The hypotheses of `C188_issuer_shown_partial`. -/
example : ∃ d, detailOf { kept "Card" with issuer := "https://bank.example/branches/1" } = some d ∧ issuerRow d = some ("Issued by", "bank.example") :=
  ⟨_, rfl, by decide +kernel⟩

/-! ### C201 -/

/-- The hypotheses of `C201_tapped_is_opened` and `C201_violated_form_lost`: two credentials are on the list, with different ids. -/
example : ∃ w inst v, w = (installed 0 shelf).run curious awake ∧ w.msgs = [] ∧ w.shell.screen = .credential inst .list ∧ view w.app = some v ∧
    w.app.credential.map (·.id) = ["urn:Card", "urn:Passport"] := ⟨_, _, _, rfl, rfl, rfl, rfl, by decide +kernel⟩

/-- The second one is tapped and opened; or the form is lost. -/
example : faces curious ((installed 0 shelf).run curious awake) [.click (.choose 1), .serve 0 1, .deliver] = ["list urn:Card urn:Passport",
      "list urn:Card urn:Passport", "detail"] ∧
    faces curious ((installed 0 shelf).run curious awake) [.click (.choose 1), .click .add, .click (.enter ['x']), .serve 0 1, .deliver] =
      ["list urn:Card urn:Passport", "add ", "add x", "add x", "detail"] := by decide +kernel

end Verif.App.Demo
