import Verif.App.LinkProps
import Verif.Holder.Demo
/-!
# A small concrete wallet application

Shows that the hypotheses of C149 – C157 are met by real histories, and gives the concrete failures of C149, C150, C151 and C157.
-/
namespace Verif.App.Demo
open Holder (Credential HEnv HWorld Req Resp PStatus Event Call Entry Issuance Presentation HVal Inv HProg)

/-- An issuer that shows its credential and one that does not; each is known by its address. -/
def metadata (u : String) : Verif.Issuer :=
  if u = "https://blank.example" then { credentialIssuer := u, configs := [("Developer", Holder.Demo.developer)] }
  else { credentialIssuer := u, configs := [("Employee", Holder.Demo.employee)] }

/-- Who asks for a presentation depends on the address of the request. -/
def oracle (log : List Entry) (recent : List Holder.Event) : (c : Call) → Option c.Reply
  | .metadata u => some (metadata u)
  | .token r => some {
      accessToken := "at-1", expiresIn := 900, cNonce := some "n1", cNonceExpiresIn := none
      authorizationDetails := some [{ detail := { credential := .configurationId (if r.credentialIssuer = "https://blank.example" then "Developer" else "Employee") none }, identifiers := ["emp-1"] }] }
  | .requestObject u => some (.jwt u)
  | c => Holder.Demo.oracle ["emp-1"] log recent c

def env : HEnv := { rng := Holder.Demo.rng, fault := fun _ => .ok, oracle }

/-- Everything matches, and writes fail as told. -/
def around (disk : Nat → Bool := fun _ => true) : Around where
  provider := { Holder.Demo.provider with decodeRequest := fun t => some { Holder.Demo.vpRequest Holder.Demo.definition with clientId := t } }
  env := env
  disk := disk
  readOffer e := some {
    credentialIssuer := e
    configIds := [if e = "https://blank.example" then "Developer" else "Employee"]
    grants := some { authorizationCode := none, preAuthorizedCode := some { preAuthorizedCode := "pre-1", txCode := e = "https://pin.example", authorizationServer := none } } }
  dif := { query := fun _ j => some [j], regex := fun _ _ => some true, isDate := fun _ => true, isDateTime := fun _ => true }
  toJson _ := some (.arr [.str "Employee"])

theorem draws (disk : Nat → Bool) : Draws (around disk) where
  fresh := Holder.Demo.rng_inj
  nonempty n h := by
    have := congrArg String.toList h
    simp [around, env, Holder.Demo.rng, List.replicate_succ] at this

/-- A list of texts. -/
def texts (l : List String) : String := l.foldr (fun x y => " " ++ x ++ y) ""

/-- What is seen, in short. -/
def shortView : View → String
  | .splash => "splash"
  | .credential l => "list" ++ texts (l.map (·.id))
  | .issuance l p b => "offer" ++ texts (l.map fun x => x.1 ++ " by " ++ x.2.issuer.getD "") ++ (if b then ", PIN " ++ p.getD "?" else "")
  | .presentation st l => "presentation" ++ (if st = .authorized then ", authorized," else "") ++ texts (l.map (·.1))

/-- What comes out, in short. -/
def short : Out → String
  | .view v => shortView v
  | .detail none => "no detail"
  | .detail (some d) => "detail " ++ d.display.id
  | .failed => "failed"
  | .panicked => "panicked"
  | .nothing => "nothing"

/-- What comes of some commands. -/
def outs (a : Around) (s : App) : List Cmd → List String
  | [] => []
  | c :: l => short (serve a s 1 c).1 :: outs a (serve a s 1 c).2 l

def begin : App := opened 0 []

def good : String := "https://issuer.example"
def blank : String := "https://blank.example"

def v1 : String := "https://v1.example"
def v2 : String := "https://v2.example"
def id1 : String := "urn:uuid:tt"

/-- Some commands, one after the other. -/
def timed (l : List Cmd) : List (Nat × Cmd) := l.map fun c => (1, c)
def at_ (a : Around) (l : List Cmd) : App := after a begin (timed l)

theorem keyed_nil : Keyed [] := fun _ h => nomatch h

set_option maxRecDepth 20000

/-- A credential is collected, looked at, presented, and is still there after a new start. -/
def visit : List Cmd := [.start, .reset, .offer good, .accept, .credentials, .select id1, .request v1, .authorize, .present, .restart, .start, .reset]

example : outs around begin visit = ["splash", "list", "offer Employee by https://issuer.example",
    "offer Employee by https://issuer.example", "list urn:uuid:tt", "detail urn:uuid:tt", "presentation urn:uuid:tt",
    "presentation, authorized, urn:uuid:tt", "list urn:uuid:tt", "nothing", "splash", "list urn:uuid:tt"] := by decide +kernel

example : outs around begin [.reset, .offer "https://pin.example", .accept, .credentials, .pin "12", .credentials] = ["list",
    "offer Employee by https://pin.example, PIN ?", "offer Employee by https://pin.example, PIN ?", "failed",
    "offer Employee by https://pin.example, PIN 12", "list urn:uuid:tt"] := by decide +kernel

/-- A command that shows something. -/
theorem shown (a : Around) (s : App) (t : Nat) (c : Cmd) (h : (match (serve a s t c).1 with | .view _ => true | _ => false) = true) :
    ∃ v, (serve a s t c).1 = .view v := by
  cases ho : (serve a s t c).1 with
  | view v => exact ⟨v, rfl⟩
  | _ => rw [ho] at h; cases h

/-! ### C149 -/

/-- The hypotheses of `C149_list_is_stored_partial`: collecting a credential shows the list. -/
example : ∃ shown s', serve around (at_ around [.reset, .offer good, .accept]) 1 .credentials = (.view (.credential shown), s') ∧ shown ≠ [] := by
  refine ⟨_, _, rfl, ?_⟩
  decide +kernel

/-- The file cannot be written the second time. -/
def unlucky : Around := around fun n => n != 1

/-- **C149** A credential whose deletion fails stays on the list though it is not in the store any more. -/
theorem C149_violated_stale_list : ∃ (a : Around) (l : List (Nat × Cmd)) (shown : List Display), Draws a ∧ view (after a begin l) = some (.credential shown) ∧
    shown.map (·.id) = ["urn:uuid:tt"] ∧ (after a begin l).files.store = [] := by
  refine ⟨unlucky, timed [.reset, .offer good, .accept, .credentials, .delete id1], _, draws _, rfl, by decide +kernel, ?_⟩
  have h : (after unlucky begin (timed [.reset, .offer good, .accept, .credentials, .delete id1])).files.store.isEmpty = true := by decide +kernel
  exact List.isEmpty_iff.mp h

/-- It is shown, and not found for a presentation. -/
example : outs unlucky begin [.reset, .offer good, .accept, .credentials, .delete id1, .start, .select id1, .request v1] = ["list",
    "offer Employee by https://issuer.example", "offer Employee by https://issuer.example", "list urn:uuid:tt", "failed",
    "list urn:uuid:tt", "detail urn:uuid:tt", "presentation"] := by decide +kernel

/-! ### C150 -/

/-- The hypotheses of `C150_accepted_is_shown_partial`. -/
example : (∃ l p b, watch around begin none (timed [.reset, .offer good]) = some (.issuance l p b)) ∧
    ∃ v, (serve around (at_ around [.reset, .offer good]) 1 .accept).1 = .view v := ⟨⟨_, _, _, rfl⟩, shown _ _ _ _ (by decide +kernel)⟩

/-- The hypotheses of `C150_authorized_is_shown_partial`. -/
example : (∃ st l, watch around begin none (timed [.reset, .offer good, .accept, .credentials, .request v1]) = some (.presentation st l) ∧ l ≠ []) ∧
    ∃ v, (serve around (at_ around [.reset, .offer good, .accept, .credentials, .request v1]) 1 .authorize).1 = .view v :=
  ⟨⟨_, _, rfl, by decide +kernel⟩, shown _ _ _ _ (by decide +kernel)⟩

/-- The hypotheses of `C150_pin_shown`. -/
example : ∃ l p b, (serve around (at_ around [.reset, .offer "https://pin.example", .accept]) 1 (.pin "12")).1 = .view (.issuance l p b) := ⟨_, _, _, rfl⟩

/-- The requests of the wallet's endpoints that succeeded, in short. -/
def served (s : App) : List String := s.world.log.filterMap fun en => match en.req, en.result with
  | .offer r, .ok (.offer id _ _ _) => some ("offer " ++ id ++ " by " ++ r.offer.credentialIssuer)
  | .accept r, .ok _ => some ("accept " ++ r.issuanceId)
  | .token id, .ok _ => some ("token " ++ id)
  | .credentials r, .ok _ => some ("credentials " ++ r.issuanceId)
  | .save id, .ok _ => some ("save " ++ id)
  | _, _ => none

/-- Two offers: one that is shown and, by a link, one that cannot be. -/
def lured : List Cmd := [.reset, .offer good, .link ("openid-credential-offer://?credential_offer=" ++ blank)]

/-- **C150** An offer that comes by itself and cannot be shown takes the place of the one on the screen: the user, who sees the first, accepts the second and
collects what it offers. -/
theorem C150_violated_unseen_offer : ∃ (a : Around) (l : List (Nat × Cmd)), Draws a ∧
    (∃ shown p b, watch a begin none l = some (.issuance shown p b) ∧ shown.map (·.2.issuer) = [some "https://issuer.example"]) ∧
    served (after a begin (l ++ timed [.accept, .credentials])) =
      ["offer t by https://issuer.example", "offer tt by https://blank.example", "accept tt", "token tt", "credentials tt", "save tt"] ∧
    (after a begin (l ++ timed [.accept, .credentials])).files.store.length = 1 :=
  ⟨around, timed lured, draws _, ⟨_, _, _, rfl, by decide +kernel⟩, by decide +kernel, by decide +kernel⟩

/-! ### C151 -/

/-- The hypotheses of `C151_stored_stays` and what follows: commands with crashes in the middle of them. -/
example : (at_ around [.reset, .offer good, .accept, .credentials]).files.store.has id1 = true ∧
    (at_ around [.reset, .offer good, .accept, .credentials, .offer good, .accept, .crash 0 .credentials, .crash 1 (.request v1)]).files.store.has id1 = true := by
  decide +kernel

/-- A crash before the file is written loses the credential that is being saved, one after it does not. -/
example : (at_ around [.offer good, .accept, .crash 0 .credentials]).files.store.has id1 = false ∧
    (at_ around [.offer good, .accept, .crash 1 .credentials]).files.store.has id1 = true := by decide +kernel

/-- The hypotheses of `C151_collected_are_stored` and `C151_deleted`. -/
example : (∃ v, (serve around (at_ around [.reset, .offer good, .accept]) 1 .credentials).1 = .view v) ∧
    ∃ v, (serve around (at_ around [.reset, .offer good, .accept, .credentials]) 1 (.delete id1)).1 = .view v :=
  ⟨shown _ _ _ _ (by decide +kernel), shown _ _ _ _ (by decide +kernel)⟩

/-- **C151** A credential whose saving failed is listed nonetheless, and is gone after the next start. -/
theorem C151_violated_unsaved_listed : ∃ a : Around, Draws a ∧
    outs a begin [.reset, .offer good, .accept, .credentials, .reset, .restart, .reset] = ["list",
      "offer Employee by https://issuer.example", "offer Employee by https://issuer.example",
      "failed", "list urn:uuid:tt", "nothing", "list"] := ⟨around fun n => n != 0, draws _, by decide +kernel⟩

/-- **C151** A deletion that failed takes effect later: when the file is next written, or, if it is not, not at all. -/
theorem C151_violated_deletion_later : ∃ a : Around, Draws a ∧
    outs a begin [.reset, .offer good, .accept, .credentials, .delete id1, .autosave, .restart, .reset] = ["list",
      "offer Employee by https://issuer.example", "offer Employee by https://issuer.example",
      "list urn:uuid:tt", "failed", "nothing", "nothing", "list"] ∧
    outs a begin [.reset, .offer good, .accept, .credentials, .delete id1, .crash 0 .start, .reset] = ["list",
      "offer Employee by https://issuer.example", "offer Employee by https://issuer.example",
      "list urn:uuid:tt", "failed", "nothing", "list urn:uuid:tt"] := ⟨unlucky, draws _, by decide +kernel, by decide +kernel⟩

/-! ### C152 -/

/-- The hypotheses of `C152_violated_never_again`: the credential of the offer that could not be shown. -/
example : ∃ id x, IsStored id (some x) (at_ around (lured ++ [.accept, .credentials])) ∧ ¬ Listable x := by
  refine ⟨"urn:uuid:ttt", .credential _, ⟨rfl, rfl⟩, ?_⟩
  rintro ⟨d, l, h⟩
  cases h

example : outs around begin (lured ++ [.accept, .credentials, .reset, .restart, .reset, .delete "urn:uuid:ttt", .reset]) = ["list",
    "offer Employee by https://issuer.example", "panicked", "panicked", "panicked", "panicked", "nothing", "panicked", "list", "list"] := by
  decide +kernel

/-! ### C154 -/

/-- Two subjects with an address each, of which one is shown. -/
example : ∃ (c : Credential) (d : Detail), detailOf c = some d ∧ (∃ s1 s2, c.vc.subject = .many [s1, s2] ∧ s1.claims = [("email", .str "a")] ∧
    s2.claims = [("email", .str "b")]) ∧ d.claims = [("email", .str "b")] :=
  ⟨{ Holder.Demo.held with
      vc := { Holder.Demo.vc with subject := .many [{ id := none, claims := [("email", .str "a")] }, { id := none, claims := [("email", .str "b")] }] }
      display := some [{ name := "Employee" }] }, _, rfl, ⟨_, _, rfl, rfl, rfl⟩, rfl⟩

/-! ### C155 -/

/-- The hypotheses of `C155_nothing_pending`, after an offer that was left alone: its flow is still there. -/
example : (∃ l, view (at_ around [.reset, .offer good, .accept, .reset]) = some (.credential l)) ∧
    ∃ i, (at_ around [.reset, .offer good, .accept, .reset]).world.store "t" = some (.issuance i) := ⟨⟨_, rfl⟩, _, rfl⟩

/-! ### C156 -/

/-- The hypothesis of `C156_code_needed` is that of `C151_collected_are_stored`; the calls made in a long history: -/
example : (at_ around visit).world.log.map (fun en => Holder.Demo.kinds en.events) =
    [["metadata", "server"], [], ["token"], ["credential", "logo"], ["save"], ["requestObject", "find"], [], ["present"]] := by decide +kernel

/-! ### C157 -/

/-- **C157** Two verifiers, one screen. -/
theorem C157_violated_two_verifiers : ∃ (a : Around) (s : App) (v : View) (p p' : Presentation) (id : String), Draws a ∧
    serve a s 1 (.request "https://v1.example") = (.view v, (serve a s 1 (.request "https://v1.example")).2) ∧
    serve a s 1 (.request "https://v2.example") = (.view v, (serve a s 1 (.request "https://v2.example")).2) ∧
    (serve a s 1 (.request "https://v1.example")).2.world.store id = some (.presentation p) ∧
    (serve a s 1 (.request "https://v2.example")).2.world.store id = some (.presentation p') ∧
    p.request.clientId = "https://v1.example" ∧ p'.request.clientId = "https://v2.example" ∧ p.credentials.length = 1 :=
  ⟨around, at_ around [.reset, .offer good, .accept, .credentials], _, _, _, "ttt", draws _, rfl, rfl, rfl, rfl, rfl, rfl, rfl⟩

end Verif.App.Demo
