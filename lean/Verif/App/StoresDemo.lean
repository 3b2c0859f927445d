import Verif.App.StoresProps
import Verif.App.CollectDemo
/-!
# The example wallet in front of the example issuer

Shows that the hypotheses of C173 can be met.
-/
namespace Verif.App.StoresDemo
open CollectDemo (rng rng_inj)
open Server (Stores.provider)

/-- Data and keys. -/
def data : Issuer.Provider := { Issuer.Demo.provider with
  authorize := fun s c => if s = "normal_user" then (if c = "EmployeeID_JWT" then some ["emp-1"] else none) else none
  dataset := fun s _ => if s = "normal_user" then some { claims := [("email", .str "n@example.com")], pending := false } else none }

/-- The server, and an offer made at `localhost:8080`. -/
def server : Server.Around := { env := Issuer.Demo.env, csrf := fun _ => "" }

def offerReq : Issuer.CreateOfferRequest where
  credentialIssuer := ""
  subjectId := some "normal_user"
  configIds := ["EmployeeID_JWT"]
  grantTypes := some [.preAuthorizedCode]
  txCodeRequired := false
  sendType := .byVal

def offer : Issuer.CredentialOffer where
  credentialIssuer := "http://localhost:8080"
  configIds := ["EmployeeID_JWT"]
  grants := some ⟨none, some ⟨"t", false, none⟩⟩

def site : Server.Site := (Server.serve server (Stores.provider data) 0 (Server.opened 0) (.api "localhost:8080" "" (.createOffer offerReq))).2

theorem made_offer : (Server.serve server (Stores.provider data) 0 (Server.opened 0) (.api "localhost:8080" "" (.createOffer offerReq))).1 =
    .ok (.createOffer ⟨.object offer, none⟩) := rfl

/-- What the server answers to a request sent to `localhost:8080`. -/
def ask (req : Issuer.Req) : Server.Reply := (Server.serve server (Stores.provider data) 0 site (.api "localhost:8080" "" req)).1

/-- The wallet next to it. -/
def around : Around where
  provider := {
    kid := "did:web:holder#k1", signProof := fun c => c.nonce
    jose := { encodeVc := fun _ _ => none, decodeVc := fun _ => none, encodeVp := fun _ _ => none, decodeVp := fun _ => none }
    decodeRequest := fun _ => none, parseRequest := fun _ => none, percentDecode := some, codeChallenge := id, validTime := fun _ => true }
  env := { rng, fault := fun _ => .ok, oracle := fun _ _ c => match c with
    | .metadata u => match ask (.metadata u) with | .ok (.metadata md) => some md | _ => none
    | .oauthServer u => match ask (.oauthServer u) with | .ok (.oauthServer s) => some s | _ => none
    | .token q => match ask (.token q) with | .ok (.token t) => some t | _ => none
    | .logo _ => none
    | .credential _ => none
    | _ => none }
  disk _ := true
  readOffer e := if e = "one" then some offer else none
  dif := { query := fun _ _ => none, regex := fun _ _ => none, isDate := fun _ => false, isDateTime := fun _ => false }
  toJson _ := none

theorem tokens_from : ∀ log recent q r, around.env.oracle log recent (.token q) = some r → Answered (.token q) (.token r) := by
  intro log recent q r h
  refine ⟨server, data, 0, site, "localhost:8080", "", ?_⟩
  simp only [around, ask] at h
  split at h
  · rename_i ht
    cases h; exact ht
  · cases h

theorem metadata_from : ∀ log recent u md, around.env.oracle log recent (.metadata u) = some md → Answered (.metadata u) (.metadata md) := by
  intro log recent u md h
  refine ⟨server, data, 0, site, "localhost:8080", "", ?_⟩
  simp only [around, ask] at h
  split at h
  · rename_i ht
    cases h; exact ht
  · cases h

/-- The user opens the offer, accepts and asks for the credentials. -/
def cmds : List (Nat × Cmd) := [(1, .offer "one"), (1, .accept), (1, .credentials)]

/-- The token requests made. -/
def tokens (log : List Holder.Entry) : List (String × Option String) :=
  log.flatMap fun en => en.events.filterMap fun ev => match ev.call with
    | .token q => some (q.credentialIssuer, q.clientId)
    | _ => none

/-- One is made, by `wallet`, to `http://vercre.io`. -/
example : tokens (after around (opened 0 []) cmds).world.log = [("http://vercre.io", some "wallet")] := rfl

/-- C173: the store stays empty. -/
example : ∀ x ∈ (after around (opened 0 []) cmds).files.store, x ∈ ([] : Dict Slot) := C173_violated_nothing_collected tokens_from 0 [] cmds

/-! ### If the issuer knew the wallet -/

noncomputable def net : Interop.Net := { Interop.Demo.net with provider := fun _ => acquainted data, others := fun _ => [] }

def homeReq : Issuer.CreateOfferRequest := { offerReq with credentialIssuer := "http://vercre.io" }
def homeStep : Issuer.Step := { provider := acquainted data, req := .createOffer homeReq }
def homeOffer : Issuer.CredentialOffer := { offer with credentialIssuer := "http://vercre.io" }

noncomputable def home : Around := { CollectDemo.around with
  env := { rng, fault := fun _ => .ok, oracle := net.oracle (Issuer.step Issuer.Demo.env (Issuer.start 0) homeStep).2 0 }
  readOffer := fun e => if e = "one" then some homeOffer else none }

theorem understands (lo hi : Int) : Interop.Understands net Interop.Demo.wallet lo hi where
  proofs _ nonce h := ⟨nonce, h, fun _ => ⟨_, rfl, rfl, rfl, rfl⟩⟩
  credentials := (Interop.Demo.understands lo hi).credentials
  times _ _ _ := rfl

theorem clock (calls : List Holder.Call) (s : Nat × World Issuer.State) : (calls.foldl net.next s).2.now = s.2.now := by
  induction calls generalizing s with
  | nil => rfl
  | cons c calls ih =>
    refine (ih _).trans ?_
    unfold Interop.Net.next
    split
    · rfl
    · simp only [Interop.Net.serve, Issuer.step_now]
      show s.2.now + ((0 : Nat) : Int) = _
      omega

theorem undisturbed (w : World Issuer.State) (calls : List Holder.Call) (keys : String → Prop) : Interop.Undisturbed net w calls keys where
  intact _ _ := rfl
  intime := by
    show (net.after w calls).2.now < _
    rw [show (net.after w calls).2.now = w.now from clock calls (0, w)]
    simp only [Issuer.sec]
    omega

/-- C173, the part that holds. -/
example : ∃ c, c.issuer = "http://vercre.io" ∧ c.vc.subject = .one { id := some "did:web:holder", claims := [("email", .str "n@example.com")] } ∧
    IsStored c.id (some (.credential c)) (after home (opened 0 []) (collectCmds 7 8 9 10 "one" none)) :=
  C173_known_and_at_its_address_partial (n := net) (P := fun _ => data) (fun _ => rfl) (w := Issuer.start 0) (st := homeStep) (req := homeReq) (o := homeOffer)
    (oresp := ⟨.object homeOffer, none⟩) (subj := "normal_user") (cid := "EmployeeID_JWT") (id := "emp-1") (a := home)
    Issuer.Demo.env_fresh ⟨0, [], rfl⟩ rfl rfl rfl ⟨_, rfl, by decide⟩ rfl (.byVal ..) rfl rfl (fun _ => rfl)
    (fun _ => ⟨⟨_, .head _, ⟨_, rfl⟩, nofun, ⟨_, rfl, .head _⟩, ⟨_, rfl, fun _ => rfl⟩, by decide, ⟨_, _, _, rfl⟩, fun _ => ⟨_, rfl⟩⟩, ⟨_, rfl, rfl, rfl⟩⟩)
    rng_inj (fun _ => rfl) (fun _ => rfl) (understands _ _) (past := []) rfl rfl rfl rfl (fun _ _ => undisturbed _ _ _)

end Verif.App.StoresDemo
