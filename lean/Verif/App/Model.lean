import Verif.Holder.Trace
import Verif.Dif.Model
/-!
# The example wallet: an application around the wallet's endpoints

/repo/examples/wallet/src-tauri/src. A command of the shell is served in one go: the commands hold the lock of the application's state from beginning to end
(lib.rs, `app_state.lock().await`), and so do deep links.
-/
namespace Verif.App
open Holder (Credential Logo HRes HEnv HWorld Req Resp PStatus Event Call)

/-- `SubApp`, app.rs 18-26. -/
inductive SubApp where
  | splash
  | credential
  | issuance
  | presentation
  deriving DecidableEq, Repr

/-- `IssuanceState`, app/issuance.rs 13-29. Of the PIN's description only whether there is one is kept. -/
structure IssuanceState where
  id : String := ""
  issuer : String := ""
  offered : Dict CredentialConfiguration := []
  txCode : Bool := false
  pin : Option String := none

/-- `PresentationState`, app/presentation.rs 9-22. -/
structure PresentationState where
  id : String := ""
  status : PStatus := .inactive
  credentials : List Credential := []

/-- A value in `store.json`: a credential, or something that cannot be read as one. -/
inductive Slot where
  | credential (c : Credential)
  | junk

/-- The credentials' store (`tauri_plugin_store`): its values in memory, those in its file, and those the file had before each of the writes so far.
Simplification: a write of the file happens as a whole or not at all. /repo/examples/wallet/src-tauri/src/provider/store.rs 14-67. -/
structure Files where
  store : Dict Slot
  disk : Dict Slot
  past : List (Dict Slot)

/-- The application: `AppState`, app.rs 29-42, the wallet's flow state (`StateModel::state_store`, lib.rs 23-26) and the credentials' store. -/
structure App where
  sub : SubApp := .splash
  credential : List Credential := []
  issuance : IssuanceState := {}
  presentation : PresentationState := {}
  error : Option String := none
  world : HWorld
  files : Files

/-- What surrounds the application: the wallet's keys, everybody it talks to, which writes of the file succeed, how offers are read
(`urlencoding::decode` and `serde_json::from_str`, app/issuance.rs 34-35) and how constraints look at credentials. -/
structure Around where
  provider : Holder.Provider
  env : HEnv
  disk : Nat → Bool
  readOffer : String → Option Issuer.CredentialOffer
  dif : Dif.Ext
  /-- `VerifiableCredential::to_json` -/
  toJson : Vc → Option Json

/-! ### The credentials' store, provider/store.rs -/

/-- `Store::save`: the file is written. `disk` says which writes succeed. /repo/examples/wallet/src-tauri/src/provider/store.rs 17-24 and 61-67. -/
def Files.write (a : Around) (f : Files) : Files :=
  { f with disk := if a.disk f.past.length then f.store else f.disk, past := f.past ++ [f.disk] }

/-- `save`, provider/store.rs 17-24: the value is set in memory, then the file is written. Simplification: the value is the credential, not its JSON form. -/
def Files.save (a : Around) (f : Files) (c : Credential) : Files :=
  Files.write a { f with store := f.store.insert c.id (.credential c) }

/-- The credentials in memory; `none` if there is a value that cannot be read, on which `find` panics (43). Simplification: the order of the values, which is
arbitrary, is that of the map. -/
def readAll : List (String × Slot) → Option (List Credential)
  | [] => some []
  | (_, .credential c) :: l => (readAll l).map (c :: ·)
  | (_, .junk) :: _ => none

/-- The filter of `find`, provider/store.rs 50-54: errors count as `false`, a panic stays one. -/
def choose (a : Around) (k : Dif.Constraints) : List Credential → Option (List Credential)
  | [] => some []
  | c :: l => match k.satisfied a.dif (a.toJson c.vc) with
    | .error (.panic _) => none
    | .error _ => choose a k l
    | .ok b => if b then (choose a k l).map (c :: ·) else choose a k l

/-- `find`, provider/store.rs 38-57: `none` if it panics, it does not fail otherwise. -/
def Files.find (a : Around) (f : Files) : Option Dif.Constraints → Option (List Credential)
  | none => readAll f.store
  | some k => (readAll f.store).bind (choose a k)

/-- `HashMap::remove`. /repo/examples/wallet/src-tauri/src/provider/store.rs 61-67. -/
def erase (m : Dict Slot) (id : String) : Dict Slot := m.filter fun x => x.1 != id

/-- `remove`, provider/store.rs 61-67: whether it succeeded. The value is gone from memory even if the file cannot be written. -/
def Files.remove (a : Around) (f : Files) (id : String) : Bool × Files :=
  if f.store.has id then (a.disk f.past.length, Files.write a { f with store := erase f.store id })
  else (false, f)

/-- What is left when the application stops after the file was written `k` times. Models the end of the process, no code. -/
def Files.backTo (f : Files) (k : Nat) : Files :=
  let d := f.past[k]?.getD f.disk
  { store := d, disk := d, past := f.past.take k }

/-- The store after some calls of the wallet's endpoints. /repo/examples/wallet/src-tauri/src/provider/store.rs 17-24. -/
def Files.after (a : Around) (f : Files) : List Event → Files
  | [] => f
  | ⟨.save c, _⟩ :: l => Files.after a (f.save a c) l
  | _ :: l => Files.after a f l

/-! ### Calling the wallet's endpoints -/

/-- The provider the application gives the wallet's endpoints, provider.rs and provider/*.rs. Requests for authorization and for deferred credentials are
not implemented (issuer_client.rs 47-51 and 85-89) and panic; notifications are not sent (110-114). -/
def connected (a : Around) (f : Files) : HEnv where
  rng := a.env.rng
  fault := a.env.fault
  oracle log recent
    | .authorization _ => none
    | .deferred _ => none
    | .notification _ => some ()
    | .save _ => if a.disk (f.after a recent).past.length then some () else none
    | .find k => (f.after a recent).find a (some k)
    | c => a.env.oracle log recent c

/-- A call on which the application's provider panics. /repo/examples/wallet/src-tauri/src/provider/issuer_client.rs 47-51, 85-89 and provider/store.rs 43. -/
def Panics (ev : Event) : Bool :=
  match ev with
  | ⟨.authorization _, _⟩ => true
  | ⟨.deferred _, _⟩ => true
  | ⟨.find _, none⟩ => true
  | _ => false

/-- How a call of an endpoint ended, for the application. /repo/examples/wallet/src-tauri/src/lib.rs 104-265. -/
inductive Done where
  | ok (r : Resp)
  | failed
  | panicked

/-- The calls one endpoint makes. /repo/examples/wallet/src-tauri/src/lib.rs 104-265. -/
def made (a : Around) (s : App) (wait : Nat) (req : Req) : List Event :=
  ((Holder.serve a.provider req).run (connected a s.files) { s.world with now := s.world.now + wait, recent := [] }).2.recent

/-- Calling an endpoint. /repo/examples/wallet/src-tauri/src/lib.rs 104-265. -/
def lib (a : Around) (s : App) (wait : Nat) (req : Req) : Done × App :=
  let x := Holder.step (connected a s.files) s.world { provider := a.provider, wait, req }
  (match x.1 with
    | .error (.panic _) => .panicked
    | .error _ => if (made a s wait req).any Panics then .panicked else .failed
    | .ok r => .ok r,
   { s with world := x.2, files := s.files.after a (made a s wait req) })

/-! ### Views -/

/-- `CredentialDisplay`, view/credential.rs 19-38. Simplification: the colours are dropped. -/
structure Display where
  id : String
  issuer : Option String
  logo : Option Logo
  logoUrl : Option String
  name : String

/-- `CredentialDetail`, view/credential.rs 59-74. Simplification: times and claims are kept as values, not as their texts. -/
structure Detail where
  display : Display
  validFrom : Option Int
  validUntil : Option Int
  description : Option String
  claims : Dict Json

/-- `displays[0]` of `unwrap_or_default()`, view/credential.rs 86-88, 106-108 and 126-128: `none` if it panics. -/
def firstDisplay (d : Option (List CredentialDisplay)) : Option CredentialDisplay := (d.getD []).head?

/-- `CredentialDisplay::from(&Credential)`, view/credential.rs 84-102. -/
def displayOf (c : Credential) : Option Display :=
  (firstDisplay c.display).map fun d => { id := c.id, issuer := some c.issuer, logo := c.logo, logoUrl := d.logoUri, name := d.name }

/-- `CredentialDisplay::from(&CredentialConfiguration)`, view/credential.rs 104-122, with the issuer set as in view/issuance.rs 30-31. -/
def displayOffered (issuer : String) (c : CredentialConfiguration) : Option Display :=
  (firstDisplay c.display).map fun d => { id := "", issuer := some issuer, logo := none, logoUrl := d.logoUri, name := d.name }

/-- The subjects of a credential, view/credential.rs 132-135. -/
def subjects (v : Vc) : List CredentialSubject :=
  match v.subject with
  | .one s => [s]
  | .many l => l

/-- Collecting claims, view/credential.rs 137-143. -/
def collect (acc : Dict Json) : List (String × Json) → Dict Json
  | [] => acc
  | (k, v) :: l => collect (acc.insert k v) l

/-- `CredentialDetail::from(&Credential)`, view/credential.rs 124-153. -/
def detailOf (c : Credential) : Option Detail := do
  let d ← firstDisplay c.display
  let display ← displayOf c
  pure {
    display
    validFrom := c.vc.validFrom
    validUntil := c.vc.validUntil
    description := d.description
    claims := (subjects c.vc).foldl (fun acc s => collect acc s.claims) [] }

/-- All or nothing. `map` and `collect` of /repo/examples/wallet/src-tauri/src/view/*.rs, where `f` may panic. -/
def mapAll {α β : Type} (f : α → Option β) : List α → Option (List β)
  | [] => some []
  | x :: l => (f x).bind fun y => (mapAll f l).map (y :: ·)

/-- `PresentationStatus`, view/presentation.rs 11-42. -/
inductive ShownStatus where
  | inactive
  | requested
  | authorized
  | failed
  deriving DecidableEq, Repr

/-- The status of a presentation in a view, view/presentation.rs 33-42. -/
def shownStatus : PStatus → ShownStatus
  | .inactive => .inactive
  | .requested => .requested
  | .authorized => .authorized
  | .failed _ => .failed

/-- `ViewModel`, view.rs 10-25, of which one of three parts is there at a time (30-44) and the error never is (45). The maps of credentials are lists, in
the order of the maps and lists they are made from. -/
inductive View where
  | splash
  | credential (l : List Display)
  | issuance (l : List (String × Display)) (pin : Option String) (pinSchema : Bool)
  | presentation (status : ShownStatus) (l : List (String × Display))

/-- `ViewModel::from`, view.rs 27-48, with the conversions of view/*.rs: `none` if it panics. -/
def view (s : App) : Option View :=
  match s.sub with
  | .splash => some .splash
  | .credential => (mapAll displayOf s.credential).map .credential
  | .issuance => (mapAll (fun (x : String × CredentialConfiguration) => (displayOffered s.issuance.issuer x.2).map (x.1, ·)) s.issuance.offered).map
      fun l => .issuance l s.issuance.pin s.issuance.txCode
  | .presentation => (mapAll (fun c => (displayOf c).map (c.id, ·)) s.presentation.credentials).map
      fun l => .presentation (shownStatus s.presentation.status) l

/-! ### Commands -/

/-- What the shell or the operating system asks for. `link` is a deep link with one URL. `restart` ends the application and starts it again. `autosave` is the
plugin writing the file by itself, as it does some time after each change and on exit. `crash n c` is the application ending in the middle of a command, after
the file was written `n` times, and being started again. /repo/examples/wallet/src-tauri/src/lib.rs 104-265. -/
inductive Cmd where
  | start
  | reset
  | select (id : String)
  | delete (id : String)
  | offer (encoded : String)
  | accept
  | pin (p : String)
  | credentials
  | request (r : String)
  | authorize
  | present
  | link (url : String)
  | restart
  | autosave
  | crash (n : Nat) (c : Cmd)

/-- What comes of it: a view (returned or emitted), the details of a credential, an error, a panic, or nothing that shows.
/repo/examples/wallet/src-tauri/src/lib.rs 104-265. -/
inductive Out where
  | view (v : View)
  | detail (d : Option Detail)
  | failed
  | panicked
  | nothing

/-- The end of most commands: the new state is shown. /repo/examples/wallet/src-tauri/src/lib.rs 112-115 and alike. -/
def finish (s : App) : Out × App :=
  match view s with
  | some v => (.view v, s)
  | none => (.panicked, s)

/-- `reset`, app/credential.rs 15-29 and lib.rs 106-116. -/
def reset (a : Around) (s : App) : Out × App :=
  match s.files.find a none with
  | none => (.panicked, { s with error := none })
  | some l => finish { s with error := none, sub := .credential, credential := l, issuance := {}, presentation := {} }

/-- `select`, lib.rs 117-128. -/
def select (s : App) (id : String) : Out × App :=
  match s.credential.find? fun c => c.id == id with
  | none => (.detail none, s)
  | some c => match detailOf c with
    | some d => (.detail (some d), s)
    | none => (.panicked, s)

/-- `delete`, app/credential.rs 32-45 and lib.rs 132-144. -/
def delete (a : Around) (s : App) (id : String) : Out × App :=
  let x := s.files.remove a id
  if x.1 then finish { s with files := x.2, credential := s.credential.filter fun c => c.id != id }
  else (.failed, { s with files := x.2, error := some "Failed to delete credential" })

/-- Going on after an endpoint. /repo/examples/wallet/src-tauri/src/lib.rs 104-265. -/
def andThen (x : Done × App) (k : Resp → App → Out × App) : Out × App :=
  match x.1 with
  | .ok r => k r x.2
  | .failed => (.failed, x.2)
  | .panicked => (.panicked, x.2)

/-- Whether an offer asks for a PIN, app/issuance.rs 45-53. -/
def asksPin (g : Option Issuer.Grants) : Bool :=
  match g with
  | some g => match g.preAuthorizedCode with
    | some p => p.txCode
    | none => false
  | none => false

/-- `offer`, app/issuance.rs 33-64 and lib.rs 154-166. `CLIENT_ID` is at lib.rs 31, `NORMAL_USER` at /repo/crates/test-utils/src/issuer.rs 16. -/
def offer (a : Around) (s : App) (wait : Nat) (encoded : String) : Out × App :=
  match a.readOffer encoded with
  | none => (.failed, s)
  | some o => andThen (lib a s wait (.offer { clientId := "wallet", subjectId := "normal_user", offer := o })) fun r s =>
    match r with
    | .offer id issuer offered grants => finish { s with issuance := { id, issuer, offered, txCode := asksPin grants, pin := none }, sub := .issuance }
    | _ => (.failed, s)

/-- `accept`, app/issuance.rs 67-76 and lib.rs 172-181. -/
def accept (a : Around) (s : App) (wait : Nat) : Out × App :=
  andThen (lib a s wait (.accept { issuanceId := s.issuance.id, accept := none })) fun _ s => finish s

/-- `pin`, app/issuance.rs 79-87 and lib.rs 187-198. -/
def pin (a : Around) (s : App) (wait : Nat) (p : String) : Out × App :=
  andThen (lib a s wait (.pin { issuanceId := s.issuance.id, pin := p })) fun _ s => finish { s with issuance := { s.issuance with pin := some p } }

/-- `credentials`, app/issuance.rs 90-111 and lib.rs 203-214. -/
def credentials (a : Around) (s : App) (wait : Nat) : Out × App :=
  andThen (lib a s wait (.token s.issuance.id)) fun _ s =>
  andThen (lib a s 0 (.credentials { issuanceId := s.issuance.id, identifiers := none, format := none })) fun _ s =>
  andThen (lib a s 0 (.save s.issuance.id)) fun _ s => reset a s

/-- `request`, app/presentation.rs 26-35 and lib.rs 224-236. -/
def request (a : Around) (s : App) (wait : Nat) (r : String) : Out × App :=
  andThen (lib a s wait (.request r)) fun r s =>
    match r with
    | .request id status credentials => finish { s with presentation := { id, status, credentials }, sub := .presentation }
    | _ => (.failed, s)

/-- `authorize`, app/presentation.rs 38-43 and lib.rs 241-251. -/
def authorize (a : Around) (s : App) (wait : Nat) : Out × App :=
  andThen (lib a s wait (.authorizePresentation s.presentation.id)) fun r s =>
    match r with
    | .status t => finish { s with presentation := { s.presentation with status := t } }
    | _ => (.failed, s)

/-- `present`, app/presentation.rs 46-50 and lib.rs 254-265. -/
def present (a : Around) (s : App) (wait : Nat) : Out × App :=
  andThen (lib a s wait (.present s.presentation.id)) fun _ s => reset a s

/-- The prefixes of deep links, lib.rs 271-272. -/
def offerPrefix : List Char := "openid-credential-offer://?credential_offer=".toList
/-- See `offerPrefix`. -/
def requestPrefix : List Char := "openid-vc://request_uri=".toList

/-- `deep_link` only logs errors, lib.rs 292-295 and 310-313. -/
def logged (x : Out × App) : Out × App :=
  match x.1 with
  | .failed => (.nothing, x.2)
  | _ => x

/-- `deep_link`, lib.rs 270-320. Simplification: the payload, a JSON array, has one URL, without characters that JSON writes otherwise; `url` is what is left
when the brackets and quotes are cut off (275-278). -/
def link (a : Around) (s : App) (wait : Nat) (url : String) : Out × App :=
  if offerPrefix.isPrefixOf url.toList then logged (offer a s wait (String.ofList (url.toList.drop offerPrefix.length)))
  else if requestPrefix.isPrefixOf url.toList then logged (request a s wait (String.ofList (url.toList.drop requestPrefix.length)))
  else (.nothing, s)

/-- A new start, lib.rs 50-53: the state of the application and of its flows is lost, the credentials' store is read from its file. -/
def restart (s : App) : App :=
  { world := { s.world with store := fun _ => none }, files := { s.files with store := s.files.disk } }

/-- Serving a command that comes `wait` after the one before. Simplification: calls to others that a command would have made after a crash are made all the
same. /repo/examples/wallet/src-tauri/src/lib.rs 104-265. -/
def serve (a : Around) (s : App) (wait : Nat) : Cmd → Out × App
  | .start => finish s
  | .reset => reset a s
  | .select id => select s id
  | .delete id => delete a s id
  | .offer e => offer a s wait e
  | .accept => accept a s wait
  | .pin p => pin a s wait p
  | .credentials => credentials a s wait
  | .request r => request a s wait r
  | .authorize => authorize a s wait
  | .present => present a s wait
  | .link u => link a s wait u
  | .restart => (.nothing, restart s)
  | .autosave => (.nothing, { s with files := s.files.write a })
  | .crash n c =>
    let x := (serve a s wait c).2
    (.nothing, restart { x with files := x.files.backTo (s.files.past.length + n) })

/-- The application after some commands. Machinery of the model. -/
def after (a : Around) (s : App) : List (Nat × Cmd) → App
  | [] => s
  | (t, c) :: l => after a (serve a s t c).2 l

/-- The application as it is first started, with whatever is in the file of its store. /repo/examples/wallet/src-tauri/src/lib.rs 42-60. -/
def opened (now : Int) (file : Dict Slot) : App :=
  { world := Holder.start now, files := { store := file, disk := file, past := [] } }

theorem after_append (a : Around) (s : App) (l m : List (Nat × Cmd)) : after a s (l ++ m) = after a (after a s l) m := by
  induction l generalizing s with
  | nil => rfl
  | cons v l ih => exact ih _

end Verif.App
