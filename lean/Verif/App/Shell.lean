import Verif.App.Model
import Verif.Core.Percent
/-!
# The example wallet's shell: its screens, and the application behind them

/repo/examples/wallet/src (TypeScript). A component of the shell is what it keeps between renderings, together with what its buttons and effects invoke.
Colours, icons, titles and layout are left out. Simplifications: one screen follows another at once (`Slide` takes its time); effects run as in a production
build (under `React.StrictMode`, main.tsx 9, a development build runs them twice); the listener of events is there from the start (App.tsx 28-35 registers it a
moment later).
-/
namespace Verif.App
open Holder (Logo)

/-! ### Views as they come to the shell -/

/-- `Option` in JSON, view.rs 10-25 and view/*.rs. -/
def orNull {α : Type} (f : α → Json) : Option α → Json
  | none => .null
  | some x => f x

/-- `CredentialDisplay` in JSON, view/credential.rs 19-38. The colours are dropped, as in `Display`. -/
def displayJson (d : Display) : Json := .obj [
  ("id", .str d.id),
  ("issuer", orNull .str d.issuer),
  ("logo", orNull (fun (l : Logo) => .obj [("image", .str l.image), ("media_type", .str l.mediaType)]) d.logo),
  ("logo_url", orNull .str d.logoUrl),
  ("name", .str d.name)]

/-- A map of displays in JSON, view/issuance.rs 18 and view/presentation.rs 52. -/
def displaysJson (l : List (String × Display)) : Json := .obj (l.map fun x => (x.1, displayJson x.2))

/-- `PresentationStatus` in JSON, view/presentation.rs 14-28. -/
def statusName : ShownStatus → String
  | .inactive => "Inactive"
  | .requested => "Requested"
  | .authorized => "Authorized"
  | .failed => "Failed"

/-- `SubApp` in JSON, app.rs 18-26. -/
def subName : View → String
  | .splash => "Splash"
  | .credential _ => "Credential"
  | .issuance _ _ _ => "Issuance"
  | .presentation _ _ => "Presentation"

/-- `CredentialView` in JSON, view/credential.rs 11-17. -/
def credentialJson (l : List Display) : Json := .obj [("credentials", .arr (l.map displayJson))]

/-- `IssuanceView` in JSON, view/issuance.rs 14-23. Of the PIN's description only whether there is one is kept, as in `View`. -/
def issuanceJson (l : List (String × Display)) (pin : Option String) (schema : Bool) : Json := .obj [
  ("credentials", displaysJson l),
  ("pin", orNull .str pin),
  ("pin_schema", if schema then .obj [] else .null)]

/-- `PresentationView` in JSON, view/presentation.rs 44-53. -/
def presentationJson (st : ShownStatus) (l : List (String × Display)) : Json := .obj [
  ("status", .str (statusName st)),
  ("credentials", displaysJson l)]

/-- `ViewModel` in JSON, view.rs 10-48: what `start` returns and `state_updated` carries. -/
def viewJson (v : View) : Json := .obj [
  ("sub_app", .str (subName v)),
  ("credential", match v with | .credential l => credentialJson l | _ => .null),
  ("issuance", match v with | .issuance l p b => issuanceJson l p b | _ => .null),
  ("presentation", match v with | .presentation st l => presentationJson st l | _ => .null),
  ("error", .null)]

/-- A property of a value; `none` is `undefined`. The values of /repo/examples/wallet/src/App.tsx 62-67 and below. -/
def property (j : Json) (name : String) : Option Json :=
  match j with
  | .obj m => Dict.get? m name
  | _ => none

/-- `x === "..."`. /repo/examples/wallet/src/App.tsx 62-67, Issuance/index.tsx 25-44 and Presentation/index.tsx 26-39. -/
def isText (x : Option Json) (s : String) : Bool :=
  match x with
  | some (.str t) => t == s
  | _ => false

/-- An object that is not `null` or `undefined`. /repo/examples/wallet/src/App.tsx 66-67. -/
def object (x : Option Json) : Option Json :=
  match x with
  | some (.obj m) => some (.obj m)
  | _ => none

/-! ### What the shell keeps -/

/-- What is shown within the screen of credentials, Credential/index.tsx 21-22: with the details, whether deletion is to be confirmed (Detail.tsx 26); with the
forms, which mounting of the form it is, the text in it and whether an error is shown (Add.tsx 23-24, Present.tsx 23-24). `detail none` is the mode without
a credential to show. -/
inductive CredMode where
  | list
  | detail (d : Option Detail) (confirm : Bool)
  | add (form : Nat) (text : List Char) (error : Bool)
  | present (form : Nat) (text : List Char) (error : Bool)

/-- `mode`, Issuance/index.tsx 19-21. With the PIN, what has been typed (Pin.tsx 18). Simplification: the boxes for its characters are one. -/
inductive IssMode where
  | accept
  | pin (typed : String)
  | request
  | error

/-- `mode`, Presentation/index.tsx 17. -/
inductive PresMode where
  | authorize
  | error
  | loading
  deriving DecidableEq

/-- The component that is mounted, App.tsx 62-69. `credential` says which mounting it is. -/
inductive Screen where
  | blank
  | splash
  | credential (inst : Nat) (mode : CredMode)
  | issuance (mode : IssMode)
  | presentation (mode : PresMode)

/-- What a button in the header does: `handleClose` or `handlePresent` of a mounting of the screen of credentials (Credential/index.tsx 34-48), opening the
dialog of its details (Detail.tsx 44) or `reset` (Error/index.tsx 32). -/
inductive Handler where
  | close (inst : Nat)
  | present (inst : Nat)
  | confirm (inst : Nat)
  | reset

/-- The atom `header`, Layout/index.tsx 16-23. Components set it when they are mounted; it stays when they go. -/
structure Header where
  action : Option Handler := none
  second : Option Handler := none

/-- The shell: `view` (App.tsx 17), what is mounted, the header, how many components have been mounted, and how many of the splash screen's timers are still to
go off (Splash/index.tsx 16-18). -/
structure Shell where
  view : Option Json := none
  screen : Screen := .blank
  header : Header := {}
  mounts : Nat := 0
  timers : Nat := 0

/-- A command that the shell invoked, and the component that waits for what comes of it. /repo/examples/wallet/src/App.tsx 50 and all other `invoke`s. -/
structure Invoke where
  cmd : Cmd
  by_ : Nat := 0

/-! ### Rendering a view -/

/-- The header that the list sets, List.tsx 31-39. -/
def listHeader (inst : Nat) : Header := { action := none, second := some (.present inst) }
/-- The header that the details set, Detail.tsx 36-48. -/
def detailHeader (inst : Nat) : Header := { action := some (.close inst), second := some (.confirm inst) }
/-- The header that the forms set, Add.tsx 34-45 and Present.tsx 34-45. -/
def formHeader (inst : Nat) : Header := { action := some (.close inst), second := none }
/-- The header that errors set, Error/index.tsx 29-37. -/
def errorHeader : Header := { action := some .reset, second := none }

/-- Whether a dependency of an effect has changed, as far as texts go: values of other kinds are new each time.
/repo/examples/wallet/src/Issuance/index.tsx 40 and 54 and Presentation/index.tsx 35 and 42. -/
def changed (old new : Option Json) : Bool :=
  match old, new with
  | none, none => false
  | some (.str a), some (.str b) => a != b
  | _, _ => true

/-- `mode` as `status` has it, Issuance/index.tsx 24-40; what has been typed stays if the PIN was asked for before. -/
def issuanceMode (old : Option IssMode) (status : Option Json) : IssMode :=
  if isText status "PendingPin" then
    match old with
    | some (.pin t) => .pin t
    | _ => .pin ""
  else if isText status "Accepted" || isText status "Requested" then .request
  else if isText status "Failed" then .error
  else .accept

/-- `mode` as `status` has it, Presentation/index.tsx 20-35. Texts have no property of the name `Failed`. -/
def presentationMode (status : Option Json) : PresMode :=
  if (status.bind fun j => property j "Failed").isSome then .error
  else if isText status "Authorized" || isText status "Completed" then .loading
  else .authorize

/-- Rendering an issuance, Issuance/index.tsx 17-54. -/
def renderIssuance (sh : Shell) (old : Option Json) (i : Json) : Shell × List Invoke :=
  let status := property i "status"
  let was := match sh.screen with
    | .issuance m => some m
    | _ => none
  let mode := issuanceMode was status
  let header := match mode, was with
    | .error, some .error => sh.header
    | .error, _ => errorHeader
    | _, _ => sh.header
  ({ sh with screen := .issuance mode, header },
   if (was.isNone || changed (old.bind fun o => (property o "issuance").bind fun o => property o "status") status) && isText status "Accepted"
   then [{ cmd := .credentials }] else [])

/-- Rendering a presentation, Presentation/index.tsx 15-42. -/
def renderPresentation (sh : Shell) (old : Option Json) (p : Json) : Shell × List Invoke :=
  let status := property p "status"
  let was := match sh.screen with
    | .presentation m => some m
    | _ => none
  let fires := was.isNone || changed (old.bind fun o => (property o "presentation").bind fun o => property o "status") status
  let mode := if fires then presentationMode status else was.getD .authorize
  let header := match mode, was with
    | .error, some .error => sh.header
    | .error, _ => errorHeader
    | _, _ => sh.header
  ({ sh with screen := .presentation mode, header },
   if fires && isText status "Authorized" then [{ cmd := .present }] else [])

/-- `setView` and what is rendered of it, App.tsx 59-71: components that were mounted already stay so. -/
def Shell.render (sh : Shell) (j : Json) : Shell × List Invoke :=
  let old := sh.view
  let sh := { sh with view := some j }
  let sub := property j "sub_app"
  if isText sub "Splash" then
    match sh.screen with
    | .splash => (sh, [])
    | _ => ({ sh with screen := .splash, timers := sh.timers + 1 }, [])
  else if isText sub "Credential" then
    match sh.screen with
    | .credential _ _ => (sh, [])
    | _ => ({ sh with screen := .credential sh.mounts .list, header := listHeader sh.mounts, mounts := sh.mounts + 1 }, [])
  else if isText sub "Issuance" then
    match object (property j "issuance") with
    | some i => renderIssuance sh old i
    | none => ({ sh with screen := .blank }, [])
  else if isText sub "Presentation" then
    match object (property j "presentation") with
    | some p => renderPresentation sh old p
    | none => ({ sh with screen := .blank }, [])
  else ({ sh with screen := .blank }, [])

/-! ### The user -/

/-- What the user can do: press the header's two buttons, a credential of the list, the button for adding, a form's button, the buttons of the dialog and of the
screens that ask for a decision, and enter a text into a form or a PIN. /repo/examples/wallet/src, all `onClick`, `onChange` and `onSelect`. -/
inductive Click where
  | action
  | second
  | choose (i : Nat)
  | add
  | enter (text : List Char)
  | submit
  | keep
  | delete
  | cancel
  | agree
  | type (pin : String)

/-- Bytes that `encodeURIComponent` leaves alone: letters, digits and `- _ . ! ~ * ' ( )`. Add.tsx 64 and Present.tsx 64. -/
def componentByte (b : UInt8) : Bool :=
  (48 ≤ b && b ≤ 57) || (65 ≤ b && b ≤ 90) || (97 ≤ b && b ≤ 122) || b == 45 || b == 95 || b == 46 || b == 33 || b == 126 || b == 42 || b == 39 || b == 40 ||
    b == 41

/-- `encodeURIComponent`, Add.tsx 64 and Present.tsx 64. Simplification: texts are well-formed Unicode. -/
def encodeComponent (s : List Char) : List Char :=
  asciiText ((utf8 s).flatMap fun b => if componentByte b then [b] else [37, hexUpper (b.toNat / 16), hexUpper (b.toNat % 16)])

/-- White space, for `String.prototype.trim`. Add.tsx 51 and Present.tsx 51. -/
def isSpace (c : Char) : Bool :=
  let n := c.toNat
  (9 ≤ n && n ≤ 13) || n == 32 || n == 160 || n == 5760 || (8192 ≤ n && n ≤ 8202) || n == 8232 || n == 8233 || n == 8239 || n == 8287 || n == 12288 || n == 65279

/-- `trim`, Add.tsx 51 and Present.tsx 51. -/
def trim (s : List Char) : List Char := ((s.dropWhile isSpace).reverse.dropWhile isSpace).reverse

/-- What fits into a field of `maxLength: 1024`, Add.tsx 90 and Present.tsx 88: lengths are counted in UTF-16 code units. Simplification: a character of which only
the first half would fit is left out. -/
def fitting : Nat → List Char → List Char
  | _, [] => []
  | n, c :: l => let k := if c.toNat < 65536 then 1 else 2
    if k ≤ n then c :: fitting (n - k) l else []

/-- `maxLength`, Add.tsx 90 and Present.tsx 88. -/
def maxLength : Nat := 1024

/-- The ids of the credentials on the list, Credential/index.tsx 20 and List.tsx 42-49. -/
def listed (view : Option Json) : List String :=
  match (view.bind fun j => property j "credential").bind fun j => property j "credentials" with
  | some (.arr l) => l.filterMap fun c => match property c "id" with
    | some (.str id) => some id
    | _ => none
  | _ => []

/-- A button of the header. Credential/index.tsx 34-48, Detail.tsx 44, Error/index.tsx 32. What components that are gone keep is out of reach. -/
def Shell.press (sh : Shell) : Option Handler → Shell × List Invoke
  | none => (sh, [])
  | some .reset => (sh, [{ cmd := .reset }])
  | some (.close n) =>
    (match sh.screen with
      | .credential _ .list => sh
      | .credential inst _ => if inst = n then { sh with screen := .credential inst .list, header := listHeader inst } else sh
      | _ => sh,
     [{ cmd := .reset }])
  | some (.present n) =>
    match sh.screen with
    | .credential _ (.present _ _ _) => (sh, [])
    | .credential inst _ =>
      if inst = n then ({ sh with screen := .credential inst (.present sh.mounts [] false), header := formHeader inst, mounts := sh.mounts + 1 }, []) else (sh, [])
    | _ => (sh, [])
  | some (.confirm n) =>
    match sh.screen with
    | .credential inst (.detail (some d) _) => if inst = n then ({ sh with screen := .credential inst (.detail (some d) true) }, []) else (sh, [])
    | _ => (sh, [])

/-- What comes of a click or key on what is shown; anything that is not there cannot be pressed. The lines are given with the cases. -/
def Shell.click (sh : Shell) (c : Click) : Shell × List Invoke :=
  match sh.screen, c with
  -- Layout/Header.tsx 27-33; the splash screen has no header, App.tsx 62-64
  | .splash, _ => (sh, [])
  | _, .action => sh.press sh.header.action
  | _, .second => sh.press sh.header.second
  -- Credential/index.tsx 24-32
  | .credential inst .list, .choose i => (sh, ((listed sh.view)[i]?.map fun id => ({ cmd := .select id, by_ := inst } : Invoke)).toList)
  -- Credential/index.tsx 40-43
  | .credential inst .list, .add =>
    ({ sh with screen := .credential inst (.add sh.mounts [] false), header := formHeader inst, mounts := sh.mounts + 1 }, [])
  -- Add.tsx 48-58 and Present.tsx 48-58
  | .credential inst (.add n _ _), .enter x => let val := trim (fitting maxLength x); ({ sh with screen := .credential inst (.add n val val.isEmpty) }, [])
  | .credential inst (.present n _ _), .enter x => let val := trim (fitting maxLength x); ({ sh with screen := .credential inst (.present n val val.isEmpty) }, [])
  -- Add.tsx 60-75 and 110, Present.tsx 60-73 and 106
  | .credential _ (.add n text error), .submit =>
    (sh, if error || text.isEmpty then [] else [{ cmd := .offer (String.ofList (encodeComponent text)), by_ := n }])
  | .credential _ (.present n text error), .submit =>
    (sh, if error || text.isEmpty then [] else [{ cmd := .request (String.ofList (encodeComponent text)), by_ := n }])
  -- Delete.tsx and Detail.tsx 51-58 and 75-80
  | .credential inst (.detail (some d) true), .keep => ({ sh with screen := .credential inst (.detail (some d) false) }, [])
  | .credential inst (.detail (some d) true), .delete =>
    if d.display.id.isEmpty then ({ sh with screen := .credential inst (.detail (some d) false) }, [])
    else ({ sh with screen := .credential inst .list, header := listHeader inst }, [{ cmd := .delete d.display.id }, { cmd := .reset }])
  -- Issuance/Accept.tsx 37-48
  | .issuance .accept, .cancel => (sh, [{ cmd := .reset }])
  | .issuance .accept, .agree => (sh, [{ cmd := .accept }])
  -- Issuance/Pin.tsx 34-54 and 90-101
  | .issuance (.pin _), .type p => ({ sh with screen := .issuance (.pin p) }, [])
  | .issuance (.pin _), .cancel => (sh, [{ cmd := .reset }])
  | .issuance (.pin p), .agree => (sh, [{ cmd := .pin p }])
  -- Presentation/Authorize.tsx 37-48
  | .presentation .authorize, .cancel => (sh, [{ cmd := .reset }])
  | .presentation .authorize, .agree => (sh, [{ cmd := .authorize }])
  | _, _ => (sh, [])

/-- A timer of the splash screen goes off, Splash/index.tsx 16-18. It does so even if the screen is gone. -/
def Shell.timer (sh : Shell) : Shell × List Invoke :=
  match sh.timers with
  | 0 => (sh, [])
  | n + 1 => ({ sh with timers := n }, [{ cmd := .reset }])

/-! ### What comes back -/

/-- What comes to the shell: a view (emitted, or returned by `start`), the details of a credential, or the failure of a command.
/repo/examples/wallet/src/App.tsx 29-33 and 50-51, Credential/index.tsx 26. -/
inductive Msg where
  | view (j : Json)
  | detail (by_ : Nat) (d : Option Detail)
  | failed (i : Invoke)

/-- What comes back of a command; a panic leaves the shell waiting. /repo/examples/wallet/src-tauri/src/lib.rs 95-265. -/
def answers (i : Invoke) : Out → List Msg
  | .view v => [.view (viewJson v)]
  | .detail d => [.detail i.by_ d]
  | .failed => [.failed i]
  | .panicked => []
  | .nothing => []

/-- The details have come, Credential/index.tsx 26-28. -/
def Shell.details (sh : Shell) (n : Nat) (d : Option Detail) : Shell :=
  match sh.screen with
  | .credential inst mode =>
    if inst = n then
      match mode, d with
      | .detail (some _) b, some d => { sh with screen := .credential inst (.detail (some d) b) }
      | _, some d => { sh with screen := .credential inst (.detail (some d) false), header := detailHeader inst }
      | _, none => { sh with screen := .credential inst (.detail none false) }
    else sh
  | _ => sh

/-- A command has failed, Add.tsx 70-72, Present.tsx 68-70 and Issuance/index.tsx 48-50; elsewhere failures are not looked at. Simplification: whether the issuance
that failed is the one that is shown is not looked at either. -/
def Shell.failure (sh : Shell) (i : Invoke) : Shell :=
  match sh.screen, i.cmd with
  | .credential inst (.add n text _), .offer _ => if n = i.by_ then { sh with screen := .credential inst (.add n text true) } else sh
  | .credential inst (.present n text _), .request _ => if n = i.by_ then { sh with screen := .credential inst (.present n text true) } else sh
  | .issuance .error, .credentials => sh
  | .issuance _, .credentials => { sh with screen := .issuance .error, header := errorHeader }
  | _, _ => sh

/-- Something comes to the shell. /repo/examples/wallet/src/App.tsx 29-33, 50-51 and the places given with the parts. -/
def Shell.receive (sh : Shell) : Msg → Shell × List Invoke
  | .view j => sh.render j
  | .detail n d => (sh.details n d, [])
  | .failed i => (sh.failure i, [])

/-! ### The shell and the application -/

/-- The whole wallet: commands that wait to be served and messages that have not reached the shell yet. /repo/examples/wallet/src and
/repo/examples/wallet/src-tauri/src/lib.rs 39-87. -/
structure Wallet where
  app : App
  shell : Shell := {}
  calls : List Invoke := [{ cmd := .start }]
  msgs : List Msg := []

/-- What happens next: the user does something, a timer goes off, one of the waiting commands is served (they are served one at a time, in any order), a link is
opened, a message reaches the shell (in the order in which they were sent), the file is written, or the wallet ends and is started again – between commands, or in
the middle of one or of a link, after the file was written `n` times. Models the event loops, no code. -/
inductive Step where
  | click (c : Click)
  | timer
  | serve (i wait : Nat)
  | link (wait : Nat) (url : String)
  | deliver
  | autosave
  | restart
  | crash (n i wait : Nat)
  | crashLink (n wait : Nat) (url : String)

/-- The wallet as it is started: the shell invokes `start`, App.tsx 42-57. -/
def boot (s : App) : Wallet := { app := s }

/-- The shell has changed. Machinery of the model. -/
def Wallet.with (w : Wallet) (x : Shell × List Invoke) : Wallet := { w with shell := x.1, calls := w.calls ++ x.2 }

/-- One thing happens. Models the event loops; the parts are cited with their definitions. -/
def Wallet.step (a : Around) (w : Wallet) : Step → Wallet
  | .click c => w.with (w.shell.click c)
  | .timer => w.with w.shell.timer
  | .serve i wait =>
    match w.calls[i]? with
    | none => w
    | some inv =>
      let x := App.serve a w.app wait inv.cmd
      { w with app := x.2, calls := w.calls.eraseIdx i, msgs := w.msgs ++ answers inv x.1 }
  | .link wait url =>
    let x := App.serve a w.app wait (.link url)
    { w with app := x.2, msgs := w.msgs ++ answers { cmd := .link url } x.1 }
  | .deliver =>
    match w.msgs with
    | [] => w
    | m :: l => { w with msgs := l }.with (w.shell.receive m)
  | .autosave => { w with app := (App.serve a w.app 0 .autosave).2 }
  | .restart => boot (App.serve a w.app 0 .restart).2
  | .crash n i wait =>
    match w.calls[i]? with
    | none => w
    | some inv => boot (App.serve a w.app wait (.crash n inv.cmd)).2
  | .crashLink n wait url => boot (App.serve a w.app wait (.crash n (.link url))).2

/-- Many things happen. Machinery of the model. -/
def Wallet.run (a : Around) (w : Wallet) : List Step → Wallet
  | [] => w
  | e :: l => Wallet.run a (w.step a e) l

theorem Wallet.run_append (a : Around) (w : Wallet) (l m : List Step) : w.run a (l ++ m) = (w.run a l).run a m := by
  induction l generalizing w with
  | nil => rfl
  | cons e l ih => exact ih _

/-- A wallet that is started for the first time, with whatever is in the file of its store. /repo/examples/wallet/src-tauri/src/lib.rs 39-87. -/
def installed (now : Int) (file : Dict Slot) : Wallet := boot (opened now file)

end Verif.App
