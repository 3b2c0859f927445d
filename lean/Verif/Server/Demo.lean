import Verif.Server.LoginProps
import Verif.Server.Datasets
import Verif.Issuer.Demo
/-!
# Examples for C138 – C145
-/
namespace Verif.Server.Demo
open Issuer (RequestObject)

/-- An issuer that has data for everybody. -/
def provider : Issuer.Provider := { Issuer.Demo.provider with
  authorize := fun _ c => if c = "Employee" then some ["emp-1"] else none }

/-- Tokens `c`, `cc`, … -/
def around : Around := { env := Issuer.Demo.env, csrf := fun n => String.ofList (List.replicate (n + 1) 'c') }

theorem around_fresh : around.Fresh := by
  constructor
  · intro i j h
    have h := congrArg String.toList h
    simp only [around, String.toList_ofList] at h
    have h := congrArg List.length h
    simp at h; exact h
  · intro i h
    have h := congrArg String.toList h
    simp only [around, String.toList_ofList, List.replicate_succ] at h
    have : "normal_user".toList = 'n' :: "ormal_user".toList := by decide
    rw [this] at h
    simp at h

/-- A request for a subject. -/
def request (subject : String) : RequestObject := { Issuer.Demo.authReq with subjectId := subject }

/-- Asking for an authorization. -/
def asks (subject : String) : Visit := { provider, http := .auth "localhost" (.object (request subject)) }

/-- Logging in. -/
def logsIn (t : String) : Visit := { provider, http := .login "localhost" "normal_user" "password" t }

/-- Pushing a request. -/
def pushes (subject : String) : Visit := { provider, http := .par "localhost" (request subject) }

/-- What is of interest in a reply. -/
inductive Seen where
  | form (t : String)
  | code (uri : String)
  | denied (uri : String)
  | toAuth
  | unauthorized (why : String)
  | other
  deriving DecidableEq

/-- What is of interest in a reply. -/
def seen : Reply → Seen
  | .form t => .form t
  | .code u _ => .code u
  | .denied u _ => .denied u
  | .toAuth _ _ => .toAuth
  | .unauthorized w => .unauthorized w
  | _ => .other

/-- The reply to a visit after others. -/
def sees (l : List Visit) (v : Visit) : Seen := seen (serve around v.provider v.wait (after around (opened 0) l) v.http).1

/-- C138, C141: form, login, code. -/
example : sees [] (asks "normal_user") = .form "c" ∧ sees [asks "normal_user"] (logsIn "c") = .toAuth ∧
    sees [asks "normal_user", logsIn "c"] (asks "normal_user") = .code "http://localhost/cb" := by decide

/-- C138: nobody logs in again, whatever happened in between; and without a login there is another form. -/
example : sees [asks "normal_user", logsIn "c", asks "normal_user", pushes "normal_user"] (asks "normal_user") = .code "http://localhost/cb" ∧
    sees [asks "normal_user"] (asks "normal_user") = .form "cc" := by decide

/-- C138: the token of the form as subject. -/
example : sees [asks "normal_user"] (asks "c") = .code "http://localhost/cb" := by decide

/-- C139: with a state, the same. -/
example : (serve around provider 0 (after around (opened 0) [asks "normal_user", logsIn "c"])
      (.auth "localhost" (.object { request "normal_user" with state := some "xyz" }))).1 =
    (serve around provider 0 (after around (opened 0) [asks "normal_user", logsIn "c"]) (.auth "localhost" (.object (request "normal_user")))).1 :=
  C139_state_never_returned ..

/-- C140: an unregistered URI. -/
example : sees [asks "normal_user", logsIn "c"]
      { provider, http := .auth "localhost" (.object { request "normal_user" with redirectUri := some "http://attacker" }) } =
    .denied "http://attacker" := by decide

/-- C140: its theorem, for this request. -/
example : ∃ err, (serve around provider 0 (after around (opened 0) [asks "normal_user", logsIn "c"])
      (.auth "localhost" (.object { request "normal_user" with redirectUri := some "http://attacker" }))).1 = .denied "http://attacker" err :=
  C140_error_sent_to_any_uri
    (v := { provider, http := .auth "localhost" (.object { request "normal_user" with redirectUri := some "http://attacker" }) }) rfl
    (by decide) (by decide) rfl (fun client us h1 h2 => by cases h1; cases h2; decide)

/-- C141: a pushed request gets a form, which is refused; also for a user who has logged in. -/
example : sees [] (pushes "normal_user") = .form "c" ∧ sees [pushes "normal_user"] (logsIn "c") = .unauthorized "invalid csrf_token" ∧
    sees [asks "normal_user", logsIn "c"] (pushes "normal_user") = .form "cc" := by decide

/-- C141: its theorem, for this request. -/
example : (serve around provider 0 (after around (opened 0) ([asks "normal_user"] ++ pushes "normal_user" :: [logsIn "c"]))
      (.login "localhost" "normal_user" "password" "cc")).1 = .unauthorized "invalid csrf_token" :=
  C141_form_of_push_refused around_fresh (t0 := 0) (l := [asks "normal_user"]) (later := [logsIn "c"]) (push := pushes "normal_user")
    (send := logsIn "cc") (t := "cc") rfl rfl rfl

/-- C141: a server that requires requests to be pushed. -/
example (uri c : String) (s : Site) : (serve around (Issuer.Demo.provider (srv := { Issuer.Demo.server with requirePar := some true })) 0 s
    (.auth "localhost" (.object (request "normal_user")))).1 ≠ .code uri c :=
  C141_no_codes_if_push_required
    (v := { provider := Issuer.Demo.provider (srv := { Issuer.Demo.server with requirePar := some true }),
            http := .auth "localhost" (.object (request "normal_user")) })
    (fun i server h => by
      simp only [Issuer.Demo.provider] at h
      split at h <;> cases h
      rfl) uri c

/-- C142: a request that names no issuer; at another endpoint the host serves for it. -/
example : sees [asks "normal_user", logsIn "c"]
      { provider, http := .auth "vercre.io" (.object { request "normal_user" with credentialIssuer := "" }) } = .denied "http://localhost/cb" ∧
    (match (serve around provider 0 (opened 0) (.api "vercre.io" "" (.createOffer { Issuer.Demo.offerReq with credentialIssuer := "" }))).1 with
      | .ok _ => true
      | _ => false) = true := by decide

/-- C145: a token a second time, the token of a form nobody was shown, and the user's name for a token. -/
example : sees [asks "normal_user", logsIn "c", asks "cc"] (logsIn "c") = .unauthorized "invalid csrf_token" ∧
    sees [asks "normal_user"] (logsIn "cc") = .unauthorized "invalid csrf_token" ∧
    sees [asks "normal_user"] (logsIn "normal_user") = .unauthorized "invalid csrf_token" ∧
    sees [asks "normal_user", logsIn "c"] (logsIn "normal_user") = .toAuth := by decide

/-- C145: its theorem, for a token used twice. -/
example (h' : String) (r' : Issuer.RequestObject) :
    (serve around provider 0 (after around (opened 0) ([asks "normal_user"] ++ logsIn "c" :: [asks "other"])) (logsIn "c").http).1 ≠ .toAuth h' r' :=
  C145_token_used_once_partial around_fresh (t0 := 0) (l := [asks "normal_user"]) (between := [asks "other"]) (v := logsIn "c") (v' := logsIn "c")
    rfl (by decide) rfl rfl h' r'

/-- C145: two requests wait for a login, the second form leads to the second. -/
example (h' : String) (r' : Issuer.RequestObject)
    (h : (serve around provider 0 (after around (opened 0) ([asks "normal_user"] ++ asks "other" :: [])) (logsIn "cc").http).1 = .toAuth h' r') :
    r' = request "other" ∧ h' = "localhost" :=
  C145_login_leads_to_its_request around_fresh (l := [asks "normal_user"]) (between := []) (v := asks "other") (v' := logsIn "cc") rfl rfl rfl h

/-- C145: and it does lead there. -/
example : sees ([asks "normal_user"] ++ asks "other" :: []) (logsIn "cc") = .toAuth := by decide

/-- A store: one person with two credentials, one of them pending. -/
def store : Datasets.Store Nat :=
  some [("pending_user", [("emp", ⟨"Employee", 1, true⟩), ("dev", ⟨"Developer", 2, false⟩)]), ("normal_user", [("emp", ⟨"Employee", 3, false⟩)])]

/-- C143, C144: questions and answers. -/
example : (Datasets.authorize store "pending_user" "Employee").1 = .ok ["emp"] ∧ (Datasets.dataset store "pending_user" "emp").1 = .ok (1, true) ∧
    (Datasets.dataset (Datasets.after store [.dataset "pending_user" "emp", .dataset "pending_user" "dev"]) "pending_user" "emp").1 = .ok (1, false) := by
  decide

/-- C143: the end of it. -/
example : (Datasets.authorize (Datasets.after store [.authorize "nobody" "Employee"]) "normal_user" "Employee").1 = .panic ∧
    (Datasets.authorize store "normal_user" "Employee").1 = .ok ["emp"] := by decide

/-- C143: the hypotheses of the part that holds. -/
example : Datasets.Tidy store ∧ Datasets.Known store "pending_user" ∧ Datasets.Known store "normal_user" ∧ ¬ Datasets.Known store "nobody" := by
  refine ⟨fun m p d h1 h2 => ?_, ⟨_, _, rfl, rfl⟩, ⟨_, _, rfl, rfl⟩, fun ⟨m, d, h1, h2⟩ => ?_⟩
  · cases h1
    have := Dict.mem_of_get? h2
    simp only [List.mem_cons, Prod.mk.injEq, List.not_mem_nil, or_false] at this
    rcases this with ⟨_, rfl⟩ | ⟨_, rfl⟩ <;> unfold Dict.Nodup <;> decide
  · cases h1
    cases h2

/-- C144: pending again. -/
example : ∃ d, Datasets.fetch store "pending_user" "dev" = (.ok (d, ⟨"Developer", 2, false⟩), store) ∧
    (Datasets.dataset store "pending_user" "emp").1 = .ok (1, true) ∧
    (Datasets.writeBack (Datasets.dataset store "pending_user" "emp").2 "pending_user" "dev" d ⟨"Developer", 2, false⟩).1 = .ok (2, false) ∧
    (Datasets.dataset (Datasets.writeBack (Datasets.dataset store "pending_user" "emp").2 "pending_user" "dev" d ⟨"Developer", 2, false⟩).2
      "pending_user" "emp").1 = .ok (1, true) :=
  Datasets.C144_pending_again (x := ⟨"Employee", 1, true⟩) (y := ⟨"Developer", 2, false⟩) (by decide) rfl rfl rfl

end Verif.Server.Demo
