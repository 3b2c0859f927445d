import Verif.Verifier.Props
/-!
# A small concrete verifier

Shows that the hypotheses of C51 – C55 are met, and gives the concrete failures of C54 and C55.
-/
namespace Verif.Verifier.Demo
open Verif Prog

/-- Tokens `t`, `tt`, …. -/
def rng (n : Nat) : String := String.ofList (List.replicate (n + 1) 't')

/-- An environment without faults. -/
def env : Env := { rng, fault := fun _ => .ok }

theorem env_inj : ∀ i j, env.rng i = env.rng j → i = j := by
  intro i j h
  have h := congrArg String.toList h
  simp only [env, rng, String.toList_ofList] at h
  have := congrArg List.length h
  simp only [List.length_replicate] at this
  omega

/-- The credential the wallet holds: issued to `did:alice`. -/
def vc : Vc where
  context := [baseContext]
  type_ := .many ["VerifiableCredential", "Employee"]
  issuer := .string "https://issuer.example"
  subject := .one { id := some "did:alice", claims := [("level", .num "7")] }

/-- A presentation by `did:mallory`, with a made up proof for the nonce `ttt`. -/
def forged : Vp where
  context := [baseContext]
  credentials := some [.string "vc.jwt"]
  holder := some "did:mallory"
  proof := some (.one { type_ := "x", verificationMethod := "none", challenge := some "ttt", proofValue := "not a signature" })

/-- The only credential token in existence is `vc.jwt`; `vp.jwt` is a presentation made for some other audience. -/
def provider : Provider where
  verifier c := if c = "http://v.example" then some { oauth := { clientId := "md" } } else none
  signer _ := some "key"
  encodeRequest k ro := some (k ++ ":" ++ ro.nonce)
  jose := {
    encodeVc := fun _ _ => none
    decodeVc := fun t => if t = "vc.jwt" then some ⟨"did:alice", none, "https://issuer.example", 0, "", none, vc⟩ else none
    encodeVp := fun _ _ => none
    decodeVp := fun t => if t = "vp.jwt" then some ⟨"did:alice", "", "https://other.example", "ttt", 0, 0, 0, forged⟩ else none }
  ext := {
    query := fun p j => if p = "$.vc" then
        (match j with | .obj m => some ((Dict.get? m "vc").toList) | _ => some [])
      else if p = "$.level" then some [.num "7"] else some []
    regex := fun _ _ => none
    isDate := fun _ => false
    isDateTime := fun _ => false }
  vpJson vp := some (.obj [("vc", match vp.credentials with | some (.string t :: _) => .str t | _ => .null)])
  vcJson _ := some (.obj [("level", .num "7")])
  vcOfJson _ := none

/-- A request for an employee credential of level 7. -/
def createReq (f : DeviceFlow) : CreateRequestRequest where
  clientId := "http://v.example"
  purpose := "entry"
  inputDescriptors := [{ id := "employee", constraints := { fields := some [{ path := ["$.level"], filter := some ⟨"number", .const "7"⟩ }] } }]
  deviceFlow := f

/-- The world after the request was created at time 0. -/
def w1 : World VState := exec env (start 0) [{ provider, req := .createRequest (createReq .crossDevice) }]

/-- The submission that goes with it. -/
def submission : Dif.PresentationSubmission where
  id := "s"
  definitionId := "t"
  descriptorMap := [{ id := "employee", format := "jwt_vp", path := "$", pathNested := { format := "jwt_vc", path := "$.vc" } }]

/-- A response with the given presentation. -/
def resp (v : Kind Vp) : ResponseRequest where
  vpToken := some [v]
  submission := some submission
  state := some "tt"

theorem w1_reachable : Reachable env w1 := ⟨0, _, rfl⟩

/-- What an accepted response returns. -/
def accepted : ResponseResponse := { redirectUri := some "http://localhost:3000/cb", responseCode := none }

-- C51
example : ((createRequest provider (createReq .sameDevice)).run env (start 0)).1 =
    .ok { requestObject := some (CreateRequest.object (createReq .sameDevice) "t" "tt" "ttt" { oauth := { clientId := "md" } }) } := rfl

example : ((createRequest provider (createReq .crossDevice)).run env (start 0)).1 =
    .ok { requestUri := some "http://v.example/request/tt" } := rfl

example : ((requestObject provider ⟨"http://v.example", "tt"⟩).run env w1).1 = .ok "key:ttt" := rfl

example : ∃ x, ((requestObject provider ⟨"http://w.example", "tt"⟩).run env w1).1 = .error x := ⟨_, rfl⟩

-- C51, retrievability hypotheses: a rejected response in between
example : (exec env w1 [{ provider, req := .response { resp (.string "junk") with vpToken := none } }]).store "tt" = w1.store "tt" := rfl

-- C52, C53
example : ((response provider (resp (.string "vp.jwt"))).run env w1).1 = .ok accepted := rfl

/-- **C54 is false**, an instance: a response that arrives a day after the request, which was good for five minutes, is accepted. -/
theorem C54_expired_request_answered :
    ((response provider (resp (.string "vp.jwt"))).run env { w1 with now := 86400 * 1000000000 }).1 = .ok accepted ∧
    (∃ s, w1.store "tt" = some s ∧ s.expiresAt < 86400 * 1000000000) :=
  ⟨rfl, _, rfl, by decide⟩

/-- **C55 is false**, an instance: the attacker `did:mallory` knows the credential token issued to `did:alice` and presents it under their
own name, as an object with a meaningless proof. It is accepted. -/
theorem C55_stolen_credential_accepted :
    ((response provider (resp (.object forged))).run env w1).1 = .ok accepted ∧
    forged.holder = some "did:mallory" ∧ (∃ s, vc.subject = .one s ∧ s.id = some "did:alice") ∧
    (∀ t, t ≠ "vp.jwt" → provider.jose.decodeVp t = none) :=
  ⟨rfl, rfl, ⟨_, rfl, rfl⟩, fun t h => by simp [provider, h]⟩

/-- **C55 is false**, an instance: a presentation made for another verifier is accepted. -/
theorem C55_other_audience_accepted :
    ((response provider (resp (.string "vp.jwt"))).run env w1).1 = .ok accepted ∧
    (∃ c s, provider.jose.decodeVp "vp.jwt" = some c ∧ w1.store "tt" = some s ∧ c.aud = "https://other.example" ∧
      s.requestObject.clientId = "http://v.example/post") :=
  ⟨rfl, _, _, rfl, rfl, rfl, rfl⟩

end Verif.Verifier.Demo
