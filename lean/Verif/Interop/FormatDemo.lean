import Verif.Interop.FormatProps
/-!
# Requests that restrict formats: the hypotheses of C203 can be met
-/
namespace Verif.Interop.FormatDemo
open Verif Verif.Verifier.Demo

/-- The definition in the request of `Verifier/Demo.lean`. -/
def asked : Dif.PresentationDefinition := Verifier.CreateRequest.definition "t" (createReq .crossDevice)

/-- What is kept of that request. -/
def kept : Verifier.VState := { expiresAt := Verifier.requestDur, requestObject := Verifier.CreateRequest.object (createReq .crossDevice) "t" "tt" "ttt" { oauth := { clientId := "md" } } }

theorem kept_stored : w1.store "tt" = some kept := rfl

/-- The same, with the algorithms that are accepted restricted to one that nobody uses. -/
def strict : Dif.PresentationDefinition := { asked with format := some [("jwt_vc", { alg := some ["none such"] })] }

-- C203: a response is accepted although no algorithm can be the one asked for
example : ((Verifier.response provider (resp (.string "vp.jwt"))).run env (redefined w1 "tt" kept strict)).1 = .ok accepted :=
  (C203_restrictions_ignored kept_stored (d := asked) (d' := strict) rfl rfl rfl).2 rfl

/-- The request, for credentials with Linked Data proofs. -/
def linked : Dif.PresentationDefinition :=
  { asked with inputDescriptors := asked.inputDescriptors.map fun i => { i with format := some [("ldp_vc", { proofType := some ["Ed25519Signature2018"] }), ("ldp", {})] } }

-- C203: a token is accepted if it is called a credential with a Linked Data proof, under either name, and not under its own
example : ((Verifier.response provider (called (resp (.string "vp.jwt")) fun _ => "ldp")).run env (redefined w1 "tt" kept linked)).1 = .ok accepted :=
  C203_name_decides (name := fun _ => "ldp_vc") rfl fun k s d subm hk hs hd hsub i hi f hf m hm _ => by
    cases hk; cases hs; cases hd
    simp only [linked, List.mem_map] at hi
    obtain ⟨_, _, rfl⟩ := hi
    cases hf
    exact .tail _ (.head _)

example : ((Verifier.response provider (resp (.string "vp.jwt"))).run env (redefined w1 "tt" kept linked)).1 = .error (.invalidRequest "invalid format") := rfl

/-- A wallet that signs. -/
def wallet : Holder.Provider where
  kid := "did:web:holder#k1"
  signProof c := c.nonce
  jose := {
    encodeVc := fun _ _ => none
    decodeVc := fun _ => none
    encodeVp := fun _ _ => some "vp.jwt"
    decodeVp := fun _ => none }
  decodeRequest _ := none
  parseRequest _ := none
  percentDecode t := some t
  codeChallenge v := v
  validTime _ := true

/-- Its surroundings: nobody answers. -/
def around : Holder.HEnv where
  rng n := String.ofList (List.replicate (n + 1) 'k')
  fault _ := .ok
  oracle _ _ _ := none

/-- A definition that lists the format by the name that the verifier uses. -/
def named : Dif.PresentationDefinition :=
  { asked with inputDescriptors := asked.inputDescriptors.map fun i => { i with format := some [("jwt_vc", { alg := some ["EdDSA"] })] } }

/-- A presentation that the user has agreed to. -/
def flow : Holder.Presentation where
  id := "k"
  status := .authorized
  request := { kept.requestObject with presentationDefinition := .object named }
  credentials := [⟨"urn:1", "https://issuer.example", vc, "vc.jwt", 0, none, none⟩]
  filter := (named.inputDescriptors.head?.map (·.constraints)).getD {}

/-- The wallet that keeps it. -/
def keeping : Holder.HWorld := { Holder.start 0 with store := upd (fun _ => none) "k" (some (.presentation flow)), drawn := 1 }

-- C203: what this wallet sends is refused
example : ∃ en u req o, (Holder.step around keeping { provider := wallet, req := .present "k" }).2.log = keeping.log ++ [en] ∧
    (⟨.present u req, o⟩ : Holder.Event) ∈ en.events ∧
    ∀ P e' r, ((Verifier.response P req).run e' (redefined w1 "tt" kept named)).1 ≠ .ok r := by
  refine ⟨_, _, _, _, rfl, .head _, fun P e' r => ?_⟩
  exact C203_wallet_never_accepted (k := "k") (p := flow) (d := named) (e := around) (w := keeping) (st := { provider := wallet, req := .present "k" }) rfl rfl rfl
    (.head _) rfl (by decide) rfl (.head _) P e' _ "tt" { kept with requestObject := { kept.requestObject with presentationDefinition := .object named } }
    rfl rfl rfl r

end Verif.Interop.FormatDemo
