import Verif.Interop.PresentProps
import Verif.Interop.Countable
import Verif.Verifier.Demo
/-!
# A wallet and a verifier at work

Shows that the hypotheses of C114 and C115 can be met. The wallet holds an employee's and a developer's credential. A request for the first is answered;
a request for both is not.
-/
namespace Verif
deriving instance Countable for Vp
deriving instance Countable for VpClaims
deriving instance Countable for Dif.FilterValue, Dif.ClaimFormat
deriving instance Countable for Dif.Filter
deriving instance Countable for Dif.Field
deriving instance Countable for Dif.Constraints
deriving instance Countable for Dif.InputDescriptor
deriving instance Countable for Dif.PresentationDefinition
deriving instance Countable for Verifier.ResponseType, Verifier.ClientIdScheme
deriving instance Countable for Verifier.TokenEndpointAuth, GrantType, ResponseType, Verifier.VpFormat
deriving instance Countable for Verifier.OAuthClient
deriving instance Countable for Verifier.Metadata
deriving instance Countable for Verifier.RequestObject

/-- Different values of a countable type can be written as different texts. -/
theorem texts (α : Type) [Countable α] : ∃ f : α → String, ∃ g : String → Option α, ∀ a, g (f a) = some a := by
  classical
  obtain ⟨f, hf⟩ := exists_injective_nat α
  refine ⟨fun c => String.ofList (List.replicate (f c) 't'),
    fun t => if h : ∃ a, f a = t.toList.length then some h.choose else none, fun a => ?_⟩
  have h : ∃ b, f b = (String.ofList (List.replicate (f a) 't')).toList.length := ⟨a, by simp⟩
  simp only
  rw [dif_pos h]
  refine congrArg some (hf ?_)
  rw [h.choose_spec]
  simp

namespace Interop.PresentDemo

noncomputable def vpText : VpClaims → String := (texts VpClaims).choose
noncomputable def vpRead : String → Option VpClaims := (texts VpClaims).choose_spec.choose
theorem vpRead_text (c : VpClaims) : vpRead (vpText c) = some c := (texts VpClaims).choose_spec.choose_spec c
noncomputable def roText : Verifier.RequestObject → String := (texts Verifier.RequestObject).choose
noncomputable def roRead : String → Option Verifier.RequestObject := (texts Verifier.RequestObject).choose_spec.choose
theorem roRead_text (c : Verifier.RequestObject) : roRead (roText c) = some c := (texts Verifier.RequestObject).choose_spec.choose_spec c

/-- A credential of some type, good until time 1000. -/
def vc (t : String) : Vc where
  context := [baseContext]
  type_ := .many ["VerifiableCredential", t]
  issuer := .string "https://issuer.example"
  subject := .one { id := some "did:alice", claims := [("level", .num "7")] }
  validUntil := some 1000

/-- The wallet's two credentials. -/
def held (t : String) : Holder.Credential := ⟨"urn:" ++ t, "https://issuer.example", vc t, t ++ ".jwt", 0, none, none⟩

/-- What the libraries read: the type of a credential, the first credential of a presentation. -/
def query (p : String) (j : Json) : Option (List Json) :=
  if p = "$.verifiableCredential[0]" then
    match j with
    | .obj [("verifiableCredential", .arr (x :: _))] => some [x]
    | _ => some []
  else if p = "$.type" then
    match j with
    | .obj [("type", x)] => some [x]
    | _ => some []
  else none

/-- The verifier's provider. -/
noncomputable def provider : Verifier.Provider where
  verifier c := if c = "http://v.example" then some { oauth := { clientId := "md" } } else none
  signer _ := some "key"
  encodeRequest _ ro := some (roText ro)
  jose := {
    encodeVc := fun _ _ => none
    decodeVc := fun t =>
      if t = "Employee.jwt" then some ⟨"did:alice", none, "https://issuer.example", 0, "", none, vc "Employee"⟩
      else if t = "Developer.jwt" then some ⟨"did:alice", none, "https://issuer.example", 0, "", none, vc "Developer"⟩
      else none
    encodeVp := fun _ _ => none
    decodeVp := vpRead }
  ext := { query, regex := fun _ _ => none, isDate := fun _ => false, isDateTime := fun _ => false }
  vpJson vp := some (.obj [("verifiableCredential", .arr ((vp.credentials.getD []).map fun
    | .string t => .str t
    | .object _ => .null))])
  vcJson c := some (.obj [("type", match c.type_ with | .one t => .str t | .many l => .arr (l.map .str))])
  vcOfJson _ := none

/-- A descriptor asks for a credential of some type. -/
def wants (t : String) : Dif.InputDescriptor where
  id := t
  constraints := { fields := some [{ path := ["$.type"], filter := some ⟨"array", .const t⟩ }] }

/-- A request for credentials of some types. -/
def createReq (f : Verifier.DeviceFlow) (l : List String) : Verifier.CreateRequestRequest where
  clientId := "http://v.example"
  purpose := "entry"
  inputDescriptors := l.map wants
  deviceFlow := f

/-- The wallet's provider. It reads the verifier's first request object from any query string. -/
noncomputable def wallet (l : List String) : Holder.Provider where
  kid := "did:web:holder#k1"
  signProof c := c.nonce
  jose := {
    encodeVc := fun _ _ => none
    decodeVc := fun _ => none
    encodeVp := fun _ c => some (vpText c)
    decodeVp := fun _ => none }
  decodeRequest := roRead
  parseRequest _ := some (Verifier.CreateRequest.object (createReq .sameDevice l) "t" "tt" "ttt" { oauth := { clientId := "md" } })
  percentDecode t := some t
  codeChallenge v := v
  validTime _ := true

/-- Before each of the first three calls of the wallet the verifier serves another request. -/
noncomputable def net : VNet where
  env := Verifier.Demo.env
  provider _ := provider
  others i := if i < 3 then [{ provider, wait := 5, req := .createRequest (createReq .sameDevice ["Driver"]) }] else []
  rest _ _ c := match c with
    | .find c => some ((["Employee", "Developer"].filter fun t => c = (wants t).constraints).map held)
    | _ => none

/-- The verifier after it made the request. -/
noncomputable def verifier (f : Verifier.DeviceFlow) (l : List String) : World Verifier.VState :=
  (Verifier.step net.env (Verifier.start 0) { provider, req := .createRequest (createReq f l) }).2

noncomputable def env (f : Verifier.DeviceFlow) (l : List String) : Holder.HEnv where
  rng n := String.ofList (List.replicate (n + 1) 'k')
  fault _ := .ok
  oracle := net.oracle (verifier f l) 0

/-- How the wallet is told. -/
def url : Verifier.DeviceFlow → String
  | .crossDevice => "http://v.example/request/tt"
  | .sameDevice => "openid4vp://?client_id=x&presentation_definition=y"

theorem agrees (l : List String) : Agrees net (wallet l) "http://v.example" where
  signed _ ro := ⟨"key", roText ro, rfl, rfl, roRead_text ro⟩
  presented c := ⟨vpText c, rfl, fun _ => vpRead_text c⟩
  reads _ vp := by
    refine ⟨_, rfl, fun t l h => ?_, fun h => ?_⟩
    · simp [net, provider, query, h]
    · simp [net, provider, query, h]

theorem trusts (t : String) (h : t = "Employee" ∨ t = "Developer") : Trusts net (held t) := by
  intro i
  rcases h with rfl | rfl
  · exact ⟨_, rfl, rfl⟩
  · exact ⟨_, rfl, rfl⟩

theorem meeting (f : Verifier.DeviceFlow) (l : List String) (hl : l ≠ []) (creds : List Holder.Credential)
    (hfound : ∀ t l', l = t :: l' → net.rest [] [] (.find (wants t).constraints) = some creds)
    (hcreds : ∀ c ∈ creds, ∃ t, c = held t ∧ (t = "Employee" ∨ t = "Developer")) :
    Meeting net (createReq f l) "tt" (verifier f l) (env f l) (Holder.start 0) (wallet l) (url f) creds where
  fresh := Verifier.Demo.env_inj
  noSlash i := by
    simp only [net, Verifier.Demo.env, Verifier.Demo.rng, String.toList_ofList]
    intro h
    have := List.eq_of_mem_replicate h
    exact absurd this (by decide)
  works _ := rfl
  made := by
    cases l with
    | nil => exact absurd rfl hl
    | cons t l =>
      cases f
      · exact ⟨Verifier.start 0, { provider, req := .createRequest (createReq .crossDevice (t :: l)) }, { requestUri := some (url .crossDevice) }, rfl, rfl, rfl,
          nofun, .uri _ rfl rfl (by decide +kernel)⟩
      · exact ⟨Verifier.start 0, { provider, req := .createRequest (createReq .sameDevice (t :: l)) }, { requestObject := some _ }, rfl, rfl, rfl,
          nofun, .object _ _ rfl rfl rfl (by decide +kernel)⟩
  alone j s hs := by
    simp only [net] at hs
    split at hs
    · rw [List.mem_singleton] at hs
      subst hs
      rintro ⟨r, h, _⟩
      cases h
    · cases hs
  walletWorks _ := rfl
  walletFresh := by
    intro i j h
    have h := congrArg String.toList h
    simp only [env, String.toList_ofList] at h
    have := congrArg List.length h
    simp only [List.length_replicate] at this
    omega
  reachable := ⟨0, [], rfl⟩
  connected := rfl
  agrees := agrees l
  finds d ds h recent := by
    cases l with
    | nil => exact absurd rfl hl
    | cons t l =>
      cases h
      exact hfound t l rfl
  trusts c hc := by
    obtain ⟨t, rfl, ht⟩ := hcreds c hc
    exact trusts t ht

theorem finds_employee : net.rest [] [] (.find (wants "Employee").constraints) = some [held "Employee"] := rfl
theorem finds_developer : net.rest [] [] (.find (wants "Developer").constraints) = some [held "Developer"] := rfl

/-- The wallet's credentials are of the type they are said to be. -/
theorem fits (t : String) (now : Int) (h : now ≤ 1000) : Fits provider now (wants t) (held t) := by
  refine ⟨fun f hf => (nomatch hf), ?_, fun u hu => ?_⟩
  · intro fs hfs
    cases hfs
    refine ⟨_, rfl, fun f hf => .inl ?_⟩
    rw [List.mem_singleton] at hf
    subst hf
    refine ⟨_, ⟨[], "$.type", [], [], rfl, nofun, rfl⟩, fun flt hflt => ?_⟩
    cases hflt
    exact .arrayHas _ _ (.tail _ (.head _))
  · cases hu
    exact h

/-- And of no other. -/
theorem unfit (t u : String) (ht : t ≠ u) (hv : t ≠ "VerifiableCredential") (now : Int) : ¬ Fits provider now (wants t) (held u) := by
  rintro ⟨_, hs, _⟩
  obtain ⟨j, hj, hall⟩ := hs _ rfl
  cases hj
  rcases hall _ (.head _) with ⟨n, hsel, hacc⟩ | ⟨h, _⟩
  · obtain ⟨pre, p, post, ns, hp, _, hq⟩ := hsel
    have hp' : pre = [] ∧ p = "$.type" := by
      cases pre with
      | nil => cases hp; exact ⟨rfl, rfl⟩
      | cons a l => cases l <;> simp at hp
    rw [hp'.2] at hq
    cases hq
    have := hacc _ rfl
    change Dif.Accepts _ (.const t) (.arr [.str "VerifiableCredential", .str u]) at this
    cases this with
    | arrayHas c l hm =>
      simp only [List.mem_cons, Json.str.injEq, List.not_mem_nil, or_false] at hm
      exact hm.elim hv ht
  · cases h

/-- The wallet's steps: it asks, agrees and presents, three seconds apart. -/
noncomputable def by_ (l : List String) (r : Holder.Req) : Holder.HStep := { provider := wallet l, wait := 3, req := r }

/-- The wallet after asking and agreeing. -/
noncomputable def agreed (l : List String) : Holder.HWorld :=
  Holder.exec (env .sameDevice l) (Holder.start 0) [by_ l (.request (url .sameDevice)), by_ l (.authorizePresentation "k")]

/-- What is in a wallet's history after a request for these. -/
theorem notAnswered (l : List String) (hl : l = ["Employee"] ∨ l = ["Employee", "Developer"]) : NotAnswered "tt" ((agreed l).log.drop 0) := by
  have hlog : ((agreed l).log.drop 0).map (·.events.map (·.call)) = [[.find (wants "Employee").constraints], []] := by
    rcases hl with rfl | rfl <;> rfl
  intro en hen ev hev uri r hc
  have h1 := List.mem_map_of_mem (f := fun x : Holder.Entry => x.events.map (·.call)) hen
  have h2 := List.mem_map_of_mem (f := fun x : Holder.Event => x.call) hev
  rw [hlog] at h1
  rw [hc] at h2
  simp only [List.mem_cons, List.not_mem_nil, or_false] at h1
  rcases h1 with h1 | h1 <;> rw [h1] at h2 <;> simp at h2

-- C114: an employee's credential is asked for; the wallet presents it and it is accepted
example : ∃ r, (Holder.step (env .sameDevice ["Employee"]) (agreed ["Employee"]) (by_ ["Employee"] (.present "k"))).1 = .ok (.presented r) := by
  obtain ⟨k, w1, h1, h⟩ := C114_one_credential_accepted (s1 := by_ ["Employee"] (.request (url .sameDevice)))
    (meeting .sameDevice ["Employee"] (by simp) [held "Employee"] (fun _ _ h => by cases h; exact finds_employee)
      (by intro c hc; rw [List.mem_singleton] at hc; exact ⟨_, hc, .inl rfl⟩)) (d := wants "Employee") rfl
    ⟨_, .head _, _, rfl, _, .head _, _, _, rfl⟩ (fun i now hn => fits _ _ (hn _ rfl)) rfl rfl
  have hk : k = "k" := by
    have := congrArg Prod.fst h1
    cases this
    rfl
  subst hk
  obtain ⟨w2, h2, h⟩ := h [] (by_ _ (.authorizePresentation "k")) nofun rfl
  have hw1 := congrArg Prod.snd h1
  have hw2 := congrArg Prod.snd h2
  simp only at hw1 hw2
  subst hw1
  subst hw2
  exact h [] (by_ _ (.present "k")) nofun rfl rfl _ rfl (notAnswered _ (.inl rfl)) _ rfl (fun t ht => by
    cases ht
    show (5 : Int) ≤ 1000
    decide)

/-- **C115**: the wallet finds a credential for each of the two that are asked for, and its presentation is refused. -/
theorem C115_each_held_both_refused :
    (∀ t ∈ ["Employee", "Developer"], ∃ c, net.rest [] [] (.find (wants t).constraints) = some [c] ∧ ∀ now ≤ 1000, Fits provider now (wants t) c) ∧
    ∀ r, (Holder.step (env .sameDevice ["Employee", "Developer"]) (agreed ["Employee", "Developer"])
      (by_ ["Employee", "Developer"] (.present "k"))).1 ≠ .ok (.presented r) := by
  refine ⟨fun t ht => ?_, ?_⟩
  · simp only [List.mem_cons, List.not_mem_nil, or_false] at ht
    rcases ht with rfl | rfl
    · exact ⟨_, finds_employee, fun now h => fits _ _ h⟩
    · exact ⟨_, finds_developer, fun now h => fits _ _ h⟩
  · obtain ⟨k, w1, h1, h⟩ := C115_several_credentials_refused (s1 := by_ ["Employee", "Developer"] (.request (url .sameDevice)))
      (meeting .sameDevice ["Employee", "Developer"] (by simp) [held "Employee"] (fun _ _ h => by cases h; exact finds_employee)
        (by intro c hc; rw [List.mem_singleton] at hc; exact ⟨_, hc, .inl rfl⟩))
      (by
        intro c hc
        rw [List.mem_singleton] at hc
        subst hc
        exact ⟨wants "Developer", .tail _ (.head _), fun _ now => unfit _ _ (by decide) (by decide) now⟩) rfl rfl
    have hk : k = "k" := by
      have := congrArg Prod.fst h1
      cases this
      rfl
    subst hk
    obtain ⟨w2, h2, h⟩ := h [] (by_ _ (.authorizePresentation "k")) nofun rfl
    have hw1 := congrArg Prod.snd h1
    have hw2 := congrArg Prod.snd h2
    simp only at hw1 hw2
    subst hw1
    subst hw2
    exact h [] (by_ _ (.present "k")) nofun rfl rfl (notAnswered _ (.inr rfl))

-- the same by the URI of the request object
example := C114_accepted_iff (s1 := by_ ["Employee"] (.request (url .crossDevice)))
  (meeting .crossDevice ["Employee"] (by simp) [held "Employee"] (fun _ _ h => by cases h; exact finds_employee)
    (by intro c hc; rw [List.mem_singleton] at hc; exact ⟨_, hc, .inl rfl⟩)) rfl rfl

end Interop.PresentDemo
end Verif
