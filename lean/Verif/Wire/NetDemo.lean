import Verif.Wire.NetProps
import Verif.Interop.Demo
/-!
# A wallet and an issuer at work over text

Shows that the hypotheses of C127 can be met: the two parties of `Interop.Demo`, sending each other text.
-/
namespace Verif.Wire.Demo
open Interop (Net)

/-! ### What an issuer might publish -/

def displayOf (d : Verif.CredentialDisplay) : CredentialDisplay :=
  { name := d.name, locale := d.locale, description := d.description, logo := d.logoUri.map fun u => { uri := some u } }

def configOf (c : Verif.CredentialConfiguration) : CredentialConfiguration :=
  { format := formatOf c.format, scope := c.scope, proofTypes := c.proofTypes.map (·.map fun k => (k, ["ES256K"])), display := c.display.map (·.map displayOf) }

def pageOf (i : Verif.Issuer) : IssuerMeta :=
  { credentialIssuer := i.credentialIssuer, authorizationServers := i.authorizationServers, credentialEndpoint := i.credentialIssuer ++ "/credential"
    configs := i.configs.map fun p => (p.1, configOf p.2) }

def serverPageOf (s : Verif.Server) : ServerMeta :=
  { oauth := { issuer := "http://vercre.io", scopesSupported := s.scopesSupported, responseTypesSupported := s.responseTypesSupported,
               grantTypesSupported := s.grantTypesSupported, codeChallengeMethods := s.codeChallengeMethodsSupported, requirePar := s.requirePar }
    anonymousAccess := s.anonymousAccess }

theorem displaySeen_of (d : Verif.CredentialDisplay) : displaySeen (displayOf d) = d := by
  obtain ⟨a, b, c, d⟩ := d
  cases d <;> rfl

theorem configSeen_of (c : Verif.CredentialConfiguration) : configSeen (configOf c) = c := by
  obtain ⟨f, s, p, d⟩ := c
  have h1 : (p.map (·.map fun k => (k, ["ES256K"]))).map Dict.keys = p := by
    cases p with
    | none => rfl
    | some l => simp [Dict.keys, Function.comp_def]
  have h2 : (d.map (·.map displayOf)).map (·.map displaySeen) = d := by
    cases d with
    | none => rfl
    | some l => simp [Function.comp_def, displaySeen_of]
  simp only [configSeen, configOf, formatSeen_of, h1, h2]

theorem issuerSeen_of (i : Verif.Issuer) : issuerSeen (pageOf i) = i := by
  obtain ⟨a, b, c⟩ := i
  simp [issuerSeen, pageOf, Function.comp_def, configSeen_of]

theorem serverSeen_of (s : Verif.Server) : serverSeen (serverPageOf s) = s := rfl

/-! ### The network of `Interop.Demo` -/

noncomputable def net : TextNet where
  toNet := Interop.Demo.net
  page := pageOf
  serverPage := serverPageOf
  readPlain _ := none
  writePlain _ := .null

theorem employee_sound : (formatOf Issuer.Demo.employee.format).Sound := by
  simp [Issuer.Demo.employee, formatOf, definitionOf, claimsOf, claimOf, Format.Sound, CredentialDefinition.Sound, SoundClaims, SoundDict, Claim.Sound]

theorem md_plain : PlainIssuer Interop.Demo.md := by
  intro p hp
  simp only [Interop.Demo.md, List.mem_cons, List.not_mem_nil, or_false] at hp
  rcases hp with rfl | rfl
  · exact ⟨employee_sound, nofun⟩
  · exact ⟨trivial, nofun⟩

theorem page_sound : (pageOf Interop.Demo.md).Sound := by
  refine ⟨by simp [pageOf, Interop.Demo.md, Dict.Nodup, Dict.keys], ?_, fun _ h => nomatch h⟩
  intro p hp
  simp only [pageOf, Interop.Demo.md, List.map_cons, List.map_nil, List.mem_cons, List.not_mem_nil, or_false] at hp
  rcases hp with rfl | rfl
  · exact ⟨employee_sound, by rintro m ⟨⟩; simp [Dict.Nodup, Dict.keys]⟩
  · exact ⟨trivial, by rintro m ⟨⟩; simp [Dict.Nodup, Dict.keys]⟩

theorem published : net.Published := by
  intro i iss
  refine ⟨fun md h => ⟨issuerSeen_of md, ?_⟩, fun s _ => serverSeen_of s⟩
  have h : (if iss = "http://vercre.io" then some Interop.Demo.md else none) = some md := h
  split at h
  · cases h
    exact ⟨page_sound, md_plain⟩
  · cases h

theorem heard : net.Heard := by
  intro i s hs
  have hs : s ∈ (if i < 10 then [Interop.Demo.quiet] else []) := hs
  split at hs
  · rw [List.mem_singleton.1 hs]
    exact .metadata _
  · cases hs

/-- The wallet's surroundings. -/
noncomputable def env : Holder.HEnv := { Interop.Demo.env with oracle := net.oracle Interop.Demo.issuer 0 }

theorem history_sound : ∀ s ∈ Interop.Demo.history, SoundUse s.req := by
  intro st hst
  obtain ⟨r, hr, rfl⟩ := List.mem_map.1 hst
  exact collect_sound r hr

/-- C127: over text the wallet does what it does in `Interop.Demo`. -/
theorem same : Holder.exec env (Holder.start 0) Interop.Demo.history = Holder.exec Interop.Demo.env (Holder.start 0) Interop.Demo.history :=
  C127_text_makes_no_difference_partial (n := net) (t0 := 0) (x := Holder.start 0) published heard (history := [Interop.Demo.offerStep])
    (by intro s hs; rw [List.mem_singleton.1 hs]; exact .createOffer _) rfl (fun _ _ h => nomatch h) history_sound Interop.Demo.env.rng Interop.Demo.env.fault

/-- C127: two credentials, offered, collected and stored over text. -/
example : ∃ new, (Holder.exec env (Holder.start 0) Interop.Demo.history).log = [] ++ new ∧ (∀ en ∈ new, ∃ r, en.result = .ok r) ∧
    (Interop.savedIn new).map (fun c => (c.issuer, c.vc.subject)) =
      ["dev-1", "emp-1"].map (fun id => ("http://vercre.io", .one { id := some "did:web:holder", claims := Interop.Demo.claims id })) ∧
    (Holder.exec env (Holder.start 0) Interop.Demo.history).store "k" = none := by
  have hk : env.rng (Holder.start 0).drawn = "k" := rfl
  have hd : beforeHash Interop.Demo.wallet.kid = "did:web:holder" := rfl
  rw [← hk, ← hd]
  refine C127_wallet_collects_offer_over_text (n := net) published heard (w := Issuer.start 0) (s := Interop.Demo.offerStep) (req := Interop.Demo.offerReq)
    (offer := Interop.Demo.offer) (md := Interop.Demo.md) (client := "wallet") (subj := "normal") (claims := Interop.Demo.claims) (W := Interop.Demo.wallet)
    (oresp := ⟨.object Interop.Demo.offer, some "123456"⟩) (t0 := 0) (history := []) (hw' := Holder.start 0) (e := env) (hist := Interop.Demo.history)
    (want := ["dev-1", "emp-1"]) (oreq := { clientId := "wallet", subjectId := "alice", offer := Interop.Demo.offer })
    Issuer.Demo.env_fresh (fun _ h => nomatch h) rfl rfl Interop.Demo.offered ⟨_, rfl, by decide⟩ rfl (.byVal ..) (by decide) ?_ ?_ ?_ (fun _ => rfl) (by decide) ?_
    (fun _ _ h => nomatch h) rfl (fun _ _ _ => rfl) (fun _ => rfl) (Interop.Demo.understands _ _) rfl rfl ?_ ?_ (fun _ _ => Interop.Demo.undisturbed _ _ _)
  · exact fun _ => ⟨rfl, rfl, _, _, _, rfl, rfl, by decide, rfl, _, _, rfl, rfl, by decide⟩
  · simp [Dict.Nodup, Dict.keys, Interop.Demo.md]
  · intro cid hc
    simp only [Interop.Demo.offer, List.mem_cons, List.not_mem_nil, or_false] at hc
    rcases hc with rfl | rfl
    · exact ⟨_, .head _⟩
    · exact ⟨_, .tail _ (.head _)⟩
  · intro id hid
    simp only [List.mem_cons, List.not_mem_nil, or_false] at hid
    rcases hid with rfl | rfl
    · exact ⟨"Developer", by decide, ⟨_, rfl, .head _⟩, fun _ => ⟨⟨_, .tail _ (.head _), ⟨_, rfl⟩, nofun, ⟨_, rfl, .head _⟩,
        ⟨_, rfl, fun _ => rfl⟩, by decide, ⟨_, _, _, rfl⟩, fun _ => ⟨_, rfl⟩⟩, ⟨_, rfl, rfl, rfl⟩⟩⟩
    · exact ⟨"Employee", by decide, ⟨_, rfl, .head _⟩, fun _ => ⟨⟨_, .head _, ⟨_, rfl⟩, nofun, ⟨_, rfl, .head _⟩,
        ⟨_, rfl, fun _ => rfl⟩, by decide, ⟨_, _, _, rfl⟩, fun _ => ⟨_, rfl⟩⟩, ⟨_, rfl, rfl, rfl⟩⟩⟩
  · intro st hst; obtain ⟨_, _, rfl⟩ := List.mem_map.1 hst; rfl
  · simp [Interop.Demo.history]; rfl

/-- A selective-disclosure credential narrowed to the given name. -/
def narrowed : Issuer.TokenRequest where
  credentialIssuer := "http://vercre.io"
  clientId := some "wallet"
  grantType := .preAuthorizedCode "t" none
  authorizationDetails := some [{ credential := .configurationId "Identity_SD_JWT" (some (.sdJwt [("given_name", .entry {})])) }]

example : carried (.token narrowed) ≠ Interop.request (.token narrowed) :=
  (C127_narrowed_sd_jwt_becomes_mdoc narrowed "Identity_SD_JWT" _ (by simp [SoundDict, claimsOf, claimOf, Claim.Sound]) rfl).2

end Verif.Wire.Demo
