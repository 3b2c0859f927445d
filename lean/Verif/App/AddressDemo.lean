import Verif.App.AddressProps
import Verif.App.Demo
/-!
# Cases of C207
-/
namespace Verif.App.AddressDemo
open Holder (Call Entry Issuance InOrder IsOffer flowOf addressee)
open App.Demo (around begin timed)

set_option maxRecDepth 20000

/-- An issuer that is known by its address, except that the example issuer always calls itself `http://vercre.io`. -/
def named (u : String) : Verif.Issuer :=
  { credentialIssuer := if u = "http://localhost:8080" then "http://vercre.io" else u, configs := [("Employee", Holder.Demo.employee)] }

def there : Around := { around with
  env := { App.Demo.env with oracle := fun log recent => fun
    | .metadata u => some (named u)
    | c => App.Demo.oracle log recent c } }

/-- Where everything went, for each call of the library. -/
def went (en : Entry) : List (String × Option String × Option (String × RouteHandler)) := en.events.filterMap fun ev =>
  (sent ev.call).map fun x => (x.url, x.authorization, (reaches x).map fun p => (String.ofList p.1, p.2))

def collect (offer : String) : List (Nat × Cmd) := timed [.reset, .offer offer, .accept, .credentials]

-- the issuer is reached when it names itself
example : (after there begin (collect "http://issuer.example")).world.log.map went = [
    [("http://issuer.example/.well-known/openid-credential-issuer", none, some ("issuer.example", .metadata)),
     ("http://issuer.example/.well-known/oauth-authorization-server", none, some ("issuer.example", .oauthServer))], [],
    [("http://issuer.example/token", none, some ("issuer.example", .token))],
    [("http://issuer.example/credential", some "Bearer at-1", some ("issuer.example", .credential)),
     ("http://logo", none, none)], []] := by decide +kernel

-- the example issuer is not
example : (after there begin (collect "http://localhost:8080")).world.log.map went = [
    [("http://localhost:8080/.well-known/openid-credential-issuer", none, some ("localhost:8080", .metadata)),
     ("http://localhost:8080/.well-known/oauth-authorization-server", none, some ("localhost:8080", .oauthServer))], [],
    [("http://vercre.io/token", none, some ("vercre.io", .token))],
    [("http://vercre.io/credential", some "Bearer at-1", some ("vercre.io", .credential)),
     ("http://logo", none, none)], []] := by decide +kernel

-- and an identifier that ends with `/` leads nowhere
example : (after there begin (collect "http://issuer.example/")).world.log.head?.map went = some
    [("http://issuer.example//.well-known/openid-credential-issuer", none, none),
     ("http://issuer.example//.well-known/oauth-authorization-server", none, none)] := by decide +kernel

/-! ### The hypotheses of the theorems -/

def offers (u : String) (en : Entry) : Bool := match en.req with
  | .offer r => r.offer.credentialIssuer == u
  | _ => true

theorem offers_all {u k : String} {pre : List Entry} (h : pre.all (offers u) = true) (off : Issuer.CredentialOffer) (md : Verif.Issuer)
    (ho : InOrder [IsOffer k off md] pre) : off.credentialIssuer = u := by
  obtain ⟨p, y, q, rfl, ⟨⟨r, hr, rfl⟩, _⟩, _⟩ := ho
  have := List.all_eq_true.mp h y (by simp)
  simp only [offers, hr] at this
  exact eq_of_beq this

def answers (f : String → String) (en : Entry) : Bool := en.events.all fun ev => match ev with
  | ⟨.metadata i, some (md : Verif.Issuer)⟩ => md.credentialIssuer == f i
  | _ => true

theorem answers_all {f : String → String} {pre : List Entry} (h : pre.all (answers f) = true) : ∀ y ∈ pre, ∀ (i : String) (md : Verif.Issuer),
    (⟨.metadata i, some md⟩ : Holder.Event) ∈ y.events → md.credentialIssuer = f i := by
  intro y hy i md hm
  have := List.all_eq_true.mp (List.all_eq_true.mp h y hy) _ hm
  exact eq_of_beq this

/-- What the library did before the token was asked for. -/
def before (offer : String) : List Entry := (after there begin (collect offer)).world.log.take 2

/-- The hypotheses of `C207_sent_under_named_issuer_partial` and `C207_own_name_arrives_partial`: the third call sent something, for the flow of the offer. -/
example : there.env.Fresh ∧ (∃ en post, (after there begin (collect "http://issuer.example")).world.log = before "http://issuer.example" ++ en :: post ∧
      (∃ k, flowOf en.req = some k ∧ ∀ off md, InOrder [IsOffer k off md] (before "http://issuer.example") → off.credentialIssuer = "http://" ++ "issuer.example") ∧
      (en.events.filterMap fun ev => addressee ev.call) = ["http://issuer.example"]) ∧
    IsHost "issuer.example" ∧
    (∀ y ∈ before "http://issuer.example", ∀ (md : Verif.Issuer), (⟨.metadata ("http://" ++ "issuer.example"), some md⟩ : Holder.Event) ∈ y.events →
      md.credentialIssuer = "http://" ++ "issuer.example") :=
  ⟨Holder.Demo.rng_inj,
   ⟨_, _, (List.take_append_drop 2 _).symm, ⟨_, rfl, offers_all (by decide +kernel)⟩, by decide +kernel⟩, (by unfold IsHost; decide +kernel),
   fun y hy md hm => answers_all (f := id) (by decide +kernel) y hy _ md hm⟩

/-- The hypotheses of `C207_example_issuer_missed`. -/
example : there.env.Fresh ∧ (∃ en post, (after there begin (collect "http://localhost:8080")).world.log = before "http://localhost:8080" ++ en :: post ∧
      (∃ k, flowOf en.req = some k ∧ ∀ off md, InOrder [IsOffer k off md] (before "http://localhost:8080") → off.credentialIssuer = "http://localhost:8080") ∧
      (en.events.filterMap fun ev => addressee ev.call) = ["http://vercre.io"]) ∧
    (∀ y ∈ before "http://localhost:8080", ∀ (i : String) (md : Verif.Issuer), (⟨.metadata i, some md⟩ : Holder.Event) ∈ y.events →
      ∀ m, publishedBy i = some m → md.credentialIssuer = m.credentialIssuer) :=
  ⟨Holder.Demo.rng_inj,
   ⟨_, _, (List.take_append_drop 2 _).symm, ⟨_, rfl, offers_all (by decide +kernel)⟩, by decide +kernel⟩,
   fun y hy i md hm m hp => by
    have := answers_all (f := fun _ => "http://vercre.io") (by decide +kernel) y hy i md hm
    unfold publishedBy at hp
    split at hp
    · cases hp; exact this
    · cases hp⟩

/-- The hypotheses of `C207_published_endpoints_ignored`: an issuer whose endpoints are elsewhere. -/
example : ∃ (m : Wire.IssuerMeta) (u : String) (c : Call) (x : HttpSent), u ≠ m.credentialIssuer ++ "/token" ∧ m.credentialEndpoint ≠ m.credentialIssuer ++ "/credential" ∧
    addressee c = some m.credentialIssuer ∧ sent c = some x :=
  ⟨{ credentialIssuer := "http://issuer.example", credentialEndpoint := "http://api.issuer.example/v1/credentials" }, "http://login.issuer.example/token",
   .credential { credentialIssuer := "http://issuer.example", accessToken := "at-1", credential := .identifier "emp-1", proof := none }, _, by decide +kernel, by decide +kernel, rfl, rfl⟩

/-- The hypotheses of `C207_deferred_not_served`. -/
example : ∃ m u, publishedBy "http://vercre.io" = some m ∧ m.deferredEndpoint = some u := ⟨_, _, if_pos (.inr rfl), rfl⟩

-- `C207_metadata_address_iff`, both ways
example : (sent (.metadata "http://issuer.example/")).map (·.url) = some "http://issuer.example//.well-known/openid-credential-issuer" ∧
    wellKnown "http://issuer.example/" = "http://issuer.example/.well-known/openid-credential-issuer" ∧
    (sent (.metadata "http://issuer.example")).map (·.url) = some (wellKnown "http://issuer.example") := by decide +kernel

/-- The hypotheses of `C207_handlers_reached_partial` and `C207_slash_reaches_nothing`. -/
example : IsHost "issuer.example:8080" ∧ Meant (.metadata "http://issuer.example:8080") ("http://" ++ "issuer.example:8080") .metadata :=
  ⟨by unfold IsHost; decide +kernel, by decide +kernel, rfl⟩

end Verif.App.AddressDemo
