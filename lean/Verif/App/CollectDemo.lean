import Verif.App.CollectProps
import Verif.Interop.Demo
/-!
# The example wallet and the issuer at work

Shows that the hypotheses of C169 can be met: one credential is collected, two are not.
-/
namespace Verif.App.CollectDemo
open Interop.Demo (md claims provider net wallet understands undisturbed issuer offerStep wantsProofs)

/-- An offer of one credential. -/
def oneReq : Issuer.CreateOfferRequest := { Issuer.Demo.offerReq with configIds := ["Employee"] }
def oneStep : Issuer.Step := { provider, req := .createOffer oneReq }
def issuerOne : World Issuer.State := (Issuer.step Issuer.Demo.env (Issuer.start 0) oneStep).2
def offerOne : Issuer.CredentialOffer where
  credentialIssuer := "http://vercre.io"
  configIds := ["Employee"]
  grants := some ⟨none, some ⟨"t", true, none⟩⟩

theorem offered : (Issuer.step Issuer.Demo.env (Issuer.start 0) oneStep).1 = .ok (.createOffer ⟨.object offerOne, some "123456"⟩) := rfl

def rng (n : Nat) : String := String.ofList (List.replicate (n + 1) 'k')

theorem rng_inj : ∀ i j, rng i = rng j → i = j := by
  intro i j h
  have h := congrArg (fun s => s.toList.length) h
  simpa [rng] using h

/-- The application. -/
noncomputable def around : Around where
  provider := wallet
  env := { rng, fault := fun _ => .ok, oracle := net.oracle issuerOne 0 }
  disk _ := true
  readOffer e := if e = "one" then some offerOne else none
  dif := { query := fun _ _ => none, regex := fun _ _ => none, isDate := fun _ => false, isDateTime := fun _ => false }
  toJson _ := none

/-- One credential arrives: C169. -/
example : ∃ c, c.issuer = "http://vercre.io" ∧ c.vc.subject = .one { id := some "did:web:holder", claims := claims "emp-1" } ∧
    IsStored c.id (some (.credential c)) (after around (opened 0 []) (collectCmds 7 8 9 10 "one" (some "123456"))) ∧
    (AllReadable (opened 0 []) → (after around (opened 0 []) (collectCmds 7 8 9 10 "one" (some "123456"))).sub = .credential ∧
      c ∈ (after around (opened 0 []) (collectCmds 7 8 9 10 "one" (some "123456"))).credential) :=
  C169_offer_ends_in_store_partial (n := net) (w := Issuer.start 0) (st := oneStep) (req := oneReq) (o := offerOne) (md := md)
    (subj := "normal") (cid := "Employee") (id := "emp-1") (claims := claims "emp-1") (a := around) Issuer.Demo.env_fresh ⟨0, [], rfl⟩ rfl offered
    ⟨_, rfl, by decide⟩ rfl (.byVal ..)
    (fun _ => ⟨rfl, rfl, _, _, _, rfl, rfl, by decide, rfl, _, _, rfl, rfl, by decide⟩)
    (by simp [Dict.Nodup, Dict.keys, md])
    (by
      intro cid hc
      simp only [offerOne, List.mem_cons, List.not_mem_nil, or_false] at hc
      subst hc
      exact ⟨_, .head _⟩)
    (fun _ => rfl) (by decide) rfl rfl
    (fun _ => ⟨⟨_, .head _, ⟨_, rfl⟩, nofun, ⟨_, rfl, .head _⟩, ⟨_, rfl, fun _ => rfl⟩, by decide, ⟨_, _, _, rfl⟩, fun _ => ⟨_, rfl⟩⟩, ⟨_, rfl, rfl, rfl⟩⟩)
    rng_inj (fun _ => rfl) (fun _ => rfl) (understands _ _) (past := []) rfl rfl rfl rfl (fun _ _ => undisturbed _ _ _)

/-! ### Two credentials -/

/-- As `net`, with simpler texts. -/
noncomputable def netTwo : Interop.Net := { net with encode := fun _ => "text" }

/-- The application, given the offer of two credentials of `Interop.Demo`. -/
noncomputable def aroundTwo : Around := { around with
  provider := { wallet with jose := { wallet.jose with decodeVc := fun _ => none } }
  env := { rng, fault := fun _ => .ok, oracle := netTwo.oracle issuer 0 }
  readOffer := fun e => if e = "two" then some Interop.Demo.offer else none }

/-- Opened, accepted, with the PIN. -/
noncomputable def ready : App := after aroundTwo (opened 0 []) [(7, .offer "two"), (8, .accept), (9, .pin "123456")]

/-- Tokens received. -/
theorem ready_tokens : (Interop.Demo.tokens (serve aroundTwo ready 10 .credentials).2.world.log).map
    (fun t => t.authorizationDetails.map fun l => l.flatMap (·.identifiers)) = [some ["emp-1", "dev-1"]] := rfl

/-- Two credentials do not arrive: C169. -/
example : (∀ v, (serve aroundTwo ready 10 .credentials).1 ≠ .view v) ∧ (serve aroundTwo ready 10 .credentials).2.files = ready.files :=
  C169_violated_two_are_never_collected (n := netTwo) Issuer.Demo.env_fresh (w1 := issuer) ⟨0, [offerStep], rfl⟩
    ⟨wantsProofs.proofs, wantsProofs.ready, wantsProofs.same⟩ (a := aroundTwo) rng_inj rfl rfl
    (by
      intro en hen _ q tr htr
      have ht : tr ∈ Interop.Demo.tokens (serve aroundTwo ready 10 .credentials).2.world.log :=
        List.mem_flatMap.2 ⟨en, hen, List.mem_filterMap.2 ⟨_, htr, rfl⟩⟩
      have hl := List.mem_map_of_mem (f := fun t : Issuer.TokenResponse => t.authorizationDetails.map fun l => l.flatMap (·.identifiers)) ht
      rw [ready_tokens, List.mem_singleton] at hl
      obtain ⟨l, h1, h2⟩ := Option.map_eq_some_iff.1 hl
      exact ⟨l, h1, by rw [h2]; decide⟩)

end Verif.App.CollectDemo
