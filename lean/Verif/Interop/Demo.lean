import Verif.Interop.Props
import Verif.Interop.BatchProps
import Verif.Interop.Countable
/-!
# A wallet and an issuer at work

Shows that the hypotheses of C101 and C102 can be met: an offer of two credentials; collected one by one, while the issuer serves others, both are
saved; asked for together, none is.
-/
namespace Verif.Interop.Demo
open Verif

/-- Two credential configurations. -/
def md : Verif.Issuer where
  credentialIssuer := "http://vercre.io"
  configs := [("Employee", Issuer.Demo.employee), ("Developer", { Issuer.Demo.developer with proofTypes := some ["jwt"] })]

/-- The subject's data for each credential. -/
def claims (id : String) : Dict Json := if id = "emp-1" then [("email", .str "n@example.com")] else [("level", .str "senior")]

/-- The issuer's provider. A key proof here is the text of its nonce, made with `did:web:holder#k1`. -/
def provider : Issuer.Provider := { Issuer.Demo.provider with
  issuer := fun i => if i = "http://vercre.io" then some md else none
  dataset := fun s id => if s = "normal" then some { claims := claims id, pending := false } else none }

/-- What another client does before each of the first ten calls of the wallet, taking 20 seconds. -/
def quiet : Issuer.Step := { provider, wait := 20 * 1000000000, req := .metadata "http://vercre.io" }

/-- The network. -/
noncomputable def net : Net where
  env := Issuer.Demo.env
  provider _ := provider
  others i := if i < 10 then [quiet] else []
  encode := credential_texts.choose
  rest _ _ c := match c with
    | .save _ => some ()
    | _ => none

/-- What a credential says, as the wallet reads it. -/
def read : Issuer.IssuedCredential → Option VcClaims
  | .jwtVc _ vc iat => some ⟨"", none, "http://vercre.io", iat, "", none, vc⟩
  | .mdoc _ _ => none

open Classical in
/-- The wallet's provider. -/
noncomputable def wallet : Holder.Provider where
  kid := "did:web:holder#k1"
  signProof c := c.nonce
  jose := {
    encodeVc := fun _ _ => none
    decodeVc := fun t => if h : ∃ c, credential_texts.choose c = t then read h.choose else none
    encodeVp := fun _ _ => none
    decodeVp := fun _ => none }
  decodeRequest _ := none
  parseRequest _ := none
  percentDecode t := some t
  codeChallenge v := v
  validTime _ := true

theorem understands (lo hi : Int) : Understands net wallet lo hi where
  proofs c nonce h := ⟨nonce, h, fun _ => ⟨_, rfl, rfl, rfl, rfl⟩⟩
  credentials signer vc iat := by
    have hex : ∃ c, credential_texts.choose c = credential_texts.choose (.jwtVc signer vc iat) := ⟨_, rfl⟩
    have hc : hex.choose = .jwtVc signer vc iat := credential_texts.choose_spec _ _ hex.choose_spec
    refine ⟨⟨"", none, "http://vercre.io", iat, "", none, vc⟩, ?_, rfl, rfl⟩
    simp only [wallet, net]
    rw [dif_pos hex, hc]
    rfl
  times _ _ _ := rfl

/-- The offer. -/
def offerReq : Issuer.CreateOfferRequest := { Issuer.Demo.offerReq with configIds := ["Employee", "Developer"] }
def offerStep : Issuer.Step := { provider, req := .createOffer offerReq }

/-- The issuer once it has made the offer. -/
def issuer : World Issuer.State := (Issuer.step Issuer.Demo.env (Issuer.start 0) offerStep).2

def offer : Issuer.CredentialOffer where
  credentialIssuer := "http://vercre.io"
  configIds := ["Employee", "Developer"]
  grants := some ⟨none, some ⟨"t", true, none⟩⟩

theorem offered : (Issuer.step Issuer.Demo.env (Issuer.start 0) offerStep).1 = .ok (.createOffer ⟨.object offer, some "123456"⟩) := rfl

/-- The wallet's surroundings. -/
noncomputable def env : Holder.HEnv where
  rng n := String.ofList (List.replicate (n + 1) 'k')
  fault _ := .ok
  oracle := net.oracle issuer 0

theorem arrival (i : Nat) (w : World Issuer.State) : net.arrival i w = { w with now := w.now + if i < 10 then 20 * 1000000000 else 0 } := by
  unfold Net.arrival net
  simp only
  split
  · rfl
  · simp [Issuer.exec]

/-- The clock of the issuer while the wallet is at work. -/
theorem clock (w : World Issuer.State) (calls : List Holder.Call) :
    (net.after w calls).2.now ≤ w.now + 20 * 1000000000 * ((min (net.after w calls).1 10 : Nat) : Int) := by
  unfold Net.after
  have hinv : ∀ (calls : List Holder.Call) (s : Nat × World Issuer.State),
      s.2.now ≤ w.now + 20 * 1000000000 * ((min s.1 10 : Nat) : Int) →
      (calls.foldl net.next s).2.now ≤ w.now + 20 * 1000000000 * ((min (calls.foldl net.next s).1 10 : Nat) : Int) := by
    intro calls
    induction calls with
    | nil => intro s h; exact h
    | cons c calls ih =>
      intro s h
      refine ih _ ?_
      unfold Net.next
      split
      · exact h
      · simp only [Net.serve, Issuer.step_now, arrival]
        split <;> omega
  exact hinv calls (0, w) (by simp)

theorem undisturbed (w : World Issuer.State) (calls : List Holder.Call) (keys : String → Prop) : Undisturbed net w calls keys where
  intact _ _ := by rw [arrival]
  intime := by
    rw [arrival]
    have := clock w calls
    simp only [Issuer.sec]
    split <;> omega

/-- The wallet's calls, some time apart. -/
noncomputable def history : List Holder.HStep :=
  (collectCalls "k" { clientId := "wallet", subjectId := "alice", offer } (some "123456") ["dev-1", "emp-1"]).map fun r =>
    { provider := wallet, wait := 7, req := r }

example : ∃ new, (Holder.exec env (Holder.start 0) history).log = [] ++ new ∧ (∀ en ∈ new, ∃ r, en.result = .ok r) ∧
    (savedIn new).map (fun c => (c.issuer, c.vc.subject)) =
      ["dev-1", "emp-1"].map (fun id => ("http://vercre.io", .one { id := some "did:web:holder", claims := claims id })) ∧
    (Holder.exec env (Holder.start 0) history).store "k" = none :=
  C101_wallet_collects_offer (n := net) (w := Issuer.start 0) (s := offerStep) (req := offerReq) (offer := offer) (md := md) (client := "wallet")
    (subj := "normal") (claims := claims) (W := wallet) Issuer.Demo.env_fresh ⟨0, [], rfl⟩ rfl offered ⟨_, rfl, by decide⟩ rfl
    (.byVal ..) (by decide)
    (fun _ => ⟨rfl, rfl, _, _, _, rfl, rfl, by decide, rfl, _, _, rfl, rfl, by decide⟩)
    (by simp [Dict.Nodup, Dict.keys, md])
    (by
      intro cid hc
      simp only [offer, List.mem_cons, List.not_mem_nil, or_false] at hc
      rcases hc with rfl | rfl
      · exact ⟨_, .head _⟩
      · exact ⟨_, .tail _ (.head _)⟩)
    (fun _ => rfl) (by decide)
    (by
      intro id hid
      simp only [List.mem_cons, List.not_mem_nil, or_false] at hid
      rcases hid with rfl | rfl
      · exact ⟨"Developer", by decide, ⟨_, rfl, .head _⟩, fun _ => ⟨⟨_, .tail _ (.head _), ⟨_, rfl⟩, nofun, ⟨_, rfl, .head _⟩,
          ⟨_, rfl, fun _ => rfl⟩, by decide, ⟨_, _, _, rfl⟩, fun _ => ⟨_, rfl⟩⟩, ⟨_, rfl, rfl, rfl⟩⟩⟩
      · exact ⟨"Employee", by decide, ⟨_, rfl, .head _⟩, fun _ => ⟨⟨_, .head _, ⟨_, rfl⟩, nofun, ⟨_, rfl, .head _⟩,
          ⟨_, rfl, fun _ => rfl⟩, by decide, ⟨_, _, _, rfl⟩, fun _ => ⟨_, rfl⟩⟩, ⟨_, rfl, rfl, rfl⟩⟩⟩)
    rfl (fun _ _ _ => rfl) (fun _ => rfl) (understands _ _) rfl rfl
    (by intro st hst; obtain ⟨_, _, rfl⟩ := List.mem_map.1 hst; rfl) (by simp [history]; rfl) (fun _ _ => undisturbed _ _ _)

/-! ### C102: both at once -/

theorem wantsProofs : WantsProofs net where
  proofs j url iss cid cfg h hc := by
    simp only [net, provider] at h
    split at h
    · cases h
      simp only [md, List.mem_cons, Prod.mk.injEq, List.not_mem_nil, or_false] at hc
      rcases hc with ⟨_, rfl⟩ | ⟨_, rfl⟩ <;> rfl
    · cases h
  ready j subj id ds h := by
    simp only [net, provider] at h
    split at h
    · cases h; rfl
    · cases h
  same _ _ _ := rfl

/-- The wallet up to having its token. -/
noncomputable def holding : Holder.HWorld := Holder.exec env (Holder.start 0) (history.take 4)

/-- Access tokens received. -/
def tokens (log : List Holder.Entry) : List Issuer.TokenResponse := log.flatMap fun en => en.events.filterMap fun ev => match ev with
  | ⟨.token _, some t⟩ => some t
  | _ => none

theorem holding_tokens : (tokens holding.log).map (fun t => t.authorizationDetails.map fun l => Holder.allIds l) = [some ["emp-1", "dev-1"]] := rfl

theorem holding_reqs : holding.log.map (·.req) = (collectCalls "k" { clientId := "wallet", subjectId := "alice", offer } (some "123456") []).take 4 := rfl

example : (∃ x, (Holder.step env holding { provider := wallet, req := .credentials ⟨"k", none, none⟩ }).1 = .error x) ∧
    (Holder.step env holding { provider := wallet, req := .credentials ⟨"k", none, none⟩ }).2.store = holding.store :=
  C102_batch_fails (n := net) Issuer.Demo.env_fresh (w1 := issuer) ⟨0, [offerStep], rfl⟩ wantsProofs rfl
    (by
      intro i j h
      have h := congrArg (fun s => s.toList.length) h
      simpa [env] using h)
    ⟨0, _, rfl⟩ _ rfl
    (by
      rintro sc t ⟨pre, en, post, h, ⟨⟨tr, htr⟩, hk⟩, _⟩
      change holding.log = _ at h
      have ht : t ∈ tokens holding.log := by
        rw [h]
        simp only [tokens, List.flatMap_append, List.flatMap_cons, List.mem_append, List.mem_filterMap]
        exact .inr (.inl ⟨_, htr, rfl⟩)
      have hl := List.mem_map_of_mem (f := fun t : Issuer.TokenResponse => t.authorizationDetails.map fun l => Holder.allIds l) ht
      rw [holding_tokens, List.mem_singleton] at hl
      obtain ⟨l, h1, h2⟩ := Option.map_eq_some_iff.1 hl
      refine ⟨?_, l, h1, by rw [h2]; decide⟩
      rcases hk with ⟨_, rfl⟩ | ⟨r, hr, _⟩
      · rfl
      · exfalso
        have : Holder.Req.authorize r ∈ holding.log.map (·.req) := by rw [h, ← hr]; simp
        rw [holding_reqs] at this
        simp [collectCalls, beginCalls] at this)

end Verif.Interop.Demo
