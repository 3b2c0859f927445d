import Verif.Interop.CodeProps
import Verif.Interop.Demo
/-!
# A wallet asking an issuer for authorization

Shows that the hypotheses of C105 and C106 can be met: two credentials, asked for by the wallet on its own account or after an offer, collected
one by one while the issuer serves others.
-/
namespace Verif.Interop.CodeDemo
open Verif

/-- A PKCE challenge for each verifier. -/
def challenge (v : String) : String := if v.utf8ByteSize ≤ 85 then Issuer.Demo.challenge ++ v else Issuer.Demo.challenge

/-- The issuer's provider. -/
def provider : Issuer.Provider := { Demo.provider with codeChallenge := challenge }

/-- The network. -/
noncomputable def net : Net := { Demo.net with
  provider := fun _ => provider }

/-- The wallet's provider. -/
noncomputable def wallet : Holder.Provider := { Demo.wallet with codeChallenge := challenge }

theorem understands (lo hi : Int) : Understands net wallet lo hi where
  proofs c nonce h := ⟨nonce, h, fun _ => ⟨_, rfl, rfl, rfl, rfl⟩⟩
  credentials := (Demo.understands lo hi).credentials
  times _ _ _ := rfl

theorem samePkce : SamePkce net wallet where
  same _ _ := rfl
  size v := by
    show 43 ≤ (challenge v).utf8ByteSize ∧ (challenge v).utf8ByteSize ≤ 128
    have h43 : Issuer.Demo.challenge.utf8ByteSize = 43 := by decide +kernel
    unfold challenge
    split
    · rw [String.utf8ByteSize_append, h43]; omega
    · rw [h43]; decide

theorem authorizes (j : Nat) : Authorizes (net.provider j) "http://vercre.io" Demo.md Issuer.Demo.server "wallet" "http://localhost/cb" where
  metadata := rfl
  itself := rfl
  server := rfl
  direct := by decide
  method := ⟨_, _, rfl⟩
  grants := ⟨_, rfl, by decide⟩
  client := ⟨_, rfl, ⟨_, rfl, by decide⟩, ⟨_, _, rfl, rfl, by decide⟩, ⟨_, rfl, by decide⟩, _, _, _, rfl, rfl, by decide⟩

theorem arrival (i : Nat) (w : World Issuer.State) : net.arrival i w = { w with now := w.now + if i < 10 then 20 * 1000000000 else 0 } := by
  unfold Net.arrival net Demo.net
  simp only
  split
  · rfl
  · simp [Issuer.exec]

/-- The clock of the issuer while the wallet is at work. -/
theorem clock (issuer : World Issuer.State) (calls : List Holder.Call) :
    (net.after issuer calls).2.now ≤ issuer.now + 20 * 1000000000 * ((min (net.after issuer calls).1 10 : Nat) : Int) := by
  unfold Net.after
  have hinv : ∀ (calls : List Holder.Call) (s : Nat × World Issuer.State),
      s.2.now ≤ issuer.now + 20 * 1000000000 * ((min s.1 10 : Nat) : Int) →
      (calls.foldl net.next s).2.now ≤ issuer.now + 20 * 1000000000 * ((min (calls.foldl net.next s).1 10 : Nat) : Int) := by
    intro calls
    induction calls with
    | nil => intro s h; exact h
    | cons c calls ih =>
      intro s h
      refine ih _ ?_
      unfold Net.next
      split
      · exact h
      · simp only [Net.serve, Issuer.step_now, arrival]
        split <;> omega
  exact hinv calls (0, issuer) (by simp)

theorem undisturbed (issuer : World Issuer.State) (calls : List Holder.Call) (keys : String → Prop) : Undisturbed net issuer calls keys where
  intact _ _ := by rw [arrival]
  intime := by
    rw [arrival]
    have := clock issuer calls
    simp only [Issuer.sec]
    split <;> omega

/-- The credentials of each configuration. -/
def ids (cid : String) : List String := if cid = "Employee" then ["emp-1"] else if cid = "Developer" then ["dev-1"] else []

theorem distinct (cids : String → Prop) : Distinct cids ids where
  once cid _ := by unfold ids; split <;> [simp; (split <;> simp)]
  apart cid cid' id _ _ h h' := by
    unfold ids at h h'
    split at h <;> split at h' <;> simp_all <;> grind

theorem issues_emp (j : Nat) : Issues (net.provider j) Demo.md "normal" "Employee" "emp-1" (Demo.claims "emp-1") :=
  ⟨⟨_, .head _, ⟨_, rfl⟩, nofun, ⟨_, rfl, .head _⟩, ⟨_, rfl, fun _ => rfl⟩, by decide, ⟨_, _, _, rfl⟩, fun _ => ⟨_, rfl⟩⟩, ⟨_, rfl, rfl, rfl⟩⟩

theorem issues_dev (j : Nat) : Issues (net.provider j) Demo.md "normal" "Developer" "dev-1" (Demo.claims "dev-1") :=
  ⟨⟨_, .tail _ (.head _), ⟨_, rfl⟩, nofun, ⟨_, rfl, .head _⟩, ⟨_, rfl, fun _ => rfl⟩, by decide, ⟨_, _, _, rfl⟩, fun _ => ⟨_, rfl⟩⟩, ⟨_, rfl, rfl, rfl⟩⟩

/-- The wallet's surroundings. -/
noncomputable def env (issuer : World Issuer.State) : Holder.HEnv where
  rng n := String.ofList (List.replicate (n + 1) 'k')
  fault _ := .ok
  oracle := net.oracle issuer 0

/-! ### C105: the wallet starts -/

/-- What the wallet asks for: one credential with its mandatory claim, one without naming claims. -/
def details : List AuthorizationDetail :=
  [{ credential := .configurationId "Employee" (some (.w3c { credentialSubject := some [("email", .entry { mandatory := some true })] })) },
   { credential := .configurationId "Developer" none }]

theorem isMap : IsMap [("email", .entry { mandatory := some true }), ("family_name", .entry {})] := by
  intro p c h
  cases h with
  | here _ _ _ h =>
    simp only [List.mem_cons, Prod.mk.injEq, List.not_mem_nil, or_false] at h
    rcases h with ⟨rfl, rfl⟩ | ⟨rfl, rfl⟩ <;> exact .here _ _ _ rfl
  | nested _ _ _ _ _ h =>
    simp only [List.mem_cons, Prod.mk.injEq, List.not_mem_nil, or_false, reduceCtorEq, and_false] at h

theorem meets : MeetsMandatory [("email", .entry { mandatory := some true })]
    [("email", .entry { mandatory := some true }), ("family_name", .entry {})] where
  mandatory p d h hm := by
    cases h with
    | here _ _ _ h =>
      simp only [List.mem_cons, Prod.mk.injEq, List.not_mem_nil, or_false] at h
      rcases h with ⟨rfl, h⟩ | ⟨rfl, h⟩ <;> cases h
      · exact ⟨_, .here _ _ _ rfl⟩
      · cases hm
    | nested _ _ _ _ _ h =>
      simp only [List.mem_cons, Prod.mk.injEq, List.not_mem_nil, or_false, reduceCtorEq, and_false] at h
  nested p m h := by
    cases h with
    | here _ _ _ h | nested _ _ _ _ _ h =>
      simp only [List.mem_cons, Prod.mk.injEq, List.not_mem_nil, or_false, reduceCtorEq, and_false] at h

/-- The wallet's calls, some time apart. -/
noncomputable def history : List Holder.HStep :=
  [.authorize ⟨.wallet "wallet" "http://vercre.io" none "normal", some "http://localhost/cb", some details⟩, .credentials ⟨"k", some ["dev-1"], none⟩,
    .credentials ⟨"k", some ["emp-1"], none⟩, .save "k"].map fun r => { provider := wallet, wait := 7, req := r }

example : ∃ new, (Holder.exec (env (Issuer.start 0)) (Holder.start 0) history).log = [] ++ new ∧ (∀ en ∈ new, ∃ r, en.result = .ok r) ∧
    (savedIn new).map (fun c => (c.issuer, c.vc.subject)) =
      ["dev-1", "emp-1"].map (fun id => ("http://vercre.io", .one { id := some "did:web:holder", claims := Demo.claims id })) ∧
    (Holder.exec (env (Issuer.start 0)) (Holder.start 0) history).store "k" = none :=
  C105_wallet_initiated (n := net) (subj := "normal") (w := Issuer.start 0) (ds := details) (ids := ids) (W := wallet) Issuer.Demo.env_fresh ⟨0, [], rfl⟩
    (fun _ => rfl) authorizes (by simp [Dict.Nodup, Dict.keys, Demo.md]) (by decide) (by simp [details])
    (by
      intro d hd
      simp only [details, List.mem_cons, List.not_mem_nil, or_false] at hd
      rcases hd with rfl | rfl
      · refine ⟨"Employee", _, Issuer.Demo.employee, rfl, .head _, ?_, fun _ => rfl⟩
        intro c sup hc hs
        cases hc
        cases hs
        exact meets
      · exact ⟨"Developer", _, _, rfl, .tail _ (.head _), nofun, fun _ => rfl⟩)
    (distinct _)
    (by
      intro id hid
      simp only [List.mem_cons, List.not_mem_nil, or_false] at hid
      rcases hid with rfl | rfl
      · exact ⟨"Developer", ⟨_, .tail _ (.head _), _, rfl⟩, by decide, issues_dev⟩
      · exact ⟨"Employee", ⟨_, .head _, _, rfl⟩, by decide, issues_emp⟩)
    rfl (fun _ _ _ => rfl) (fun _ => rfl) (understands _ _) samePkce
    (by intro st hst; obtain ⟨_, _, rfl⟩ := List.mem_map.1 hst; rfl) (by simp [history]; rfl) (fun _ _ => undisturbed _ _ _)

/-! ### C106: the issuer starts -/

/-- The offer, which leaves the way of authorization to the wallet. -/
def offerReq : Issuer.CreateOfferRequest := { Demo.offerReq with grantTypes := some [.authorizationCode, .preAuthorizedCode] }
def offerStep : Issuer.Step := { provider, req := .createOffer offerReq }

/-- The issuer once it has made the offer. -/
def issuer : World Issuer.State := (Issuer.step Issuer.Demo.env (Issuer.start 0) offerStep).2

def offer : Issuer.CredentialOffer where
  credentialIssuer := "http://vercre.io"
  configIds := ["Employee", "Developer"]
  grants := some ⟨some ⟨some "t", none⟩, some ⟨"t", true, none⟩⟩

theorem offered : (Issuer.step Issuer.Demo.env (Issuer.start 0) offerStep).1 = .ok (.createOffer ⟨.object offer, some "123456"⟩) := rfl

/-- The wallet's calls, some time apart. -/
noncomputable def answer : List Holder.HStep :=
  (authorizeCalls "k" { clientId := "wallet", subjectId := "normal", offer } (some "123456") "http://localhost/cb" ["dev-1", "emp-1"]).map fun r =>
    { provider := wallet, wait := 7, req := r }

example : ∃ new, (Holder.exec (env issuer) (Holder.start 0) answer).log = [] ++ new ∧ (∀ en ∈ new, ∃ r, en.result = .ok r) ∧
    (savedIn new).map (fun c => (c.issuer, c.vc.subject)) =
      ["dev-1", "emp-1"].map (fun id => ("http://vercre.io", .one { id := some "did:web:holder", claims := Demo.claims id })) ∧
    (Holder.exec (env issuer) (Holder.start 0) answer).store "k" = none :=
  C106_offer_authorized (n := net) (w := Issuer.start 0) (s := offerStep) (req := offerReq) (offer := offer) (md := Demo.md) (client := "wallet")
    (redirect := "http://localhost/cb") (ids := ids) (subj := "normal") (W := wallet) Issuer.Demo.env_fresh ⟨0, [], rfl⟩ rfl offered
    ⟨_, rfl, by decide⟩ rfl (by decide) (.byVal ..) (fun _ => rfl) authorizes (by simp [Dict.Nodup, Dict.keys, Demo.md])
    (by
      intro cid cfg m hc hm
      simp only [Demo.md, List.mem_cons, Prod.mk.injEq, List.not_mem_nil, or_false] at hc
      rcases hc with ⟨_, rfl⟩ | ⟨_, rfl⟩ <;> cases hm
      exact isMap)
    (by
      intro cid hc
      simp only [offer, List.mem_cons, List.not_mem_nil, or_false] at hc
      rcases hc with rfl | rfl
      · exact ⟨⟨_, .head _⟩, fun _ => rfl⟩
      · exact ⟨⟨_, .tail _ (.head _)⟩, fun _ => rfl⟩)
    (distinct _)
    (by
      intro id hid
      simp only [List.mem_cons, List.not_mem_nil, or_false] at hid
      rcases hid with rfl | rfl
      · exact ⟨"Developer", by decide, by decide, issues_dev⟩
      · exact ⟨"Employee", by decide, by decide, issues_emp⟩)
    rfl (fun _ _ _ => rfl) (fun _ => rfl) (understands _ _) samePkce rfl rfl rfl
    (by intro st hst; obtain ⟨_, _, rfl⟩ := List.mem_map.1 hst; rfl) (by simp [answer]; rfl) (fun _ _ => undisturbed _ _ _)

end Verif.Interop.CodeDemo
