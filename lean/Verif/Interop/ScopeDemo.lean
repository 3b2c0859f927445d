import Verif.Interop.ScopeProps
import Verif.Interop.CodeDemo
/-!
# A wallet asking for a scope: the hypotheses of C200 can be met

The issuer publishes two configurations with one scope. The wallet gets the credential of one of them, without the claim that the issuer has but does not publish; the other it
never gets in the same flow.
-/
namespace Verif.Interop.ScopeDemo
open Verif

/-- The second configuration, with the scope of the first. -/
def developer : CredentialConfiguration := { Issuer.Demo.developer with
  proofTypes := some ["jwt"]
  scope := some "EmployeeIDCredential" }

/-- The issuer's metadata. -/
def md : Verif.Issuer where
  credentialIssuer := "http://vercre.io"
  configs := [("Employee", Issuer.Demo.employee), ("Developer", developer)]

/-- The data the issuer has. -/
def claims (id : String) : Dict Json := if id = "emp-1" then [("email", .str "n@example.com"), ("salary", .str "low")] else [("level", .str "senior")]

/-- The issuer's provider. -/
def provider : Issuer.Provider := { CodeDemo.provider with
  issuer := fun i => if i = "http://vercre.io" then some md else none
  dataset := fun s id => if s = "normal" then some { claims := claims id, pending := false } else none }

/-- The network. -/
noncomputable def net : Net := { Demo.net with provider := fun _ => provider }

theorem understands (lo hi : Int) : Understands net CodeDemo.wallet lo hi where
  proofs _ nonce h := ⟨nonce, h, fun _ => ⟨_, rfl, rfl, rfl, rfl⟩⟩
  credentials := (Demo.understands lo hi).credentials
  times _ _ _ := rfl

theorem samePkce : SamePkce net CodeDemo.wallet := ⟨fun _ _ => rfl, CodeDemo.samePkce.size⟩

theorem authorizes (j : Nat) : Authorizes (net.provider j) "http://vercre.io" md Issuer.Demo.server "wallet" "http://localhost/cb" where
  metadata := rfl
  itself := rfl
  server := rfl
  direct := by decide
  method := ⟨_, _, rfl⟩
  grants := ⟨_, rfl, by decide⟩
  client := ⟨_, rfl, ⟨_, rfl, by decide⟩, ⟨_, _, rfl, rfl, by decide⟩, ⟨_, rfl, by decide⟩, _, _, _, rfl, rfl, by decide⟩

theorem arrival (i : Nat) (w : World Issuer.State) : net.arrival i w = { w with now := w.now + if i < 10 then 20 * 1000000000 else 0 } :=
  CodeDemo.arrival i w

/-- The clock of the issuer while the wallet is at work. -/
theorem clock (issuer : World Issuer.State) (calls : List Holder.Call) :
    (net.after issuer calls).2.now ≤ issuer.now + 20 * 1000000000 * ((min (net.after issuer calls).1 10 : Nat) : Int) := by
  unfold Net.after
  have hinv : ∀ (calls : List Holder.Call) (s : Nat × World Issuer.State),
      s.2.now ≤ issuer.now + 20 * 1000000000 * ((min s.1 10 : Nat) : Int) →
      (calls.foldl net.next s).2.now ≤ issuer.now + 20 * 1000000000 * ((min (calls.foldl net.next s).1 10 : Nat) : Int) := by
    intro calls
    induction calls with
    | nil => intro s h; exact h
    | cons c calls ih =>
      intro s h
      refine ih _ ?_
      unfold Net.next
      split
      · exact h
      · simp only [Net.serve, Issuer.step_now, arrival]
        split <;> omega
  exact hinv calls (0, issuer) (by simp)

theorem undisturbed (issuer : World Issuer.State) (calls : List Holder.Call) (keys : String → Prop) : Undisturbed net issuer calls keys where
  intact _ _ := by rw [arrival]
  intime := by
    rw [arrival]
    have := clock issuer calls
    simp only [Issuer.sec]
    split <;> omega

theorem covers {cid : String} (h : Covers md "EmployeeIDCredential" cid) : cid = "Employee" ∨ cid = "Developer" := by
  obtain ⟨cfg, h, _⟩ := h
  simp only [md, List.mem_cons, Prod.mk.injEq, List.not_mem_nil, or_false] at h
  exact h.imp (·.1) (·.1)

theorem granted : ScopeGranted net md "normal" "EmployeeIDCredential" "EmployeeIDCredential" CodeDemo.ids where
  first := ⟨[], by decide +kernel⟩
  published := ⟨"Employee", _, .head _, rfl⟩
  granted j cid h := by rcases covers h with rfl | rfl <;> rfl

theorem issues (j : Nat) : Issues (net.provider j) md "normal" "Employee" "emp-1" (claims "emp-1") :=
  ⟨⟨_, .head _, ⟨_, rfl⟩, nofun, ⟨_, rfl, .head _⟩, ⟨_, rfl, fun _ => rfl⟩, by decide, ⟨_, _, _, rfl⟩, fun _ => ⟨_, rfl⟩⟩, ⟨_, rfl, rfl, rfl⟩⟩

/-- The wallet's surroundings. -/
noncomputable def env : Holder.HEnv where
  rng n := String.ofList (List.replicate (n + 1) 'k')
  fault _ := .ok
  oracle := net.oracle (Issuer.start 0) 0

/-- The format the wallet names: the type of the credential. -/
def format : Format := .jwtVcJson { type_ := some ["VerifiableCredential", "EmployeeIDCredential"] }

/-- The wallet's calls, some time apart. -/
noncomputable def history : List Holder.HStep :=
  [.authorize ⟨.wallet "wallet" "http://vercre.io" (some "EmployeeIDCredential") "normal", some "http://localhost/cb", none⟩,
    .credentials ⟨"k", none, some format⟩, .save "k"].map fun r => { provider := CodeDemo.wallet, wait := 7, req := r }

theorem uniq : ∀ cid' cfg', (cid', cfg') ∈ md.configs → Issuer.SameCredential (.format cfg'.format) (.format format) → cid' = "Employee" := by
  intro cid' cfg' h hs
  simp only [md, List.mem_cons, Prod.mk.injEq, List.not_mem_nil, or_false] at h
  rcases h with ⟨rfl, rfl⟩ | ⟨rfl, rfl⟩
  · rfl
  · exact absurd ((Issuer.sameCredential_iff (.format developer.format) (.format format)).2 hs) (by decide)

example : ∃ new c held, (Holder.exec env (Holder.start 0) history).log = [] ++ new ∧ (∀ en ∈ new, ∃ r, en.result = .ok r) ∧ savedIn new = [c] ∧
    c.vc.subject = .one { id := some "did:web:holder", claims := held } ∧ ("email", .str "n@example.com") ∈ held ∧ (∀ v, ("salary", v) ∉ held) ∧
    (Holder.exec env (Holder.start 0) history).store "k" = none := by
  obtain ⟨new, c, id, held, h1, h2, h3, _, h5, h6, h7, _, h8⟩ := C200_scope_flow_partial (n := net) (w := Issuer.start 0) (fun _ => rfl) authorizes
    (show (Dict.keys md.configs).Nodup by decide) (subj := "normal") (by decide) granted (CodeDemo.distinct _) (cid := "Employee") (cfg := Issuer.Demo.employee) (.head _) rfl
    (format := format) ((Issuer.sameCredential_iff (.format Issuer.Demo.employee.format) (.format format)).1 (by decide)) uniq (claims := claims) (by decide)
    (by
      intro id hid j
      obtain rfl : id = "emp-1" := by simpa [CodeDemo.ids] using hid
      exact issues j)
    (e := env) (hw := Holder.start 0) rfl (fun _ _ _ => rfl) (fun _ => rfl) (understands _ _) samePkce (hist := history)
    (by intro st hst; obtain ⟨_, _, rfl⟩ := List.mem_map.1 hst; rfl) (by simp [history]; rfl) (fun _ _ => undisturbed _ _ _)
  obtain rfl : id = "emp-1" := by simpa [CodeDemo.ids] using h6
  refine ⟨new, c, held, h1, h2, h3, h5, (h7 _ _).2 ⟨.head _, ?_⟩, ?_, h8⟩
  · intro named hn; cases hn; decide
  · intro v hv
    have := ((h7 _ _).1 hv).2 _ rfl
    revert this
    decide

/-! ### Two words -/

theorem granted2 : ScopeGranted net md "normal" "EmployeeIDCredential profile" "EmployeeIDCredential" CodeDemo.ids where
  first := ⟨["profile"], by decide +kernel⟩
  published := ⟨"Employee", _, .head _, rfl⟩
  granted j cid h := by rcases covers h with rfl | rfl <;> rfl

theorem uncovered (cid : String) : ¬ Covers md "EmployeeIDCredential profile" cid := by
  rintro ⟨cfg, h, hs⟩
  simp only [md, List.mem_cons, Prod.mk.injEq, List.not_mem_nil, or_false] at h
  rcases h with ⟨rfl, rfl⟩ | ⟨rfl, rfl⟩ <;> exact absurd hs (by decide)

/-- A request for two scopes. -/
noncomputable def asking2 : Holder.HStep :=
  ⟨CodeDemo.wallet, 7, .authorize ⟨.wallet "wallet" "http://vercre.io" (some "EmployeeIDCredential profile") "normal", some "http://localhost/cb", none⟩⟩

/-- The wallet asks for two scopes, and then three times for the credential. -/
example : ∃ en new, (Holder.exec env (Holder.start 0) (asking2 :: List.replicate 3 ⟨CodeDemo.wallet, 7, .credentials ⟨"k", none, some format⟩⟩)).log =
      [] ++ en :: new ∧
    (∃ r, en.result = .ok r) ∧ new.length = 3 ∧ ∀ en' ∈ new, (∃ x, en'.result = .error x) ∧ en'.events = [] :=
  C200_violated_several_words (n := net) (w := Issuer.start 0) (fun _ => rfl) authorizes (show (Dict.keys md.configs).Nodup by decide) (subj := "normal") (by decide)
    granted2 (CodeDemo.distinct _) uncovered (e := env) (hw := Holder.start 0) rfl (fun _ => rfl) samePkce
    (st := asking2) rfl rfl (fun _ _ => undisturbed _ _ _)
    (by intro s hs; rw [(List.mem_replicate.1 hs).2]; exact ⟨_, rfl, rfl⟩)

/-! ### The second credential -/

/-- The network, with the same text for all credentials, and the same PKCE challenge for all verifiers. -/
def plainNet : Net where
  env := Issuer.Demo.env
  provider _ := { provider with codeChallenge := fun _ => Issuer.Demo.challenge }
  others _ := []
  encode _ := "vc"
  rest _ _ _ := none

/-- A wallet that reads the same in every credential. -/
def plainWallet : Holder.Provider where
  kid := "did:web:holder#k1"
  signProof c := c.nonce
  jose := {
    encodeVc := fun _ _ => none
    decodeVc := fun _ => some ⟨"", none, "http://vercre.io", 0, "", none, { type_ := .one "VerifiableCredential", issuer := .string "http://vercre.io", subject := .one { claims := [] } }⟩
    encodeVp := fun _ _ => none
    decodeVp := fun _ => none }
  decodeRequest _ := none
  parseRequest _ := none
  percentDecode t := some t
  codeChallenge _ := Issuer.Demo.challenge
  validTime _ := true

def plainEnv : Holder.HEnv where
  rng n := String.ofList (List.replicate (n + 1) 'k')
  fault _ := .ok
  oracle := plainNet.oracle (Issuer.start 0) 0

/-- The wallet once it is authorized. -/
def plainWorld : Holder.HWorld := Holder.exec plainEnv (Holder.start 0)
  [{ provider := plainWallet, wait := 7, req := .authorize ⟨.wallet "wallet" "http://vercre.io" (some "EmployeeIDCredential") "normal", some "http://localhost/cb", none⟩ }]

/-- It asks for one of the credentials, and then for the other. -/
def first : Holder.HStep := { provider := plainWallet, req := .credentials ⟨"k", none, some format⟩ }
def second : Holder.HStep := { provider := plainWallet, req := .credentials ⟨"k", none, some developer.format⟩ }

theorem plainProofs : ProofsAlways plainNet := by
  intro j url iss cid cfg h hc
  simp only [plainNet, provider] at h
  split at h
  · cases h
    have hc := Dict.mem_of_get? hc
    simp only [md, List.mem_cons, Prod.mk.injEq, List.not_mem_nil, or_false] at hc
    rcases hc with ⟨_, rfl⟩ | ⟨_, rfl⟩ <;> rfl
  · cases h

theorem plainTold : ProofsTold plainNet plainWallet := by
  intro c jwt h j p hp
  have h : c.nonce = some jwt := h
  cases hp
  exact h.symm

-- the first is collected, the second refused
example : ∃ en2 q, (∃ r, (Holder.step plainEnv plainWorld first).1 = .ok r) ∧
    (Holder.exec plainEnv plainWorld [first, second]).log = (Holder.step plainEnv plainWorld first).2.log ++ [en2] ∧
    (⟨.credential q, none⟩ : Holder.Event) ∈ en2.events ∧ ∃ err, en2.result = .error err := by
  refine ⟨_, _, ⟨_, rfl⟩, rfl, .head _, ?_⟩
  refine (C200_one_credential_only (n := plainNet) (w1 := Issuer.start 0) (e := plainEnv) (hw := plainWorld) (st := first) (k := "k") (later := []) (st2 := second)
    Issuer.Demo.env_fresh plainProofs rfl ?_ (fun _ => nofun) ⟨0, _, rfl⟩ rfl rfl rfl rfl rfl (.head _) rfl
    (by intro s hs; simp at hs; subst hs; exact plainTold) rfl rfl rfl (.head _)).2
  intro i j h
  have h := congrArg (fun s => s.toList.length) h
  simpa [plainEnv] using h

end Verif.Interop.ScopeDemo
