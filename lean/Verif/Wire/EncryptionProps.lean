import Verif.Wire.Encryption
import Verif.Wire.Foreign
import Verif.Conform.IssuerTests
/-!
# C209: A wallet that asks for an encrypted response gets no credential in the clear
-/
namespace Verif.Wire
open Verif

variable {key : Json → Bool}

/-- How to encrypt, as OpenID4VCI has it: a key, and the names of two algorithms. Specification; models no code. -/
def HowToEncrypt (key : Json → Bool) (x : Json) : Prop :=
  ∃ m k alg enc, x = .obj m ∧ Has m [("jwk", some k), ("alg", txt (some alg)), ("enc", txt (some enc))] ∧ key k = true

theorem readHowToEncrypt_takes {x : Json} (h : HowToEncrypt key x) : ∃ e, readHowToEncrypt key x = some e := by
  obtain ⟨m, k, alg, enc, rfl, hm, hk⟩ := h
  unfold readHowToEncrypt
  rw [hm.struct (names := ["jwk", "alg", "enc"]) rfl]
  simp only [List.map_cons, List.map_nil, Option.bind_eq_bind, Option.bind_some, required, hk, if_true, txt, Option.map_some, readStr]
  exact ⟨_, rfl⟩

theorem single_other {a b : List (String × Json)} {k k' : String} {x : Json} (h : k' ≠ k) : single (a ++ (k', x) :: b) k = single (a ++ b) k := by
  unfold single
  rw [List.filter_append, List.filter_append, List.filter_cons, if_neg (by simpa using h)]

theorem single_only {a b : List (String × Json)} {k : String} {x : Json} (h : ∀ j, (k, j) ∉ a ++ b) :
    single (a ++ (k, x) :: b) k = some (some x) ∧ single (a ++ b) k = some none := by
  have hz : ∀ l : List (String × Json), (∀ j, (k, j) ∉ l) → l.filter (fun p => p.1 = k) = [] := by
    intro l hl
    rw [List.filter_eq_nil_iff]
    rintro ⟨k', j⟩ hp he
    simp only [decide_eq_true_eq] at he
    subst he
    exact hl j hp
  have ha := hz a fun j hj => h j (List.mem_append_left _ hj)
  have hb := hz b fun j hj => h j (List.mem_append_right _ hj)
  constructor
  · unfold single
    rw [List.filter_append, List.filter_cons, ha, hb]
    simp
  · unfold single
    rw [List.filter_append, ha, hb]
    rfl

theorem rest_same {a b : List (String × Json)} {k : String} {x : Json} {names : List String} (h : k ∈ names) :
    (a ++ (k, x) :: b).filter (fun p => ¬ p.1 ∈ names) = (a ++ b).filter (fun p => ¬ p.1 ∈ names) := by
  rw [List.filter_append, List.filter_append, List.filter_cons, if_neg (by simpa using h)]

/-- **C209** It does: asking for encryption changes nothing about the answer, nor about what is stored. -/
theorem C209_violated_answered_in_the_clear {a b : List (String × Json)} {x : Json} (hx : HowToEncrypt key x)
    (hm : ∀ j, ("credential_response_encryption", j) ∉ a ++ b) (e : Env) (P : Issuer.Provider) (w : World Issuer.State) :
    answerAsking key e P w (.obj (a ++ ("credential_response_encryption", x) :: b)) = answerAsking key e P w (.obj (a ++ b)) := by
  obtain ⟨r, hr⟩ := readHowToEncrypt_takes hx
  have hxn : ∃ m, x = .obj m := by obtain ⟨m, _, _, _, h, _⟩ := hx; exact ⟨m, h⟩
  obtain ⟨xm, rfl⟩ := hxn
  have h1 := single_only (x := .obj xm) hm
  unfold answerAsking readAsking
  simp only [flatFields, List.mapM_cons, List.mapM_nil, single_other (a := a) (b := b) (x := .obj xm) (show "credential_response_encryption" ≠ "credential_issuer" by decide),
    single_other (a := a) (b := b) (x := .obj xm) (show "credential_response_encryption" ≠ "access_token" by decide), h1.1, h1.2,
    rest_same (a := a) (b := b) (k := "credential_response_encryption") (x := .obj xm)
      (names := ["credential_issuer", "access_token", "credential_response_encryption"]) (by simp)]
  cases single (a ++ b) "credential_issuer" with
  | none => rfl
  | some i =>
    cases single (a ++ b) "access_token" with
    | none => rfl
    | some t =>
      simp only [Option.bind_eq_bind, Option.bind_some, Option.pure_def, Option.map_some]
      cases defaulted "" readStr i with
      | none => rfl
      | some i =>
        cases defaulted "" readStr t with
        | none => rfl
        | some t =>
          simp only [Option.bind_some, optional, hr, Option.map_some]
          cases readIssuance ((a ++ b).filter fun p => ¬ p.1 ∈ ["credential_issuer", "access_token", "credential_response_encryption"]) <;> rfl

theorem readHowToEncrypt_refuses {x : Json} (ha : ∀ l, x ≠ .arr l) (hx : ∀ m, x = .obj m → ∃ k ∈ ["jwk", "alg", "enc"], ∀ j, (k, j) ∉ m) :
    readHowToEncrypt key x = none := by
  cases x with
  | obj m =>
    obtain ⟨k, hk, hl⟩ := hx m rfl
    have hs : single m k = some none := by
      have := (single_only (a := m) (b := []) (x := .null) (by simpa using hl)).2
      simpa using this
    unfold readHowToEncrypt structFields
    simp only [List.mapM_cons, List.mapM_nil]
    simp only [List.mem_cons, List.not_mem_nil, or_false] at hk
    rcases hk with rfl | rfl | rfl
    · rw [hs]
      cases single m "alg" <;> cases single m "enc" <;> rfl
    · rw [hs]
      cases single m "jwk" with
      | none => rfl
      | some j =>
        cases single m "enc" with
        | none => rfl
        | some _ =>
          simp only [Option.bind_eq_bind, Option.bind_some, Option.pure_def]
          cases required (fun j => if key j then some j else none) j <;> rfl
    · rw [hs]
      cases single m "jwk" with
      | none => rfl
      | some j =>
        cases single m "alg" with
        | none => rfl
        | some y =>
          simp only [Option.bind_eq_bind, Option.bind_some, Option.pure_def]
          cases required (fun j => if key j then some j else none) j with
          | none => rfl
          | some _ => cases required readStr y <;> rfl
  | arr l => exact absurd rfl (ha l)
  | _ => rfl

/-- **C209** What is true of it: who says that the response is to be encrypted, and says not how, is refused. -/
theorem C209_malformed_refused_partial {a b : List (String × Json)} {x : Json} (hn : x ≠ .null) (ha : ∀ l, x ≠ .arr l)
    (hx : ∀ m, x = .obj m → ∃ k ∈ ["jwk", "alg", "enc"], ∀ j, (k, j) ∉ m) (hm : ∀ j, ("credential_response_encryption", j) ∉ a ++ b) (e : Env) (P : Issuer.Provider) (w : World Issuer.State) :
    answerAsking key e P w (.obj (a ++ ("credential_response_encryption", x) :: b)) = none := by
  have h1 := single_only (x := x) hm
  have hx := readHowToEncrypt_refuses (key := key) ha hx
  have ho : optional (readHowToEncrypt key) (some x) = none := by
    unfold optional
    split
    · rename_i h; cases h
    · rename_i h; cases h; exact absurd rfl hn
    · rename_i h; cases h; rw [hx]; rfl
  unfold answerAsking readAsking
  simp only [flatFields, List.mapM_cons, List.mapM_nil, h1.1]
  cases single (a ++ ("credential_response_encryption", x) :: b) "credential_issuer" with
  | none => rfl
  | some i =>
    cases single (a ++ ("credential_response_encryption", x) :: b) "access_token" with
    | none => rfl
    | some t =>
      simp only [Option.bind_eq_bind, Option.bind_some, Option.pure_def, Option.map_some]
      cases defaulted "" readStr i with
      | none => rfl
      | some i =>
        cases defaulted "" readStr t with
        | none => rfl
        | some t => simp only [Option.bind_some, ho]; rfl

/-! ### A case -/

section
open Verif.Conform Verif.Issuer

/-- The request of the test of `credential` (`credentialIdentifier`), without its last member. -/
def plainRequest : List (String × Json) :=
  [("credential_issuer", .str "http://vercre.io"), ("access_token", .str "ABCDEF"), ("credential_identifier", .str "PHLEmployeeID")]

/-- Its last member, the proof. -/
def itsProof : List (String × Json) := [("proof", .obj [("proof_type", .str "jwt"), ("jwt", .str "1234ABCD")])]

/-- How to encrypt. -/
def how : Json := .obj [("jwk", .obj [("kty", .str "OKP")]), ("alg", .str "ECDH-ES"), ("enc", .str "A256GCM")]

/-- Whether the answer is a credential, in the clear. -/
def inTheClear : Option (Res Resp × World State) → Bool
  | some (.ok (.credential { response := .credential _, .. }), _) => true
  | _ => false

theorem how_well : HowToEncrypt (fun _ => true) how := by
  refine ⟨_, .obj [("kty", .str "OKP")], "ECDH-ES", "A256GCM", rfl, ?_, rfl⟩
  intro f hf
  simp only [List.mem_cons, List.not_mem_nil, or_false] at hf
  rcases hf with rfl | rfl | rfl <;> rfl

/-- `C209_violated_answered_in_the_clear` on the request of the test: there is a credential, and it is in the clear. -/
example : inTheClear (answerAsking (fun _ => true) env (provider true) (holding [("ABCDEF", validated "ABCDEF")])
    (.obj (plainRequest ++ ("credential_response_encryption", how) :: itsProof))) = true := by
  rw [C209_violated_answered_in_the_clear how_well (by simp [plainRequest, itsProof])]
  decide +kernel

/-- `C209_malformed_refused_partial`: no key. -/
example : answerAsking (fun _ => true) env (provider true) (holding [("ABCDEF", validated "ABCDEF")])
    (.obj (plainRequest ++ ("credential_response_encryption", .obj [("alg", .str "ECDH-ES"), ("enc", .str "A256GCM")]) :: itsProof)) = none :=
  C209_malformed_refused_partial (by simp) (by simp) (fun m h => by cases h; exact ⟨"jwk", by simp, by simp⟩) (by simp [plainRequest, itsProof]) _ _ _

end

end Verif.Wire
