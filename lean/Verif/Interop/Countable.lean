import Mathlib.Tactic.DeriveCountable
import Mathlib.Data.Countable.Basic
import Mathlib.Logic.Equiv.List
import Verif.Issuer.State
/-!
# Credentials can be written down

There is a text for every credential, and different ones have different texts. The examples for the composed model use such texts in place of
JWTs.
-/
namespace Verif

instance : Countable String := by
  have : Function.Injective String.toList := fun a b h => String.toList_inj.1 h
  have : Countable Char := Function.Injective.countable (f := Char.toNat) fun a b h => Char.toNat_inj.1 h
  exact Function.Injective.countable (f := String.toList) (by assumption)

/-- Some injection of texts into the numbers. -/
noncomputable def textNum : String → Nat := (exists_injective_nat String).choose

theorem textNum_inj {a b : String} (h : textNum a = textNum b) : a = b := (exists_injective_nat String).choose_spec h

mutual
/-- A number for a JSON value. -/
noncomputable def Json.code : Json → Nat
  | .null => Nat.pair 0 0
  | .bool b => Nat.pair 1 b.toNat
  | .num t => Nat.pair 2 (textNum t)
  | .str t => Nat.pair 3 (textNum t)
  | .arr l => Nat.pair 4 (Json.codes l)
  | .obj m => Nat.pair 5 (Json.codesObj m)
/-- A number for a list of JSON values. -/
noncomputable def Json.codes : List Json → Nat
  | [] => 0
  | j :: l => Nat.pair j.code (Json.codes l) + 1
/-- A number for the members of a JSON object. -/
noncomputable def Json.codesObj : List (String × Json) → Nat
  | [] => 0
  | (k, j) :: l => Nat.pair (textNum k) (Nat.pair j.code (Json.codesObj l)) + 1
end

mutual
theorem Json.code_inj : ∀ a b : Json, a.code = b.code → a = b
  | .null, b, h => by cases b <;> simp only [Json.code, Nat.pair_eq_pair] at h <;> first | rfl | omega
  | .bool x, b, h => by
    cases b <;> simp only [Json.code, Nat.pair_eq_pair] at h <;> first | omega | skip
    rename_i y
    revert h
    cases x <;> cases y <;> simp
  | .num _, b, h => by
    cases b <;> simp only [Json.code, Nat.pair_eq_pair] at h <;> first | omega | skip
    rw [textNum_inj h.2]
  | .str _, b, h => by
    cases b <;> simp only [Json.code, Nat.pair_eq_pair] at h <;> first | omega | skip
    rw [textNum_inj h.2]
  | .arr l, b, h => by
    cases b <;> simp only [Json.code, Nat.pair_eq_pair] at h <;> first | omega | skip
    rw [Json.codes_inj _ _ h.2]
  | .obj m, b, h => by
    cases b <;> simp only [Json.code, Nat.pair_eq_pair] at h <;> first | omega | skip
    rw [Json.codesObj_inj _ _ h.2]
theorem Json.codes_inj : ∀ a b : List Json, Json.codes a = Json.codes b → a = b
  | [], b, h => by cases b <;> simp_all [Json.codes]
  | j :: l, b, h => by
    cases b with
    | nil => simp [Json.codes] at h
    | cons j' l' =>
      simp only [Json.codes, Nat.add_right_cancel_iff, Nat.pair_eq_pair] at h
      rw [Json.code_inj j j' h.1, Json.codes_inj l l' h.2]
theorem Json.codesObj_inj : ∀ a b : List (String × Json), Json.codesObj a = Json.codesObj b → a = b
  | [], b, h => by rcases b with _ | ⟨⟨k, j⟩, b⟩ <;> simp_all [Json.codesObj]
  | (k, j) :: l, b, h => by
    rcases b with _ | ⟨⟨k', j'⟩, l'⟩
    · simp [Json.codesObj] at h
    · simp only [Json.codesObj, Nat.add_right_cancel_iff, Nat.pair_eq_pair] at h
      rw [textNum_inj h.1, Json.code_inj j j' h.2.1, Json.codesObj_inj l l' h.2.2]
end

instance : Countable Json := ⟨Json.code, fun a b => Json.code_inj a b⟩

deriving instance Countable for Quota, Kind
deriving instance Countable for Direction, LangValue, IssuerObj, StatusPurpose
deriving instance Countable for CredentialSubject, CredentialStatus, IntegrityProof
deriving instance Countable for Vc
deriving instance Countable for Issuer.IssuedCredential

/-- Different credentials can be written as different texts. -/
theorem credential_texts : ∃ f : Issuer.IssuedCredential → String, ∀ a b, f a = f b → a = b := by
  obtain ⟨f, hf⟩ := exists_injective_nat Issuer.IssuedCredential
  refine ⟨fun c => String.ofList (List.replicate (f c) 't'), fun a b h => hf ?_⟩
  have := congrArg (fun s => s.toList.length) h
  simpa using this

end Verif
