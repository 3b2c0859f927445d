import Verif.Wire.CredentialProps
import Verif.Issuer.CredentialProps
/-!
# C120: wallets can read the credentials the issuer hands out
-/
namespace Verif.Wire

/-! ### The issuer's credentials as they are on the wire -/

/-- The issuer's status with the members it leaves out, /repo/crates/w3c-vc/src/model/vc.rs 197-260. -/
def statusOf (s : CredentialStatus) : Status :=
  { id := s.id, purpose := s.purpose, listIndex := s.listIndex, listCredential := s.listCredential, size := s.size }

/-- A proof with the members the issuer leaves out, /repo/crates/w3c-vc/src/proof/integrity.rs 66-137. -/
def proofOf (p : IntegrityProof) : IntProof :=
  { type_ := p.type_, verificationMethod := p.verificationMethod, challenge := p.challenge, value := p.proofValue }

/-- Change what a `Quota` holds. Of `Quota`, /repo/crates/core/src/lib.rs. -/
def quotaMap {α β : Type} (f : α → β) : Quota α → Quota β
  | .one a => .one (f a)
  | .many l => .many (l.map f)

/-- The credential the issuer builds (credential.rs 244-287, vc.rs 29-133) with the members it never sets. -/
def vcOf (v : Verif.Vc) : Vc :=
  { context := v.context, id := v.id, type_ := v.type_, name := v.name, description := v.description
    issuer := match v.issuer with | .string i => .string i | .object o => .object { id := o.id, extra := some [] }
    subject := quotaMap (fun s => { id := s.id, claims := s.claims }) v.subject
    validFrom := v.validFrom, validUntil := v.validUntil, status := v.status.map (quotaMap statusOf), proof := v.proof.map (quotaMap proofOf) }

/-! ### Specification -/

/-- The Subject service hands out maps none of whose members is called `id`, and statuses whose numbers fit in 64 bits. -/
structure PlainSubjects (P : Issuer.Provider) : Prop where
  claims : ∀ subject id ds, P.dataset subject id = some ds → PlainMap ["id"] ds.claims
  status : ∀ subject id st q s, P.status subject id = some st → st = some q → (q = .one s ∨ ∃ l, q = .many l ∧ s ∈ l) →
    s.listIndex < 2 ^ 64 ∧ ∀ n, s.size = some n → n < 2 ^ 64

/-! ### Lemmas -/

theorem narrow_plain {names : List String} {m : Dict Json} (h : PlainMap names m) (o : Option (List String)) :
    PlainMap names (Issuer.Credential.narrow m o) := by
  cases o with
  | none => exact h
  | some ids =>
    have hs : List.Sublist (Dict.keys (Issuer.Credential.narrow m (some ids))) (Dict.keys m) :=
      List.Sublist.map _ (List.filter_sublist (l := m))
    exact ⟨List.Sublist.nodup hs h.1, fun k hk => h.2 k (hs.subset hk)⟩

theorem quotaMap_all {α β : Type} {f : α → β} {p : β → Prop} {q : Quota α} (h : ∀ a, (q = .one a ∨ ∃ l, q = .many l ∧ a ∈ l) → p (f a)) :
    QuotaAll p (quotaMap f q) := by
  cases q with
  | one a => exact h a (.inl rfl)
  | many l =>
    intro b hb
    obtain ⟨a, ha, rfl⟩ := List.mem_map.1 hb
    exact h a (.inr ⟨l, rfl, ha⟩)

end Verif.Wire
