import Verif.Mdl.TextDemo
import Verif.Issuer.CredentialProps
/-!
# C197: an issued mobile document is of the type its configuration promises

A configuration of format `mso_mdoc` names a document type (/repo/crates/openid/src/issuer.rs 852-859). The issuer does not pass it on
(/repo/vercre-issuer/src/credential.rs 308-316), and the document always says `org.iso.18013.5.1.mDL` (/repo/crates/iso-mdl/src/mso.rs 77).
-/
namespace Verif.Mdl

/-- The part of **C197** that holds, and where it ends: a mobile document that the issuer makes for a configuration is of the configuration's type exactly if that is the
type of driving licences. -/
theorem C197_type_of_document_partial {P : Issuer.Provider} {req : Issuer.CredentialRequest} {e : Env} {w w' : Verif.World Issuer.State} {resp : Issuer.CredentialResponse}
    (h : (Issuer.credential P req).run e w = (.ok resp, w')) {k : String} {claims : Dict Json} (hc : resp.response = .credential (.mdoc k claims))
    (W : World) (R : Rng) (hW : Sound W R) (b : Build) (fuel : Nat) (signer : Signer) (now : Nat → Int) (hn : claims.Nodup) (out : String)
    (ho : toCredential b fuel W.codec R signer now claims = some (.ok out)) (hl : out.toList.length < 2 ^ 64) :
    ∃ s t iss auth cfg doctype supported d m, Issuer.Session w req.accessToken s t ∧ P.issuer req.credentialIssuer = some iss ∧ t.Authorizes iss req.credential auth ∧
      iss.configs.get? auth.configId = some cfg ∧ cfg.format = .isoMdl doctype supported ∧
      readMdl out = some d ∧ readMso W.tagVec d.issuerAuth.payload = some m ∧ (m.docType = doctype ↔ doctype = "org.iso.18013.5.1.mDL") := by
  obtain ⟨d, m, h1, h2, _, _, _, _, _, h3, _⟩ := C158_reads_back W R hW b fuel signer now claims hn out ho hl
  obtain ⟨s, ctx, t, did, ds, _, g1, hctx, g2, _, _, _, _, hr⟩ := Issuer.credential_ok_iff.1 h
  obtain ⟨_, g3, g4, g5⟩ := Issuer.Credential.context_ok.1 hctx
  rcases hr with ⟨_, _, rfl, _⟩ | ⟨_, c', hc', _, _, rfl, _⟩
  · cases hc
  · cases hc
    simp only [Issuer.Credential.signed, Except.bind_ok, orErr_ok] at hc'
    obtain ⟨_, _, hc'⟩ := hc'
    split at hc'
    · simp only [Except.bind_ok, Verif.require_ok, pure, Except.pure, Except.ok.injEq] at hc'
      obtain ⟨_, _, _, _, hc'⟩ := hc'
      cases hc'
    · rename_i doctype supported hf
      exact ⟨s, t, ctx.issuer, ctx.authorized, ctx.config, doctype, supported, d, m, ⟨g1, g2⟩, g3, Issuer.Credential.authorized_ok g2 g4, g5, hf, h1, h2, by rw [h3]; exact eq_comm⟩
    · cases hc'
    · cases hc'
    · cases hc'

/-- **C197 is false** of every other type: whatever the data set, the signer, the random values and the clock, no document that is made says anything but that it is a
driving licence. -/
theorem C197_other_types_never_made (W : World) (R : Rng) (hW : Sound W R) (b : Build) (fuel : Nat) (signer : Signer) (now : Nat → Int) (claims : Dict Json) (hn : claims.Nodup)
    (out : String) (ho : toCredential b fuel W.codec R signer now claims = some (.ok out)) (hl : out.toList.length < 2 ^ 64) (doctype : String)
    (hd : doctype ≠ "org.iso.18013.5.1.mDL") :
    ∃ d m, readMdl out = some d ∧ readMso W.tagVec d.issuerAuth.payload = some m ∧ m.docType ≠ doctype := by
  obtain ⟨d, m, h1, h2, _, _, _, _, _, h3, _⟩ := C158_reads_back W R hW b fuel signer now claims hn out ho hl
  exact ⟨d, m, h1, h2, by rw [h3]; exact hd.symm⟩

namespace Demo
open Issuer.Demo (rng credReq)

/-- A configuration of another document type, a photo ID. -/
def photoId : CredentialConfiguration where
  format := .isoMdl "org.iso.23220.photoid.1" none

/-- The issuer of the demonstration, with a photo ID in place of the employee's credential and a data set of name spaces. -/
def photoProvider : Issuer.Provider :=
  { Issuer.Demo.provider with
    issuer := fun i => if i = "http://vercre.io" then some { Issuer.Demo.issuer with configs := [("Employee", photoId)] } else none
    dataset := fun _ _ => some { claims := mdlData, pending := false } }

/-- **C197 is false**, an instance: the configuration promises a photo ID, and what is issued says it is a driving licence. -/
theorem C197_photo_id_is_a_licence (t : TagVec) : ∃ k out d m,
    ((Issuer.credential photoProvider (credReq (rng 2) (rng 3))).run Issuer.Demo.env Issuer.Demo.validated).1 =
      .ok (Issuer.Credential.issuedResponse (.mdoc k mdlData) (rng 4) (rng 5) 0) ∧
    toCredential .debug 5 (W t).codec draws signer (fun n => n) mdlData = some (.ok out) ∧
    readMdl out = some d ∧ readMso t d.issuerAuth.payload = some m ∧ m.docType = "org.iso.18013.5.1.mDL" ∧ photoId.format = .isoMdl "org.iso.23220.photoid.1" none := by
  obtain ⟨out, h1, h2⟩ := issued t
  obtain ⟨d, m, g1, g2, _, _, _, _, _, g3, _⟩ := C158_reads_back (W t) draws (sound t) .debug 5 signer (fun n => n) mdlData (show (Dict.keys mdlData).Nodup by decide) out h1 h2
  exact ⟨_, out, d, m, rfl, h1, g1, g2, g3, rfl⟩

end Demo
end Verif.Mdl
