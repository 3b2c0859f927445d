import Verif.Issuer.CredentialProps
/-!
# C195: every key that is proved gets a credential

`Proof::Multiple` is documented as "one or more proof of possessions of the cryptographic key material to which the issued Credential instances will be bound to"
(/repo/crates/openid/src/issuer.rs 1184-1187). The endpoint checks all the proofs and issues one credential, for the key proved last
(/repo/vercre-issuer/src/credential.rs 125-162).
-/
namespace Verif.Issuer
open Prog

/-- The part of **C195** that holds. A credential issued for a configuration that requires proofs names no holder but the one whose key was proved *last*, and every
proof before it had to be valid too. -/
theorem C195_bound_to_last_key_partial {P : Provider} {req : CredentialRequest} {e : Env} {w w' : World State} {resp : CredentialResponse}
    (h : (credential P req).run e w = (.ok resp, w')) {earlier : List String} {last : String} (hp : req.proof = some (.multiple (earlier ++ [last]))) :
    ∃ s t iss auth cfg, Session w req.accessToken s t ∧ P.issuer req.credentialIssuer = some iss ∧ t.Authorizes iss req.credential auth ∧
      iss.configs.get? auth.configId = some cfg ∧ (cfg.proofTypes.isSome →
        (∀ j ∈ earlier, ∃ did, ValidProof P t.cNonce j did) ∧
        ∀ c did claims, resp.response = .credential c → c.Says (some did) claims → ValidProof P t.cNonce last did) := by
  obtain ⟨s, ctx, t, did, ds, _, h1, hctx, h2, _, _, hpc, _, hr⟩ := credential_ok_iff.1 h
  obtain ⟨_, h3, h4, h5⟩ := Credential.context_ok.1 hctx
  refine ⟨s, t, ctx.issuer, ctx.authorized, ctx.config, ⟨h1, h2⟩, h3, Credential.authorized_ok h2 h4, h5, fun ht => ?_⟩
  obtain ⟨types, ht⟩ := Option.isSome_iff_exists.1 ht
  unfold ProofChecked at hpc
  simp only [ht] at hpc
  obtain ⟨_, proof, hpr, hc⟩ := hpc
  rw [hp] at hpr; cases hpr
  obtain ⟨hall, hlast⟩ := Credential.checkProofs_ok.1 hc
  simp only [Credential.proofJwts, List.getLast?_append, List.getLast?_singleton, Option.some_or] at hlast
  refine ⟨fun j hj => hall j (List.mem_append_left _ hj), fun c d claims hresp hsays => ?_⟩
  rcases hr with ⟨_, _, rfl, _⟩ | ⟨_, c', hc', _, _, rfl, _⟩
  · cases hresp
  · cases hresp
    rcases (Credential.signed_says hc' hsays).2 with hd | hd
    · cases hd; exact hlast
    · cases hd

/-- **C195 is false**, in general: of several keys that were proved, those of another DID than the last one get no credential, in every answer to every request. -/
theorem C195_other_keys_get_nothing {P : Provider} {req : CredentialRequest} {e : Env} {w w' : World State} {resp : CredentialResponse}
    (h : (credential P req).run e w = (.ok resp, w')) {earlier : List String} {last : String} (hp : req.proof = some (.multiple (earlier ++ [last])))
    {s : State} {t : Token} (hs : Session w req.accessToken s t) 
    (hcfg : ∀ iss auth cfg, P.issuer req.credentialIssuer = some iss → t.Authorizes iss req.credential auth → iss.configs.get? auth.configId = some cfg → cfg.proofTypes.isSome)
    {did : String} (hl : ValidProof P t.cNonce last did) :
    ∀ j ∈ earlier, ∀ other, ValidProof P t.cNonce j other → other ≠ did → ∀ c claims, resp.response = .credential c → ¬ c.Says (some other) claims := by
  intro _ _ other _ hne c claims hc hsays
  obtain ⟨s', t', iss, auth, cfg, ⟨g1, g2⟩, g3, ga, g4, g5⟩ := C195_bound_to_last_key_partial h hp
  rw [hs.1] at g1; cases g1
  rw [hs.2] at g2; cases g2
  have hx := (g5 (hcfg _ _ _ g3 ga g4)).2 c other claims hc hsays
  obtain ⟨p, kid, a1, _, _, a2, rfl⟩ := hx
  obtain ⟨p', kid', b1, _, _, b2, rfl⟩ := hl
  rw [a1] at b1; cases b1
  rw [a2] at b2; cases b2
  exact hne rfl

/-- A credential names one holder. -/
theorem says_one {c : IssuedCredential} {d d' : Option String} {l l' : Dict Json} (h : c.Says d l) (h' : c.Says d' l') : d = d' := by
  cases h with
  | mdoc => cases h'; rfl
  | vc _ _ _ _ _ h => cases h' with | vc _ _ _ _ _ h' => rw [h] at h'; cases h'; rfl

namespace Demo

/-- The provider of the demonstration; a proof is the DID that made it, and all are over the nonce of the session. -/
def manyKeys : Provider := { provider with decodeProof := fun j => some { typIsProof := true, nonce := some (rng 3), kid := some (j ++ "#k1") } }

/-- A request with the proofs of two keys. -/
def twoKeys : CredentialRequest := { credReq (rng 2) (rng 3) with proof := some (.multiple ["did:web:first", "did:web:second"]) }

/-- **C195 is false**, an instance: two keys are proved, both proofs are accepted, and there is one credential, for the second. -/
theorem C195_two_keys_one_credential : ∃ c claims, ((credential manyKeys twoKeys).run env validated).1 = .ok (Credential.issuedResponse c (rng 4) (rng 5) 0) ∧
    c.Says (some "did:web:second") claims ∧ ValidProof manyKeys (rng 3) "did:web:first" "did:web:first" ∧
    ValidProof manyKeys (rng 3) "did:web:second" "did:web:second" ∧ ¬ ∃ claims, c.Says (some "did:web:first") claims := by
  have key : ∀ c claims, ((credential manyKeys twoKeys).run env validated).1 = .ok (Credential.issuedResponse c (rng 4) (rng 5) 0) →
      c.Says (some "did:web:second") claims → ¬ ∃ claims, c.Says (some "did:web:first") claims :=
    fun c claims _ h1 ⟨claims', h2⟩ => absurd (says_one h2 h1) (by decide)
  exact ⟨_, _, rfl, .vc _ _ _ _ _ rfl, ⟨_, _, rfl, rfl, rfl, rfl, by decide⟩, ⟨_, _, rfl, rfl, rfl, rfl, by decide⟩, key _ _ rfl (.vc _ _ _ _ _ rfl)⟩

-- the hypotheses of the general claims are met by it
example : twoKeys.proof = some (.multiple (["did:web:first"] ++ ["did:web:second"])) ∧ ∃ s t, Session validated twoKeys.accessToken s t ∧ t.cNonce = rng 3 :=
  ⟨rfl, _, _, ⟨rfl, rfl⟩, rfl⟩

end Demo
end Verif.Issuer
