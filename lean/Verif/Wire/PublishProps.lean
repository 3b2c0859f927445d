import Verif.Wire.WalletStoreDemo
/-!
# C127, C130: whatever the endpoints work with can be published and kept

The theorems of C127 and C130 take as given how what the endpoints work with is written in full. Here it is shown that there always is such a way.
-/
namespace Verif.Wire
open Demo

/-- **C127**. Whatever metadata an issuer works with, there is something it can publish of which wallets see just that; it can be put in words if the metadata can. -/
theorem C127_metadata_can_be_published (md : Verif.Issuer) :
    ∃ page : IssuerMeta, issuerSeen page = md ∧
      (PlainIssuer md → md.configs.Nodup → (∀ c ∈ md.configs, ∀ l, c.2.proofTypes = some l → l.Nodup) → page.Sound) := by
  refine ⟨pageOf md, issuerSeen_of md, fun h1 h2 h3 => ⟨?_, ?_, fun _ h => nomatch h⟩⟩
  · simpa [Dict.Nodup, Dict.keys, pageOf, Function.comp_def] using h2
  · intro p hp
    rw [pageOf] at hp
    obtain ⟨q, hq, rfl⟩ := List.mem_map.1 hp
    refine ⟨(h1 q hq).1, fun m hm => ?_⟩
    cases hl : q.2.proofTypes with
    | none => simp [configOf, hl] at hm
    | some l =>
      simp only [configOf, hl, Option.map_some, Option.some.injEq] at hm
      subst hm
      simpa [Dict.Nodup, Dict.keys, Function.comp_def] using h3 q hq l hl

/-- **C127**. Whatever an authorization server can do, there is something it can publish of which wallets see just that. -/
theorem C127_server_metadata_can_be_published (s : Verif.Server) : ∃ page : ServerMeta, serverSeen page = s := ⟨serverPageOf s, serverSeen_of s⟩

/-- **C130**. There is a way to keep everything the wallet works with in full. -/
theorem C130_everything_can_be_kept : ∃ p : Pages, p.Faithful := ⟨pages, faithful⟩

/-- The hypotheses are those of a real issuer. -/
example : ∃ page : IssuerMeta, issuerSeen page = Holder.Demo.metadata ∧ page.Sound := by
  obtain ⟨page, h1, h2⟩ := C127_metadata_can_be_published Holder.Demo.metadata
  refine ⟨page, h1, h2 metadata_plain (by simp [Dict.Nodup, Dict.keys, Holder.Demo.metadata]) ?_⟩
  intro c hc l hl
  simp only [Holder.Demo.metadata, List.mem_cons, List.not_mem_nil, or_false] at hc
  rcases hc with rfl | rfl <;> cases hl

end Verif.Wire
