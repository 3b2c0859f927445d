import Verif.App.AnswerProps
import Verif.Interop.PresentDemo
/-!
# The example wallet and a verifier at work

Shows that the hypotheses of C170 can be met. The wallet has an employee's credential; a request for it is answered. Another wallet has an old one as well, which
is in the way.
-/
namespace Verif.App.AnswerDemo
open Holder (Credential)
open Interop (VNet Net)
open Interop.PresentDemo (wants createReq wallet url roText vpRead vpText roRead_text vpRead_text query)

/-- An employee's credential that was good until time 1. -/
def oldVc : Vc := { Interop.PresentDemo.vc "Employee" with validUntil := some 1 }

/-- The same as the wallet has it. -/
def old : Credential := ⟨"urn:Old", "https://issuer.example", oldVc, "Old.jwt", 0, none, none⟩

/-- The one that is still good. -/
def good : Credential := Interop.PresentDemo.held "Employee"

/-- The verifier's provider, which reads both. -/
noncomputable def provider : Verifier.Provider :=
  { Interop.PresentDemo.provider with
    jose := { Interop.PresentDemo.provider.jose with
      decodeVc := fun t =>
        if t = "Employee.jwt" then some ⟨"did:alice", none, "https://issuer.example", 0, "", none, Interop.PresentDemo.vc "Employee"⟩
        else if t = "Old.jwt" then some ⟨"did:alice", none, "https://issuer.example", 0, "", none, oldVc⟩
        else none } }

/-- Before each of the first three calls of the wallet the verifier serves another request. -/
noncomputable def net : VNet where
  env := Verifier.Demo.env
  provider _ := provider
  others i := if i < 3 then [{ provider, wait := 5, req := .createRequest (createReq .sameDevice ["Driver"]) }] else []
  rest _ _ _ := none

/-- The verifier after it made the request. -/
noncomputable def verifier : World Verifier.VState :=
  (Verifier.step net.env (Verifier.start 0) { provider, req := .createRequest (createReq .sameDevice ["Employee"]) }).2

/-- The application's surroundings. -/
noncomputable def around : Around where
  provider := wallet ["Employee"]
  env := { rng := fun n => String.ofList (List.replicate (n + 1) 'k'), fault := fun _ => .ok, oracle := net.oracle verifier 0 }
  disk _ := true
  readOffer _ := none
  dif := provider.ext
  toJson := provider.vcJson

theorem agrees : Interop.Agrees net (wallet ["Employee"]) "http://v.example" where
  signed _ ro := ⟨"key", roText ro, rfl, rfl, roRead_text ro⟩
  presented c := ⟨vpText c, rfl, fun _ => vpRead_text c⟩
  reads _ vp := by
    refine ⟨_, rfl, fun t l h => ?_, fun h => ?_⟩
    · simp [net, provider, Interop.PresentDemo.provider, query, h]
    · simp [net, provider, Interop.PresentDemo.provider, query, h]

theorem asked : Interop.Asked net (createReq .sameDevice ["Employee"]) "tt" verifier around.provider (url .sameDevice) where
  fresh := Verifier.Demo.env_inj
  noSlash i := by
    simp only [net, Verifier.Demo.env, Verifier.Demo.rng, String.toList_ofList]
    intro h
    have := List.eq_of_mem_replicate h
    exact absurd this (by decide)
  works _ := rfl
  made := ⟨Verifier.start 0, { provider, req := .createRequest (createReq .sameDevice ["Employee"]) }, { requestObject := some _ }, rfl, rfl, rfl,
    nofun, .object _ _ rfl rfl rfl (by decide +kernel)⟩
  alone j s hs := by
    simp only [net] at hs
    split at hs
    · rw [List.mem_singleton] at hs
      subst hs
      rintro ⟨r, h, _⟩
      cases h
    · cases hs
  agrees := agrees

theorem fresh : around.env.Fresh := by
  intro i j h
  have h := congrArg String.toList h
  simp only [around, String.toList_ofList] at h
  have := congrArg List.length h
  simp only [List.length_replicate] at this
  omega

/-- The application with these credentials in its store. -/
def wallets (l : List Credential) : App := opened 0 (l.map fun c => (c.id, .credential c))

theorem readable (l : List Credential) : AllReadable (wallets l) := by
  intro x hx
  obtain ⟨c, _, rfl⟩ := List.mem_map.1 hx
  exact ⟨c, rfl⟩

theorem inStore {l : List Credential} {id : String} {c : Credential} (h : (id, Slot.credential c) ∈ (wallets l).files.store) : c ∈ l := by
  obtain ⟨c', h', he⟩ := List.mem_map.1 h
  cases he; exact h'

/-- Both credentials are of the type asked for. -/
theorem has {c : Credential} (h : c ∈ [old, good]) : Has around (wants "Employee").constraints c := by
  intro fs hfs
  cases hfs
  have hj : around.toJson c.vc = some (.obj [("type", .arr [.str "VerifiableCredential", .str "Employee"])]) := by
    simp only [List.mem_cons, List.not_mem_nil, or_false] at h
    rcases h with rfl | rfl <;> rfl
  refine ⟨_, hj, fun f hf => .inl ?_⟩
  rw [List.mem_singleton] at hf
  subst hf
  refine ⟨_, ⟨[], "$.type", [], [], rfl, nofun, rfl⟩, fun flt hflt => ?_⟩
  cases hflt
  exact .arrayHas _ _ (.tail _ (.head _))

theorem searchable {l : List Credential} (hl : ∀ c ∈ l, c ∈ [old, good]) : Searchable around (wants "Employee").constraints (wallets l) := by
  intro fs hfs id c hc j hj f hf hcr
  cases hfs
  rw [List.mem_singleton] at hf
  subst hf
  obtain ⟨n, flt, hsel, hflt, hp⟩ := hcr
  have hj' : j = .obj [("type", .arr [.str "VerifiableCredential", .str "Employee"])] := by
    have := hl c (inStore hc)
    simp only [List.mem_cons, List.not_mem_nil, or_false] at this
    rcases this with rfl | rfl <;> exact (Option.some.inj hj).symm
  subst hj'
  obtain ⟨pre, p, post, ns, hpath, _, hq⟩ := hsel
  have hp' : p = "$.type" := by
    cases pre with
    | nil => cases hpath; rfl
    | cons a l => cases l <;> simp at hpath
  subst hp'
  cases hq
  cases hflt
  cases hp

theorem trusts {c : Credential} (h : c ∈ [old, good]) : Interop.Trusts net c := by
  intro i
  simp only [List.mem_cons, List.not_mem_nil, or_false] at h
  rcases h with rfl | rfl
  · exact ⟨_, rfl, rfl⟩
  · exact ⟨_, rfl, rfl⟩

/-- The application when the user has agreed. -/
noncomputable def agreed (l : List Credential) : App := after around (wallets l) (agreeCmds 3 3 (url .sameDevice))

/-- Opening and agreeing do not reach the verifier: the request was handed over as a whole. -/
theorem untouched {l : List Credential} (hl : l = [good] ∨ l = [old, good]) : Net.made 0 (agreed l).world.log [] = [.find (wants "Employee").constraints] := by
  rcases hl with rfl | rfl <;> rfl

theorem arrives {l : List Credential} (hl : l = [good] ∨ l = [old, good]) : (0, verifier) = net.after verifier (Net.made (wallets l).world.log.length (agreed l).world.log []) := by
  rw [show (wallets l).world.log.length = 0 from rfl, untouched hl]
  rfl

-- C170: the credential is asked for and presented, and accepted
example : Accepted around (agreed [good]) 3 ∧ (serve around (agreed [good]) 3 .present).2.sub = .credential :=
  C170_one_credential_partial asked fresh (fun _ => rfl) (past := []) (s := wallets [good]) rfl rfl (readable _) (d := wants "Employee") rfl
    (searchable (by simp)) ⟨_, .head _, _, rfl, _, .head _, _, _, rfl⟩ (fun f hf => nomatch hf)
    (fun id c hc => trusts (by have := inStore hc; simp_all)) (fun i => ⟨rfl, rfl⟩) (id := good.id) (c := good) (.head _) (has (by simp)) rfl (arrives (.inl rfl))
    (fun id c hc _ u hu => by
      have := inStore hc
      rw [List.mem_singleton] at this
      subst this
      cases hu
      show (5 : Int) ≤ 1000
      decide)

/-- **C170** A wallet with a good credential and an old one: what is presented is refused, though it would be accepted without the old one. -/
theorem C170_violated_old_and_good : ¬ Accepted around (agreed [old, good]) 3 :=
  C170_violated_expired_in_the_way asked fresh (fun _ => rfl) (past := []) (s := wallets [old, good]) rfl rfl (readable _) (d := wants "Employee") (ds := []) rfl
    (searchable (by simp)) (fun id c hc => trusts (inStore hc)) (c := old) rfl (has (by simp)) rfl (arrives (.inr rfl)) (u := 1) rfl (by
      show (1 : Int) < 5
      decide)

end Verif.App.AnswerDemo
