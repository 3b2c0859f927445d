import Verif.Interop.CircleProps
import Verif.Interop.Demo
import Verif.Interop.PresentDemo
/-!
# An issuer, a wallet and a verifier at work

Shows that the hypotheses of C199 can be met: a wallet collects a developer's and an employee's credential, and a verifier asks for an employee's.
-/
namespace Verif.Interop.CircleDemo
open Verif

open Classical in
/-- The credentials storage holds. -/
noncomputable def heldOf : List Holder.Credential → List Holder.Credential
  | [] => []
  | c :: l => if ∃ c' ∈ l, c'.id = c.id then heldOf l else c :: heldOf l

theorem mem_heldOf (l : List Holder.Credential) (c : Holder.Credential) : c ∈ heldOf l ↔ Held l c := by
  induction l with
  | nil =>
    constructor
    · intro h; cases h
    · rintro ⟨a, b, h, _⟩; cases a <;> cases h
  | cons x l ih =>
    have hcons : Held (x :: l) c ↔ Held l c ∨ (c = x ∧ ¬ ∃ c' ∈ l, c'.id = x.id) := by
      constructor
      · rintro ⟨a, b, h, hb⟩
        cases a with
        | nil =>
          cases h
          exact .inr ⟨rfl, fun ⟨c', hc', he⟩ => hb c' hc' he⟩
        | cons y a =>
          cases h
          exact .inl ⟨a, b, rfl, hb⟩
      · rintro (⟨a, b, h, hb⟩ | ⟨h, hn⟩)
        · exact ⟨x :: a, b, by rw [h]; rfl, hb⟩
        · exact ⟨[], l, by rw [h]; rfl, fun c' hc' he => hn ⟨c', hc', h ▸ he⟩⟩
    rw [hcons, heldOf]
    split
    · rename_i hx
      rw [ih]
      exact ⟨.inl, fun h => h.resolve_right fun h => h.2 hx⟩
    · rename_i hx
      rw [List.mem_cons, ih]
      constructor
      · rintro (rfl | h)
        · exact .inr ⟨rfl, hx⟩
        · exact .inl h
      · rintro (h | h)
        · exact .inr h
        · exact .inl h.1

/-- The verifier's provider: it reads credentials as the wallet of the issuance demo does. -/
noncomputable def provider : Verifier.Provider := { PresentDemo.provider with
  jose := { PresentDemo.provider.jose with decodeVc := Demo.wallet.jose.decodeVc } }

/-- What storage takes a constraint to mean. -/
def sat (cs : Dif.Constraints) (vc : Vc) : Prop := Verifier.Satisfies provider cs vc

open Classical in
/-- What storage finds. -/
noncomputable def find (l : List Holder.Credential) (cs : Dif.Constraints) : List Holder.Credential := (heldOf l).filter fun c => decide (sat cs c.vc)

/-- The type asked for. -/
abbrev wanted : String := "EmployeeIDCredential"

/-- The verifier, as far as it does not depend on the others. -/
noncomputable def vbase : VNet := { PresentDemo.net with
  provider := fun _ => provider
  others := fun i => if i < 3 then [{ provider, wait := 5, req := .createRequest (PresentDemo.createReq .sameDevice ["Driver"]) }] else [] }

/-- The verifier after it made the request. -/
noncomputable def verifier : World Verifier.VState :=
  (Verifier.step vbase.env (Verifier.start 0) { provider, req := .createRequest (PresentDemo.createReq .sameDevice [wanted]) }).2

/-- The issuer, with storage and the verifier as its surroundings. -/
noncomputable def net : Net := { Demo.net with
  rest := fun log recent c => match c with
    | .save _ => some ()
    | .find cs => some (find (given log recent) cs)
    | .requestObject u => vbase.oracle verifier 7 log recent (.requestObject u)
    | .present u r => vbase.oracle verifier 7 log recent (.present u r)
    | _ => none }

/-- The verifier, with storage and the issuer as its surroundings. -/
noncomputable def vnet : VNet := { vbase with rest := net.oracle Demo.issuer 0 }

/-- The wallet's provider. -/
noncomputable def wallet : Holder.Provider := { PresentDemo.wallet [wanted] with
  jose := { (PresentDemo.wallet [wanted]).jose with decodeVc := Demo.wallet.jose.decodeVc } }

/-- The wallet's surroundings. -/
noncomputable def env : Holder.HEnv where
  rng n := String.ofList (List.replicate (n + 1) 'k')
  fault _ := .ok
  oracle := net.oracle Demo.issuer 0

theorem env_fresh : env.Fresh := by
  intro i j h
  have h := congrArg (fun s => s.toList.length) h
  simpa [env] using h

theorem connected : env.oracle = vnet.oracle verifier 7 := by
  funext log recent c
  cases c <;> rfl

theorem oracle_eq : env.oracle = net.oracle (Issuer.step net.env (Issuer.start 0) Demo.offerStep).2 (Holder.start 0).log.length := rfl

theorem keeps : Keeps env sat find where
  saves _ _ _ := rfl
  finds _ _ _ := rfl
  found l cs c := by simp [find, mem_heldOf]

theorem knows : Knows vnet net sat where
  credentials _ signer vc iat := by
    obtain ⟨cl, h1, h2, _⟩ := (Demo.understands 0 0).credentials signer vc iat
    exact ⟨cl, h1, h2⟩
  constraints _ _ _ := Iff.rfl

/-- The wallet's calls up to saving, some time apart. -/
noncomputable def history : List Holder.HStep :=
  (collectCalls "k" { clientId := "wallet", subjectId := "alice", offer := Demo.offer } (some "123456") ["dev-1", "emp-1"]).map fun r =>
    { provider := wallet, wait := 7, req := r }

/-- The wallet with its credentials. -/
noncomputable def filled : Holder.HWorld := Holder.exec env (Holder.start 0) history

theorem exec_length (e : Holder.HEnv) (w : Holder.HWorld) (l : List Holder.HStep) : (Holder.exec e w l).log.length = w.log.length + l.length := by
  induction l generalizing w with
  | nil => rfl
  | cons s l ih =>
    show (Holder.exec e (Holder.step e w s).2 l).log.length = _
    rw [ih, Holder.step_log]
    simp
    omega

theorem filled_length : filled.log.length = 7 := by rw [filled, exec_length]; rfl

theorem asked : Asked vnet (PresentDemo.createReq .sameDevice [wanted]) "tt" verifier wallet (PresentDemo.url .sameDevice) where
  fresh := Verifier.Demo.env_inj
  noSlash i := by
    simp only [vnet, vbase, PresentDemo.net, Verifier.Demo.env, Verifier.Demo.rng, String.toList_ofList]
    intro h
    have := List.eq_of_mem_replicate h
    exact absurd this (by decide)
  works _ := rfl
  made := ⟨Verifier.start 0, { provider, req := .createRequest (PresentDemo.createReq .sameDevice [wanted]) }, { requestObject := some _ }, rfl, rfl, rfl,
    nofun, .object _ _ rfl rfl rfl (by decide +kernel)⟩
  alone j s hs := by
    simp only [vnet, vbase] at hs
    split at hs
    · rw [List.mem_singleton] at hs
      subst hs
      rintro ⟨r, h, _⟩
      cases h
    · cases hs
  agrees := {
    signed := fun _ ro => ⟨"key", PresentDemo.roText ro, rfl, rfl, PresentDemo.roRead_text ro⟩
    presented := fun c => ⟨PresentDemo.vpText c, rfl, fun _ => PresentDemo.vpRead_text c⟩
    reads := (PresentDemo.agrees [wanted]).reads }

/-- A credential of the type satisfies the request. -/
theorem satisfies {vc : Vc} (h : vc.type_ = .many ["VerifiableCredential", wanted]) : sat (PresentDemo.wants wanted).constraints vc := by
  intro fs hfs
  cases hfs
  refine ⟨_, rfl, fun f hf => .inl ?_⟩
  rw [List.mem_singleton] at hf
  subst hf
  refine ⟨.arr [.str "VerifiableCredential", .str wanted], ⟨[], "$.type", [], [], rfl, nofun, ?_⟩, fun flt hflt => ?_⟩
  · simp [provider, PresentDemo.provider, PresentDemo.query, h]
  · cases hflt
    exact .arrayHas _ _ (.tail _ (.head _))

theorem undisturbed (w : World Issuer.State) (calls : List Holder.Call) (keys : String → Prop) : Undisturbed net w calls keys :=
  ⟨(Demo.undisturbed w calls keys).intact, (Demo.undisturbed w calls keys).intime⟩

theorem filled_eq : filled = Holder.exec env (Holder.exec env (Holder.start 0) history) [] := rfl

theorem asksConst : AsksConst [PresentDemo.wants wanted] := ⟨_, .head _, _, rfl, _, .head _, _, _, rfl⟩

theorem noFormat : ∀ f, (PresentDemo.wants wanted).format = some f → "jwt_vc_json" ∈ Dict.keys f := by intro f h; cases h

theorem two_of_length {α : Type} (l : List α) (h : 2 = l.length) : ∃ a b, l = [a, b] := by
  match l, h with
  | [a, b], _ => exact ⟨a, b, rfl⟩

-- C199: both credentials are collected; asked for an employee's credential, the wallet finds one, and what it sends is accepted
example : ∃ k creds w1 w2 r, Holder.step env filled { provider := wallet, wait := 3, req := .request (PresentDemo.url .sameDevice) } = (.ok (.request k .requested creds), w1) ∧
    Holder.step env w1 { provider := wallet, wait := 3, req := .authorizePresentation k } = (.ok (.status .authorized), w2) ∧
    (Holder.step env w2 { provider := wallet, wait := 3, req := .present k }).1 = .ok (.presented r) := by
  obtain ⟨got, hgot, hlen, H⟩ := C199_issued_is_accepted (n := net) (w := Issuer.start 0) (s := Demo.offerStep) (req := Demo.offerReq) (offer := Demo.offer)
    (md := Demo.md) (client := "wallet") (want := ["dev-1", "emp-1"]) (hw := Holder.start 0) (hist := history)
    (subj := "normal") (claims := Demo.claims) (W := wallet) (e := env) (sat := sat) (find := find) (oreq := { clientId := "wallet", subjectId := "alice", offer := Demo.offer })
    Issuer.Demo.env_fresh ⟨0, [], rfl⟩ rfl Demo.offered ⟨_, rfl, by decide⟩ rfl
    (.byVal ..) (by decide)
    (fun _ => ⟨rfl, rfl, _, _, _, rfl, rfl, by decide, rfl, _, _, rfl, rfl, by decide⟩)
    (by simp [Dict.Nodup, Dict.keys, Demo.md])
    (by
      intro cid hc
      simp only [Demo.offer, List.mem_cons, List.not_mem_nil, or_false] at hc
      rcases hc with rfl | rfl
      · exact ⟨_, .head _⟩
      · exact ⟨_, .tail _ (.head _)⟩)
    (fun _ => rfl) (by decide)
    (by
      intro id hid
      simp only [List.mem_cons, List.not_mem_nil, or_false] at hid
      rcases hid with rfl | rfl
      · exact ⟨"Developer", by decide, ⟨_, rfl, .head _⟩, fun _ => ⟨⟨_, .tail _ (.head _), ⟨_, rfl⟩, nofun, ⟨_, rfl, .head _⟩,
          ⟨_, rfl, fun _ => rfl⟩, by decide, ⟨_, _, _, rfl⟩, fun _ => ⟨_, rfl⟩⟩, ⟨_, rfl, rfl, rfl⟩⟩⟩
      · exact ⟨"Employee", by decide, ⟨_, rfl, .head _⟩, fun _ => ⟨⟨_, .head _, ⟨_, rfl⟩, nofun, ⟨_, rfl, .head _⟩,
          ⟨_, rfl, fun _ => rfl⟩, by decide, ⟨_, _, _, rfl⟩, fun _ => ⟨_, rfl⟩⟩, ⟨_, rfl, rfl, rfl⟩⟩⟩)
    env_fresh ⟨0, [], rfl⟩ oracle_eq keeps (fun _ => rfl) ⟨(Demo.understands 0 0).proofs, (Demo.understands 0 0).credentials, fun _ _ _ => rfl⟩ rfl rfl
    (by intro st hst; obtain ⟨_, _, rfl⟩ := List.mem_map.1 hst; rfl) (by simp [history]; rfl)
    (fun pre _ => undisturbed _ pre _)
  obtain ⟨c1, c2, rfl⟩ := two_of_length got hlen
  obtain ⟨⟨cid1, _, _, hcol1⟩, _⟩ := H "dev-1" c1 (.head _)
  obtain ⟨⟨cid, hcid, ⟨ids, hids, hid⟩, hcol⟩, H⟩ := H "emp-1" c2 (.tail _ (.head _))
  have hsaved : savedIn filled.log = [c1, c2] := hgot
  have hother : ∀ c', c' ≠ c2 → Held (savedIn filled.log) c' → c' = c1 := by
    rintro c' hne ⟨a, b, hab, _⟩
    have : c' ∈ [c1, c2] := by rw [← hsaved, hab]; simp
    simp only [List.mem_cons, List.not_mem_nil, or_false] at this
    exact this.resolve_right hne
  have hemp : cid = "Employee" := by
    simp only [Demo.offer, List.mem_cons, List.not_mem_nil, or_false] at hcid
    rcases hcid with rfl | rfl
    · rfl
    · cases hids
      simp at hid
  subst hemp
  have hty : c2.vc.type_ = .many ["VerifiableCredential", wanted] := by
    obtain ⟨cfg, d, types, ty, h1, h2, h3, h4, h5⟩ := hcol.type_
    simp only [Demo.md, List.mem_cons, Prod.mk.injEq, true_and, List.not_mem_nil, or_false] at h1
    rcases h1 with rfl | ⟨h, _⟩
    · cases h2
      cases h3
      cases h4
      exact h5
    · exact absurd h (by decide)
  have htr : ∀ c', c' ≠ c2 → Held (savedIn filled.log) c' → sat (PresentDemo.wants wanted).constraints c'.vc → Trusts vnet c' := by
    intro c' hne hh _ i
    rw [hother c' hne hh]
    obtain ⟨signer, iat, ht⟩ := hcol1.text
    obtain ⟨cl, h1, h2⟩ := knows.credentials i signer c1.vc iat
    exact ⟨cl, by rw [ht]; exact h1, h2⟩
  have hheld : Held (savedIn filled.log) c2 := ⟨[c1], [], hsaved, by simp⟩
  have H := H [] filled filled_eq hheld
  have H := H vnet _ "tt" verifier _ (PresentDemo.wants wanted) asked knows
  have H := H (by rw [filled_length]; exact connected)
  have H := H rfl asksConst noFormat (satisfies hty) htr
  obtain ⟨k, creds, w1, _, g1, H⟩ := H { provider := wallet, wait := 3, req := .request (PresentDemo.url .sameDevice) } rfl rfl
  obtain ⟨w2, g2, H⟩ := H [] { provider := wallet, wait := 3, req := .authorizePresentation k } (by simp) rfl
  obtain ⟨r, g3⟩ := H [] { provider := wallet, wait := 3, req := .present k } (by simp) rfl rfl
    (by
      have hre : Holder.Reachable env w2 := by
        refine ⟨0, history ++ [{ provider := wallet, wait := 3, req := .request (PresentDemo.url .sameDevice) },
          { provider := wallet, wait := 3, req := .authorizePresentation k }], ?_⟩
        rw [Holder.exec_append]
        show w2 = (Holder.step env (Holder.step env filled _).2 _).2
        rw [g1]
        exact (congrArg Prod.snd g2).symm
      have hlog : ∃ e1 e2, w2.log = filled.log ++ [e1, e2] ∧ e1.req = .request (PresentDemo.url .sameDevice) ∧ e2.req = .authorizePresentation k := by
        have l1 := Holder.step_log env filled { provider := wallet, wait := 3, req := .request (PresentDemo.url .sameDevice) }
        have l2 := Holder.step_log env w1 { provider := wallet, wait := 3, req := .authorizePresentation k }
        rw [g1] at l1
        rw [show Holder.step env w1 _ = _ from g2] at l2
        simp only at l1 l2
        rw [l1, List.append_assoc] at l2
        exact ⟨_, _, l2, rfl, rfl⟩
      obtain ⟨e1, e2, hl, hr1, hr2⟩ := hlog
      show NotAnswered "tt" (w2.log.drop filled.log.length)
      intro en hen ev hev uri rr hc
      obtain ⟨pre, post, hpp⟩ := List.append_of_mem (List.mem_of_mem_drop hen)
      obtain ⟨call, o⟩ := ev
      simp only at hc
      subst hc
      obtain ⟨k', _, _, _, _, hq, _⟩ := Holder.C70_presented_is_authorized env_fresh hre hpp hev
      rw [hl, List.drop_left] at hen
      simp only [List.mem_cons, List.not_mem_nil, or_false] at hen
      rcases hen with rfl | rfl
      · rw [hr1] at hq; cases hq
      · rw [hr2] at hq; cases hq)
    (fun at_ _ c' hne hh _ t ht => by
      rw [hother c' hne hh, hcol1.endless] at ht
      cases ht)
  exact ⟨k, creds, w1, w2, r, g1, g2, g3⟩

end Verif.Interop.CircleDemo
