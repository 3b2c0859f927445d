import Verif.Verifier.BindingProps
import Verif.Holder.Nonce
/-!
# Requests that restrict formats and algorithms: C203

A request can say which credential formats, and which signing algorithms for each, the verifier takes: in its definition, and in each input descriptor
(/repo/crates/dif-exch/src/lib.rs 39-123). The response endpoint compares one thing only: the format that the *submission* states for a credential, with the names
of the formats of the input descriptor (/repo/vercre-verifier/src/response.rs 133-141). The wallet states the same format for whatever it sends
(/repo/vercre-holder/src/presentation/present.rs 92-106).
-/
namespace Verif.Interop
open Verif

/-! ### Specification -/

/-- What an input descriptor says, but for names and explanations, and for the algorithms of each format. -/
def gist (i : Dif.InputDescriptor) : String × Dif.Constraints × Option (List String) := (i.id, i.constraints, i.format.map Dict.keys)

/-- The world of a verifier with another definition in the request under `k`. -/
def redefined (w : World Verifier.VState) (k : String) (s : Verifier.VState) (d : Dif.PresentationDefinition) : World Verifier.VState :=
  { w with store := upd w.store k (some { s with requestObject := { s.requestObject with presentationDefinition := .object d } }) }

/-- A response whose submission states other formats for the credentials. -/
def called (req : Verifier.ResponseRequest) (name : Dif.DescriptorMap → String) : Verifier.ResponseRequest :=
  { req with submission := req.submission.map fun subm =>
      { subm with descriptorMap := subm.descriptorMap.map fun m => { m with pathNested := { m.pathNested with format := name m } } } }

/-! ### Helpers -/

theorem fulfilled_gist {P : Verifier.Provider} {now : Int} {value : Json} {maps : List Dif.DescriptorMap} {i j : Dif.InputDescriptor} (h : gist i = gist j)
    (hf : Verifier.Fulfilled P now value maps i) : Verifier.Fulfilled P now value maps j := by
  simp only [gist, Prod.mk.injEq] at h
  obtain ⟨h1, h2, h3⟩ := h
  obtain ⟨l1, m, l2, a1, a2, a3, a4, token, c, a5, a6, a7, a8⟩ := hf
  refine ⟨l1, m, l2, a1, fun x hx => h1 ▸ a2 x hx, h1 ▸ a3, fun f hj => ?_, token, c, a5, a6, h2 ▸ a7, a8⟩
  rw [hj] at h3
  cases hi : i.format with
  | none => rw [hi] at h3; cases h3
  | some g =>
    rw [hi] at h3
    simp only [Option.map_some, Option.some.injEq] at h3
    exact h3 ▸ a4 g hi

theorem fulfilled_all_gist {P : Verifier.Provider} {now : Int} {value : Json} {maps : List Dif.DescriptorMap} {l l' : List Dif.InputDescriptor}
    (h : l.map gist = l'.map gist) (hf : ∀ i ∈ l, Verifier.Fulfilled P now value maps i) : ∀ i ∈ l', Verifier.Fulfilled P now value maps i := by
  intro j hj
  have : gist j ∈ l.map gist := h ▸ List.mem_map_of_mem hj
  obtain ⟨i, hi, hij⟩ := List.mem_map.1 this
  exact fulfilled_gist hij (hf i hi)

theorem answers_gist {P : Verifier.Provider} {now : Int} {ro : Verifier.RequestObject} {req : Verifier.ResponseRequest} {d d' : Dif.PresentationDefinition}
    (hid : d'.id = d.id) (hin : d'.inputDescriptors.map gist = d.inputDescriptors.map gist)
    (h : Verifier.Answers P now { ro with presentationDefinition := .object d } req) :
    Verifier.Answers P now { ro with presentationDefinition := .object d' } req := by
  obtain ⟨ts, vps, subm, d0, value, h1, h2, h3, h4, h5, h6, h7⟩ := h
  cases h4
  exact ⟨ts, vps, subm, d', value, h1, h2, h3, rfl, h5.trans hid.symm, h6, fulfilled_all_gist hin.symm h7⟩

theorem response_state {P : Verifier.Provider} {req : Verifier.ResponseRequest} {e : Env} {w w' : World Verifier.VState} {k : String}
    {s s' : Verifier.VState} (hs : w.store k = some s) (hw : w' = { w with store := upd w.store k (some s') })
    (h : Verifier.Answers P w.now s.requestObject req → Verifier.Answers P w.now s'.requestObject req) {r : Verifier.ResponseResponse}
    (hr : ((Verifier.response P req).run e w).1 = .ok r) : ((Verifier.response P req).run e w').1 = .ok r := by
  subst hw
  obtain ⟨h1, h2, k0, s0, h3, h4, h5, h6, _⟩ := Verifier.response_ok.1 (Verifier.pair_eq hr)
  rw [Verifier.check_ok] at h5
  by_cases hk : k0 = k
  · subst hk
    rw [hs] at h4; cases h4
    rw [(Verifier.response_ok (w := { w with store := upd w.store k0 (some s') })).2 ⟨h1, h2, k0, s', h3, upd_same .., Verifier.check_ok.2 (h h5), h6, rfl⟩]
  · rw [(Verifier.response_ok (w := { w with store := upd w.store k (some s') })).2
      ⟨h1, h2, k0, s0, h3, (upd_other _ _ hk).trans h4, Verifier.check_ok.2 h5, h6, rfl⟩]

/-! ### Properties -/

section
variable {P : Verifier.Provider} {req : Verifier.ResponseRequest} {e : Env} {w : World Verifier.VState} {r : Verifier.ResponseResponse}

/-- **C203 is false**, in general: the formats and algorithms that the definition of a request names, and the algorithms that its input descriptors name for their
formats, make no difference. A response is accepted exactly if it is for the request with any others. -/
theorem C203_restrictions_ignored {k : String} {s : Verifier.VState} (hs : w.store k = some s) {d d' : Dif.PresentationDefinition}
    (hd : s.requestObject.presentationDefinition = .object d) (hid : d'.id = d.id)
    (hin : d'.inputDescriptors.map (fun i => (i.id, i.constraints, i.format.map Dict.keys)) =
      d.inputDescriptors.map (fun i => (i.id, i.constraints, i.format.map Dict.keys))) :
    ((Verifier.response P req).run e (redefined w k s d')).1 = .ok r ↔ ((Verifier.response P req).run e w).1 = .ok r := by
  have hro : s.requestObject = { s.requestObject with presentationDefinition := .object d } := by rw [← hd]
  constructor
  · refine response_state (k := k) (s := { s with requestObject := { s.requestObject with presentationDefinition := .object d' } }) (s' := s) ?_ ?_ fun h => ?_
    · exact upd_same ..
    · have : upd (upd w.store k (some { s with requestObject := { s.requestObject with presentationDefinition := .object d' } })) k (some s) = w.store := by
        funext x
        by_cases hx : x = k
        · subst hx; rw [upd_same, hs]
        · rw [upd_other _ _ hx, upd_other _ _ hx]
      simp only [redefined, this]
    · rw [hro]; exact answers_gist (d := d') hid.symm hin.symm h
  · refine response_state hs rfl fun h => ?_
    rw [hro] at h
    exact answers_gist (d := d) hid hin h

/-- **C203 is false** also of the format names of the input descriptors: what counts is only how the submission calls a credential. A response that is accepted with
some names for the formats of its credentials is accepted with any others that the request lists, although it contains the same credentials. -/
theorem C203_name_decides {name name' : Dif.DescriptorMap → String} (h : ((Verifier.response P (called req name)).run e w).1 = .ok r)
    (hname : ∀ k s d subm, req.state = some k → w.store k = some s → s.requestObject.presentationDefinition = .object d → req.submission = some subm →
      ∀ i ∈ d.inputDescriptors, ∀ f, i.format = some f → ∀ m ∈ subm.descriptorMap, m.id = i.id → name' m ∈ Dict.keys f) :
    ((Verifier.response P (called req name')).run e w).1 = .ok r := by
  obtain ⟨h1, h2, k, s, h3, h4, h5, h6, _⟩ := Verifier.response_ok.1 (Verifier.pair_eq h)
  have h3 : req.state = some k := h3
  rw [Verifier.check_ok] at h5
  suffices ha : Verifier.Answers P w.now s.requestObject (called req name') by
    rw [(Verifier.response_ok (req := called req name')).2 ⟨h1, h2, k, s, h3, h4, Verifier.check_ok.2 ha, h6, rfl⟩]
  obtain ⟨ts, vps, subm, d, value, a1, a2, a3, a4, a5, a6, a7⟩ := h5
  cases hsub : req.submission with
  | none => simp [called, hsub] at a3
  | some subm0 =>
    simp only [called, hsub, Option.map_some, Option.some.injEq] at a3
    subst a3
    refine ⟨ts, vps, { subm0 with descriptorMap := subm0.descriptorMap.map fun m => { m with pathNested := { m.pathNested with format := name' m } } },
      d, value, a1, a2, by simp only [called, hsub, Option.map_some], a4, a5, a6, fun i hi => ?_⟩
    obtain ⟨l1, m, l2, b1, b2, b3, b4, b5⟩ := a7 i hi
    obtain ⟨l1', t, hl, rfl, ht⟩ := List.map_eq_append_iff.1 b1
    obtain ⟨m0, l2', rfl, rfl, rfl⟩ := List.map_eq_cons_iff.1 ht
    refine ⟨l1'.map fun m => { m with pathNested := { m.pathNested with format := name' m } }, { m0 with pathNested := { m0.pathNested with format := name' m0 } },
      l2'.map fun m => { m with pathNested := { m.pathNested with format := name' m } }, by rw [hl]; simp, ?_, b3, ?_, b5⟩
    · intro x hx
      obtain ⟨y, hy, rfl⟩ := List.mem_map.1 hx
      exact b2 { y with pathNested := { y.pathNested with format := name y } } (List.mem_map.2 ⟨y, hy, rfl⟩)
    · intro f hf
      exact hname k s d subm0 h3 h4 a4 hsub i hi f hf m0 (by rw [hl]; simp) b3

/-- The part of **C203** that holds: if a response is accepted, each input descriptor is answered by a signed token, for which the submission states a format that
the descriptor lists, if it lists any. That the credential is of that format, and signed with an algorithm that was asked for, is missing. -/
theorem C203_called_as_asked_partial (h : ((Verifier.response P req).run e w).1 = .ok r) :
    ∃ k s d subm, req.state = some k ∧ w.store k = some s ∧ s.requestObject.presentationDefinition = .object d ∧ req.submission = some subm ∧
      ∀ i ∈ d.inputDescriptors, ∃ m ∈ subm.descriptorMap, m.id = i.id ∧ (∀ f, i.format = some f → m.pathNested.format ∈ Dict.keys f) ∧
        ∃ token c, P.jose.decodeVc token = some c ∧ Verifier.Satisfies P i.constraints c.vc := by
  obtain ⟨k, s, h1, h2, ts, vps, subm, d, value, _, _, hsub, hd, _, _, hf⟩ := Verifier.C52_accepted_answers P req e w r h
  refine ⟨k, s, d, subm, h1, h2, hd, hsub, fun i hi => ?_⟩
  obtain ⟨l1, m, l2, a1, _, a2, a3, token, c, _, a4, a5, _⟩ := hf i hi
  exact ⟨m, by rw [a1]; simp, a2, a3, token, c, a4, a5⟩

end

/-- **C203**, what the wallet makes of it: it states the format `jwt_vc_json` for whatever it sends. So if an input descriptor of the request lists formats, and not
this name (say `jwt_vc`, the name that the verifier's own requests use), then what the wallet sends is refused, whatever credentials it has and whatever else is true
of the verifier. -/
theorem C203_wallet_never_accepted {e : Holder.HEnv} {w : Holder.HWorld} {st : Holder.HStep} {k : String} (hq : st.req = .present k) {p : Holder.Presentation}
    (hp : w.store k = some (.presentation p)) {d : Dif.PresentationDefinition} (hd : p.request.presentationDefinition = .object d) {i : Dif.InputDescriptor}
    (hi : i ∈ d.inputDescriptors) {f : Dict Dif.ClaimFormat} (hf : i.format = some f) (hno : "jwt_vc_json" ∉ Dict.keys f)
    {en : Holder.Entry} (hlog : (Holder.step e w st).2.log = w.log ++ [en]) {u : Option String} {req : Verifier.ResponseRequest} {o : Option Verifier.ResponseResponse}
    (hev : (⟨.present u req, o⟩ : Holder.Event) ∈ en.events)
    (P : Verifier.Provider) (e' : Env) (v : World Verifier.VState) (tok : String) (s : Verifier.VState) (htok : req.state = some tok) (hs : v.store tok = some s)
    (hsame : s.requestObject.presentationDefinition = p.request.presentationDefinition) (r : Verifier.ResponseResponse) :
    ((Verifier.response P req).run e' v).1 ≠ .ok r := by
  intro h
  rw [Holder.step_entry] at hlog
  have hen : en = Holder.entryOf e w st := by simpa using hlog.symm
  subst hen
  obtain ⟨⟨res, w2⟩, hrun⟩ : ∃ q, (Holder.serve st.provider st.req).run e (Holder.before w st) = q := ⟨_, rfl⟩
  unfold Holder.entryOf at hev
  rw [hrun] at hev
  rw [hq] at hrun
  obtain ⟨evs, hE, h1⟩ := Holder.present_did hrun
  have hrec : w2.recent = evs := by rw [hE.recent]; rfl
  simp only [hrec] at hev
  rcases h1 with ⟨_, rfl⟩ | ⟨p0, pd, vp, jwt, n, u0, sub, h2, _, h3, h4, _, _, o0, rfl, _⟩
  · cases hev
  have h2 : w.store k = some (.presentation p0) := h2
  rw [hp] at h2; cases h2
  rw [hd] at h3; cases h3
  obtain ⟨-, hreq, -⟩ : _ ∧ req = ⟨some [.string jwt], some sub, p.request.state⟩ ∧ o = o0 := by
    have := List.mem_singleton.1 hev
    injection this with h5 h6
    injection h5 with h7 h8
    exact ⟨h7, h8, by cases h6; rfl⟩
  subst hreq
  obtain ⟨k', s', d', subm, g1, g2, g3, g4, g5⟩ := C203_called_as_asked_partial h
  rw [htok] at g1; cases g1
  rw [hs] at g2; cases g2
  rw [hsame, hd] at g3; cases g3
  cases g4
  obtain ⟨m, hm, _, hmf, _⟩ := g5 i hi
  rw [h4] at hm
  simp only [Holder.descriptorMap, List.mem_map] at hm
  obtain ⟨_, _, rfl⟩ := hm
  exact hno (hmf f hf)

end Verif.Interop
