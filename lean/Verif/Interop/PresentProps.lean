import Verif.Interop.Present
import Verif.Interop.Link
import Verif.Holder.PresentKeep
/-!
# The wallet and the verifier together: C114, C115
-/
namespace Verif.Interop
open Verif

/-! ### Specification -/

/-- How a wallet is told of a new request: by the URI of the request object, or by the request object itself in a query string. -/
inductive Told (W : Holder.Provider) (resp : Verifier.CreateRequestResponse) : String → Prop
  | uri (url : String) : resp.requestUri = some url → W.percentDecode url = some url →
      Holder.containsText "&presentation_definition".toList url.toList = false → Told W resp url
  | object (ro : Verifier.RequestObject) (url : String) : resp.requestObject = some ro → W.parseRequest url = some ro →
      (W.percentDecode url).isSome = true → Holder.containsText "&presentation_definition".toList url.toList = true → Told W resp url

/-- The libraries on both sides fit together: the wallet reads what the verifier signs, the verifier reads what the wallet signs, and the path
`$.verifiableCredential[0]` in a presentation leads to its first credential. -/
structure Agrees (n : VNet) (W : Holder.Provider) (client : String) : Prop where
  signed : ∀ i ro, ∃ key t, (n.provider i).signer client = some key ∧ (n.provider i).encodeRequest key ro = some t ∧ W.decodeRequest t = some ro
  presented : ∀ c, ∃ t, W.jose.encodeVp W.kid c = some t ∧ ∀ i, (n.provider i).jose.decodeVp t = some c
  reads : ∀ i vp, ∃ j, (n.provider i).vpJson vp = some j ∧
    (∀ t l, vp.credentials.getD [] = .string t :: l → (n.provider i).ext.query "$.verifiableCredential[0]" j = some [.str t]) ∧
    (vp.credentials.getD [] = [] → (n.provider i).ext.query "$.verifiableCredential[0]" j = some [])

/-- Some input descriptor asks for a constant. -/
def AsksConst (ds : List Dif.InputDescriptor) : Prop :=
  ∃ d ∈ ds, ∃ fs, d.constraints.fields = some fs ∧ ∃ f ∈ fs, ∃ t c, f.filter = some ⟨t, .const c⟩

/-- A credential is one the input descriptor asks for, at some time. -/
def Fits (P : Verifier.Provider) (now : Int) (d : Dif.InputDescriptor) (c : Holder.Credential) : Prop :=
  (∀ f, d.format = some f → "jwt_vc_json" ∈ Dict.keys f) ∧ Verifier.Satisfies P d.constraints c.vc ∧
    ∀ t, c.vc.validUntil = some t → now ≤ t

/-- The verifier takes the wallet's credential for what the wallet takes it. -/
def Trusts (n : VNet) (c : Holder.Credential) : Prop := ∀ i, ∃ k, (n.provider i).jose.decodeVc c.issued = some k ∧ k.vc = c.vc

/-- No call of the wallet recorded in some part of its history answers the request with this state. -/
def NotAnswered (tok : String) (log : List Holder.Entry) : Prop :=
  ∀ en ∈ log, ∀ ev ∈ en.events, ∀ uri r, ev.call = .present uri r → r.state ≠ some tok

/-- A verifier `n` makes a request, found in its store under `tok`, and a wallet is told of it by `url`. The verifier's store works, and nobody else answers
the request. -/
structure Asked (n : VNet) (req : Verifier.CreateRequestRequest) (tok : String) (v1 : World Verifier.VState) (W : Holder.Provider) (url : String) : Prop where
  fresh : ∀ i j, n.env.rng i = n.env.rng j → i = j
  noSlash : ∀ i, '/' ∉ (n.env.rng i).toList
  works : ∀ m, n.env.fault m = .ok
  made : ∃ v0 sc resp, sc.req = .createRequest req ∧ Verifier.step n.env v0 sc = (.ok (.createRequest resp), v1) ∧ v0.store tok = none ∧
    v1.store tok ≠ none ∧ Told W resp url
  alone : ∀ j, ∀ s ∈ n.others j, ¬ Verifier.Step.Answering tok s
  agrees : Agrees n W req.clientId

/-- And the wallet is in world `hw`, its store works, and it finds the credentials `creds`, which the verifier trusts, for the first input descriptor. -/
structure Meeting (n : VNet) (req : Verifier.CreateRequestRequest) (tok : String) (v1 : World Verifier.VState) (e : Holder.HEnv) (hw : Holder.HWorld)
    (W : Holder.Provider) (url : String) (creds : List Holder.Credential) : Prop extends Asked n req tok v1 W url where
  walletWorks : ∀ m, e.fault m = .ok
  walletFresh : e.Fresh
  reachable : Holder.Reachable e hw
  connected : e.oracle = n.oracle v1 hw.log.length
  finds : ∀ d ds, req.inputDescriptors = d :: ds → ∀ recent, n.rest hw.log recent (.find d.constraints) = some creds
  trusts : ∀ c ∈ creds, Trusts n c

/-! ### Runs of the wallet -/

section
open Holder HProg
variable {e : HEnv}

theorem obtain_inline {W : Holder.Provider} {url u : String} {w : HWorld} {q : Verifier.RequestObject} (hp : W.parseRequest url = some q)
    (hc : containsText "&presentation_definition".toList url.toList = true) : (obtainRequest W url u).run e w = (.ok q, w) := by
  unfold obtainRequest
  rw [hc, if_pos rfl, run_lift, hp]
  rfl

theorem obtain_fetched {W : Holder.Provider} {url u t : String} {w : HWorld} {q : Verifier.RequestObject}
    (ho : e.oracle w.log w.recent (.requestObject u) = some (.jwt t)) (hd : W.decodeRequest t = some q)
    (hc : containsText "&presentation_definition".toList url.toList = false) :
    (obtainRequest W url u).run e w = (.ok q, { w with recent := w.recent ++ [⟨.requestObject u, some (.jwt t)⟩] }) := by
  unfold obtainRequest
  rw [hc, if_neg (by simp), run_bind, run_call ho]
  simp only [run_lift, parseResponse, hd, need]

theorem request_runs {W : Holder.Provider} {url u : String} {w w2 : HWorld} {q : Verifier.RequestObject} {pd : Dif.PresentationDefinition}
    {d : Dif.InputDescriptor} {ds : List Dif.InputDescriptor} {creds : List Credential} (hu : W.percentDecode url = some u)
    (ho : (obtainRequest W url u).run e { w with drawn := w.drawn + 1 } = (.ok q, w2))
    (hpd : q.presentationDefinition = .object pd) (hd : pd.inputDescriptors = d :: ds)
    (hfind : e.oracle w2.log w2.recent (.find d.constraints) = some creds) (hf : ∀ m, e.fault m = .ok) :
    (Holder.request W url).run e w = (.ok (.request (e.rng w.drawn) .requested creds),
      { w2 with
        store := upd w2.store (e.rng w.drawn) (some (.presentation ⟨e.rng w.drawn, .requested, q, creds, d.constraints⟩))
        ops := w2.ops + 1
        recent := w2.recent ++ [⟨.find d.constraints, some creds⟩] }) := by
  have hb : buildFilter q = .ok d.constraints := by simp [buildFilter, hpd, hd]
  simp only [Holder.request, run_bind, run_lift, need, hu, run_draw, ho, hb, run_call hfind, run_put hf, run_pure]

/-- What a presentation call returns, by the answer to its message. -/
def outcome : Option Verifier.ResponseResponse → HRes Resp
  | some r => .ok (.presented r)
  | none => .error .provider

/-- The message `present` sends, and what comes of it. -/
theorem present_runs {P : Holder.Provider} {k : String} {w : HWorld} {p : Presentation} {pd : Dif.PresentationDefinition}
    (hp : w.store k = some (.presentation p))
    (hs : p.status = .authorized) (hpd : p.request.presentationDefinition = .object pd) (hc : HasConst pd)
    (hj : ∀ c, ∃ t, P.jose.encodeVp P.kid c = some t) (hf : ∀ m, e.fault m = .ok) :
    ∃ vp jwt id, P.jose.encodeVp P.kid { VpClaims.fromVp vp w.now with aud := p.request.clientId, nonce := p.request.nonce } = some jwt ∧
      vp.credentials.getD [] = p.credentials.map (fun c => Kind.string c.issued) ∧
      ∀ rr, rr = (⟨some [.string jwt], some ⟨id, pd.id, descriptorMap pd.inputDescriptors⟩, p.request.state⟩ : Verifier.ResponseRequest) →
      ∀ o, e.oracle w.log w.recent (.present (p.request.responseUri.map trimSlashes) rr) = o →
        ((present P k).run e w).1 = outcome o ∧
        ((present P k).run e w).2.recent = w.recent ++ [⟨.present (p.request.responseUri.map trimSlashes) rr, o⟩] := by
  obtain ⟨vp, hvp⟩ := (vpDraft_builds (e.rng (w.drawn + 1)) p pd (beforeHash P.kid)).mpr hc
  obtain ⟨jwt, hjwt⟩ := hj { VpClaims.fromVp vp w.now with aud := p.request.clientId, nonce := p.request.nonce }
  have hcr : Proof.create P.jose .jwtVcJson (.vp vp p.request.clientId p.request.nonce) P.kid w.now = .ok jwt := by
    simp only [Proof.create, Bind.bind, Except.bind, require, hjwt, orErr]
    rfl
  refine ⟨vp, jwt, e.rng w.drawn, hjwt, (vpDraft_ok hvp).1, ?_⟩
  unfold vpDraft at hvp
  rintro rr rfl o ho
  have key : (present P k).run e w = (outcome o,
      { w with
        drawn := w.drawn + 1 + 1, ops := w.ops + 1
        recent := w.recent ++ [⟨.present (p.request.responseUri.map trimSlashes)
          ⟨some [.string jwt], some ⟨e.rng w.drawn, pd.id, descriptorMap pd.inputDescriptors⟩, p.request.state⟩, o⟩] }) := by
    simp only [present, getPresentation, Bind.bind, HProg.bind, run, hf, Prog.getRes, hp, lift, check, hs, beq_self_eq_true, if_true, createSubmission,
      hpd, drawE, createVp, hvp, nowE, hcr, ofRes, callE, Pure.pure]
    subst ho
    cases e.oracle w.log w.recent (Call.present (p.request.responseUri.map trimSlashes)
      ⟨some [.string jwt], some ⟨e.rng w.drawn, pd.id, descriptorMap pd.inputDescriptors⟩, p.request.state⟩) <;> rfl
  rw [key]
  exact ⟨rfl, rfl⟩

theorem authorize_runs {k : String} {w : HWorld} {p : Presentation} (hp : w.store k = some (.presentation p)) (hs : p.status = .requested)
    (hf : ∀ m, e.fault m = .ok) : (authorizePresentation k).run e w = (.ok (.status .authorized),
      { w with store := upd w.store p.id (some (.presentation { p with status := .authorized })), ops := w.ops + 2 }) := by
  simp [authorizePresentation, getPresentation, Bind.bind, HProg.bind, run, hf, Prog.getRes, Prog.writeRes, hp, lift, check, hs, putE, Pure.pure]

end

/-! ### The verifier's answers -/

theorem answer_object {n : VNet} (hf : ∀ m, n.env.fault m = .ok) {v : World Verifier.VState} {calls : List Holder.Call}
    {client id : String} {s : Verifier.VState}
    (hs : (n.arrival (n.after v calls).1 (n.after v calls).2).store id = some s) (hc : s.requestObject.clientId = client ++ "/post")
    {key t : String} (hk : (n.provider (n.after v calls).1).signer client = some key)
    (ht : (n.provider (n.after v calls).1).encodeRequest key s.requestObject = some t) :
    VNet.objectReply (n.answer v calls (.requestObject { clientId := client, id })) = some (.jwt t) := by
  unfold VNet.answer VNet.serve Verifier.step Verifier.call
  have := (Verifier.requestObject_ok (P := n.provider (n.after v calls).1) (req := { clientId := client, id }) (e := n.env)
    (w := { n.arrival (n.after v calls).1 (n.after v calls).2 with now := (n.arrival (n.after v calls).1 (n.after v calls).2).now + (0 : Nat) })).2
    ⟨hf _, rfl, s, key, hs, hc, hk, ht⟩
  show VNet.objectReply (((Verifier.requestObject _ _).bind _).run _ _).1 = _
  rw [Prog.run_bind, this]
  rfl

theorem oracle_object {n : VNet} {v : World Verifier.VState} {skip : Nat} {log : List Holder.Entry} {recent : List Holder.Event} {url client id : String}
    (h : splitUrl url = some (client, id)) : n.oracle v skip log recent (.requestObject url) =
      VNet.objectReply (n.answer v (Net.made skip log recent) (.requestObject { clientId := client, id })) := by
  have : verifierRequest (.requestObject url) = some (.requestObject { clientId := client, id }) := by rw [verifierRequest, h]; rfl
  show (verifierRequest (.requestObject url)).bind (fun r => VNet.objectReply (n.answer v (Net.made skip log recent) r)) = _
  rw [this, Option.bind_some]

theorem answer_response {n : VNet} (hf : ∀ m, n.env.fault m = .ok) {v : World Verifier.VState} {calls : List Holder.Call}
    {rr : Verifier.ResponseRequest} {tok : String} {s : Verifier.VState} (hst : rr.state = some tok)
    (hs : (n.arrival (n.after v calls).1 (n.after v calls).2).store tok = some s) :
    (∃ r, VNet.presentReply (n.answer v calls (.response rr)) = some r) ↔
      Verifier.Answers (n.provider (n.after v calls).1) (n.arrival (n.after v calls).1 (n.after v calls).2).now s.requestObject rr := by
  unfold VNet.answer VNet.serve Verifier.step Verifier.call
  show (∃ r, VNet.presentReply (((Verifier.response _ _).bind _).run _ _).1 = some r) ↔ _
  rw [Prog.run_bind]
  simp only [Int.natCast_zero, Int.add_zero]
  generalize hw : n.arrival (n.after v calls).1 (n.after v calls).2 = w at *
  have h0 : ({ w with now := w.now } : World Verifier.VState) = w := rfl
  rw [h0]
  constructor
  · rintro ⟨r, hr⟩
    rcases h : (Verifier.response (n.provider (n.after v calls).1) rr).run n.env w with ⟨x | x, w'⟩
    · rw [h] at hr; cases hr
    · obtain ⟨_, _, k', s', h1, h2, h3, _, _⟩ := Verifier.response_ok.1 h
      rw [hst] at h1; cases h1
      rw [hs] at h2; cases h2
      exact Verifier.check_ok.1 h3
  · intro ha
    rw [Verifier.response_ok.2 ⟨hf _, hf _, tok, s, hst, hs, Verifier.check_ok.2 ha, rfl, rfl⟩]
    exact ⟨_, rfl⟩

/-- When the wallet's message answers the request. -/
theorem answers_iff {n : VNet} {W : Holder.Provider} {client : String} (hag : Agrees n W client) {i : Nat} {now hnow : Int} {ro : Verifier.RequestObject}
    {pd : Dif.PresentationDefinition} (hpd : ro.presentationDefinition = .object pd) (hne : pd.inputDescriptors ≠ []) {vp : Vp} {jwt id aud : String}
    (hj : W.jose.encodeVp W.kid { VpClaims.fromVp vp hnow with aud := aud, nonce := ro.nonce } = some jwt)
    {creds : List Holder.Credential} (hc : vp.credentials.getD [] = creds.map (fun c => Kind.string c.issued)) (htr : ∀ c ∈ creds, Trusts n c)
    {st : Option String} :
    Verifier.Answers (n.provider i) now ro ⟨some [.string jwt], some ⟨id, pd.id, Holder.descriptorMap pd.inputDescriptors⟩, st⟩ ↔
      ∃ c rest, creds = c :: rest ∧ ∀ d ∈ pd.inputDescriptors, Fits (n.provider i) now d c := by
  obtain ⟨t, ht, hdec⟩ := hag.presented { VpClaims.fromVp vp hnow with aud := aud, nonce := ro.nonce }
  rw [hj] at ht; cases ht
  obtain ⟨j, hvj, hq1, hq0⟩ := hag.reads i vp
  -- each descriptor's first mapping
  have hmap : ∀ d ∈ pd.inputDescriptors, ∃ l1 m l2, Holder.descriptorMap pd.inputDescriptors = l1 ++ m :: l2 ∧ (∀ x ∈ l1, x.id ≠ d.id) ∧ m.id = d.id ∧
      m.pathNested = { format := "jwt_vc_json", path := "$.verifiableCredential[0]" } := by
    intro d hd
    generalize pd.inputDescriptors = ds at hd
    induction ds with
    | nil => simp at hd
    | cons a ds ih =>
      by_cases ha : a.id = d.id
      · exact ⟨[], _, _, rfl, fun x hx => (nomatch hx), ha, rfl⟩
      · rcases List.mem_cons.1 hd with rfl | hd
        · exact absurd rfl ha
        · obtain ⟨l1, m, l2, h1, h2, h3, h4⟩ := ih hd
          refine ⟨_ :: l1, m, l2, by simp only [Holder.descriptorMap, List.map_cons] at h1 ⊢; rw [h1]; rfl, ?_, h3, h4⟩
          intro x hx
          rcases List.mem_cons.1 hx with rfl | hx
          · exact ha
          · exact h2 x hx
  have hnest : ∀ m ∈ Holder.descriptorMap pd.inputDescriptors, m.pathNested = { format := "jwt_vc_json", path := "$.verifiableCredential[0]" } := by
    intro m hm
    simp only [Holder.descriptorMap, List.mem_map] at hm
    obtain ⟨d, _, rfl⟩ := hm
    rfl
  constructor
  · rintro ⟨tokens, vps, subm, d', value, h1, h2, h3, h4, h5, h6, h7⟩
    cases h1
    cases h3
    rw [hpd] at h4; cases h4
    cases h2 with
    | cons hsh hrest =>
      cases hrest
      cases hsh with
      | jwt _ k hk hn =>
        rw [hdec i] at hk
        cases hk
        rcases h6 with ⟨vp', he, hvj'⟩ | ⟨hl, _⟩
        · cases he
          have hvj' : (n.provider i).vpJson vp = some value := hvj'
          rw [hvj] at hvj'; cases hvj'
          cases creds with
          | nil =>
            exfalso
            obtain ⟨d, ds, hds⟩ := List.exists_cons_of_ne_nil hne
            obtain ⟨l1, m, l2, e1, _, _, _, tk, c, e2, _⟩ := h7 d (by rw [hds]; exact .head _)
            have := hnest m ((show Holder.descriptorMap pd.inputDescriptors = _ from e1) ▸ by simp)
            rw [this, hq0 hc] at e2
            cases e2
          | cons c rest =>
            refine ⟨c, rest, rfl, fun d hd => ?_⟩
            obtain ⟨l1, m, l2, e1, _, _, e4, tk, k, e5, e6, e7, e8⟩ := h7 d hd
            have hm := hnest m ((show Holder.descriptorMap pd.inputDescriptors = _ from e1) ▸ by simp)
            rw [hm, hq1 c.issued _ hc] at e5
            cases e5
            obtain ⟨k', g1, g2⟩ := htr c (.head _) i
            rw [e6] at g1; cases g1
            rw [g2] at e7 e8
            exact ⟨fun f hf => by have := e4 f hf; rw [hm] at this; exact this, e7, e8⟩
        · exact absurd rfl hl
  · rintro ⟨c, rest, rfl, hfit⟩
    refine ⟨_, [vp], _, pd, j, rfl, .cons (.jwt jwt _ (hdec i) rfl) .nil, rfl, hpd, rfl, .inl ⟨vp, rfl, hvj⟩, fun d hd => ?_⟩
    obtain ⟨l1, m, l2, e1, e2, e3, e4⟩ := hmap d hd
    obtain ⟨k, g1, g2⟩ := htr c (.head _) i
    obtain ⟨f1, f2, f3⟩ := hfit d hd
    exact ⟨l1, m, l2, e1, e2, e3, fun f hf => by rw [e4]; exact f1 f hf, c.issued, k, by rw [e4]; exact hq1 _ _ hc, g1, by rw [g2]; exact f2,
      by rw [g2]; exact f3⟩

/-! ### C114 -/

theorem asksConst_iff {pd : Dif.PresentationDefinition} : Holder.HasConst pd ↔ AsksConst pd.inputDescriptors := Iff.rfl

theorem notAnswering {tok : String} {skip : Nat} {log : List Holder.Entry} (h : NotAnswered tok (log.drop skip)) :
    ∀ c ∈ Net.made skip log [], ¬ Answering tok c := by
  intro c hc
  simp only [Net.made, List.append_nil, List.mem_map, List.mem_flatMap] at hc
  obtain ⟨ev, ⟨en, hen, hev⟩, rfl⟩ := hc
  rintro ⟨uri, r, h1, h2⟩
  exact h en hen ev hev uri r h1 h2

/-- C114, for a wallet that may have got where it is in other surroundings. -/
theorem accepted_iff {n : VNet} {req : Verifier.CreateRequestRequest} {tok : String} {v1 : World Verifier.VState} {e : Holder.HEnv}
    {hw : Holder.HWorld} {W : Holder.Provider} {url : String} {creds : List Holder.Credential} (A : Asked n req tok v1 W url)
    (hf : ∀ m, e.fault m = .ok) (hfr : e.Fresh) (hr : Holder.Inv e hw.log hw.store hw.drawn) (ho : e.oracle = n.oracle v1 hw.log.length)
    (hfinds : ∀ d ds, req.inputDescriptors = d :: ds → ∀ recent, (∀ ev ∈ recent, ∃ u, ev.call = .requestObject u) →
      n.rest hw.log recent (.find d.constraints) = some creds)
    (htr : ∀ c ∈ creds, Trusts n c)
    {s1 : Holder.HStep} (q1 : s1.req = .request url) (p1 : s1.provider = W) :
    ∃ k w1, Holder.step e hw s1 = (.ok (.request k .requested creds), w1) ∧
      ∀ mid1 s2, (∀ s ∈ mid1, s.req ≠ .authorizePresentation k) → s2.req = .authorizePresentation k →
      ∃ w2, Holder.step e (Holder.exec e w1 mid1) s2 = (.ok (.status .authorized), w2) ∧
        ∀ mid2 s3, (∀ s ∈ mid2, s.req ≠ .authorizePresentation k) → s3.req = .present k → s3.provider = W →
        ∀ w3, w3 = Holder.exec e w2 mid2 → NotAnswered tok (w3.log.drop hw.log.length) →
        ∀ at_, at_ = n.after v1 (Net.made hw.log.length w3.log []) →
          ((∃ r, (Holder.step e w3 s3).1 = .ok (.presented r)) ↔
            AsksConst req.inputDescriptors ∧ ∃ c rest, creds = c :: rest ∧
              ∀ d ∈ req.inputDescriptors, Fits (n.provider at_.1) (n.arrival at_.1 at_.2).now d c) := by
  obtain ⟨he, hslash, hfv, ⟨v0, sc, resp, hsc, hcreate, hnew, hnow, htold⟩, hothers, hag⟩ := A
  -- the request at the verifier
  obtain ⟨hne, md, _, _, o, hobj, hresp, hv1⟩ := Verifier.createRequest_ok.1 (show (Verifier.createRequest sc.provider req).run n.env
      { v0 with now := v0.now + sc.wait } = (.ok resp, v1) by
    have h := hcreate
    unfold Verifier.step at h
    rw [hsc] at h
    have h : ((Verifier.createRequest sc.provider req).bind _).run n.env { v0 with now := v0.now + sc.wait } = _ := h
    rw [Prog.run_bind] at h
    rcases hrun : (Verifier.createRequest sc.provider req).run n.env { v0 with now := v0.now + sc.wait } with ⟨x | x, w'⟩
    · rw [hrun] at h; cases h
    · rw [hrun] at h; cases h; rfl)
  obtain ⟨d, ds, hds⟩ := List.exists_cons_of_ne_nil hne
  have hfind := hfinds d ds hds
  have htok : tok = n.env.rng (v0.drawn + 1) := by
    apply Classical.byContradiction
    intro h
    rw [hv1] at hnow
    simp only [upd_other _ _ h] at hnow
    exact hnow hnew
  obtain ⟨s, hs, hso⟩ : ∃ s : Verifier.VState, v1.store tok = some s ∧ s.requestObject = o := by
    refine ⟨{ expiresAt := v0.now + sc.wait + Verifier.requestDur, requestObject := o }, ?_, rfl⟩
    rw [hv1, htok]; simp
  have hdrawn : v0.drawn + 1 < v1.drawn := by rw [hv1]; simp
  have hpd : o.presentationDefinition = .object (Verifier.CreateRequest.definition (n.env.rng v0.drawn) req) := by
    rw [hobj]; simp only [Verifier.CreateRequest.object]; split <;> rfl
  have hstate : o.state = some tok := by
    rw [hobj, htok]; simp only [Verifier.CreateRequest.object]; split <;> rfl
  generalize hpdd : Verifier.CreateRequest.definition (n.env.rng v0.drawn) req = pd at hpd
  have hin : pd.inputDescriptors = req.inputDescriptors := by rw [← hpdd]; rfl
  -- taking it in
  have hobt : ∃ u w2, W.percentDecode url = some u ∧
      (Holder.obtainRequest W url u).run e { Holder.before hw s1 with drawn := (Holder.before hw s1).drawn + 1 } = (.ok o, w2) ∧
      w2.log = hw.log ∧ w2.store = hw.store ∧ ∀ ev ∈ w2.recent, ∃ u, ev.call = .requestObject u := by
    cases htold with
    | object ro _ h1 h2 h3 h4 =>
      obtain ⟨u, hu⟩ := Option.isSome_iff_exists.1 h3
      have hro : ro = o := by
        rw [hresp] at h1
        unfold Verifier.CreateRequest.reply at h1
        split at h1 <;> cases h1
        rfl
      exact ⟨u, _, hu, obtain_inline (hro ▸ h2) h4, rfl, rfl, (fun ev hev => nomatch hev)⟩
    | uri _ h1 h2 h3 =>
      have hcross : req.deviceFlow = .crossDevice ∧ url = req.clientId ++ "/request/" ++ tok := by
        rw [hresp] at h1
        unfold Verifier.CreateRequest.reply at h1
        split at h1
        · rename_i hc
          exact ⟨hc, by rw [htok]; exact (Option.some.inj h1).symm⟩
        · cases h1
      obtain ⟨hcr, hurl⟩ := hcross
      have hcl : s.requestObject.clientId = req.clientId ++ "/post" := by
        rw [hso, hobj]; simp only [Verifier.CreateRequest.object, hcr]
      have harr := arrival_entry (n := n) he htok hothers v1 hdrawn (calls := []) (by simp)
      obtain ⟨key, t, k1, k2, k3⟩ := hag.signed (n.after v1 []).1 s.requestObject
      have hans := answer_object (n := n) hfv (v := v1) (calls := []) (id := tok) (harr.trans hs) hcl k1 k2
      have hor : e.oracle hw.log [] (.requestObject url) = some (.jwt t) := by
        have hsp : splitUrl url = some (req.clientId, tok) := by
          rw [hurl]; exact splitUrl_request (by rw [htok]; exact hslash _)
        rw [ho, oracle_object hsp]
        rw [show Net.made hw.log.length hw.log [] = [] by simp [Net.made]]
        exact hans
      exact ⟨url, _, h2, obtain_fetched hor (hso ▸ k3) h3, rfl, rfl, fun ev hev => by
        have hev : ev ∈ [(⟨.requestObject url, some (.jwt t)⟩ : Holder.Event)] := hev
        rw [List.mem_singleton] at hev
        exact ⟨url, by rw [hev]⟩⟩
  obtain ⟨u, w2, hu, hrun, hlog2, hst2, hrec2⟩ := hobt
  have hfind' : e.oracle w2.log w2.recent (.find d.constraints) = some creds := by
    rw [ho, hlog2]; exact hfind _ hrec2
  have hreq := request_runs (e := e) (W := W) hu hrun hpd (hin.trans hds) hfind' hf
  have hstep1 := step_of_run (e := e) (hw := hw) (st := s1) (by rw [q1, p1]; exact hreq)
  refine ⟨_, _, hstep1, ?_⟩
  generalize hk : e.rng (Holder.before hw s1).drawn = k at *
  generalize hW1 : ({ w2 with
        store := upd w2.store k (some (.presentation ⟨k, .requested, o, creds, d.constraints⟩))
        ops := w2.ops + 1
        recent := w2.recent ++ [⟨.find d.constraints, some creds⟩] } : Holder.HWorld) = W1 at hstep1 ⊢
  generalize hw1 : ({ W1 with
      log := W1.log ++ [⟨s1.provider, hw.now + s1.wait, s1.req, .ok (.request k .requested creds), W1.recent⟩], recent := [] } : Holder.HWorld) = w1 at hstep1 ⊢
  have hr1 : Holder.Inv e w1.log w1.store w1.drawn := by have := Holder.step_inv hfr hr s1; rw [hstep1] at this; exact this
  have hst1 : w1.store k = some (.presentation ⟨k, .requested, o, creds, d.constraints⟩) := by
    rw [← hw1, ← hW1]; simp
  intro mid1 s2 hm1 q2
  have hstA := Holder.exec_presentation hfr hr1 mid1 hst1 hm1
  have hrA := Holder.exec_inv hfr hr1 mid1
  generalize Holder.exec e w1 mid1 = wA at hstA hrA ⊢
  have hstep2 := step_of_run (e := e) (hw := wA) (st := s2) (by rw [q2]; exact authorize_runs (e := e) (w := Holder.before wA s2) hstA rfl hf)
  refine ⟨(Holder.step e wA s2).2, Prod.ext (by rw [hstep2]) rfl, ?_⟩
  have hr2 := Holder.step_inv hfr hrA s2
  have hst2 : ((Holder.step e wA s2).2).store k = some (.presentation ⟨k, .authorized, o, creds, d.constraints⟩) := by
    rw [hstep2]; simp [Holder.before]
  clear hstep2
  generalize (Holder.step e wA s2).2 = wB at hr2 hst2
  intro mid2 s3 hm2 q3 p3 w3 hw3 hna at_ hat
  have hstB := Holder.exec_presentation hfr hr2 mid2 hst2 hm2
  rw [← hw3] at hstB
  rw [(Holder.step_eq e w3 s3).1, q3, p3]
  show (∃ r, ((Holder.present W k).run e (Holder.before w3 s3)).1 = _) ↔ _
  by_cases hc : AsksConst req.inputDescriptors
  · obtain ⟨vp, jwt, id, hj, hvp, hpres⟩ := present_runs (e := e) (P := W) (w := Holder.before w3 s3) hstB rfl hpd
      (asksConst_iff.2 (by rw [hin]; exact hc)) (fun c => by obtain ⟨t, ht, _⟩ := hag.presented c; exact ⟨t, ht⟩) hf
    obtain ⟨h1, _⟩ := hpres _ rfl _ rfl
    rw [h1]
    have hor : e.oracle (Holder.before w3 s3).log (Holder.before w3 s3).recent (.present (o.responseUri.map Holder.trimSlashes)
        ⟨some [.string jwt], some ⟨id, pd.id, Holder.descriptorMap pd.inputDescriptors⟩, o.state⟩) =
        VNet.presentReply (n.answer v1 (Net.made hw.log.length w3.log []) (.response
          ⟨some [.string jwt], some ⟨id, pd.id, Holder.descriptorMap pd.inputDescriptors⟩, o.state⟩)) := by
      rw [ho]; rfl
    simp only [hor]
    have harr := arrival_entry (n := n) he htok hothers v1 hdrawn (notAnswering hna)
    have hans := answer_response (n := n) hfv (v := v1) (calls := Net.made hw.log.length w3.log [])
      (rr := ⟨some [.string jwt], some ⟨id, pd.id, Holder.descriptorMap pd.inputDescriptors⟩, o.state⟩) hstate (harr.trans hs)
    rw [hso] at hans
    have hiff := answers_iff hag (i := (n.after v1 (Net.made hw.log.length w3.log [])).1)
      (now := (n.arrival (n.after v1 (Net.made hw.log.length w3.log [])).1 (n.after v1 (Net.made hw.log.length w3.log [])).2).now)
      (ro := o) hpd (by rw [hin, hds]; simp) hj hvp htr (id := id) (st := o.state)
    rw [hat]
    have hout : ∀ x : Option Verifier.ResponseResponse, (∃ r, outcome x = .ok (.presented r)) ↔ ∃ r, x = some r := by
      intro x; cases x <;> simp [outcome]
    rw [hout]
    simp only [hc, true_and]
    rw [hans, hiff, hin]
  · constructor
    · rintro ⟨r, hr⟩
      exfalso
      obtain ⟨⟨r', w'⟩, hrun⟩ : ∃ q, (Holder.present W k).run e (Holder.before w3 s3) = q := ⟨_, rfl⟩
      rw [hrun] at hr
      simp only at hr
      subst hr
      obtain ⟨evs, _, ⟨hfl, _⟩ | ⟨p, pd', vp, jwt, nn, uu, sub, g1, g2, g3, g4, g5, _⟩⟩ := Holder.present_did hrun
      · exact absurd rfl hfl.ne_ok
      · rw [show (Holder.before w3 s3).store k = _ from hstB] at g1
        cases g1
        simp only at g3
        rw [hpd] at g3; cases g3
        exact hc (by rw [← hin]; exact asksConst_iff.1 ((Holder.vpDraft_builds ..).1 ⟨vp, g5⟩))
    · rintro ⟨h, _⟩; exact absurd h hc

/-- A wallet that is told of a new request takes it in; having been authorized, its presentation is accepted exactly if the request asks for
a constant somewhere, the wallet found a credential for the first input descriptor, and the first credential found is one every input descriptor
asks for. In between, the wallet and the verifier may serve any other calls that do not answer this request. -/
theorem C114_accepted_iff {n : VNet} {req : Verifier.CreateRequestRequest} {tok : String} {v1 : World Verifier.VState} {e : Holder.HEnv}
    {hw : Holder.HWorld} {W : Holder.Provider} {url : String} {creds : List Holder.Credential} (M : Meeting n req tok v1 e hw W url creds)
    {s1 : Holder.HStep} (q1 : s1.req = .request url) (p1 : s1.provider = W) :
    ∃ k w1, Holder.step e hw s1 = (.ok (.request k .requested creds), w1) ∧
      ∀ mid1 s2, (∀ s ∈ mid1, s.req ≠ .authorizePresentation k) → s2.req = .authorizePresentation k →
      ∃ w2, Holder.step e (Holder.exec e w1 mid1) s2 = (.ok (.status .authorized), w2) ∧
        ∀ mid2 s3, (∀ s ∈ mid2, s.req ≠ .authorizePresentation k) → s3.req = .present k → s3.provider = W →
        ∀ w3, w3 = Holder.exec e w2 mid2 → NotAnswered tok (w3.log.drop hw.log.length) →
        ∀ at_, at_ = n.after v1 (Net.made hw.log.length w3.log []) →
          ((∃ r, (Holder.step e w3 s3).1 = .ok (.presented r)) ↔
            AsksConst req.inputDescriptors ∧ ∃ c rest, creds = c :: rest ∧
              ∀ d ∈ req.inputDescriptors, Fits (n.provider at_.1) (n.arrival at_.1 at_.2).now d c) :=
  accepted_iff M.toAsked M.walletWorks M.walletFresh (Holder.reachable_inv M.walletFresh M.reachable) M.connected (fun d ds h recent _ => M.finds d ds h recent)
    M.trusts q1 p1

/-- A request for one credential is answered with any unexpired credential the wallet finds that is as the request asks, if the request asks for a
constant. -/
theorem C114_one_credential_accepted {n : VNet} {req : Verifier.CreateRequestRequest} {tok : String} {v1 : World Verifier.VState} {e : Holder.HEnv}
    {hw : Holder.HWorld} {W : Holder.Provider} {url : String} {c : Holder.Credential} {rest : List Holder.Credential}
    (M : Meeting n req tok v1 e hw W url (c :: rest)) {d : Dif.InputDescriptor} (hd : req.inputDescriptors = [d]) (hc : AsksConst [d])
    (hfits : ∀ i now, (∀ t, c.vc.validUntil = some t → now ≤ t) → Fits (n.provider i) now d c)
    {s1 : Holder.HStep} (q1 : s1.req = .request url) (p1 : s1.provider = W) :
    ∃ k w1, Holder.step e hw s1 = (.ok (.request k .requested (c :: rest)), w1) ∧
      ∀ mid1 s2, (∀ s ∈ mid1, s.req ≠ .authorizePresentation k) → s2.req = .authorizePresentation k →
      ∃ w2, Holder.step e (Holder.exec e w1 mid1) s2 = (.ok (.status .authorized), w2) ∧
        ∀ mid2 s3, (∀ s ∈ mid2, s.req ≠ .authorizePresentation k) → s3.req = .present k → s3.provider = W →
        ∀ w3, w3 = Holder.exec e w2 mid2 → NotAnswered tok (w3.log.drop hw.log.length) →
        ∀ at_, at_ = n.after v1 (Net.made hw.log.length w3.log []) →
          (∀ t, c.vc.validUntil = some t → (n.arrival at_.1 at_.2).now ≤ t) →
          ∃ r, (Holder.step e w3 s3).1 = .ok (.presented r) := by
  obtain ⟨k, w1, h1, h⟩ := C114_accepted_iff M q1 p1
  refine ⟨k, w1, h1, fun mid1 s2 hm1 q2 => ?_⟩
  obtain ⟨w2, h2, h⟩ := h mid1 s2 hm1 q2
  refine ⟨w2, h2, fun mid2 s3 hm2 q3 p3 w3 hw3 hna at_ hat ht => ?_⟩
  refine (h mid2 s3 hm2 q3 p3 w3 hw3 hna at_ hat).2 ⟨hd ▸ hc, c, rest, rfl, fun d' hd' => ?_⟩
  rw [hd, List.mem_singleton] at hd'
  exact hd' ▸ hfits _ _ ht

/-- **A request for several credentials is never answered**, unless one credential is all of them: the wallet looks for the first of them only, and names
its first credential for all of them. -/
theorem C115_several_credentials_refused {n : VNet} {req : Verifier.CreateRequestRequest} {tok : String} {v1 : World Verifier.VState}
    {e : Holder.HEnv} {hw : Holder.HWorld} {W : Holder.Provider} {url : String} {creds : List Holder.Credential}
    (M : Meeting n req tok v1 e hw W url creds)
    (hnone : ∀ c ∈ creds, ∃ d ∈ req.inputDescriptors, ∀ i now, ¬ Fits (n.provider i) now d c)
    {s1 : Holder.HStep} (q1 : s1.req = .request url) (p1 : s1.provider = W) :
    ∃ k w1, Holder.step e hw s1 = (.ok (.request k .requested creds), w1) ∧
      ∀ mid1 s2, (∀ s ∈ mid1, s.req ≠ .authorizePresentation k) → s2.req = .authorizePresentation k →
      ∃ w2, Holder.step e (Holder.exec e w1 mid1) s2 = (.ok (.status .authorized), w2) ∧
        ∀ mid2 s3, (∀ s ∈ mid2, s.req ≠ .authorizePresentation k) → s3.req = .present k → s3.provider = W →
        NotAnswered tok ((Holder.exec e w2 mid2).log.drop hw.log.length) →
        ∀ r, (Holder.step e (Holder.exec e w2 mid2) s3).1 ≠ .ok (.presented r) := by
  obtain ⟨k, w1, h1, h⟩ := C114_accepted_iff M q1 p1
  refine ⟨k, w1, h1, fun mid1 s2 hm1 q2 => ?_⟩
  obtain ⟨w2, h2, h⟩ := h mid1 s2 hm1 q2
  refine ⟨w2, h2, fun mid2 s3 hm2 q3 p3 hna r hr => ?_⟩
  obtain ⟨_, c, rest, hc, hall⟩ := (h mid2 s3 hm2 q3 p3 _ rfl hna _ rfl).1 ⟨r, hr⟩
  obtain ⟨d, hd, hno⟩ := hnone c (hc ▸ .head _)
  exact hno _ _ (hall d hd)

end Verif.Interop
