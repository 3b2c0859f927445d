import Verif.Holder.FlowProps
import Verif.W3c.Props
/-!
# Presentations by the wallet: properties of every history
-/
namespace Verif.Holder
open Verif HProg

variable {e : HEnv} {w : HWorld}

/-! ### What is in a presentation -/

/-- Some field of the definition asks for a constant. -/
def HasConst (pd : Dif.PresentationDefinition) : Prop :=
  ∃ d ∈ pd.inputDescriptors, ∃ fs, d.constraints.fields = some fs ∧ ∃ f ∈ fs, ∃ t c, f.filter = some ⟨t, .const c⟩

theorem constTypes_ne_nil (pd : Dif.PresentationDefinition) : constTypes pd ≠ [] ↔ HasConst pd := by
  have : (∃ c, c ∈ constTypes pd) ↔ HasConst pd := by
    simp only [constTypes, List.mem_flatMap, List.mem_filterMap, HasConst]
    constructor
    · rintro ⟨c, d, hd, f, hf, hc⟩
      cases hfs : d.constraints.fields with
      | none => rw [hfs] at hf; simp at hf
      | some fs =>
        rw [hfs] at hf
        refine ⟨d, hd, fs, hfs, f, hf, ?_⟩
        cases hff : f.filter with
        | none => rw [hff] at hc; cases hc
        | some x =>
          rw [hff] at hc
          obtain ⟨t, v⟩ := x
          cases v with
          | const c' => exact ⟨t, c', rfl⟩
          | pattern p => cases hc
          | format p => cases hc
    · rintro ⟨d, hd, fs, hfs, f, hf, t, c, hc⟩
      exact ⟨c, d, hd, f, by rw [hfs]; exact hf, by rw [hc]; rfl⟩
  rw [← this]
  exact (List.ne_nil_iff_exists_cons).trans ⟨fun ⟨b, l, h⟩ => ⟨b, by rw [h]; simp⟩, fun ⟨c, hc⟩ => by
    cases h : constTypes pd with
    | nil => rw [h] at hc; simp at hc
    | cons a l => exact ⟨a, l, rfl⟩⟩

/-- The builder calls that make a presentation. -/
def vpOps (p : Presentation) (pd : Dif.PresentationDefinition) (holder : String) : List VpOp :=
  [.context (.string "https://www.w3.org/2018/credentials/examples/v1"), .holder holder] ++ (constTypes pd).map .type_ ++
    (p.credentials.map fun c => Kind.string c.issued).map .credential

theorem vpDraft_eq (u : String) (p : Presentation) (pd : Dif.PresentationDefinition) (holder : String) :
    (vpDraft u p pd holder).build = vpBuild u (vpOps p pd holder) := by
  have h1 : ∀ (l : List String) (vp : Vp), (l.map VpOp.type_).foldl VpOp.apply vp = l.foldl Vp.addType vp := by
    intro l; induction l with
    | nil => intro vp; rfl
    | cons a l ih => intro vp; exact ih _
  have h2 : ∀ (l : List (Kind Vc)) (vp : Vp), (l.map VpOp.credential).foldl VpOp.apply vp = l.foldl Vp.addCredential vp := by
    intro l; induction l with
    | nil => intro vp; rfl
    | cons a l ih => intro vp; exact ih _
  unfold vpBuild vpOps vpDraft
  rw [List.foldl_append, List.foldl_append, h1, h2]
  rfl

theorem filterMap_types (p : Presentation) (pd : Dif.PresentationDefinition) (holder : String) :
    (vpOps p pd holder).filterMap VpOp.type? = constTypes pd ∧
    (vpOps p pd holder).filterMap VpOp.credential? = p.credentials.map (fun c => Kind.string c.issued) ∧
    (vpOps p pd holder).filterMap VpOp.holder? = [holder] ∧ (vpOps p pd holder).filterMap VpOp.context? ≠ [] := by
  have a1 : ∀ l : List String, (l.map VpOp.type_).filterMap VpOp.type? = l ∧ (l.map VpOp.type_).filterMap VpOp.credential? = [] ∧
      (l.map VpOp.type_).filterMap VpOp.holder? = [] := by
    intro l; induction l with
    | nil => exact ⟨rfl, rfl, rfl⟩
    | cons a l ih => simpa [VpOp.type?, VpOp.credential?, VpOp.holder?] using ih
  have a2 : ∀ l : List (Kind Vc), (l.map VpOp.credential).filterMap VpOp.type? = [] ∧ (l.map VpOp.credential).filterMap VpOp.credential? = l ∧
      (l.map VpOp.credential).filterMap VpOp.holder? = [] := by
    intro l; induction l with
    | nil => exact ⟨rfl, rfl, rfl⟩
    | cons a l ih => simpa [VpOp.type?, VpOp.credential?, VpOp.holder?] using ih
  unfold vpOps
  obtain ⟨b1, b2, b3⟩ := a1 (constTypes pd)
  obtain ⟨c1, c2, c3⟩ := a2 (p.credentials.map fun c => Kind.string c.issued)
  simp only [List.filterMap_append, b1, b2, b3, c1, c2, c3]
  refine ⟨by simp [VpOp.type?], by simp [VpOp.credential?], rfl, by simp [VpOp.context?]⟩

theorem vpDraft_ok {u : String} {p : Presentation} {pd : Dif.PresentationDefinition} {holder : String} {vp : Vp}
    (h : (vpDraft u p pd holder).build = .ok vp) :
    vp.credentials.getD [] = p.credentials.map (fun c => Kind.string c.issued) ∧ vp.holder = some holder ∧
      vp.type_.items = "VerifiablePresentation" :: constTypes pd := by
  rw [vpDraft_eq] at h
  obtain ⟨t1, t2, t3, t4⟩ := filterMap_types p pd holder
  obtain ⟨_, h2, h3, h4, _⟩ := (C56_vp u (vpOps p pd holder)).2 vp h
  rw [t1] at h2
  rw [t2] at h3
  rw [t3] at h4
  exact ⟨h3, h4, h2⟩

theorem vpDraft_builds (u : String) (p : Presentation) (pd : Dif.PresentationDefinition) (holder : String) :
    (∃ vp, (vpDraft u p pd holder).build = .ok vp) ↔ HasConst pd := by
  rw [vpDraft_eq, (C56_vp u (vpOps p pd holder)).1]
  obtain ⟨t1, t2, t3, t4⟩ := filterMap_types p pd holder
  rw [t1, constTypes_ne_nil]
  exact ⟨fun h => h.2, fun h => ⟨t4, h⟩⟩

theorem create_ok {J : Jose} {vp : Vp} {c n s jwt : String} {t : Int} (h : Proof.create J .jwtVcJson (.vp vp c n) s t = .ok jwt) :
    J.encodeVp s { VpClaims.fromVp vp t with aud := c, nonce := n } = some jwt := by
  simp only [Proof.create, Bind.bind, Except.bind, require] at h
  split at h
  · cases h
  · exact orErr_ok.mp h

/-! ### C70 Nothing is presented without authorization -/

/-- Whatever goes out to a verifier belongs to a request the holder authorized; it is signed, holds exactly the credentials found for the request, and
is bound to the request's client id and nonce. -/
theorem C70_presented_is_authorized (hf : e.Fresh) (hr : Reachable e w) {pre post : List Entry} {en : Entry} (h : w.log = pre ++ en :: post)
    {uri : Option String} {rr : Verifier.ResponseRequest} {o : Option Verifier.ResponseResponse} (hp : ⟨.present uri rr, o⟩ ∈ en.events) :
    ∃ k q creds jwt claims, en.req = .present k ∧ InOrder [IsRequest k q creds, IsAuthorized k] pre ∧
      (∀ x ∈ pre, ∀ a cs, x.result = .ok (.request k a cs) → cs = creds) ∧
      rr.vpToken = some [.string jwt] ∧ en.provider.jose.encodeVp en.provider.kid claims = some jwt ∧
      claims.vp.credentials.getD [] = creds.map (fun c => Kind.string c.issued) ∧ claims.aud = q.clientId ∧ claims.nonce = q.nonce ∧
      claims.iss = beforeHash en.provider.kid ∧ uri = q.responseUri.map trimSlashes ∧ rr.state = q.state := by
  have hall := entry_calls hf hr (h ▸ List.mem_append_right _ (List.mem_cons_self ..)) hp
  obtain ⟨w0, w2, hI, hlog, hrec, hnow, hrun, hevs⟩ := entry_run hf hr h
  rw [← hevs] at hp
  generalize en.req = q at hrun hall ⊢
  generalize en.result = r at hrun
  cases q <;> simp only [Allowed, Bool.false_eq_true] at hall
  rename_i k
  obtain ⟨evs, hE, h1⟩ := present_did hrun
  rw [hE.recent, hrec, List.nil_append] at hp
  rcases h1 with ⟨_, rfl⟩ | ⟨p, pd, vp, jwt, n, u, sub, hs, hst, hpd, hsub, hvp, hjwt, o', rfl, _⟩
  · simp at hp
  · have hv : PresInv pre k p := hI.val _ _ hs
    have hph := hv.phase
    rw [hst] at hph
    rw [List.mem_singleton] at hp
    cases hp
    obtain ⟨v1, v2, _⟩ := vpDraft_ok hvp
    refine ⟨k, p.request, p.credentials, jwt, _, rfl, hph, hv.returned, rfl, create_ok hjwt, v1, rfl, rfl, ?_, rfl, rfl⟩
    simp [VpClaims.fromVp, v2]

/-! ### C73 The submission -/

/-- The submission names the definition and has one entry per input descriptor, in order. -/
theorem C73_submission (hf : e.Fresh) (hr : Reachable e w) {pre post : List Entry} {en : Entry} (h : w.log = pre ++ en :: post)
    {uri : Option String} {rr : Verifier.ResponseRequest} {o : Option Verifier.ResponseResponse} (hp : ⟨.present uri rr, o⟩ ∈ en.events) :
    ∃ k q creds pd sub, en.req = .present k ∧ InOrder [IsRequest k q creds] pre ∧ q.presentationDefinition = .object pd ∧
      rr.submission = some sub ∧ sub.definitionId = pd.id ∧ sub.descriptorMap.map (·.id) = pd.inputDescriptors.map (·.id) ∧
      ∀ m ∈ sub.descriptorMap, m.path = "$" ∧ m.pathNested.path = "$.verifiableCredential[0]" := by
  have hall := entry_calls hf hr (h ▸ List.mem_append_right _ (List.mem_cons_self ..)) hp
  obtain ⟨w0, w2, hI, hlog, hrec, hnow, hrun, hevs⟩ := entry_run hf hr h
  rw [← hevs] at hp
  generalize en.req = q at hrun hall ⊢
  generalize en.result = r at hrun
  cases q <;> simp only [Allowed, Bool.false_eq_true] at hall
  rename_i k
  obtain ⟨evs, hE, h1⟩ := present_did hrun
  rw [hE.recent, hrec, List.nil_append] at hp
  rcases h1 with ⟨_, rfl⟩ | ⟨p, pd, vp, jwt, n, u, sub, hs, hst, hpd, hsub, hvp, hjwt, o', rfl, _⟩
  · simp at hp
  · have hv : PresInv pre k p := hI.val _ _ hs
    have hph := hv.phase
    rw [hst] at hph
    obtain ⟨a, x, b, hx, hq, _⟩ := hph
    rw [List.mem_singleton] at hp
    cases hp
    refine ⟨k, p.request, p.credentials, pd, sub, rfl, ⟨a, x, b, hx, hq, trivial⟩, hpd, rfl, by rw [hsub], ?_, ?_⟩
    · rw [hsub]; simp [descriptorMap]
    · rw [hsub]
      intro m hm
      simp only [descriptorMap, List.mem_map] at hm
      obtain ⟨d, _, rfl⟩ := hm
      exact ⟨rfl, rfl⟩

/-! ### C72 A presentation for any request -/

/-- No presentation can be made for a request whose definition asks for no constant: the call fails and nothing is sent. -/
theorem C72_no_const_no_presentation (hf : e.Fresh) (hr : Reachable e w) {pre post : List Entry} {en : Entry} (h : w.log = pre ++ en :: post)
    {k : String} (hq : en.req = .present k)
    (hc : ∀ q creds pd, InOrder [IsRequest k q creds] pre → q.presentationDefinition = .object pd → ¬ HasConst pd) :
    (∃ x, en.result = .error x) ∧ en.events = [] := by
  obtain ⟨w0, w2, hI, hlog, hrec, hnow, hrun, hevs⟩ := entry_run hf hr h
  rw [hq] at hrun
  obtain ⟨evs, hE, h1⟩ := present_did hrun
  have hee : en.events = evs := by rw [← hevs, hE.recent, hrec, List.nil_append]
  rcases h1 with ⟨⟨x, hx, _⟩, rfl⟩ | ⟨p, pd, vp, jwt, n, u, sub, hs, hst, hpd, hsub, hvp, _⟩
  · exact ⟨⟨x, hx⟩, hee⟩
  · exfalso
    have hv : PresInv pre k p := hI.val _ _ hs
    have hph := hv.phase
    rw [hst] at hph
    obtain ⟨a, x, b, hx, hq', _⟩ := hph
    exact hc _ _ _ ⟨a, x, b, hx, hq', trivial⟩ hpd ((vpDraft_builds ..).mp ⟨vp, hvp⟩)

theorem present_sends {P : Provider} {k : String} {p : Presentation} {pd : Dif.PresentationDefinition} (hp : w.store k = some (.presentation p))
    (hs : p.status = .authorized) (hpd : p.request.presentationDefinition = .object pd) (hc : HasConst pd)
    (hj : ∀ c, (P.jose.encodeVp P.kid c).isSome = true) (h0 : e.fault w.ops = .ok) :
    ∃ uri rr o, ((present P k).run e w).2.recent = w.recent ++ [⟨.present uri rr, o⟩] := by
  obtain ⟨vp, hvp⟩ := (vpDraft_builds (e.rng (w.drawn + 1)) p pd (beforeHash P.kid)).mpr hc
  obtain ⟨jwt, hjwt⟩ := Option.isSome_iff_exists.mp (hj { VpClaims.fromVp vp w.now with aud := p.request.clientId, nonce := p.request.nonce })
  have hcr : Proof.create P.jose .jwtVcJson (.vp vp p.request.clientId p.request.nonce) P.kid w.now = .ok jwt := by
    simp only [Proof.create, Bind.bind, Except.bind, require, hjwt, orErr]
    rfl
  unfold vpDraft at hvp
  refine ⟨p.request.responseUri.map trimSlashes, ⟨some [.string jwt], some ⟨e.rng w.drawn, pd.id, descriptorMap pd.inputDescriptors⟩, p.request.state⟩,
    e.oracle w.log w.recent (.present (p.request.responseUri.map trimSlashes)
      ⟨some [.string jwt], some ⟨e.rng w.drawn, pd.id, descriptorMap pd.inputDescriptors⟩, p.request.state⟩), ?_⟩
  · simp only [present, getPresentation, Bind.bind, HProg.bind, run, h0, Prog.getRes, hp, lift, check, hs, beq_self_eq_true, if_true, createSubmission,
      hpd, drawE, createVp, hvp, nowE, hcr, ofRes, callE, Pure.pure]
    cases e.oracle w.log w.recent (Call.present (p.request.responseUri.map trimSlashes)
      ⟨some [.string jwt], some ⟨e.rng w.drawn, pd.id, descriptorMap pd.inputDescriptors⟩, p.request.state⟩) <;> rfl

/-- With a constant in the definition, a request that is authorized and then presented does send a presentation. -/
theorem C72_presented_with_const_partial (w : HWorld) (s1 s2 s3 : HStep) {url k : String} {st : PStatus} {creds : List Credential}
    (q1 : s1.req = .request url) (q2 : s2.req = .authorizePresentation k) (q3 : s3.req = .present k)
    (h1 : (step e w s1).1 = .ok (.request k st creds)) (h2 : (step e (step e w s1).2 s2).1 = .ok (.status .authorized))
    (hc : ∀ q pre pd, Obtained s1.provider url q pre → q.presentationDefinition = .object pd → HasConst pd)
    (hj : ∀ c, (s3.provider.jose.encodeVp s3.provider.kid c).isSome = true) (hok : e.fault (step e (step e w s1).2 s2).2.ops = .ok) :
    ∃ uri rr o, ((step e (step e (step e w s1).2 s2).2 s3).2.log.getLast?.map (·.events)) = some [⟨.present uri rr, o⟩] := by
  have hp : ∃ p pd, (step e w s1).2.store k = some (.presentation p) ∧ p.id = k ∧ p.request.presentationDefinition = .object pd ∧ HasConst pd := by
    rw [(step_eq e w s1).1] at h1
    rw [(step_eq e w s1).2]
    obtain ⟨⟨r, w2⟩, hrun⟩ : ∃ q, (serve s1.provider s1.req).run e (before w s1) = q := ⟨_, rfl⟩
    rw [hrun] at h1 ⊢
    simp only at h1 ⊢
    rw [q1] at hrun
    obtain ⟨evs, ws, hE, _, h3⟩ := request_did hrun
    subst h1
    rcases h3 with ⟨hf, _⟩ | ⟨q, pre, f, cs, ho, hb, _, _, hends⟩
    · exact absurd rfl hf.ne_ok
    · generalize hr' : (Except.ok (Resp.request k st creds) : HRes Resp) = r' at hends
      cases hends <;> cases hr'
      have : ∃ pd, q.presentationDefinition = .object pd := by
        unfold buildFilter at hb
        split at hb
        · cases hb
        · rename_i pd hpd; exact ⟨pd, hpd⟩
      obtain ⟨pd, hpd⟩ := this
      refine ⟨⟨e.rng (before w s1).drawn, .requested, q, creds, f⟩, pd, ?_, rfl, hpd, hc q pre pd ho hpd⟩
      rw [hE.store]
      simp [applyWrites, upd]
  obtain ⟨p, pd, hp1, hp2, hp3, hp4⟩ := hp
  have ha : ∃ p', (step e (step e w s1).2 s2).2.store k = some (.presentation p') ∧ p'.status = .authorized ∧ p'.request = p.request := by
    rw [(step_eq e _ s2).1] at h2
    rw [(step_eq e _ s2).2]
    obtain ⟨⟨r, w2⟩, hrun⟩ : ∃ q, (serve s2.provider s2.req).run e (before (step e w s1).2 s2) = q := ⟨_, rfl⟩
    rw [hrun] at h2 ⊢
    simp only at h2 ⊢
    rw [q2] at hrun
    obtain ⟨ws, hE, _, h3⟩ := authorizePresentation_did hrun
    subst h2
    rcases h3 with ⟨hf, _⟩ | ⟨p', hs', _, hends⟩
    · exact absurd rfl hf.ne_ok
    · have : p' = p := by
        have : (step e w s1).2.store k = some (.presentation p') := hs'
        rw [hp1] at this; cases this; rfl
      subst this
      generalize hr' : (Except.ok (Resp.status .authorized) : HRes Resp) = r' at hends
      cases hends <;> cases hr'
      refine ⟨{ p' with status := .authorized }, ?_, rfl, rfl⟩
      rw [hE.store, hp2]
      simp [applyWrites, upd]
  obtain ⟨p', ha1, ha2, ha3⟩ := ha
  obtain ⟨uri, rr, o, hsend⟩ := present_sends (P := s3.provider) (w := before (step e (step e w s1).2 s2).2 s3) (e := e) ha1 ha2 (by rw [ha3]; exact hp3) hp4 hj hok
  refine ⟨uri, rr, o, ?_⟩
  rw [step_log, q3]
  simp only [List.getLast?_append, List.getLast?_singleton, Option.some_or, Option.map_some]
  exact congrArg some hsend

end Verif.Holder
