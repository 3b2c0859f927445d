import Verif.Verifier.Lemmas
import Verif.Dif.Props
/-!
# Properties of the verifier: C51 – C55
-/
namespace Verif.Verifier
open Verif Prog

/-! ### Specification -/

/-- A token entry shows presentation `vp` for the given nonce: a JWT that decodes under the resolver and carries the nonce, or an object
with a single proof whose challenge is the nonce. -/
inductive Shows (P : Provider) (nonce : String) : Kind Vp → Vp → Prop
  | jwt (t : String) (c : VpClaims) : P.jose.decodeVp t = some c → c.nonce = nonce → Shows P nonce (.string t) c.vp
  | object (vp : Vp) (p : IntegrityProof) : vp.proof = some (.one p) → p.challenge.getD "" = nonce → Shows P nonce (.object vp) vp

/-- A vp_token shows a list of presentations, one by one. -/
inductive ShowsAll (P : Provider) (nonce : String) : List (Kind Vp) → List Vp → Prop
  | nil : ShowsAll P nonce [] []
  | cons {t ts v vs} : Shows P nonce t v → ShowsAll P nonce ts vs → ShowsAll P nonce (t :: ts) (v :: vs)

/-- The JSON value submission paths refer to: the presentation itself if there is one, else the array of presentations. -/
def TokenValue (P : Provider) (vps : List Vp) (j : Json) : Prop :=
  (∃ vp, vps = [vp] ∧ P.vpJson vp = some j) ∨ (vps.length ≠ 1 ∧ ∃ l, vps.map P.vpJson = l.map some ∧ j = .arr l)

/-- Constraints hold of a credential: every field is met, or is optional. -/
def Satisfies (P : Provider) (c : Dif.Constraints) (vc : Vc) : Prop :=
  ∀ fields, c.fields = some fields → ∃ j, P.vcJson vc = some j ∧
    ∀ f ∈ fields, f.Met P.ext j ∨ (f.optional = some true ∧ ¬ f.Crashes P.ext j)

/-- An input descriptor is fulfilled: the first mapping for it has an allowed format and its nested path leads to exactly one value, a
JWT that decodes under the resolver to a credential that satisfies the constraints and has not expired. -/
def Fulfilled (P : Provider) (now : Int) (value : Json) (maps : List Dif.DescriptorMap) (i : Dif.InputDescriptor) : Prop :=
  ∃ l1 m l2, maps = l1 ++ m :: l2 ∧ (∀ x ∈ l1, x.id ≠ i.id) ∧ m.id = i.id ∧
    (∀ f, i.format = some f → m.pathNested.format ∈ Dict.keys f) ∧
    ∃ token c, P.ext.query m.pathNested.path value = some [.str token] ∧ P.jose.decodeVc token = some c ∧
      Satisfies P i.constraints c.vc ∧ ∀ t, c.vc.validUntil = some t → now ≤ t

/-- A response answers a request. -/
def Answers (P : Provider) (now : Int) (ro : RequestObject) (req : ResponseRequest) : Prop :=
  ∃ tokens vps subm d value, req.vpToken = some tokens ∧ ShowsAll P ro.nonce tokens vps ∧ req.submission = some subm ∧
    ro.presentationDefinition = .object d ∧ subm.definitionId = d.id ∧ TokenValue P vps value ∧
    ∀ i ∈ d.inputDescriptors, Fulfilled P now value subm.descriptorMap i

/-! ### The checks meet it -/

theorem pair_eq {α β : Type} {x : α × β} {a : α} (h : x.1 = a) : x = (a, x.2) := by cases x; cases h; rfl


theorem verifyVp_ok {J : Jose} {v : Kind Vp} {vp : Vp} {c n : String} :
    Proof.verifyVp J v = .ok (.vp vp c n) ↔
      (∃ t k, v = .string t ∧ J.decodeVp t = some k ∧ vp = k.vp ∧ c = k.aud ∧ n = k.nonce) ∨
      (∃ p, v = .object vp ∧ vp.proof = some (.one p) ∧ c = "" ∧ n = p.challenge.getD "") := by
  cases v with
  | string t =>
    simp only [Proof.verifyVp, Except.bind_ok, orErr_ok, pure, Except.pure, Except.ok.injEq, Payload.vp.injEq]
    constructor
    · rintro ⟨k, h, rfl, rfl, rfl⟩; exact .inl ⟨t, k, rfl, h, rfl, rfl, rfl⟩
    · rintro (⟨t', k, h, h1, rfl, rfl, rfl⟩ | ⟨p, h, _⟩)
      · cases h; exact ⟨k, h1, rfl, rfl, rfl⟩
      · cases h
  | object vp' =>
    simp only [Proof.verifyVp]
    constructor
    · intro h
      split at h
      · rename_i p hp; cases h; exact .inr ⟨p, rfl, hp, rfl, rfl⟩
      · cases h
    · rintro (⟨t', k, h, _⟩ | ⟨p, h, h1, rfl, rfl⟩)
      · cases h
      · cases h; rw [h1]

theorem checkVp_ok {P : Provider} {nonce : String} {v : Kind Vp} {vp : Vp} :
    Response.checkVp P nonce v = .ok vp ↔ Shows P nonce v vp := by
  simp only [Response.checkVp, Except.bind_ok, mapErr_ok]
  constructor
  · rintro ⟨p, hp, h⟩
    cases p with
    | vc _ _ => cases h
    | vp vp' c n =>
      simp only [Except.bind_ok, require_ok, beq_iff_eq, pure, Except.pure, Except.ok.injEq] at h
      obtain ⟨_, hn, rfl⟩ := h
      rcases verifyVp_ok.1 hp with ⟨t, k, rfl, hd, rfl, _, rfl⟩ | ⟨p, rfl, h1, _, h2⟩
      · exact .jwt t k hd hn
      · exact .object _ p h1 (h2.symm.trans hn)
  · intro h
    cases h with
    | jwt t c hd hn =>
      refine ⟨.vp c.vp c.aud c.nonce, verifyVp_ok.2 (.inl ⟨t, c, rfl, hd, rfl, rfl, rfl⟩), ?_⟩
      simp [Except.bind_ok, require_ok, hn, pure, Except.pure]
    | object _ p h1 hn =>
      refine ⟨.vp vp "" (p.challenge.getD ""), verifyVp_ok.2 (.inr ⟨p, rfl, h1, rfl, rfl⟩), ?_⟩
      simp [Except.bind_ok, require_ok, hn, pure, Except.pure]

theorem checkVps_ok {P : Provider} {nonce : String} {ts : List (Kind Vp)} {vps : List Vp} :
    Response.checkVps P nonce ts = .ok vps ↔ ShowsAll P nonce ts vps := by
  induction ts generalizing vps with
  | nil =>
    simp only [Response.checkVps, Except.ok.injEq]
    constructor
    · rintro rfl; exact .nil
    · intro h; cases h; rfl
  | cons t ts ih =>
    simp only [Response.checkVps, Except.bind_ok, checkVp_ok, ih, pure, Except.pure, Except.ok.injEq]
    constructor
    · rintro ⟨v, h1, vs, h2, rfl⟩; exact .cons h1 h2
    · intro h; cases h with | cons h1 h2 => exact ⟨_, h1, _, h2, rfl⟩

theorem vpValues_some {P : Provider} {vps : List Vp} {l : List Json} :
    Response.vpValues P vps = some l ↔ vps.map P.vpJson = l.map some := by
  induction vps generalizing l with
  | nil => cases l <;> simp [Response.vpValues]
  | cons v vs ih =>
    simp only [Response.vpValues]
    cases h1 : P.vpJson v with
    | none => cases l <;> simp [h1]
    | some j =>
      cases h2 : Response.vpValues P vs with
      | none =>
        cases l with
        | nil => simp
        | cons a l =>
          simp only [List.map_cons, h1, List.cons.injEq, Option.some.injEq, reduceCtorEq, false_iff, not_and]
          intro _ h
          rw [ih.2 h] at h2; cases h2
      | some js =>
        have := ih.1 h2
        cases l with
        | nil => simp
        | cons a l =>
          simp only [List.map_cons, h1, Option.some.injEq, List.cons.injEq]
          constructor
          · rintro ⟨rfl, rfl⟩; exact ⟨rfl, this⟩
          · rintro ⟨rfl, h⟩; rw [ih.2 h] at h2; cases h2; exact ⟨rfl, rfl⟩

theorem tokenValue_ok {P : Provider} {vps : List Vp} {j : Json} : Response.tokenValue P vps = .ok j ↔ TokenValue P vps j := by
  have key : ∀ vps : List Vp, vps.length ≠ 1 →
      ((do let l ← orErr (Response.vpValues P vps) (.serverError "issue aggregating vp values"); pure (Json.arr l) : Res Json) = .ok j ↔
        TokenValue P vps j) := by
    intro vps hl
    simp only [Except.bind_ok, orErr_ok, vpValues_some, pure, Except.pure, Except.ok.injEq, TokenValue]
    constructor
    · rintro ⟨l, h1, rfl⟩; exact .inr ⟨hl, l, h1, rfl⟩
    · rintro (⟨vp, rfl, _⟩ | ⟨_, l, h1, rfl⟩)
      · exact absurd rfl hl
      · exact ⟨l, h1, rfl⟩
  match vps with
  | [] => exact key [] (by simp)
  | [vp] =>
    simp only [Response.tokenValue, orErr_ok, TokenValue]
    constructor
    · intro h; exact .inl ⟨vp, rfl, h⟩
    · rintro (⟨vp', h, h1⟩ | ⟨h, _⟩)
      · cases h; exact h1
      · exact absurd rfl h
  | v1 :: v2 :: vs => exact key _ (by simp)

theorem satisfied_ok {P : Provider} {c : Dif.Constraints} {vc : Vc} :
    c.satisfied P.ext (P.vcJson vc) = .ok true ↔ Satisfies P c vc := by
  unfold Satisfies
  cases hf : c.fields with
  | none => simp [Dif.Constraints.satisfied, hf]
  | some fields =>
    obtain ⟨_, d⟩ := c
    cases hf
    cases hj : P.vcJson vc with
    | none => simp [Dif.Constraints.satisfied]
    | some j =>
      rw [Dif.C48_constraints]
      simp

theorem checkInput_ok {P : Provider} {now : Int} {value : Json} {maps : List Dif.DescriptorMap} {i : Dif.InputDescriptor} :
    Response.checkInput P now value maps i = .ok () ↔ Fulfilled P now value maps i := by
  have hexp : ∀ vc : Vc, Response.expired vc now = false ↔ ∀ t, vc.validUntil = some t → now ≤ t := by
    intro vc
    unfold Response.expired
    cases vc.validUntil <;> simp
  have hfmt : ∀ m : Dif.DescriptorMap, Response.formatOk i m = true ↔ ∀ f, i.format = some f → m.pathNested.format ∈ Dict.keys f := by
    intro m
    unfold Response.formatOk
    cases i.format <;> simp [Dict.has_iff]
  have hfind : ∀ m, (maps.find? fun m => m.id == i.id) = some m ↔
      ∃ l1 l2, maps = l1 ++ m :: l2 ∧ (∀ x ∈ l1, x.id ≠ i.id) ∧ m.id = i.id := by
    intro m
    rw [List.find?_eq_some_iff_append]
    simp only [beq_iff_eq, Bool.not_eq_true', beq_eq_false_iff_ne]
    constructor
    · rintro ⟨h1, l1, l2, h2, h3⟩; exact ⟨l1, l2, h2, h3, h1⟩
    · rintro ⟨l1, l2, h2, h3, h1⟩; exact ⟨h1, l1, l2, h2, h3⟩
  simp only [Response.checkInput, Except.bind_ok, orErr_ok, require_ok, mapErr_ok, hfind, hfmt]
  constructor
  · rintro ⟨m, ⟨l1, l2, h1, h2, h3⟩, _, h4, nodes, h5, node, h6, kind, h7, p, h8, h9⟩
    have hn : nodes = [node] := by
      unfold Response.onlyNode at h6
      split at h6 <;> cases h6; rfl
    subst hn
    cases p with
    | vp _ _ _ => cases h9
    | vc vc iat =>
      simp only [Except.bind_ok, require_ok, mapErr_ok, Bool.not_eq_true', hexp] at h9
      obtain ⟨ok, h10, _, rfl, h11⟩ := h9
      cases kind with
      | object _ => cases h8
      | string token =>
        simp only [Proof.verifyVc, Except.bind_ok, orErr_ok, pure, Except.pure, Except.ok.injEq, Payload.vc.injEq] at h8
        obtain ⟨c, hc, rfl, rfl⟩ := h8
        have : node = .str token := by
          cases node with
          | str t => cases h7; rfl
          | obj m =>
            simp only [Response.vcKind, Except.bind_ok] at h7
            obtain ⟨_, _, h7⟩ := h7
            cases h7
          | _ => cases h7
        subst this
        exact ⟨l1, m, l2, h1, h2, h3, h4, token, c, h5, hc, satisfied_ok.1 h10, h11⟩
  · rintro ⟨l1, m, l2, h1, h2, h3, h4, token, c, h5, hc, h10, h11⟩
    refine ⟨m, ⟨l1, l2, h1, h2, h3⟩, (), h4, _, h5, _, rfl, _, rfl, .vc c.vc c.iat, ?_, ?_⟩
    · simp [Proof.verifyVc, hc, orErr, Bind.bind, Except.bind, pure, Except.pure]
    · simp only [Except.bind_ok, require_ok, mapErr_ok, Bool.not_eq_true', hexp]
      exact ⟨true, satisfied_ok.2 h10, (), rfl, h11⟩

theorem checkInputs_ok {P : Provider} {now : Int} {value : Json} {maps : List Dif.DescriptorMap} {is : List Dif.InputDescriptor} :
    Response.checkInputs P now value maps is = .ok () ↔ ∀ i ∈ is, Fulfilled P now value maps i := by
  induction is with
  | nil => simp [Response.checkInputs]
  | cons i is ih =>
    simp only [Response.checkInputs, Except.bind_ok, List.forall_mem_cons, ih, ← checkInput_ok]
    constructor
    · rintro ⟨_, h1, h2⟩; exact ⟨h1, h2⟩
    · rintro ⟨h1, h2⟩; exact ⟨(), h1, h2⟩

theorem check_ok {P : Provider} {now : Int} {ro : RequestObject} {req : ResponseRequest} :
    Response.check P now ro req = .ok () ↔ Answers P now ro req := by
  have hdef : ∀ d, Response.definition ro = .ok d ↔ ro.presentationDefinition = .object d := by
    intro d; unfold Response.definition; cases ro.presentationDefinition <;> simp
  simp only [Response.check, Response.prepare, Except.bind_ok, orErr_ok, require_ok, checkVps_ok, tokenValue_ok, hdef, checkInputs_ok, beq_iff_eq, Answers, pure, Except.pure, Except.ok.injEq]
  constructor
  · rintro ⟨_, ⟨ts, h1, vps, h2, subm, h3, d, h4, _, h5, value, h6, rfl⟩, h7⟩
    exact ⟨ts, vps, subm, d, value, h1, h2, h3, h4, h5, h6, h7⟩
  · rintro ⟨ts, vps, subm, d, value, h1, h2, h3, h4, h5, h6, h7⟩
    exact ⟨_, ⟨ts, h1, vps, h2, subm, h3, d, h4, (), h5, value, h6, rfl⟩, h7⟩

/-! ### C51 -/

/-- **C51**, creation. A successful `create_request` stores, for five minutes and under a new key, a request object that asks for exactly
the given input descriptors and purpose, has the key as `state` and a nonce drawn for it. In the same device flow the wallet gets that
very object; in the cross device flow it gets a URI ending in the key. -/
theorem C51_request_stored (P : Provider) (req : CreateRequestRequest) (e : Env) (he : ∀ i j, e.rng i = e.rng j → i = j)
    (w w' : World VState) (hw : Reachable e w) (r : CreateRequestResponse) (h : (createRequest P req).run e w = (.ok r, w')) :
    ∃ k s d, w'.store k = some s ∧ w.store k = none ∧ (∀ k', k' ≠ k → w'.store k' = w.store k') ∧
      s.expiresAt = w.now + 300 * 1000000000 ∧ s.requestObject.state = some k ∧
      s.requestObject.presentationDefinition = .object d ∧ d.inputDescriptors = req.inputDescriptors ∧ d.purpose = some req.purpose ∧
      (∃ i, w.drawn ≤ i ∧ i < w'.drawn ∧ s.requestObject.nonce = e.rng i ∧ s.requestObject.nonce ≠ k) ∧
      (req.deviceFlow = .sameDevice → r.requestUri = none ∧ r.requestObject = some s.requestObject ∧
        s.requestObject.clientId = req.clientId ++ "/callback") ∧
      (req.deviceFlow = .crossDevice → r.requestObject = none ∧ r.requestUri = some (req.clientId ++ "/request/" ++ k) ∧
        s.requestObject.clientId = req.clientId ++ "/post" ∧ s.requestObject.responseUri = some (req.clientId ++ "/post") ∧
        s.requestObject.responseMode = some "direct_post") := by
  obtain ⟨_, m, _, _, o, ho, rfl, rfl⟩ := createRequest_ok.1 h
  have hnew : w.store (e.rng (w.drawn + 1)) = none := by
    cases hs : w.store (e.rng (w.drawn + 1)) with
    | none => rfl
    | some v =>
      obtain ⟨i, hi, hk⟩ := hw.known _ v hs
      have := he _ _ hk; omega
  refine ⟨e.rng (w.drawn + 1), { expiresAt := w.now + requestDur, requestObject := o }, CreateRequest.definition (e.rng w.drawn) req,
    by simp, hnew, fun k' h => by simp [h], rfl, ?_, ?_, rfl, rfl, ⟨w.drawn + 2, by omega, ?_, ?_, ?_⟩, ?_, ?_⟩
  · subst ho; simp only [CreateRequest.object]; split <;> rfl
  · subst ho; simp only [CreateRequest.object]; split <;> rfl
  · simp
  · subst ho; simp only [CreateRequest.object]; split <;> rfl
  · have : o.nonce = e.rng (w.drawn + 2) := by subst ho; simp only [CreateRequest.object]; split <;> rfl
    simp only [this]
    intro h
    have := he _ _ h; omega
  · intro hd; subst ho; simp [CreateRequest.reply, CreateRequest.object, hd]
  · intro hd; subst ho; simp [CreateRequest.reply, CreateRequest.object, hd]

/-- **C51**, retrieval. `request_object` answers exactly when the stored request was made for that client's cross device flow, and then
with the stored object, signed by the client. -/
theorem C51_request_object_signed (P : Provider) (req : RequestObjectRequest) (e : Env) (w : World VState) (jwt : String) :
    ((requestObject P req).run e w).1 = .ok jwt ↔
      e.fault w.ops = .ok ∧ ∃ s k, w.store req.id = some s ∧ s.requestObject.clientId = req.clientId ++ "/post" ∧
        P.signer req.clientId = some k ∧ P.encodeRequest k s.requestObject = some jwt := by
  constructor
  · intro h
    obtain ⟨h1, -, h2⟩ := requestObject_ok.1 (pair_eq h)
    exact ⟨h1, h2⟩
  · rintro ⟨h1, h2⟩
    rw [requestObject_ok.2 ⟨h1, rfl, h2⟩]

/-- **C51**, over histories: whatever else happens, as long as no response with this state is accepted or fails while being cleared, the
request object can be fetched unchanged. -/
theorem C51_retrievable (e : Env) (he : ∀ i j, e.rng i = e.rng j → i = j) (w : World VState) (hw : Reachable e w) (k : String)
    (s : VState) (hs : w.store k = some s) (l : List Step)
    (hl : ∀ a st b, l = a ++ st :: b → ∀ r, st.req = .response r → r.state = some k →
      ¬ ∃ s', (exec e w a).store k = some s' ∧ Answers st.provider ((exec e w a).now + st.wait) s'.requestObject r) :
    (exec e w l).store k = some s := by
  obtain ⟨i, hi, hk⟩ := hw.known k s hs
  clear hw
  induction l generalizing w with
  | nil => exact hs
  | cons st l ih =>
    have hd := step_drawn_le e w st
    refine ih (step e w st).2 ?_ ?_ (Nat.lt_of_lt_of_le hi hd)
    · by_cases hr : ∃ r, st.req = .response r ∧ r.state = some k
      · obtain ⟨r, hr, hst⟩ := hr
        have h0 := hl [] st l rfl r hr hst
        have hrun : (step e w st).2 = ((response st.provider r).run e { w with now := w.now + st.wait }).2 := by
          simp only [step, hr, call]
          show ((response st.provider r).bind _ |>.run e _).2 = _
          rw [run_bind]
          rcases h : (response st.provider r).run e { w with now := w.now + st.wait } with ⟨_ | _, _⟩ <;> rfl
        rw [hrun]
        rcases h : (response st.provider r).run e { w with now := w.now + st.wait } with ⟨x | x, w'⟩
        · rcases (response_err h).1 with h1 | ⟨k', s', h1, h2, _, _, h3, _⟩
          · rw [h1]; exact hs
          · rw [hst] at h1; cases h1
            exact absurd ⟨s', h2, check_ok.1 h3⟩ h0
        · obtain ⟨_, _, k', s', h1, h2, h3, _, _⟩ := response_ok.1 h
          rw [hst] at h1; cases h1
          exact absurd ⟨s', h2, check_ok.1 h3⟩ h0
      · rw [step_keeps e w st k (fun r h1 h2 => hr ⟨r, h1, h2⟩)]
        · exact hs
        · rintro ⟨j, h1, _, h2⟩
          have := he _ _ (hk.symm.trans h2); omega
    · intro a st' b hab
      have := hl (st :: a) st' b (by rw [hab]; rfl)
      simpa [exec] using this

/-! ### C52 -/

/-- **C52**. The response endpoint accepts only a response to a stored request that answers it (see `Answers`). -/
theorem C52_accepted_answers (P : Provider) (req : ResponseRequest) (e : Env) (w : World VState) (r : ResponseResponse)
    (h : ((response P req).run e w).1 = .ok r) :
    ∃ k s, req.state = some k ∧ w.store k = some s ∧ Answers P w.now s.requestObject req := by
  obtain ⟨_, _, k, s, h1, h2, h3, _⟩ := response_ok.1 (pair_eq h)
  exact ⟨k, s, h1, h2, check_ok.1 h3⟩

/-- **C52**, conversely: a response that answers the stored request is accepted if the store works. -/
theorem C52_answers_accepted (P : Provider) (req : ResponseRequest) (e : Env) (w : World VState) (k : String) (s : VState)
    (hk : req.state = some k) (hs : w.store k = some s) (ha : Answers P w.now s.requestObject req)
    (h1 : e.fault w.ops = .ok) (h2 : e.fault (w.ops + 1) = .ok) : ∃ r, ((response P req).run e w).1 = .ok r := by
  rw [response_ok.2 ⟨h1, h2, k, s, hk, hs, check_ok.2 ha, rfl, rfl⟩]
  exact ⟨_, rfl⟩

/-! ### C53 -/

/-- **C53**. After an accepted response, in every history, no response with the same state is accepted and the request object can no
longer be fetched. -/
theorem C53_answered_once (e : Env) (he : ∀ i j, e.rng i = e.rng j → i = j) (w : World VState) (hw : Reachable e w) (P : Provider)
    (req : ResponseRequest) (k : String) (hk : req.state = some k) (r : ResponseResponse) (h : ((response P req).run e w).1 = .ok r)
    (l : List Step) :
    (∀ P' req', req'.state = some k → ∃ x, ((response P' req').run e (exec e ((response P req).run e w).2 l)).1 = .error x) ∧
    (∀ P' c, ∃ x, ((requestObject P' ⟨c, k⟩).run e (exec e ((response P req).run e w).2 l)).1 = .error x) := by
  obtain ⟨_, _, k', s, h1, h2, h3, _, hw'⟩ := response_ok.1 (pair_eq h)
  rw [hk] at h1; cases h1
  obtain ⟨i, hi, hki⟩ := hw.known k s h2
  have hgone := gone_stays he (w := ((response P req).run e w).2) (k := k) (i := i) (by rw [hw']; exact hi) hki (by rw [hw']; simp) l
  constructor
  · intro P' req' hk'
    generalize exec e ((response P req).run e w).2 l = w2 at hgone
    cases hr : ((response P' req').run e w2).1 with
    | error x => exact ⟨x, rfl⟩
    | ok r' =>
      obtain ⟨_, _, k2, s2, h4, h5, _⟩ := response_ok.1 (pair_eq hr)
      rw [hk'] at h4; cases h4
      rw [hgone] at h5; cases h5
  · intro P' c
    generalize exec e ((response P req).run e w).2 l = w2 at hgone
    cases hr : ((requestObject P' ⟨c, k⟩).run e w2).1 with
    | error x => exact ⟨x, rfl⟩
    | ok r' =>
      obtain ⟨_, s2, _, h5, _⟩ := (C51_request_object_signed P' ⟨c, k⟩ e w2 r').1 hr
      rw [hgone] at h5; cases h5

/-- **C53**, a rejected response leaves everything as it was (unless it was rejected because the store failed to clear the state). -/
theorem C53_rejected_unchanged (P : Provider) (req : ResponseRequest) (e : Env) (w : World VState) (x : Err)
    (h : ((response P req).run e w).1 = .error x) (hf : e.fault (w.ops + 1) = .ok) :
    ((response P req).run e w).2.store = w.store := by
  rcases (response_err (pair_eq h)).1 with h1 | ⟨_, _, _, _, _, h2, _⟩
  · exact h1
  · exact absurd hf h2

/-! ### C54 -/

/-- **C54 is false**, in general: the answer to a response does not depend on the stored expiry time. -/
theorem C54_expiry_ignored (P : Provider) (req : ResponseRequest) (e : Env) (w : World VState) (k : String) (s : VState) (t : Int)
    (hs : w.store k = some s) :
    ((response P req).run e { w with store := upd w.store k (some { s with expiresAt := t }) }).1 = ((response P req).run e w).1 := by
  have key : ∀ w1 w2 : World VState, w1.now = w2.now → w1.ops = w2.ops →
      (∀ k', (w1.store k').map VState.requestObject = (w2.store k').map VState.requestObject) →
      ((response P req).run e w1).1 = ((response P req).run e w2).1 := by
    intro w1 w2 hn ho hst
    unfold response
    cases hk : req.state with
    | none => rfl
    | some k =>
      have hst := hst k
      show (((getE k _).bind _).run e w1).1 = (((getE k _).bind _).run e w2).1
      simp only [run_bind, getE, Prog.run, ho]
      cases h1 : w1.store k with
      | none =>
        cases h2 : w2.store k with
        | none => cases e.fault w2.ops <;> rfl
        | some s2 => rw [h1, h2] at hst; cases hst
      | some s1 =>
        cases h2 : w2.store k with
        | none => rw [h1, h2] at hst; cases hst
        | some s2 =>
          rw [h1, h2] at hst
          simp only [Option.map_some, Option.some.injEq] at hst
          cases hf : e.fault w2.ops with
          | ok =>
            simp only [getRes, Prog.run]
            show (((Response.verify P s1.requestObject req).bind _).run e _).1 = (((Response.verify P s2.requestObject req).bind _).run e _).1
            simp only [run_bind, verify_run, hst, hn]
            cases Response.check P w2.now s2.requestObject req with
            | error x => rfl
            | ok u =>
              simp only
              show (((purgeE k _).bind _).run e _).1 = (((purgeE k _).bind _).run e _).1
              simp only [run_bind, purgeE, Prog.run]
              cases hg : e.fault (w2.ops + 1) <;> rfl
          | failBefore => rfl
          | failAfter => rfl
  refine key _ _ rfl rfl ?_
  intro k'
  by_cases h : k' = k
  · subst h; simp [hs]
  · simp [h]

/-- **C54**, what remains: if the state store has dropped the expired entry, the response is refused. -/
theorem C54_evicted_refused_partial (P : Provider) (req : ResponseRequest) (e : Env) (w : World VState) (k : String)
    (hk : req.state = some k) (hs : w.store k = none) : ∃ x, ((response P req).run e w).1 = .error x := by
  cases h : ((response P req).run e w).1 with
  | error x => exact ⟨x, rfl⟩
  | ok r =>
    obtain ⟨k', s, h1, h2, _⟩ := C52_accepted_answers P req e w r h
    rw [hk] at h1; cases h1
    rw [hs] at h2; cases h2

/-! ### C55 -/

/-- **C55**, what holds: of an accepted response, every presentation given as a JWT decodes under the resolver and carries the nonce of
the stored request. -/
theorem C55_jwt_presentations_verified_partial (P : Provider) (req : ResponseRequest) (e : Env) (w : World VState) (r : ResponseResponse)
    (h : ((response P req).run e w).1 = .ok r) (tokens : List (Kind Vp)) (ht : req.vpToken = some tokens) (t : String)
    (hm : Kind.string t ∈ tokens) :
    ∃ k s c, req.state = some k ∧ w.store k = some s ∧ P.jose.decodeVp t = some c ∧ c.nonce = s.requestObject.nonce := by
  obtain ⟨k, s, h1, h2, ts, vps, _, _, _, h3, h4, _⟩ := C52_accepted_answers P req e w r h
  rw [ht] at h3; cases h3
  have : ∀ ts vps, ShowsAll P s.requestObject.nonce ts vps → Kind.string t ∈ ts →
      ∃ c, P.jose.decodeVp t = some c ∧ c.nonce = s.requestObject.nonce := by
    intro ts vps h
    induction h with
    | nil => simp
    | cons h1 _ ih =>
      intro hm
      rcases List.mem_cons.1 hm with rfl | hm
      · cases h1 with | jwt _ c hd hn => exact ⟨c, hd, hn⟩
      · exact ih hm
  obtain ⟨c, hd, hn⟩ := this _ _ h4 hm
  exact ⟨k, s, c, h1, h2, hd, hn⟩

/-- **C55 is false**, in general: what an object presentation's proof says beyond its challenge makes no difference; no key is consulted
and no signature is checked. -/
theorem C55_object_proof_unchecked (J : Jose) (vp : Vp) (p : IntegrityProof) (hp : vp.proof = some (.one p)) :
    Proof.verifyVp J (.object vp) = .ok (.vp vp "" (p.challenge.getD "")) := by
  simp [Proof.verifyVp, hp]

/-- **C55 is false**, in general: the audience inside presentation tokens has no influence on the answer. -/
theorem C55_audience_ignored (P : Provider) (aud : String → String) (req : ResponseRequest) (e : Env) (w w' : World VState) (r : ResponseResponse) :
    (response { P with jose := { P.jose with decodeVp := fun t => (P.jose.decodeVp t).map fun c => { c with aud := aud t } } } req).run e w = (.ok r, w') ↔
      (response P req).run e w = (.ok r, w') := by
  simp only [response_ok, check_ok]
  refine and_congr_right fun _ => and_congr_right fun _ => exists_congr fun k => exists_congr fun s => and_congr_right fun _ => and_congr_right fun _ =>
    and_congr_left fun _ => ?_
  generalize s.requestObject = ro
  have key : ∀ ts vps, ShowsAll { P with jose := { P.jose with decodeVp := fun t => (P.jose.decodeVp t).map fun c =>
      { c with aud := aud t } } } ro.nonce ts vps ↔ ShowsAll P ro.nonce ts vps := by
    intro ts vps
    constructor
    · intro h
      induction h with
      | nil => exact .nil
      | cons h1 _ ih =>
        refine .cons ?_ ih
        cases h1 with
        | jwt t c hd hn =>
          simp only [Option.map_eq_some_iff] at hd
          obtain ⟨c', hd, rfl⟩ := hd
          exact .jwt t c' hd hn
        | object _ p h1 h2 => exact .object _ p h1 h2
    · intro h
      induction h with
      | nil => exact .nil
      | cons h1 _ ih =>
        refine .cons ?_ ih
        cases h1 with
        | jwt t c hd hn => exact .jwt t { c with aud := aud t } (by simp [hd]) hn
        | object _ p h1 h2 => exact .object _ p h1 h2
  constructor
  · rintro ⟨ts, vps, subm, d, value, h1, h2, h3⟩
    exact ⟨ts, vps, subm, d, value, h1, (key _ _).1 h2, h3⟩
  · rintro ⟨ts, vps, subm, d, value, h1, h2, h3⟩
    exact ⟨ts, vps, subm, d, value, h1, (key _ _).2 h2, h3⟩

end Verif.Verifier
