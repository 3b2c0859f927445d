import Verif.Verifier.Demo
/-!
# Who presents, whether the credential still holds, and who vouches for it

C192: a credential is accepted only from the one it was issued to. C193: a revoked or suspended credential, or one that is not valid yet, is not accepted. C194: an
accepted credential was signed by the issuer it names. The verifier's response endpoint (/repo/vercre-verifier/src/response.rs 41-216) checks none of the three:
of a credential whose signature verifies with *some* resolvable key it looks at the end of validity and at what the request's constraints name, nothing else.
-/
namespace Verif.Verifier
open Verif Prog

/-! ### What the endpoint looks at -/

/-- The resolver's answers with the claims of credential tokens changed by `g`. Specification. -/
def Provider.reading (P : Provider) (g : String → VcClaims → VcClaims) : Provider :=
  { P with jose := { P.jose with decodeVc := fun t => (P.jose.decodeVc t).map (g t) } }

/-- The change touches neither the end of validity nor anything the constraints of the request look at. Specification. -/
structure Unseen (P : Provider) (ro : RequestObject) (g : String → VcClaims → VcClaims) : Prop where
  ends : ∀ t c, P.jose.decodeVc t = some c → (g t c).vc.validUntil = c.vc.validUntil
  constraints : ∀ d, ro.presentationDefinition = .object d → ∀ i ∈ d.inputDescriptors, ∀ t c, P.jose.decodeVc t = some c →
    (Satisfies P i.constraints (g t c).vc ↔ Satisfies P i.constraints c.vc)

theorem showsAll_reading {P : Provider} {g : String → VcClaims → VcClaims} {nonce : String} {ts : List (Kind Vp)} {vps : List Vp} :
    ShowsAll (P.reading g) nonce ts vps ↔ ShowsAll P nonce ts vps := by
  have one : ∀ t v, Shows (P.reading g) nonce t v ↔ Shows P nonce t v := by
    intro t v
    constructor
    · intro h
      cases h with
      | jwt t c hd hn => exact .jwt t c hd hn
      | object _ p hp hn => exact .object _ p hp hn
    · intro h
      cases h with
      | jwt t c hd hn => exact .jwt t c hd hn
      | object _ p hp hn => exact .object _ p hp hn
  constructor
  · intro h
    induction h with
    | nil => exact .nil
    | cons h1 _ ih => exact .cons ((one _ _).1 h1) ih
  · intro h
    induction h with
    | nil => exact .nil
    | cons h1 _ ih => exact .cons ((one _ _).2 h1) ih

theorem fulfilled_reading {P : Provider} {g : String → VcClaims → VcClaims} {now : Int} {value : Json} {maps : List Dif.DescriptorMap} {i : Dif.InputDescriptor}
    (he : ∀ t c, P.jose.decodeVc t = some c → (g t c).vc.validUntil = c.vc.validUntil)
    (hc : ∀ t c, P.jose.decodeVc t = some c → (Satisfies P i.constraints (g t c).vc ↔ Satisfies P i.constraints c.vc)) :
    Fulfilled (P.reading g) now value maps i ↔ Fulfilled P now value maps i := by
  unfold Fulfilled
  refine exists_congr fun l1 => exists_congr fun m => exists_congr fun l2 => and_congr_right fun _ => and_congr_right fun _ => and_congr_right fun _ =>
    and_congr_right fun _ => exists_congr fun token => ?_
  constructor
  · rintro ⟨c, h1, h2, h3, h4⟩
    have h2 : (P.jose.decodeVc token).map (g token) = some c := h2
    cases hd : P.jose.decodeVc token with
    | none => rw [hd] at h2; cases h2
    | some c' =>
      rw [hd] at h2; cases h2
      exact ⟨c', h1, rfl, (hc _ _ hd).1 h3, fun t ht => h4 t ((he _ _ hd).trans ht)⟩
  · rintro ⟨c, h1, h2, h3, h4⟩
    exact ⟨g token c, h1, by show (P.jose.decodeVc token).map (g token) = _; rw [h2]; rfl, (hc _ _ h2).2 h3, fun t ht => h4 t ((he _ _ h2).symm.trans ht)⟩

/-- What the constraints do not name and is not the end of validity makes no difference. -/
theorem unseen_ignored {P : Provider} {g : String → VcClaims → VcClaims} {req : ResponseRequest} {e : Env} {w w' : World VState} {r : ResponseResponse}
    (hu : ∀ k s, req.state = some k → w.store k = some s → Unseen P s.requestObject g) :
    (response (P.reading g) req).run e w = (.ok r, w') ↔ (response P req).run e w = (.ok r, w') := by
  simp only [response_ok, check_ok]
  refine and_congr_right fun _ => and_congr_right fun _ => exists_congr fun k => exists_congr fun s => and_congr_right fun hk => and_congr_right fun hs =>
    and_congr_left fun _ => ?_
  have hu := hu k s hk hs
  unfold Answers
  refine exists_congr fun ts => exists_congr fun vps => exists_congr fun subm => exists_congr fun d => exists_congr fun value => and_congr_right fun _ => ?_
  rw [showsAll_reading]
  refine and_congr_right fun _ => and_congr_right fun _ => and_congr_right fun hd => and_congr_right fun _ => and_congr_right fun _ => ?_
  exact forall_congr' fun i => imp_congr_right fun hi => fulfilled_reading hu.ends (hu.constraints d hd i hi)

/-! ### C192 -/

/-- A presentation that anyone can write down who knows the tokens and the nonce of the request: it names `thief` as the holder and its proof is `rubbish`, which
need not verify under any key. Specification. -/
def stolen (thief : String) (rubbish : IntegrityProof) (nonce : String) (tokens : List String) : Vp where
  context := [baseContext]
  credentials := some (tokens.map .string)
  holder := some thief
  proof := some (.one { rubbish with challenge := some nonce })

/-- The submission that goes with it: the `n`-th descriptor is answered by the `n`-th credential. Specification. -/
def mapping (path : Nat → String) : Nat → List Dif.InputDescriptor → List Dif.DescriptorMap
  | _, [] => []
  | n, i :: is => { id := i.id, format := "jwt_vp_json", path := "$", pathNested := { format := "jwt_vc_json", path := path n } } :: mapping path (n + 1) is

/-- `path n` leads to the `n`-th credential of a presentation, as `$.verifiableCredential[n]` does. Assumption about the external crate `serde_json_path`, used at
/repo/vercre-verifier/src/response.rs 144-146. -/
def Leads (P : Provider) (path : Nat → String) : Prop :=
  ∀ (vp : Vp) (tokens : List String), vp.credentials = some (tokens.map .string) → ∃ j, P.vpJson vp = some j ∧
    ∀ n t, tokens[n]? = some t → P.ext.query (path n) j = some [.str t]

theorem mapping_find (path : Nat → String) (i : Dif.InputDescriptor) (is : List Dif.InputDescriptor) (hi : i ∈ is) (hn : (is.map (·.id)).Nodup) (n : Nat) :
    ∃ k l1 l2, is[k]? = some i ∧ mapping path n is =
      l1 ++ { id := i.id, format := "jwt_vp_json", path := "$", pathNested := { format := "jwt_vc_json", path := path (n + k) } } :: l2 ∧
      ∀ x ∈ l1, x.id ≠ i.id := by
  induction is generalizing n with
  | nil => cases hi
  | cons a is ih =>
    rw [List.map_cons, List.nodup_cons] at hn
    rcases List.mem_cons.1 hi with rfl | hi
    · exact ⟨0, [], mapping path (n + 1) is, rfl, rfl, by simp⟩
    · obtain ⟨k, l1, l2, h1, h2, h3⟩ := ih hi hn.2 (n + 1)
      refine ⟨k + 1, _ :: l1, l2, by simpa using h1, by rw [mapping, h2, show n + 1 + k = n + (k + 1) by omega]; rfl, ?_⟩
      intro x hx
      rcases List.mem_cons.1 hx with rfl | hx
      · intro h
        exact hn.1 (List.mem_map.2 ⟨i, hi, h.symm⟩)
      · exact h3 x hx

/-- **C192 is false**, in general: whoever knows credential tokens that answer a request, and the nonce of the request, gets them accepted under any name and with any
proof, whoever the credentials were issued to. No key is needed: the claim is for every resolver, even one under which no presentation ever verifies. -/
theorem C192_anyone_presents (P : Provider) (path : Nat → String) (hp : Leads P path) (e : Env) (w : World VState) (k : String) (s : VState)
    (hs : w.store k = some s) (d : Dif.PresentationDefinition) (hd : s.requestObject.presentationDefinition = .object d)
    (hn : (d.inputDescriptors.map (·.id)).Nodup) (hf : ∀ i ∈ d.inputDescriptors, ∀ f, i.format = some f → "jwt_vc_json" ∈ Dict.keys f)
    (token : Dif.InputDescriptor → String)
    (ht : ∀ i ∈ d.inputDescriptors, ∃ c, P.jose.decodeVc (token i) = some c ∧ Satisfies P i.constraints c.vc ∧ ∀ t, c.vc.validUntil = some t → w.now ≤ t)
    (h1 : e.fault w.ops = .ok) (h2 : e.fault (w.ops + 1) = .ok) (thief : String) (rubbish : IntegrityProof) (id : String) :
    ∃ r, ((response P {
      vpToken := some [.object (stolen thief rubbish s.requestObject.nonce (d.inputDescriptors.map token))]
      submission := some { id, definitionId := d.id, descriptorMap := mapping path 0 d.inputDescriptors }
      state := some k }).run e w).1 = .ok r := by
  obtain ⟨j, hj, hq⟩ := hp (stolen thief rubbish s.requestObject.nonce (d.inputDescriptors.map token)) _ rfl
  refine C52_answers_accepted P _ e w k s rfl hs ?_ h1 h2
  refine ⟨_, [stolen thief rubbish s.requestObject.nonce (d.inputDescriptors.map token)], _, d, j, rfl, .cons (.object _ _ rfl rfl) .nil, rfl, hd, rfl, .inl ⟨_, rfl, hj⟩, ?_⟩
  intro i hi
  obtain ⟨n, l1, l2, hg, hm, hfirst⟩ := mapping_find path i d.inputDescriptors hi hn 0
  obtain ⟨c, hc, hsat, hexp⟩ := ht i hi
  refine ⟨l1, _, l2, hm, hfirst, rfl, hf i hi, token i, c, ?_, hc, hsat, hexp⟩
  rw [Nat.zero_add]
  exact hq n (token i) (by rw [List.getElem?_map, hg]; rfl)

/-- **C192 is false**, also for signed presentations: to whom the credentials were issued makes no difference, unless a constraint of the request asks for it. -/
theorem C192_subject_ignored (P : Provider) (subject : String → Quota CredentialSubject) (req : ResponseRequest) (e : Env) (w w' : World VState) (r : ResponseResponse)
    (hu : ∀ k s, req.state = some k → w.store k = some s → ∀ d, s.requestObject.presentationDefinition = .object d → ∀ i ∈ d.inputDescriptors, ∀ t c,
      P.jose.decodeVc t = some c → (Satisfies P i.constraints { c.vc with subject := subject t } ↔ Satisfies P i.constraints c.vc)) :
    (response (P.reading fun t c => { c with vc := { c.vc with subject := subject t } }) req).run e w = (.ok r, w') ↔ (response P req).run e w = (.ok r, w') :=
  unseen_ignored fun k s hk hs => ⟨fun _ _ _ => rfl, hu k s hk hs⟩

/-- The part of **C192** that holds: what is accepted contains only credentials that were signed, and nobody can alter to whom they were issued: for every input
descriptor there is a token among the values of the presentation that decodes under the resolver. That the presenter is that subject is missing. -/
theorem C192_credentials_are_signed_partial (P : Provider) (req : ResponseRequest) (e : Env) (w : World VState) (r : ResponseResponse)
    (h : ((response P req).run e w).1 = .ok r) :
    ∃ k s d, req.state = some k ∧ w.store k = some s ∧ s.requestObject.presentationDefinition = .object d ∧
      ∀ i ∈ d.inputDescriptors, ∃ token c, P.jose.decodeVc token = some c ∧ Satisfies P i.constraints c.vc := by
  obtain ⟨k, s, h1, h2, ts, vps, subm, d, value, _, _, _, hd, _, _, hf⟩ := C52_accepted_answers P req e w r h
  refine ⟨k, s, d, h1, h2, hd, fun i hi => ?_⟩
  obtain ⟨_, _, _, _, _, _, _, token, c, _, hc, hs, _⟩ := hf i hi
  exact ⟨token, c, hc, hs⟩

/-! ### C193 -/

/-- **C193 is false**, in general: when a credential becomes valid, and the status list entry it names, make no difference, unless a constraint of the request asks
for them. In particular no status list is ever fetched. -/
theorem C193_status_and_start_ignored (P : Provider) (validFrom : String → Option Int) (status : String → Option (Quota CredentialStatus)) (req : ResponseRequest)
    (e : Env) (w w' : World VState) (r : ResponseResponse)
    (hu : ∀ k s, req.state = some k → w.store k = some s → ∀ d, s.requestObject.presentationDefinition = .object d → ∀ i ∈ d.inputDescriptors, ∀ t c,
      P.jose.decodeVc t = some c → (Satisfies P i.constraints { c.vc with validFrom := validFrom t, status := status t } ↔ Satisfies P i.constraints c.vc)) :
    (response (P.reading fun t c => { c with nbf := (validFrom t).map timestamp, vc := { c.vc with validFrom := validFrom t, status := status t } }) req).run e w = (.ok r, w') ↔
      (response P req).run e w = (.ok r, w') :=
  unseen_ignored fun k s hk hs => ⟨fun _ _ _ => rfl, hu k s hk hs⟩

/-- The part of **C193** that holds: an accepted response contains, for every input descriptor, a credential whose validity has not ended. -/
theorem C193_not_expired_partial (P : Provider) (req : ResponseRequest) (e : Env) (w : World VState) (r : ResponseResponse)
    (h : ((response P req).run e w).1 = .ok r) :
    ∃ k s d, req.state = some k ∧ w.store k = some s ∧ s.requestObject.presentationDefinition = .object d ∧
      ∀ i ∈ d.inputDescriptors, ∃ token c, P.jose.decodeVc token = some c ∧ Satisfies P i.constraints c.vc ∧ ∀ t, c.vc.validUntil = some t → w.now ≤ t := by
  obtain ⟨k, s, h1, h2, ts, vps, subm, d, value, _, _, _, hd, _, _, hf⟩ := C52_accepted_answers P req e w r h
  refine ⟨k, s, d, h1, h2, hd, fun i hi => ?_⟩
  obtain ⟨_, _, _, _, _, _, _, token, c, _, hc, hs, hx⟩ := hf i hi
  exact ⟨token, c, hc, hs, hx⟩

/-! ### C194 -/

/-- **C194 is false**, in general: which issuer a credential names makes no difference, unless a constraint of the request asks for it. Any key the resolver finds
will do. -/
theorem C194_issuer_ignored (P : Provider) (issuer : String → String) (req : ResponseRequest) (e : Env) (w w' : World VState) (r : ResponseResponse)
    (hu : ∀ k s, req.state = some k → w.store k = some s → ∀ d, s.requestObject.presentationDefinition = .object d → ∀ i ∈ d.inputDescriptors, ∀ t c,
      P.jose.decodeVc t = some c → (Satisfies P i.constraints { c.vc with issuer := .string (issuer t) } ↔ Satisfies P i.constraints c.vc)) :
    (response (P.reading fun t c => { c with iss := issuer t, vc := { c.vc with issuer := .string (issuer t) } }) req).run e w = (.ok r, w') ↔
      (response P req).run e w = (.ok r, w') :=
  unseen_ignored fun k s hk hs => ⟨fun _ _ _ => rfl, hu k s hk hs⟩

/-- **C194 is false** in another way: the issuer inside the credential and the `iss` of its token need not agree. Any `iss` is as good as the right one. -/
theorem C194_iss_ignored (P : Provider) (iss : String → String) (req : ResponseRequest) (e : Env) (w w' : World VState) (r : ResponseResponse) :
    (response (P.reading fun t c => { c with iss := iss t }) req).run e w = (.ok r, w') ↔ (response P req).run e w = (.ok r, w') :=
  unseen_ignored fun _ _ _ _ => ⟨fun _ _ _ => rfl, fun _ _ _ _ _ _ _ => Iff.rfl⟩

/-! ### Instances -/

namespace Demo

/-- The provider of the demonstration with paths `$.0`, `$.1`, … written in unary, and presentations that show all their credentials. -/
def providerL : Provider :=
  { provider with
    vpJson := fun vp => some (.arr ((vp.credentials.getD []).map fun | .string t => .str t | .object _ => .null))
    ext := { provider.ext with query := fun p j => if p = "$.level" then some [.num "7"] else match j with | .arr l => some (l[p.length - 1]?.toList) | _ => some [] } }

/-- The path to the `n`-th credential, in unary. -/
def unary (n : Nat) : String := String.ofList ('$' :: List.replicate n 'x')

theorem unary_leads : Leads providerL unary := by
  intro vp tokens h
  refine ⟨_, rfl, fun n t ht => ?_⟩
  have hne : unary n ≠ "$.level" := by
    intro hc
    have := congrArg String.toList hc
    simp only [unary, String.toList_ofList] at this
    cases n with
    | zero => cases this
    | succ n => cases this
  have hl : (unary n).length - 1 = n := by
    rw [unary, String.length_ofList, List.length_cons, List.length_replicate, Nat.add_sub_cancel]
  simp only [providerL, h, if_neg hne, hl, Option.getD_some, List.getElem?_map, List.map_map]
  rw [ht]; rfl

-- C192: `did:mallory` presents the credential of `did:alice`
example (rubbish : IntegrityProof) : ∃ s d, w1.store "tt" = some s ∧ s.requestObject.presentationDefinition = .object d ∧ ∃ r,
    ((response providerL {
      vpToken := some [.object (stolen "did:mallory" rubbish s.requestObject.nonce (d.inputDescriptors.map fun _ => "vc.jwt"))]
      submission := some { id := "s", definitionId := d.id, descriptorMap := mapping unary 0 d.inputDescriptors }
      state := some "tt" }).run env w1).1 = .ok r := by
  refine ⟨_, _, rfl, rfl, C192_anyone_presents providerL unary unary_leads env w1 "tt" _ rfl _ rfl ?_ ?_ (fun _ => "vc.jwt") ?_ rfl rfl "did:mallory" rubbish "s"⟩
  · simp [createReq, CreateRequest.definition]
  · intro i hi f hf
    rw [show i = (createReq .crossDevice).inputDescriptors.head (by simp [createReq]) by simpa [createReq, CreateRequest.definition] using hi] at hf
    cases hf
  · intro i hi
    refine ⟨_, rfl, ?_, by intro t ht; cases ht⟩
    rw [show i = (createReq .crossDevice).inputDescriptors.head (by simp [createReq]) by simpa [createReq, CreateRequest.definition] using hi]
    exact satisfied_ok.1 rfl

/-- The credential of the demonstration, not valid until the year 2100 and with an entry in a status list. -/
def later : Provider :=
  provider.reading fun _ c => { c with nbf := some 4102444800, vc := { c.vc with
    validFrom := some 4102444800000000000, status := some (.one ⟨none, .revocation, 5, "https://issuer.example/status/1", none⟩) } }

/-- **C193 is false**, an instance: a credential that becomes valid in the year 2100 is accepted in 1970. -/
theorem C193_not_yet_valid_accepted :
    ((response later (resp (.string "vp.jwt"))).run env w1).1 = .ok accepted ∧
    (∃ c, later.jose.decodeVc "vc.jwt" = some c ∧ c.vc.validFrom = some 4102444800000000000) ∧ w1.now = 0 :=
  ⟨rfl, ⟨_, rfl, rfl⟩, rfl⟩

-- C193, in general
example : (response later (resp (.string "vp.jwt"))).run env w1 = (.ok accepted, ((response provider (resp (.string "vp.jwt"))).run env w1).2) :=
  (C193_status_and_start_ignored provider (fun _ => some 4102444800000000000) (fun _ => some (.one ⟨none, .revocation, 5, "https://issuer.example/status/1", none⟩)) _ env w1 _ _
    (fun _ _ _ _ _ _ _ _ _ _ _ => Iff.rfl)).2 rfl

-- C192, C194, in general
example : ((response (provider.reading fun _ c => { c with vc := { c.vc with subject := .one { id := some "did:mallory" } } }) (resp (.string "vp.jwt"))).run env w1).1 = .ok accepted :=
  congrArg Prod.fst ((C192_subject_ignored provider (fun _ => .one { id := some "did:mallory" }) _ env w1 _ _ (fun _ _ _ _ _ _ _ _ _ _ _ => Iff.rfl)).2
    (rfl : (response provider (resp (.string "vp.jwt"))).run env w1 = (.ok accepted, _)))

example : ((response (provider.reading fun _ c => { c with iss := "https://mallory.example", vc := { c.vc with issuer := .string "https://mallory.example" } })
    (resp (.string "vp.jwt"))).run env w1).1 = .ok accepted :=
  congrArg Prod.fst ((C194_issuer_ignored provider (fun _ => "https://mallory.example") _ env w1 _ _ (fun _ _ _ _ _ _ _ _ _ _ _ => Iff.rfl)).2
    (rfl : (response provider (resp (.string "vp.jwt"))).run env w1 = (.ok accepted, _)))

example : ((response (provider.reading fun _ c => { c with iss := "https://mallory.example" }) (resp (.string "vp.jwt"))).run env w1).1 = .ok accepted :=
  congrArg Prod.fst ((C194_iss_ignored provider (fun _ => "https://mallory.example") _ env w1 _ _).2
    (rfl : (response provider (resp (.string "vp.jwt"))).run env w1 = (.ok accepted, _)))

-- The parts that hold
example : ∃ r, ((response provider (resp (.string "vp.jwt"))).run env w1).1 = .ok r := ⟨_, rfl⟩

end Demo
end Verif.Verifier
