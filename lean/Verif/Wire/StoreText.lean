import Verif.Wire.StoreLemmas
import Verif.Issuer.Overlap
/-!
# The issuer's state as text, and what the endpoints store: lemmas
-/
namespace Verif.Wire
open Prog
open Issuer (Stage State)

/-! ### Numbers -/

theorem wfArr_iff {l : List Json} : Json.WFArr l ↔ ∀ j ∈ l, j.WF := by
  induction l with
  | nil => simp [Json.WFArr]
  | cons j l ih => simp [Json.WFArr, ih]

theorem wfObj_iff {m : List (String × Json)} : Json.WFObj m ↔ ∀ p ∈ m, p.2.WF := by
  induction m with
  | nil => simp [Json.WFObj]
  | cons p l ih => obtain ⟨k, j⟩ := p; simp [Json.WFObj, ih]

/-- All numbers of a member that may be left out are JSON numbers. Specification; models no code. -/
def OptWF (o : Option Json) : Prop := ∀ j, o = some j → j.WF

theorem wf_str (s : String) : (Json.str s).WF := by simp [Json.WF]

theorem optWF_some {j : Json} (h : j.WF) : OptWF (some j) := by rintro _ ⟨⟩; exact h

theorem optWF_map {α : Type} {w : α → Json} {o : Option α} (h : ∀ a, (w a).WF) : OptWF (o.map w) := by
  cases o with
  | none => exact nofun
  | some a => exact optWF_some (h a)

theorem wf_members {fs : List (String × Option Json)} (h : ∀ f ∈ fs, OptWF f.2) : (Json.obj (members fs)).WF := by
  rw [Json.WF, wfObj_iff]
  intro p hp
  obtain ⟨f, hf, e⟩ := List.mem_filterMap.1 hp
  obtain ⟨j, hj, rfl⟩ := Option.map_eq_some_iff.1 e
  exact h f hf j hj

theorem wf_vec {α : Type} {w : α → Json} (h : ∀ a, (w a).WF) (l : List α) : (writeVec w l).WF := by
  rw [writeVec, Json.WF, wfArr_iff]
  intro j hj
  obtain ⟨a, -, rfl⟩ := List.mem_map.1 hj
  exact h a

theorem wf_opt {α : Type} {k : String} {w : α → Json} {o : Option α} (h : ∀ a, (w a).WF) : ∀ p ∈ opt k w o, p.2.WF := by
  cases o with
  | none => exact nofun
  | some a => intro p hp; simp only [opt, List.mem_singleton] at hp; subst hp; exact h a

theorem wf_nonEmpty (s : String) : OptWF (nonEmpty s) := by
  unfold nonEmpty
  split
  · exact nofun
  · exact optWF_some (wf_str s)

theorem wf_display (d : Display) : (writeDisplay d).WF := by
  obtain ⟨n, l⟩ := d
  cases l <;> simp [writeDisplay, opt, Json.WF, Json.WFObj]

theorem wf_definition (d : ClaimDefinition) : (Json.obj (writeDefinition d)).WF := by
  rw [Json.WF, wfObj_iff]
  intro p hp
  simp only [writeDefinition, List.mem_append] at hp
  rcases hp with hp | hp | hp
  · exact wf_opt (w := .bool) (fun b => by simp [Json.WF]) p hp
  · exact wf_opt (w := fun t : ValueType => .str t.name) (fun t => wf_str _) p hp
  · exact wf_opt (wf_vec wf_display) p hp

mutual

theorem wf_claim : ∀ c : Claim, (writeClaim c).WF
  | .entry d => by rw [writeClaim]; exact wf_definition d
  | .set m => by rw [writeClaim, Json.WF]; exact wf_claims m

theorem wf_claims : ∀ m : List (String × Claim), Json.WFObj (writeMembers m)
  | [] => by simp [writeMembers, Json.WFObj]
  | (k, c) :: l => by rw [writeMembers, Json.WFObj]; exact ⟨wf_claim c, wf_claims l⟩

end

theorem wf_dict (m : List (String × Claim)) : (writeDict m).WF := by rw [writeDict, Json.WF]; exact wf_claims m

theorem wf_defn (d : CredentialDefinition) : (writeDefn d).WF := by
  rw [writeDefn, Json.WF, wfObj_iff]
  intro p hp
  simp only [List.mem_append] at hp
  rcases hp with hp | hp | hp
  · exact wf_opt (wf_vec wf_str) p hp
  · exact wf_opt (wf_vec wf_str) p hp
  · exact wf_opt wf_dict p hp

theorem wf_format (f : Format) : ∀ p ∈ writeFormat f, p.2.WF := by
  intro p hp
  rcases f with d | d | d | ⟨t, c⟩ | ⟨t, c⟩ <;> simp only [writeFormat, List.mem_cons, List.mem_append, List.not_mem_nil, or_false] at hp
  iterate 3
    rcases hp with rfl | rfl
    · exact wf_str _
    · exact wf_defn d
  iterate 2
    rcases hp with (rfl | rfl) | hp
    · exact wf_str _
    · exact wf_str _
    · exact wf_opt wf_dict p hp

theorem wf_detail (d : AuthorizationDetail) : (writeDetail d).WF := by
  rw [writeDetail, Json.WF, wfObj_iff]
  intro p hp
  simp only [List.cons_append, List.mem_cons, List.mem_append] at hp
  rcases hp with rfl | hp | hp
  · exact wf_str _
  · rcases hc : d.credential with ⟨id, _ | c⟩ | f <;> rw [hc] at hp
    · simp only [writeCredential, List.mem_singleton] at hp; subst hp; exact wf_str _
    · cases c <;> simp only [writeCredential, writeProfileClaims, List.mem_cons, List.not_mem_nil, or_false] at hp <;> rcases hp with rfl | rfl <;>
        first | exact wf_str _ | exact wf_defn _ | exact wf_dict _
    · exact wf_format f p hp
  · exact wf_opt (wf_vec wf_str) p hp

theorem wf_request (o : RequestObject) : (Json.obj (writeObject o)).WF := by
  rw [writeObject_members]
  refine wf_members ?_
  simp only [List.forall_mem_cons]
  exact ⟨wf_nonEmpty _, optWF_some (wf_str _), optWF_some (wf_str _), optWF_map wf_str, optWF_map wf_str, optWF_some (wf_str _), optWF_some (wf_str _),
    optWF_map (wf_vec wf_detail), optWF_map wf_str, optWF_map wf_str, optWF_some (wf_str _), optWF_map wf_str, optWF_map wf_str, optWF_map wf_str, nofun⟩

theorem wf_proof (o : Option Issuer.Proof) : ∀ p ∈ writeProof o, p.2.WF := by
  intro p hp
  rcases o with _ | (j | l) <;> simp only [writeProof, List.mem_singleton, List.not_mem_nil] at hp
  · subst hp; simp [Json.WF, Json.WFObj]
  · subst hp
    simp only [Json.WF, Json.WFObj, and_true]
    exact wf_vec wf_str l

theorem wf_credentialRequest (r : Issuer.CredentialRequest) : (writeCredentialRequest r).WF := by
  have h : (Json.obj (members [("credential_issuer", nonEmpty r.credentialIssuer), ("access_token", nonEmpty r.accessToken),
      ("credential_response_encryption", none)])).WF := by
    refine wf_members ?_
    simp only [List.forall_mem_cons]
    exact ⟨wf_nonEmpty _, wf_nonEmpty _, nofun, nofun⟩
  rw [Json.WF, wfObj_iff] at h
  rw [writeCredentialRequest, Json.WF, wfObj_iff]
  intro p hp
  simp only [List.mem_append] at hp
  rcases hp with hp | hp | hp
  · exact h p hp
  · cases hc : r.credential with
    | identifier id => rw [hc, writeIssuance, List.mem_singleton] at hp; subst hp; exact wf_str _
    | format f => rw [hc, writeIssuance] at hp; exact wf_format _ p hp
  · exact wf_proof _ p hp

theorem wf_txCode : writeTxCode.WF := by
  refine wf_members ?_
  simp only [List.forall_mem_cons]
  refine ⟨optWF_some (wf_str _), optWF_some ?_, optWF_some (wf_str _), nofun⟩
  rw [writeInt, Json.WF]
  have : (Int.repr 6).toList = intText 6 := by decide
  rw [this]
  exact intText_num 6

theorem wf_credentialOffer (o : Issuer.CredentialOffer) : (writeCredentialOffer o).WF := by
  have h1 : ∀ g, (writeCodeGrant g).WF := fun g => by
    refine wf_members ?_
    simp only [List.forall_mem_cons]
    exact ⟨optWF_map wf_str, optWF_map wf_str, nofun⟩
  have h2 : ∀ g, (writePreAuthorized g).WF := fun g => by
    refine wf_members ?_
    simp only [List.forall_mem_cons]
    refine ⟨optWF_some (wf_str _), ?_, optWF_map wf_str, nofun⟩
    split
    · exact optWF_some wf_txCode
    · exact nofun
  have h3 : ∀ g, (writeGrants g).WF := fun g => by
    refine wf_members ?_
    simp only [List.forall_mem_cons]
    exact ⟨optWF_map h1, optWF_map h2, nofun⟩
  refine wf_members ?_
  simp only [List.forall_mem_cons]
  exact ⟨wf_nonEmpty _, optWF_some (wf_vec wf_str _), optWF_map h3, nofun⟩

theorem wf_item (i : Issuer.AuthorizedItem) : (writeItem i).WF := by
  have h : (Json.obj (members [("credential_configuration_id", some (.str i.configId)), ("credential_identifiers", some (writeVec .str i.identifiers))])).WF := by
    refine wf_members ?_
    simp only [List.forall_mem_cons]
    exact ⟨optWF_some (wf_str _), optWF_some (wf_vec wf_str _), nofun⟩
  rw [Json.WF, wfObj_iff] at h
  rw [writeItem, Json.WF, wfObj_iff]
  intro p hp
  rcases List.mem_append.1 hp with hp | hp
  · cases hc : i.item with
    | detail d => rw [hc, writeItemType, List.mem_singleton] at hp; subst hp; exact wf_detail _
    | scope s => rw [hc, writeItemType, List.mem_singleton] at hp; subst hp; exact wf_str _
  · exact h p hp

theorem wf_time (T : TimeText) (t : Int) : (T.writeJson t).WF := wf_str _

theorem wf_token (T : TimeText) (t : Issuer.Token) : (writeToken T t).WF := by
  refine wf_members ?_
  simp only [List.forall_mem_cons]
  refine ⟨optWF_some (wf_str _), optWF_some (wf_str _), optWF_some (wf_time T _), optWF_some ?_, nofun⟩
  rw [Json.WF, wfObj_iff]
  intro p hp
  obtain ⟨q, -, rfl⟩ := List.mem_map.1 hp
  refine wf_members ?_
  simp only [List.forall_mem_cons]
  exact ⟨optWF_some (wf_str _), optWF_some (wf_str _), optWF_map (wf_vec wf_str), nofun⟩

theorem wf_one {k : String} {j : Json} (h : j.WF) : (Json.obj [(k, j)]).WF := by simp only [Json.WF, Json.WFObj, and_true]; exact h

theorem wf_stage (T : TimeText) (s : Stage) : (writeStage T s).WF := by
  cases s with
  | unauthorized => exact wf_str _
  | pending o => exact wf_one (wf_credentialOffer o)
  | offered o =>
    refine wf_one (wf_members ?_)
    simp only [List.forall_mem_cons]
    refine ⟨optWF_some ?_, optWF_map wf_str, nofun⟩
    cases o.items with
    | none => simp [orNull, Json.WF]
    | some l => exact wf_vec wf_item l
  | pushed r e =>
    refine wf_one (wf_members ?_)
    simp only [List.forall_mem_cons]
    exact ⟨optWF_some (wf_request _), optWF_some (wf_time T _), nofun⟩
  | authorized a =>
    refine wf_one (wf_members ?_)
    simp only [List.forall_mem_cons]
    exact ⟨optWF_some (wf_str _), optWF_map wf_str, optWF_some (wf_str _), optWF_some (wf_str _), optWF_some (wf_vec wf_item _), nofun⟩
  | validated t => exact wf_one (wf_token T t)
  | issued vc => exact wf_one (by simp [Json.WF])
  | deferred t r =>
    refine wf_one (wf_members ?_)
    simp only [List.forall_mem_cons]
    exact ⟨optWF_some (wf_str _), optWF_some (wf_credentialRequest r), nofun⟩

theorem wf_state (T : TimeText) (s : State) : (writeState T s).WF := by
  refine wf_members ?_
  simp only [List.forall_mem_cons]
  exact ⟨optWF_map wf_str, optWF_some (wf_stage T _), optWF_some (wf_time T _), nofun⟩

theorem textState_write (T : TimeText) {s : State} (h : Storable s) : textState T (stateText T s) = some s := by
  rw [textState, stateText, parseJson_chars _ (wf_state T s)]
  exact readState_write T h

/-! ### What the endpoints store -/

/-- A request whose claims can be put in words (`Claim.Sound`). Specification; models no code. -/
def SoundReq : Issuer.Req → Prop
  | .par r => SoundObject r
  | .authorize (.object r) => SoundObject r
  | .credential r => SoundIssuance r.credential
  | _ => True

theorem verifyDetails_from {iss : Verif.Issuer} {ds : List Verif.AuthorizationDetail} {acc m : Dict Verif.AuthorizationDetail}
    (h : Issuer.Authorize.verifyDetails iss ds acc = .ok m) : ∀ p ∈ m, p ∈ acc ∨ p.2 ∈ ds := by
  induction ds generalizing acc with
  | nil => simp only [Issuer.Authorize.verifyDetails, Except.ok.injEq] at h; subst h; exact fun p hp => .inl hp
  | cons d ds ih =>
    simp only [Issuer.Authorize.verifyDetails, Except.bind_ok] at h
    obtain ⟨t, -, -, -, h⟩ := h
    intro p hp
    rcases ih h p hp with hp | hp
    · rcases Dict.mem_insert hp with rfl | hp
      · exact .inr (.head _)
      · exact .inl hp
    · exact .inr (.tail _ hp)

/-- What programs may store here. Specification; models no code. -/
abbrev Stores : String → Option State → Prop := fun _ o => ∀ v, o = some v → Storable v

theorem stores_some {k : String} {s : State} (h : Storable s) : Stores k (some s) := by rintro _ ⟨⟩; exact h

theorem stores_none {k : String} : Stores k none := fun _ h => nomatch h

theorem soundItem_plain {i : Issuer.AuthorizedItem} {c : String} (h : i.item = .detail { credential := .configurationId c none }) : SoundItem i := by
  intro d hd
  rw [h] at hd
  cases hd
  trivial

theorem renewed_stores {s : State} {t : Issuer.Token} {n : String} {x y : Int} (hs : Storable s) (ht : s.stage = .validated t) :
    Storable (Issuer.renewed s t n x y) := by
  unfold Storable at hs
  rw [ht] at hs
  exact hs

theorem credential_keeps {P : Issuer.Provider} {r : Issuer.CredentialRequest} (h : SoundIssuance r.credential) :
    (Issuer.credential P r).Keeps Storable :=
  (Issuer.credential_guar (R := fun _ v => Storable v) (G := Stores) (D := fun _ => True)
    (fun _ _ _ _ _ hs ht _ => stores_some (renewed_stores hs ht)) (fun _ _ _ _ _ _ hs ht _ _ => stores_some (renewed_stores hs ht))
    fun _ _ _ => stores_some h).mono fun _ _ => trivial

theorem authorize_keeps {P : Issuer.Provider} {request : Issuer.AuthorizationRequest} (h : SoundReq (.authorize request)) :
    (Issuer.authorize P request).Keeps Storable := by
  unfold Prog.Keeps Issuer.authorize
  refine Guar.bind (Q := fun x => SoundObject x.2) ?_ fun x hx => ?_
  · unfold Issuer.Authorize.resolve
    split
    · exact Guar.pure h
    · rename_i u
      refine Guar.bind (Q := fun s => Storable s) (Guar.getE fun _ h => h) fun s hs => ?_
      refine Guar.bind (Q := fun y => s.stage = .pushed y.1 y.2) (Guar.lift fun y h => ?_) fun y hy => ?_
      · unfold Issuer.Authorize.pushed at h
        split at h
        · rename_i r e hs
          cases h
          exact hs
        · cases h
      refine Guar.bind (Q := fun _ => True) (Guar.nowE fun _ => trivial) fun t _ => ?_
      refine Guar.bind (Q := fun _ => True) (Guar.lift fun _ _ => trivial) fun _ _ => ?_
      unfold Storable at hs
      rw [hy] at hs
      exact Guar.pure hs
  · obtain ⟨isPar, r⟩ := x
    refine Guar.bind (Q := fun _ => True) (Guar.lift fun _ _ => trivial) fun iss _ => ?_
    refine Guar.bind (Q := fun y => ∀ p ∈ y.1, (detailOf p.2).Sound) ?_ fun y hy => ?_
    · unfold Issuer.Authorize.verify
      refine Guar.bind (Q := fun _ => True) (Guar.lift fun _ _ => trivial) fun _ _ => ?_
      refine Guar.bind (Q := fun _ => True) (Guar.lift fun _ _ => trivial) fun _ _ => ?_
      refine Guar.bind (Q := fun _ => True) (Guar.lift fun _ _ => trivial) fun _ _ => ?_
      refine Guar.bind (Q := fun _ => True) ?_ fun _ _ => Guar.lift fun y hv => ?_
      · unfold Issuer.Authorize.checkIssuerState
        split
        · exact Guar.pure trivial
        · refine Guar.bind (Q := fun _ => True) (Guar.getE fun _ _ => trivial) fun _ _ => ?_
          refine Guar.bind (Q := fun _ => True) (Guar.nowE fun _ => trivial) fun _ _ => ?_
          refine Guar.bind (Q := fun _ => True) (Guar.lift fun _ _ => trivial) fun _ _ => ?_
          exact Guar.lift fun _ _ => trivial
      · simp only [Issuer.Authorize.verifyPost, Except.bind_ok] at hv
        obtain ⟨_, -, ds, hd, ss, -, _, -, _, -, _, -, _, -, _, -, _, -, _, -, hv⟩ := hv
        cases hv
        unfold Issuer.Authorize.verifyDetailsOpt at hd
        split at hd
        · cases hd; exact nofun
        · rename_i l hl
          intro p hp
          rcases verifyDetails_from hd p hp with hp | hp
          · cases hp
          · exact hx l hl p.2 hp
    obtain ⟨ds, ss⟩ := y
    show Guar _ _ _ (Issuer.Authorize.process P r ds ss) _
    unfold Issuer.Authorize.process
    refine Guar.bind (Q := fun l => ∀ it ∈ l, SoundItem it) (Guar.lift fun l h it hit => ?_) fun items hitems => ?_
    · intro d hd
      rcases ((Issuer.Authorize.authorizeItems_spec h).2.2 it hit).2 with ⟨d', e, hm⟩ | ⟨s, e, -⟩
      · rw [e] at hd; cases hd; exact hy _ hm
      · rw [e] at hd; cases hd
    refine Guar.bind (Q := fun _ => True) (Guar.nowE fun _ => trivial) fun t _ => ?_
    refine Guar.bind (Q := fun _ => True) (Guar.drawE fun _ h => h) fun k hk => ?_
    refine Guar.bind (Q := fun _ => True) (Guar.putE (stores_some (k := k) hitems) trivial) fun _ _ => ?_
    refine Guar.bind (Q := fun _ => True) ?_ fun _ _ => Guar.pure trivial
    unfold Issuer.Authorize.purgeOffer
    split
    · exact Guar.pure trivial
    · rename_i k' hk'
      exact Guar.purgeE (stores_none (k := k')) trivial

theorem deferred_keeps {P : Issuer.Provider} {req : Issuer.DeferredRequest} : (Issuer.deferred P req).Keeps Storable := by
  unfold Prog.Keeps Issuer.deferred
  refine Guar.bind (Q := fun s => Storable s) (Guar.getE fun _ h => h) fun d hd => ?_
  refine Guar.bind (Q := fun _ => True) (Guar.nowE fun _ => trivial) fun t _ => ?_
  refine Guar.bind (Q := fun _ => True) (Guar.lift fun _ _ => trivial) fun _ _ => ?_
  refine Guar.bind (Q := fun r => SoundIssuance r.credential) (Guar.lift fun r h => ?_) fun r hr => ?_
  · unfold Issuer.deferredRequest at h
    split at h
    · rename_i txn r' hs
      cases h
      unfold Storable at hd
      rw [hs] at hd
      exact hd
    · cases h
  refine Guar.bind (Q := fun _ => True) (Guar.purgeE (stores_none (k := req.transactionId)) trivial) fun _ _ => ?_
  refine Guar.bind (Q := fun _ => True) (credential_keeps hr) fun resp _ => ?_
  split
  · exact Guar.lift fun _ _ => trivial
  · exact Guar.pure trivial

theorem call_keeps (P : Issuer.Provider) {r : Issuer.Req} (h : SoundReq r) : (Issuer.call P r).Keeps Storable := by
  unfold Prog.Keeps
  have wrap : ∀ {α : Type} {p : Issuer.IProg α} {f : α → Issuer.Resp}, p.Keeps Storable → (p.bind fun x => Pure.pure (f x)).Keeps Storable := fun hp =>
    Guar.bind (Q := fun _ => True) hp fun _ _ => Guar.pure trivial
  cases r with
  | createOffer r =>
    refine wrap ((Issuer.createOffer_guar (R := fun _ v => Storable v) (G := Stores) (D := fun _ => True) ?_ ?_).mono fun _ _ => trivial)
    · intro k t items tx _ hi
      refine stores_some ?_
      intro l hl i hil
      obtain ⟨_, -, h⟩ := hi l hl
      exact soundItem_plain (h i hil).2
    · intro k t offer _
      exact stores_some (s := { subjectId := r.subjectId, stage := .pending offer, expiresAt := t }) trivial
  | credentialOffer r => exact wrap ((Issuer.credentialOffer_guar stores_none).mono fun _ _ => trivial)
  | par r => exact wrap (Issuer.par_guar fun k t t' _ => stores_some (k := k) h)
  | authorize r => exact wrap (authorize_keeps h)
  | token r =>
    refine wrap ((Issuer.token_guar stores_none ?_).mono fun _ _ => trivial)
    intro s k n t t' items _ _ _ _ _
    exact stores_some (s := Issuer.Token.stored s k n t' items) (Issuer.authorizedCredentials_nodup items)
  | credential r => exact wrap (credential_keeps h)
  | deferred r => exact wrap deferred_keeps
  | notification r => exact wrap ((Issuer.notification_guar stores_none).mono fun _ _ => trivial)
  | register r => exact wrap (Issuer.register_guar.mono fun _ _ => trivial)
  | metadata c =>
    refine wrap ?_
    unfold Issuer.metadata
    exact Guar.lift fun _ _ => trivial
  | oauthServer c =>
    refine wrap ?_
    unfold Issuer.oauthServer
    exact Guar.lift fun _ _ => trivial

end Verif.Wire
