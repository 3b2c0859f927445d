import Verif.Wire.CredentialLemmas
import Verif.Wire.MessageLemmas
import Verif.Wire.IssuerMetaProps
/-!
# Credentials as text
-/
namespace Verif.Wire

/-- The values of a map are JSON: their numbers are numbers. Specification; models no code. -/
def NumericMap (m : Dict Json) : Prop := ∀ p ∈ m, p.2.WF

/-- The values a credential holds as they came are JSON. Specification; models no code. -/
structure Vc.Numeric (v : Vc) : Prop where
  context : ∀ j, .object j ∈ v.context → j.WF
  issuer : ∀ i, v.issuer = .object i → OptAll NumericMap i.extra
  subject : QuotaAll (fun s => NumericMap s.claims) v.subject
  terms : OptAll (QuotaAll fun t => OptAll NumericMap t.policy) v.terms

theorem wf_numeric {m : Dict Json} (h : NumericMap m) : (Json.obj (writeMap id m)).WF := by
  rw [Json.WF, wfObj_iff]
  intro p hp
  obtain ⟨q, hq, rfl⟩ := List.mem_map.1 hp
  exact h q hq

theorem wf_extra {o : Option (Dict Json)} (h : OptAll NumericMap o) : (Json.obj (writeMap id (o.getD []))).WF := by
  cases o with
  | none => exact wf_numeric fun _ h => nomatch h
  | some m => exact wf_numeric (h m rfl)

theorem wf_nat (n : Nat) : (writeNat n).WF := wf_int (Int.ofNat n)

theorem wf_quota {α : Type} {w : α → Json} {q : Quota α} (h : QuotaAll (fun a => (w a).WF) q) : (writeQuota w q).WF := by
  cases q with
  | one a => exact h
  | many l =>
    rw [writeQuota, writeVec, Json.WF, wfArr_iff]
    intro j hj
    obtain ⟨a, ha, rfl⟩ := List.mem_map.1 hj
    exact h a ha

theorem wf_quota_all {α : Type} {w : α → Json} (h : ∀ a, (w a).WF) (q : Quota α) : (writeQuota w q).WF := wf_quota (by cases q with | one a => exact h a | many l => exact fun a _ => h a)

theorem wf_quota_of {α : Type} {w : α → Json} {p : α → Prop} (hp : ∀ a, p a → (w a).WF) {q : Quota α} (h : QuotaAll p q) : (writeQuota w q).WF :=
  wf_quota (by cases q with | one a => exact hp _ h | many l => exact fun a ha => hp a (h a ha))

theorem wf_langValue (v : LangValue) : (writeLangValue v).WF := by
  refine wf_members ?_
  simp only [List.forall_mem_cons]
  exact ⟨optWF_some (wf_str _), wf_optStr _, optWF_map fun _ => wf_str _, fun _ h => nomatch h⟩

theorem wf_lang (l : LangString) : (writeLang l).WF := wf_kind fun q _ => wf_quota_all wf_langValue q

theorem wf_vcIssuer {i : VcIssuer} (h : OptAll NumericMap i.extra) : (writeIssuer i).WF := by
  refine wf_append (wf_members ?_) (wf_extra h)
  simp only [List.forall_mem_cons]
  exact ⟨optWF_some (wf_str _), fun _ h => nomatch h⟩

theorem wf_subject {s : Subject} (h : NumericMap s.claims) : (writeSubject s).WF := by
  refine wf_append (wf_members ?_) (wf_numeric h)
  simp only [List.forall_mem_cons]
  exact ⟨wf_optStr _, fun _ h => nomatch h⟩

theorem wf_message (m : StatusMessage) : (writeMessage m).WF := by
  refine wf_members ?_
  simp only [List.forall_mem_cons]
  exact ⟨optWF_some (wf_str _), optWF_some (wf_str _), fun _ h => nomatch h⟩

theorem wf_status (s : Status) : (writeStatus s).WF := by
  refine wf_append (wf_members ?_) (wf_members ?_)
  · simp only [List.forall_mem_cons]
    exact ⟨wf_optStr _, optWF_some (wf_str _), fun _ h => nomatch h⟩
  · simp only [List.forall_mem_cons]
    exact ⟨optWF_some (wf_str _), optWF_some (wf_nat _), optWF_some (wf_str _), optWF_map wf_nat, optWF_map (wf_vec wf_message), wf_optStr _, fun _ h => nomatch h⟩

theorem wf_schema (s : Schema) : (writeSchema s).WF := by
  refine wf_members ?_
  simp only [List.forall_mem_cons]
  exact ⟨optWF_some (wf_str _), optWF_some (wf_str _), fun _ h => nomatch h⟩

theorem wf_optQuota (o : Option (Quota String)) : OptWF (o.map (writeQuota .str)) := optWF_map (wf_quota_all wf_str)

theorem wf_related (r : RelatedResource) : (writeRelated r).WF := by
  refine wf_members ?_
  simp only [List.forall_mem_cons]
  exact ⟨optWF_some (wf_str _), wf_optStr _, wf_optQuota _, wf_optQuota _, fun _ h => nomatch h⟩

theorem wf_refresh (r : RefreshService) : (writeRefresh r).WF := by
  refine wf_members ?_
  simp only [List.forall_mem_cons]
  exact ⟨optWF_some (wf_str _), optWF_some (wf_str _), optWF_some (wf_str _), fun _ h => nomatch h⟩

theorem wf_term {t : Term} (h : OptAll NumericMap t.policy) : (writeTerm t).WF := by
  refine wf_append (wf_members ?_) (wf_extra h)
  simp only [List.forall_mem_cons]
  exact ⟨optWF_some (wf_str _), wf_nullable _, fun _ h => nomatch h⟩

theorem wf_evidence (e : Evidence) : (writeEvidence e).WF := by
  refine wf_append (wf_members ?_) (wf_map wf_str _)
  simp only [List.forall_mem_cons]
  exact ⟨wf_optStr _, optWF_some (wf_vec wf_str _), wf_nullable _, wf_nullable _, wf_optQuota _, wf_optQuota _, fun _ h => nomatch h⟩

theorem wf_intProof (T : TimeText) (p : IntProof) : (writeIntProof T p).WF := by
  refine wf_members ?_
  simp only [List.forall_mem_cons]
  exact ⟨wf_optStr _, optWF_some (wf_str _), wf_optStr _, optWF_some (wf_str _), optWF_some (wf_str _), optWF_map (wf_time T), optWF_map (wf_time T), wf_optQuota _, wf_optStr _,
    optWF_some (wf_str _), wf_optQuota _, wf_optStr _, fun _ h => nomatch h⟩

theorem optWF_of {α : Type} {w : α → Json} {p : α → Prop} (hp : ∀ a, p a → (w a).WF) {o : Option α} (h : OptAll p o) : OptWF (o.map w) := by
  cases o with
  | none => exact fun _ h => nomatch h
  | some a => exact optWF_some (hp a (h a rfl))

/-- What is written of a credential whose values are JSON is JSON. -/
theorem wf_vc (T : TimeText) {v : Vc} (h : v.Numeric) : (writeVc T v).WF := by
  have hc : (writeVec (writeKind id) v.context).WF := by
    rw [writeVec, Json.WF, wfArr_iff]
    intro j hj
    obtain ⟨k, hk, rfl⟩ := List.mem_map.1 hj
    exact wf_kind fun a e => h.context a (e ▸ hk)
  have hn : OptWF (some (nullable T.writeJson v.validFrom)) := by
    cases v.validFrom with
    | none => exact optWF_some (by simp [nullable, Json.WF])
    | some t => exact optWF_some (wf_time T t)
  refine wf_members ?_
  simp only [List.forall_mem_cons]
  exact ⟨optWF_some hc, wf_nullable _, optWF_some (wf_quota_all wf_str _), optWF_map wf_lang, optWF_map wf_lang, optWF_some (wf_kind fun i e => wf_vcIssuer (h.issuer i e)),
    optWF_some (wf_quota_of (fun _ => wf_subject) h.subject), hn, optWF_map (wf_time T), optWF_map (wf_quota_all wf_status), optWF_map (wf_quota_all wf_schema),
    optWF_map (wf_quota_all (wf_intProof T)), optWF_map (wf_quota_all wf_related), optWF_map wf_refresh, optWF_of (fun _ => wf_quota_of fun _ => wf_term) h.terms,
    optWF_map (wf_quota_all wf_evidence), fun _ h => nomatch h⟩

end Verif.Wire
