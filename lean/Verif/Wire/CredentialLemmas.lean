import Verif.Wire.Credential
/-!
# Reading back credentials: specification of what can be put in words, and lemmas
-/
namespace Verif.Wire

/-! ### Specification -/

/-- A property of all values of a `Quota`. -/
def QuotaAll {α : Type} (p : α → Prop) : Quota α → Prop
  | .one a => p a
  | .many l => ∀ a ∈ l, p a

/-- Not an empty list. -/
def QuotaFilled {α : Type} (q : Quota α) : Prop := q ≠ .many []

/-- A property of the value, if there is one. -/
def OptAll {α : Type} (p : α → Prop) (o : Option α) : Prop := ∀ a, o = some a → p a

/-- A map as every real map is, none of whose keys is among some names. -/
def PlainMap {α : Type} (names : List String) (m : Dict α) : Prop := m.Nodup ∧ ∀ k ∈ Dict.keys m, k ∉ names

/-- A context given as an object is not a string. -/
def ContextSound (c : Kind Json) : Prop := ∀ s, c ≠ .object (.str s)

/-- An issuer object has further members, which may be none; none of them is called `id`. -/
def VcIssuer.Sound (i : VcIssuer) : Prop := ∃ m, i.extra = some m ∧ PlainMap ["id"] m

/-- No claim is called `id`. -/
def Subject.Sound (s : Subject) : Prop := PlainMap ["id"] s.claims

/-- The numbers of a status fit in 64 bits, as those of the library do. -/
def Status.Sound (s : Status) : Prop := s.listIndex < 2 ^ 64 ∧ OptAll (· < 2 ^ 64) s.size

/-- A term has a policy, no member of which is called `type` or `id`. -/
def Term.Sound (t : Term) : Prop := ∃ m, t.policy = some m ∧ PlainMap ["type", "id"] m

/-- Evidence has further members, which may be none; none of them is called as one of its own. -/
def Evidence.Sound (e : Evidence) : Prop :=
  ∃ m, e.extra = some m ∧ PlainMap ["id", "type", "name", "description", "digestSRI", "digestMultibase"] m

/-- A credential that can be put in words. -/
structure Vc.Sound (v : Vc) : Prop where
  context : ∀ c ∈ v.context, ContextSound c
  issuer : ∀ i, v.issuer = .object i → i.Sound
  subject : QuotaAll Subject.Sound v.subject
  status : OptAll (QuotaAll Status.Sound) v.status
  schema : OptAll QuotaFilled v.schema
  proof : OptAll QuotaFilled v.proof
  related : OptAll QuotaFilled v.related
  terms : OptAll (QuotaAll Term.Sound) v.terms
  evidence : OptAll (QuotaAll Evidence.Sound) v.evidence

/-- A presentation that can be put in words. -/
structure Vp.Sound (v : Vp) : Prop where
  context : ∀ c ∈ v.context, ContextSound c
  credentials : ∀ l, v.credentials = some l → ∀ c, .object c ∈ l → c.Sound
  proof : OptAll QuotaFilled v.proof

/-! ### Members -/

theorem optional_map {α : Type} {r : Json → Option α} {w : α → Json} {o : Option α} (h : OptAll (fun a => r (w a) = some a) o) (hn : ∀ a, w a ≠ .null) :
    optional r (o.map w) = some o := optional_written h hn

theorem optional_nullable {α : Type} {r : Json → Option α} {w : α → Json} {o : Option α} (h : OptAll (fun a => r (w a) = some a) o) (hn : ∀ a, w a ≠ .null) :
    optional r (some (nullable w o)) = some o := by
  cases o with
  | none => rfl
  | some a => exact optional_written h hn

theorem optional_str (o : Option String) : optional readStr (o.map .str) = some o := optional_map (fun _ _ => rfl) nofun

theorem nullable_str (o : Option String) : optional readStr (some (nullable .str o)) = some o := optional_nullable (fun _ _ => rfl) nofun

theorem strQuota (q : Quota String) : readQuota readStr (writeQuota .str q) = some q := by
  cases q with
  | one s => rfl
  | many l => exact readQuota_many (fun _ _ => rfl) rfl

theorem writeQuota_ne {α : Type} {w : α → Json} (h : ∀ a, w a ≠ .null) (q : Quota α) : writeQuota w q ≠ .null := by
  cases q with
  | one a => exact h a
  | many l => nofun

theorem optional_strQuota (o : Option (Quota String)) : optional (readQuota readStr) (o.map (writeQuota .str)) = some o :=
  optional_map (fun q _ => strQuota q) (writeQuota_ne nofun)

theorem optional_time (T : TimeText) (o : Option Int) : optional T.readJson (o.map T.writeJson) = some o :=
  optional_map (fun t _ => T.readJson_write t) nofun

theorem nullable_time (T : TimeText) (o : Option Int) : optional T.readJson (some (nullable T.writeJson o)) = some o :=
  optional_nullable (fun t _ => T.readJson_write t) nofun

theorem writeMap_rest {α : Type} {w : α → Json} {names : List String} {m : Dict α} (h : PlainMap names m) : ∀ p ∈ writeMap w m, p.1 ∉ names := by
  intro p hp
  obtain ⟨q, hq, rfl⟩ := List.mem_map.1 hp
  exact h.2 q.1 (List.mem_map_of_mem hq)

theorem readMap_plain {α : Type} {r : Json → Option α} {w : α → Json} (hr : ∀ a, r (w a) = some a) {names : List String} {m : Dict α} (h : PlainMap names m) :
    readMap r (writeMap w m) = some m := readMap_write h.1 fun p _ => hr p.2

theorem readMap_plain_of {α : Type} {r : Json → Option α} {names : List String} {rest : List (String × Json)} {m : Dict α}
    (h : readMap r rest = some m) (hr : ∀ p ∈ rest, p.1 ∉ names) : PlainMap names m := ⟨readMap_nodup h, readMap_keys h hr⟩

theorem readMap_some (l : List (String × Json)) : ∃ m, readMap some l = some m := by
  suffices h : ∀ (l : List (String × Json)) (acc : Dict Json), ∃ m, readMap.go some l acc = some m from h l []
  intro l
  induction l with
  | nil => exact fun acc => ⟨acc, rfl⟩
  | cons p l ih => exact fun acc => ih _

/-! ### What is written is read -/

theorem readLangValue_write (v : LangValue) : readLangValue (writeLangValue v) = some v := by
  have hd : optional (readUnit directionOf) (v.direction.map fun d => .str (directionName d)) = some v.direction :=
    optional_map (fun d _ => by cases d <;> rfl) nofun
  simp only [readLangValue, writeLangValue]
  rw [structFields_members (by rfl) (by decide)]
  simp only [List.map_cons, List.map_nil, Option.bind_eq_bind, Option.bind_some, required, readStr, optional_str, hd]

theorem readLang_write (s : LangString) : readLang (writeLang s) = some s := by
  refine readKind_write fun q _ => ⟨?_, ?_⟩
  · cases q with
    | one v => exact readQuota_one (readLangValue_write v)
    | many l =>
      refine readQuota_many (fun v _ => readLangValue_write v) ?_
      rcases l with _ | ⟨a, _ | ⟨b, _ | ⟨c, _ | ⟨d, l⟩⟩⟩⟩ <;> rfl
  · cases q <;> nofun

theorem readIssuer_write {i : VcIssuer} (h : i.Sound) : readIssuer (writeIssuer i) = some i := by
  obtain ⟨id, extra⟩ := i
  obtain ⟨m, e, hm⟩ := h
  cases e
  simp only [readIssuer, writeIssuer, Option.getD_some]
  rw [flatFields_members (by rfl) (by decide) (writeMap_rest hm)]
  simp only [List.map_cons, List.map_nil, Option.bind_eq_bind, Option.bind_some, defaulted, readStr, readMap_plain (r := some) (w := _root_.id) (fun _ => rfl) hm]

theorem readSubject_write {s : Subject} (h : s.Sound) : readSubject (writeSubject s) = some s := by
  simp only [readSubject, writeSubject]
  rw [flatFields_members (by rfl) (by decide) (writeMap_rest h)]
  simp only [List.map_cons, List.map_nil, Option.bind_eq_bind, Option.bind_some, optional_str, readMap_plain (r := some) (w := _root_.id) (fun _ => rfl) h]

theorem readMessage_write (m : StatusMessage) : readMessage (writeMessage m) = some m := by
  simp only [readMessage, writeMessage]
  rw [structFields_members (by rfl) (by decide)]
  simp only [List.map_cons, List.map_nil, Option.bind_eq_bind, Option.bind_some, required, readStr]

theorem readStatus_write {s : Status} (h : s.Sound) : readStatus (writeStatus s) = some s := by
  have hp : readUnit purposeOf (.str (purposeName s.purpose)) = some s.purpose := by cases s.purpose <;> rfl
  have hs : optional readUsize (s.size.map writeNat) = some s.size := optional_map (fun n e => readUsize_write (h.2 n e)) nofun
  have hm : optional (readVec readMessage) (s.message.map (writeVec writeMessage)) = some s.message :=
    optional_map (fun l _ => readVec_written fun m _ => readMessage_write m) nofun
  simp only [readStatus, writeStatus]
  rw [flatFields_members (by rfl) (by decide) (fun p hp => by
    have := members_keys hp
    simp only [List.map_cons, List.map_nil, List.mem_cons, List.not_mem_nil, or_false] at this
    rcases this with e | e | e | e | e | e <;> rw [e] <;> decide)]
  have hb : ∀ fs : List (String × Option Json), fs.map Prod.fst = bitstringNames → bitstringNames.mapM (single (members fs)) = some (fs.map Prod.snd) := by
    intro fs e
    have := mapM_members (fs := fs) (rest := []) (by rw [e]; decide) nofun
    rwa [List.append_nil, e] at this
  simp only [List.map_cons, List.map_nil, Option.bind_eq_bind, Option.bind_some]
  rw [hb _ rfl]
  simp only [List.map_cons, List.map_nil, Option.bind_some, optional_str, required, readStr, hp, hs, hm, readUsize_write h.1]

theorem readSchema_write (s : Schema) : readSchema (writeSchema s) = some s := by
  simp only [readSchema, writeSchema]
  rw [structDefault_members (by rfl) (by decide)]
  simp only [List.map_cons, List.map_nil, Option.bind_eq_bind, Option.bind_some, defaulted, readStr]

theorem readRelated_write (r : RelatedResource) : readRelated (writeRelated r) = some r := by
  simp only [readRelated, writeRelated]
  rw [structDefault_members (by rfl) (by decide)]
  simp only [List.map_cons, List.map_nil, Option.bind_eq_bind, Option.bind_some, defaulted, readStr, optional_str, optional_strQuota]

theorem readRefresh_write (r : RefreshService) : readRefresh (writeRefresh r) = some r := by
  simp only [readRefresh, writeRefresh]
  rw [structDefault_members (by rfl) (by decide)]
  simp only [List.map_cons, List.map_nil, Option.bind_eq_bind, Option.bind_some, defaulted, readStr]

theorem readTerm_write {t : Term} (h : t.Sound) : readTerm (writeTerm t) = some t := by
  obtain ⟨ty, id, policy⟩ := t
  obtain ⟨m, e, hm⟩ := h
  cases e
  simp only [readTerm, writeTerm, Option.getD_some]
  rw [flatFields_members (by rfl) (by decide) (writeMap_rest hm)]
  simp only [List.map_cons, List.map_nil, Option.bind_eq_bind, Option.bind_some, defaulted, readStr, nullable_str, readMap_plain (r := some) (w := _root_.id) (fun _ => rfl) hm]

theorem readEvidence_write {e : Evidence} (h : e.Sound) : readEvidence (writeEvidence e) = some e := by
  obtain ⟨id, ty, n, d, s, mb, extra⟩ := e
  obtain ⟨m, e, hm⟩ := h
  cases e
  simp only [readEvidence, writeEvidence, Option.getD_some]
  rw [flatFields_members (by rfl) (by decide) (writeMap_rest hm)]
  have hv : readVec readStr (writeVec .str ty) = some ty := readVec_written fun _ _ => rfl
  simp only [List.map_cons, List.map_nil, Option.bind_eq_bind, Option.bind_some, defaulted, hv, optional_str, optional_strQuota, nullable_str,
    readMap_plain (r := readStr) (w := .str) (fun _ => rfl) hm]

theorem readIntProof_write (T : TimeText) (p : IntProof) : readIntProof T (writeIntProof T p) = some p := by
  simp only [readIntProof, writeIntProof]
  rw [structDefault_members (by rfl) (by decide)]
  simp only [List.map_cons, List.map_nil, Option.bind_eq_bind, Option.bind_some, defaulted, readStr, optional_str, optional_strQuota, optional_time]

/-! ### All of them are written as objects -/

theorem writeSubject_obj (a : Subject) : ∃ m, writeSubject a = .obj m := ⟨_, rfl⟩

theorem writeStatus_obj (a : Status) : ∃ m, writeStatus a = .obj m := ⟨_, rfl⟩

theorem writeSchema_obj (a : Schema) : ∃ m, writeSchema a = .obj m := ⟨_, rfl⟩

theorem writeRelated_obj (a : RelatedResource) : ∃ m, writeRelated a = .obj m := ⟨_, rfl⟩

theorem writeRefresh_obj (a : RefreshService) : ∃ m, writeRefresh a = .obj m := ⟨_, rfl⟩

theorem writeTerm_obj (a : Term) : ∃ m, writeTerm a = .obj m := ⟨_, rfl⟩

theorem writeEvidence_obj (a : Evidence) : ∃ m, writeEvidence a = .obj m := ⟨_, rfl⟩

theorem writeIssuer_obj (a : VcIssuer) : ∃ m, writeIssuer a = .obj m := ⟨_, rfl⟩

theorem writeIntProof_obj (T : TimeText) (a : IntProof) : ∃ m, writeIntProof T a = .obj m := ⟨_, rfl⟩

theorem writeVc_obj (T : TimeText) (a : Vc) : ∃ m, writeVc T a = .obj m := ⟨_, rfl⟩

theorem obj_ne_null {α : Type} {w : α → Json} (h : ∀ a, ∃ m, w a = .obj m) (a : α) : w a ≠ .null := by
  obtain ⟨m, e⟩ := h a
  rw [e]; nofun

theorem obj_ne_str {α : Type} {w : α → Json} (h : ∀ a, ∃ m, w a = .obj m) (a : α) (s : String) : w a ≠ .str s := by
  obtain ⟨m, e⟩ := h a
  rw [e]; nofun

/-! ### Lists of them are not read as one -/

theorem flatFields_arr (names : List String) (l : List Json) : flatFields names (.arr l) = none := rfl

/-- An array for a struct with defaults, if it can be one at all, starts with the first member. -/
theorem structDefault_arr {names : List String} {j : Json} {js : List Json} {l : List (Option Json)} (h : structDefault names (.arr (j :: js)) = some l) :
    l.head? = some (some j) := by
  simp only [structDefault] at h
  split at h
  · cases h; rfl
  · cases h

theorem readSchema_list {m : List (String × Json)} {js : List Json} : readSchema (.arr (.obj m :: js)) = none := by
  unfold readSchema
  cases h : structDefault ["id", "type"] (.arr (.obj m :: js)) with
  | none => rfl
  | some l =>
    have := structDefault_arr h
    rcases l with _ | ⟨a, l⟩
    · cases this
    · cases this
      rcases l with _ | ⟨b, _ | ⟨c, l⟩⟩ <;> rfl

theorem readRelated_list {m : List (String × Json)} {js : List Json} : readRelated (.arr (.obj m :: js)) = none := by
  unfold readRelated
  cases h : structDefault ["id", "mediaType", "digestSRI", "digestMultibase"] (.arr (.obj m :: js)) with
  | none => rfl
  | some l =>
    have := structDefault_arr h
    rcases l with _ | ⟨a, l⟩
    · cases this
    · cases this
      simp only [Option.bind_eq_bind, Option.bind_some]
      split
      · rename_i e; cases e; rfl
      · rfl

theorem readIntProof_list {T : TimeText} {m : List (String × Json)} {js : List Json} : readIntProof T (.arr (.obj m :: js)) = none := by
  unfold readIntProof
  cases h : structDefault proofNames (.arr (.obj m :: js)) with
  | none => rfl
  | some l =>
    have := structDefault_arr h
    rcases l with _ | ⟨a, l⟩
    · cases this
    · cases this
      simp only [Option.bind_eq_bind, Option.bind_some]
      split
      · rename_i e; cases e; rfl
      · rfl

/-- Values written as objects, a list of which is read as one only if it is empty. -/
theorem quota_filled {α : Type} {r : Json → Option α} {w : α → Json} (hr : ∀ a, r (w a) = some a) (hw : ∀ a, ∃ m, w a = .obj m)
    (hl : ∀ m js, r (.arr (.obj m :: js)) = none) {q : Quota α} (h : QuotaFilled q) : readQuota r (writeQuota w q) = some q := by
  cases q with
  | one a => exact readQuota_one (hr a)
  | many l =>
    refine readQuota_many (fun a _ => hr a) ?_
    cases l with
    | nil => exact absurd rfl h
    | cons a l =>
      obtain ⟨m, e⟩ := hw a
      rw [writeVec, List.map_cons, e]
      exact hl _ _

/-- Values that are never read from a list. -/
theorem quota_flat {α : Type} {r : Json → Option α} {w : α → Json} {p : α → Prop} (hr : ∀ a, p a → r (w a) = some a)
    (hl : ∀ l, r (.arr l) = none) {q : Quota α} (h : QuotaAll p q) : readQuota r (writeQuota w q) = some q := by
  cases q with
  | one a => exact readQuota_one (hr a h)
  | many l => exact readQuota_many (fun a ha => hr a (h a ha)) (hl _)

theorem context_write {l : List (Kind Json)} (h : ∀ c ∈ l, ContextSound c) : readVec (readKind some) (writeVec (writeKind id) l) = some l := by
  refine readVec_written fun c hc => readKind_write fun a e => ⟨rfl, fun s hs => ?_⟩
  have : a = .str s := hs
  exact h c hc s (by rw [e, this])

theorem issuer_write {i : Kind VcIssuer} (h : ∀ o, i = .object o → o.Sound) : readKind readIssuer (writeKind writeIssuer i) = some i :=
  readKind_write fun o e => ⟨readIssuer_write (h o e), obj_ne_str writeIssuer_obj o⟩

theorem writeLang_ne (s : LangString) : writeLang s ≠ .null := by
  rcases s with s | _ | _ <;> nofun

theorem readVc_write (T : TimeText) {v : Vc} (h : v.Sound) : readVc T (writeVc T v) = some v := by
  have hsub : readQuota readSubject (writeQuota writeSubject v.subject) = some v.subject := quota_flat (fun _ => readSubject_write) (fun _ => rfl) h.subject
  have hst : optional (readQuota readStatus) (v.status.map (writeQuota writeStatus)) = some v.status :=
    optional_map (fun q e => quota_flat (fun _ => readStatus_write) (fun _ => rfl) (h.status q e)) (writeQuota_ne (obj_ne_null writeStatus_obj))
  have hsc : optional (readQuota readSchema) (v.schema.map (writeQuota writeSchema)) = some v.schema :=
    optional_map (fun q e => quota_filled readSchema_write writeSchema_obj (fun _ _ => readSchema_list) (h.schema q e)) (writeQuota_ne (obj_ne_null writeSchema_obj))
  have hpr : optional (readQuota (readIntProof T)) (v.proof.map (writeQuota (writeIntProof T))) = some v.proof :=
    optional_map (fun q e => quota_filled (readIntProof_write T) (writeIntProof_obj T) (fun _ _ => readIntProof_list) (h.proof q e)) (writeQuota_ne (obj_ne_null (writeIntProof_obj T)))
  have hre : optional (readQuota readRelated) (v.related.map (writeQuota writeRelated)) = some v.related :=
    optional_map (fun q e => quota_filled readRelated_write writeRelated_obj (fun _ _ => readRelated_list) (h.related q e)) (writeQuota_ne (obj_ne_null writeRelated_obj))
  have hrf : optional readRefresh (v.refresh.map writeRefresh) = some v.refresh := optional_map (fun r _ => readRefresh_write r) (obj_ne_null writeRefresh_obj)
  have hte : optional (readQuota readTerm) (v.terms.map (writeQuota writeTerm)) = some v.terms :=
    optional_map (fun q e => quota_flat (fun _ => readTerm_write) (fun _ => rfl) (h.terms q e)) (writeQuota_ne (obj_ne_null writeTerm_obj))
  have hev : optional (readQuota readEvidence) (v.evidence.map (writeQuota writeEvidence)) = some v.evidence :=
    optional_map (fun q e => quota_flat (fun _ => readEvidence_write) (fun _ => rfl) (h.evidence q e)) (writeQuota_ne (obj_ne_null writeEvidence_obj))
  have hla : ∀ o : Option LangString, optional readLang (o.map writeLang) = some o := fun o => optional_map (fun s _ => readLang_write s) writeLang_ne
  simp only [readVc, writeVc]
  rw [structDefault_members (by rfl) (by decide)]
  simp only [List.map_cons, List.map_nil, Option.bind_eq_bind, Option.bind_some, defaulted, context_write h.context, nullable_str, strQuota, hla,
    issuer_write h.issuer, hsub, nullable_time, optional_time, hst, hsc, hpr, hre, hrf, hte, hev]

theorem readVp_write (T : TimeText) {v : Vp} (h : v.Sound) : readVp T (writeVp T v) = some v := by
  have hpr : optional (readQuota (readIntProof T)) (v.proof.map (writeQuota (writeIntProof T))) = some v.proof :=
    optional_map (fun q e => quota_filled (readIntProof_write T) (writeIntProof_obj T) (fun _ _ => readIntProof_list) (h.proof q e)) (writeQuota_ne (obj_ne_null (writeIntProof_obj T)))
  have hcr : optional (readVec (readKind (readVc T))) (v.credentials.map (writeVec (writeKind (writeVc T)))) = some v.credentials :=
    optional_map (fun l e => readVec_written fun k hk => readKind_write fun c hc => ⟨readVc_write T (h.credentials l e c (hc ▸ hk)), obj_ne_str (writeVc_obj T) c⟩) nofun
  simp only [readVp, writeVp]
  rw [structDefault_members (by rfl) (by decide)]
  simp only [List.map_cons, List.map_nil, Option.bind_eq_bind, Option.bind_some, defaulted, context_write h.context, optional_str, strQuota, hcr, hpr]

end Verif.Wire
