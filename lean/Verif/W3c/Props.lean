import Verif.W3c.Proof
/-!
# Properties of the W3C data model: C39, C56, C57, C58
-/
namespace Verif

/-! ### C39: `Quota` -/

/-- The items of a quota. -/
def Quota.items {α : Type} : Quota α → List α
  | .one a => [a]
  | .many l => l

/-- **C39**. Adding any sequence of items appends them, in order; the length is the number of items; it is empty exactly when it has no
items. -/
theorem C39_quota_is_a_list {α : Type} (q : Quota α) (xs : List α) :
    (xs.foldl Quota.add q).items = q.items ++ xs ∧ (xs.foldl Quota.add q).len = q.items.length + xs.length ∧
    ((xs.foldl Quota.add q).isEmpty = true ↔ q.items = [] ∧ xs = []) := by
  have h1 : ∀ (q : Quota α) xs, (xs.foldl Quota.add q).items = q.items ++ xs := by
    intro q xs
    induction xs generalizing q with
    | nil => simp
    | cons x xs ih =>
      rw [List.foldl_cons, ih]
      cases q <;> simp [Quota.add, Quota.items]
  have h2 : ∀ q : Quota α, q.len = q.items.length := by intro q; cases q <;> rfl
  have h3 : ∀ q : Quota α, q.isEmpty = true ↔ q.items = [] := by
    intro q; cases q <;> simp [Quota.isEmpty, Quota.items]
  refine ⟨h1 q xs, ?_, ?_⟩
  · rw [h2, h1, List.length_append]
  · rw [h3, h1, List.append_eq_nil_iff]

example : ([2, 3].foldl Quota.add (.one 1)).items = [1, 2, 3] ∧ (Quota.many ([] : List Nat)).isEmpty = true := by decide

/-! ### C57: `LangString` -/

/-- The values of a language string. -/
def LangString.values : LangString → List LangValue
  | .string s => [{ value := s }]
  | .object q => q.items

theorem LangString.values_add (s : LangString) (v : LangValue) : (s.add v).values = s.values ++ [v] := by
  cases s with
  | string s => rfl
  | object q => cases q <;> rfl

/-- **C57**. For every sequence of additions, all values are kept, in order, and counted. -/
theorem C57_values_kept (s : LangString) (vs : List LangValue) :
    (vs.foldl LangString.add s).values = s.values ++ vs ∧ (vs.foldl LangString.add s).len = s.values.length + vs.length := by
  have h1 : (vs.foldl LangString.add s).values = s.values ++ vs := by
    induction vs generalizing s with
    | nil => simp
    | cons v vs ih => rw [List.foldl_cons, ih, LangString.values_add]; simp
  refine ⟨h1, ?_⟩
  have h2 : ∀ s : LangString, s.len = s.values.length := by
    intro s
    cases s with
    | string s => rfl
    | object q => cases q <;> rfl
  rw [h2, h1, List.length_append]

/-- **C57**, lookup: looking a language up returns the first value with that tag and fails when there is none. A plain string answers
every language with itself. -/
theorem C57_lookup (s : LangString) (lang : String) :
    (∀ t, s = .string t → s.value lang = some t) ∧
    (∀ q, s = .object q →
      (∀ r, s.value lang = some r ↔ ∃ l1 v l2, s.values = l1 ++ v :: l2 ∧ (∀ u ∈ l1, u.language ≠ some lang) ∧
        v.language = some lang ∧ v.value = r) ∧
      (s.value lang = none ↔ ∀ v ∈ s.values, v.language ≠ some lang)) := by
  refine ⟨fun t h => by subst h; rfl, ?_⟩
  rintro q rfl
  have hval : LangString.value (.object q) lang =
      ((LangString.values (.object q)).find? fun v => v.language = some lang).map LangValue.value := by
    cases q with
    | one v =>
      by_cases h : v.language = some lang <;> simp [LangString.value, LangString.values, Quota.items, h]
    | many l => rfl
  rw [hval]
  constructor
  · intro r
    simp only [Option.map_eq_some_iff, List.find?_eq_some_iff_append, decide_eq_true_eq, Bool.not_eq_true']
    constructor
    · rintro ⟨v, ⟨h1, l1, l2, h2, h3⟩, h4⟩
      exact ⟨l1, v, l2, h2, fun u hu => by simpa using h3 u hu, h1, h4⟩
    · rintro ⟨l1, v, l2, h1, h2, h3, h4⟩
      exact ⟨v, ⟨h3, l1, l2, h1, fun u hu => by simpa using h2 u hu⟩, h4⟩
  · simp

example : ([⟨"Hallo", some "de", none⟩, ⟨"Moin", some "de", none⟩].foldl LangString.add (LangString.newString "Hello")).value "de" =
    some "Hallo" := by decide

/-! ### C56: builders -/

/-- A call on `VcBuilder`. -/
inductive VcOp where
  | context (c : Kind Json)
  | id (i : String)
  | type_ (t : String)
  | name (n : Option LangString)
  | description (d : Option LangString)
  | issuer (i : String)
  | subject (s : CredentialSubject)
  | proof (p : IntegrityProof)
  | status (s : Option (Quota CredentialStatus))

/-- Its effect. -/
def VcOp.apply (vc : Vc) : VcOp → Vc
  | .context c => vc.addContext c
  | .id i => vc.setId i
  | .type_ t => vc.addType t
  | .name n => vc.addName n
  | .description d => vc.addDescription d
  | .issuer i => vc.setIssuer i
  | .subject s => vc.addSubject s
  | .proof p => vc.addProof p
  | .status s => vc.setStatus s

/-- Result of a sequence of calls on a new builder. -/
def vcBuild (ops : List VcOp) : Except String Vc := (ops.foldl VcOp.apply Vc.builder).build

def VcOp.context? : VcOp → Option (Kind Json) | .context c => some c | _ => none
def VcOp.id? : VcOp → Option String | .id i => some i | _ => none
def VcOp.type? : VcOp → Option String | .type_ t => some t | _ => none
def VcOp.issuer? : VcOp → Option String | .issuer i => some i | _ => none
def VcOp.subject? : VcOp → Option CredentialSubject | .subject s => some s | _ => none
def VcOp.proof? : VcOp → Option IntegrityProof | .proof p => some p | _ => none

/-- What was set before and after some calls. -/
theorem vc_fold (ops : List VcOp) (vc : Vc) :
    (ops.foldl VcOp.apply vc).context = vc.context ++ ops.filterMap VcOp.context? ∧
    (ops.foldl VcOp.apply vc).type_.items = vc.type_.items ++ ops.filterMap VcOp.type? ∧
    (ops.foldl VcOp.apply vc).id = ((ops.filterMap VcOp.id?).getLast?.or vc.id) ∧
    (ops.foldl VcOp.apply vc).issuer = (match (ops.filterMap VcOp.issuer?).getLast? with | some i => .string i | none => vc.issuer) ∧
    ((ops.foldl VcOp.apply vc).proof.map Quota.items).getD [] = (vc.proof.map Quota.items).getD [] ++ ops.filterMap VcOp.proof? := by
  induction ops generalizing vc with
  | nil => simp
  | cons o ops ih =>
    obtain ⟨h1, h2, h3, h4, h5⟩ := ih (o.apply vc)
    simp only [List.foldl_cons, h1, h2, h3, h4, h5]
    cases o
    case subject s =>
      obtain ⟨q, hq⟩ : ∃ q, vc.addSubject s = { vc with subject := q } := by
        unfold Vc.addSubject; (repeat' split) <;> exact ⟨_, rfl⟩
      simp only [VcOp.apply, hq, List.filterMap_cons, VcOp.context?, VcOp.id?, VcOp.type?, VcOp.issuer?, VcOp.proof?, and_self]
    case proof p =>
      obtain ⟨q, hq, hi⟩ : ∃ q, vc.addProof p = { vc with proof := some q } ∧ q.items = (vc.proof.map Quota.items).getD [] ++ [p] := by
        unfold Vc.addProof; (repeat' split) <;> rename_i h <;> exact ⟨_, rfl, by simp [Quota.items, h]⟩
      simp [VcOp.apply, hq, hi, List.filterMap_cons, VcOp.context?, VcOp.id?, VcOp.type?, VcOp.issuer?, VcOp.proof?]
    all_goals simp only [VcOp.apply, Vc.addContext, Vc.setId, Vc.addType, Vc.addName, Vc.addDescription, Vc.setIssuer,
      Vc.setStatus, List.filterMap_cons, VcOp.context?, VcOp.id?, VcOp.type?, VcOp.issuer?, VcOp.proof?,
      List.append_assoc, List.cons_append, List.nil_append, true_and, and_true]
    case id i => rw [List.getLast?_cons]; cases (List.filterMap VcOp.id? ops).getLast? <;> simp
    case type_ t => cases vc.type_ <;> simp [Quota.add, Quota.items]
    case issuer i => rw [List.getLast?_cons]; cases (List.filterMap VcOp.issuer? ops).getLast? <;> simp

/-- The subjects of a builder: all that were added, without leading empty ones. -/
theorem vc_subjects (ops : List VcOp) (vc : Vc)
    (hinv : ∀ l, vc.subject = .many l → ∃ s l', l = s :: l' ∧ s.isDefault = false) :
    (∀ l, (ops.foldl VcOp.apply vc).subject = .many l → ∃ s l', l = s :: l' ∧ s.isDefault = false) ∧
    (ops.foldl VcOp.apply vc).subject.items.dropWhile CredentialSubject.isDefault =
      (vc.subject.items ++ ops.filterMap VcOp.subject?).dropWhile CredentialSubject.isDefault := by
  induction ops generalizing vc with
  | nil => simpa using hinv
  | cons o ops ih =>
    simp only [List.foldl_cons]
    by_cases hs : ∃ s, o = .subject s
    · obtain ⟨s, rfl⟩ := hs
      simp only [VcOp.apply, Vc.addSubject, List.filterMap_cons, VcOp.subject?]
      cases hsub : vc.subject with
      | one o =>
        simp only
        split
        · rename_i ho
          have := ih { vc with subject := .one s } (by simp)
          refine ⟨this.1, this.2.trans ?_⟩
          simp [Quota.items, ho, List.dropWhile_cons]
        · rename_i ho
          have := ih { vc with subject := .many [o, s] } (by intro l h; cases h; exact ⟨o, [s], rfl, by simpa using ho⟩)
          exact ⟨this.1, this.2.trans (by simp [Quota.items])⟩
      | many l =>
        obtain ⟨s', l', rfl, h⟩ := hinv l hsub
        have := ih { vc with subject := .many (s' :: l' ++ [s]) } (by intro l h; cases h; exact ⟨s', l' ++ [s], rfl, by assumption⟩)
        exact ⟨this.1, this.2.trans (by simp [Quota.items])⟩
    · have hsame : (o.apply vc).subject = vc.subject := by
        cases o <;> simp only [VcOp.apply, Vc.addContext, Vc.setId, Vc.addType, Vc.addName, Vc.addDescription, Vc.setIssuer,
          Vc.addProof, Vc.setStatus]
        · exact absurd ⟨_, rfl⟩ hs
        · split <;> rfl
      have hfm : List.filterMap VcOp.subject? (o :: ops) = List.filterMap VcOp.subject? ops := by
        cases o
        case subject s => exact absurd ⟨_, rfl⟩ hs
        all_goals rfl
      rw [hfm, ← hsame]
      exact ih _ (by rw [hsame]; exact hinv)

theorem Vc.build_ok (b vc : Vc) : b.build = .ok vc ↔ vc = b ∧ 2 ≤ b.context.length ∧ 2 ≤ b.type_.items.length ∧
    b.issuer ≠ .string "" ∧ ∀ s, b.subject = .one s → s.isDefault = false := by
  have hlen : ∀ q : Quota String, q.len = q.items.length := by intro q; cases q <;> rfl
  rw [eq_comm (a := vc) (b := b)]
  unfold Vc.build
  rw [hlen]
  by_cases h1 : b.context.length < 2
  · simp [h1]; omega
  · by_cases h2 : b.type_.items.length < 2
    · simp [h1, h2]; omega
    · rw [if_neg h1, if_neg h2]
      cases hi : b.issuer with
      | object o =>
        cases hs : b.subject with
        | one s => cases hd : s.isDefault <;> simp [hd] <;> omega
        | many l => simp; omega
      | string i =>
        by_cases he : i = ""
        · simp [he]
        · cases hs : b.subject with
          | one s => cases hd : s.isDefault <;> simp [hd, he] <;> omega
          | many l => simp [he]; omega

/-- **C56**, mandatory properties. A `VcBuilder` that builds, after any sequence of calls, gives a credential with the base context first
and at least one more, the base type first and at least one more, a non-empty issuer and at least one subject that is not empty. -/
theorem C56_vc_mandatory (ops : List VcOp) (vc : Vc) (h : vcBuild ops = .ok vc) :
    (∃ c cs, vc.context = baseContext :: c :: cs) ∧
    (∃ t ts, vc.type_.items = "VerifiableCredential" :: t :: ts) ∧
    (∃ i, vc.issuer = .string i ∧ i ≠ "") ∧
    (∃ s ∈ vc.subject.items, s.isDefault = false) := by
  obtain ⟨h1, h2, h3, h4, h5⟩ := vc_fold ops Vc.builder
  obtain ⟨h6, -⟩ := vc_subjects ops Vc.builder (by intro l h; cases h)
  obtain ⟨rfl, hc, ht, hi, hsub⟩ := (Vc.build_ok _ _).1 h
  rw [h1] at hc
  rw [h2] at ht
  refine ⟨?_, ?_, ?_, ?_⟩
  · rw [h1]
    generalize ops.filterMap VcOp.context? = l at hc ⊢
    cases l with
    | nil => simp [Vc.builder] at hc
    | cons c cs => exact ⟨c, cs, rfl⟩
  · rw [h2]
    generalize ops.filterMap VcOp.type? = l at ht ⊢
    cases l with
    | nil => simp [Vc.builder, Quota.items] at ht
    | cons t ts => exact ⟨t, ts, rfl⟩
  · rw [h4] at hi ⊢
    cases hg : (ops.filterMap VcOp.issuer?).getLast? with
    | none => simp [hg, Vc.builder] at hi
    | some i => exact ⟨i, rfl, by rw [hg] at hi; simpa using hi⟩
  · cases hs : (ops.foldl VcOp.apply Vc.builder).subject with
    | one s => exact ⟨s, by simp [Quota.items], hsub s hs⟩
    | many l =>
      obtain ⟨s, l', rfl, hd⟩ := h6 l hs
      exact ⟨s, by simp [Quota.items], hd⟩

/-- **C56**, content. The built credential has exactly the contexts, types, proofs and (but for leading empty ones) subjects that were
added, in order, and the id and issuer that were set last. -/
theorem C56_vc_content (ops : List VcOp) (vc : Vc) (h : vcBuild ops = .ok vc) :
    vc.context = baseContext :: ops.filterMap VcOp.context? ∧
    vc.type_.items = "VerifiableCredential" :: ops.filterMap VcOp.type? ∧
    vc.id = (ops.filterMap VcOp.id?).getLast? ∧
    (∃ i, (ops.filterMap VcOp.issuer?).getLast? = some i ∧ vc.issuer = .string i) ∧
    (vc.proof.map Quota.items).getD [] = ops.filterMap VcOp.proof? ∧
    vc.subject.items = (ops.filterMap VcOp.subject?).dropWhile CredentialSubject.isDefault := by
  have hm := C56_vc_mandatory ops vc h
  have hb : vc = ops.foldl VcOp.apply Vc.builder := ((Vc.build_ok _ _).1 h).1
  obtain ⟨h1, h2, h3, h4, h5⟩ := vc_fold ops Vc.builder
  obtain ⟨h6, h7⟩ := vc_subjects ops Vc.builder (by intro l h; cases h)
  rw [← hb] at h1 h2 h3 h4 h5 h6 h7
  refine ⟨h1, h2, ?_, ?_, h5, ?_⟩
  · rw [h3]; cases (ops.filterMap VcOp.id?).getLast? <;> rfl
  · cases hg : (ops.filterMap VcOp.issuer?).getLast? with
    | some i => rw [hg] at h4; exact ⟨i, rfl, h4⟩
    | none =>
      obtain ⟨i, hi, hne⟩ := hm.2.2.1
      rw [hg] at h4
      rw [h4] at hi
      cases hi
      exact absurd rfl hne
  · have h8 : vc.subject.items.dropWhile CredentialSubject.isDefault = vc.subject.items := by
      cases hs : vc.subject with
      | many l => obtain ⟨s, l', rfl, hd⟩ := h6 l hs; simp [Quota.items, hd]
      | one s =>
        obtain ⟨s', hs', hd⟩ := hm.2.2.2
        rw [hs] at hs'
        simp only [Quota.items, List.mem_singleton] at hs'
        subst hs'
        simp [Quota.items, hd]
    rw [← h8, h7]
    simp [Vc.builder, Quota.items, CredentialSubject.isDefault]

/-- **C56**, completeness: the builder does build once a further context and type, a non-empty issuer and a non-empty subject are given. -/
theorem C56_vc_builds (ops : List VcOp) (hc : ops.filterMap VcOp.context? ≠ []) (ht : ops.filterMap VcOp.type? ≠ [])
    (hi : ∃ i, (ops.filterMap VcOp.issuer?).getLast? = some i ∧ i ≠ "")
    (hs : ∃ s ∈ ops.filterMap VcOp.subject?, s.isDefault = false) : ∃ vc, vcBuild ops = .ok vc := by
  obtain ⟨h1, h2, h3, h4, h5⟩ := vc_fold ops Vc.builder
  obtain ⟨h6, h7⟩ := vc_subjects ops Vc.builder (by intro l h; cases h)
  obtain ⟨i, hi, hne⟩ := hi
  refine ⟨ops.foldl VcOp.apply Vc.builder, (Vc.build_ok _ _).2 ⟨rfl, ?_, ?_, ?_, ?_⟩⟩
  · rw [h1]
    cases h : ops.filterMap VcOp.context? with
    | nil => exact absurd h hc
    | cons a l => simp [Vc.builder]
  · rw [h2]
    cases h : ops.filterMap VcOp.type? with
    | nil => exact absurd h ht
    | cons a l => simp [Vc.builder, Quota.items]
  · rw [h4, hi]; simpa using hne
  · intro s hsub
    cases hd : s.isDefault with
    | false => rfl
    | true =>
      rw [hsub] at h7
      have h8 : ({} : CredentialSubject).isDefault = true := rfl
      simp only [Quota.items, List.dropWhile_cons, hd, if_true, List.dropWhile_nil, Vc.builder, List.cons_append, List.nil_append,
        h8] at h7
      obtain ⟨s', hs', hd'⟩ := hs
      have : ∀ l : List CredentialSubject, [] = l.dropWhile CredentialSubject.isDefault → ∀ x ∈ l, x.isDefault = true := by
        intro l
        induction l with
        | nil => simp
        | cons a l ih =>
          intro h x hx
          rw [List.dropWhile_cons] at h
          split at h
          · rcases List.mem_cons.1 hx with rfl | hx
            · assumption
            · exact ih h x hx
          · cases h
      rw [this _ h7 s' hs'] at hd'
      cases hd'

/-- A call on `VpBuilder`. -/
inductive VpOp where
  | context (c : Kind Json)
  | type_ (t : String)
  | credential (c : Kind Vc)
  | holder (h : String)

/-- Its effect. -/
def VpOp.apply (vp : Vp) : VpOp → Vp
  | .context c => vp.addContext c
  | .type_ t => vp.addType t
  | .credential c => vp.addCredential c
  | .holder h => vp.setHolder h

/-- Result of a sequence of calls on a new builder. -/
def vpBuild (uuid : String) (ops : List VpOp) : Except String Vp := (ops.foldl VpOp.apply (Vp.builder uuid)).build

def VpOp.context? : VpOp → Option (Kind Json) | .context c => some c | _ => none
def VpOp.type? : VpOp → Option String | .type_ t => some t | _ => none
def VpOp.credential? : VpOp → Option (Kind Vc) | .credential c => some c | _ => none
def VpOp.holder? : VpOp → Option String | .holder h => some h | _ => none

theorem vp_fold (ops : List VpOp) (vp : Vp) :
    (ops.foldl VpOp.apply vp).context = vp.context ++ ops.filterMap VpOp.context? ∧
    (ops.foldl VpOp.apply vp).type_.items = vp.type_.items ++ ops.filterMap VpOp.type? ∧
    ((ops.foldl VpOp.apply vp).type_.isOne = true ↔ vp.type_.isOne = true ∧ ops.filterMap VpOp.type? = []) ∧
    (ops.foldl VpOp.apply vp).credentials.getD [] = vp.credentials.getD [] ++ ops.filterMap VpOp.credential? ∧
    (ops.foldl VpOp.apply vp).holder = (ops.filterMap VpOp.holder?).getLast?.or vp.holder ∧
    (ops.foldl VpOp.apply vp).id = vp.id ∧ (ops.foldl VpOp.apply vp).proof = vp.proof := by
  induction ops generalizing vp with
  | nil => simp
  | cons o ops ih =>
    obtain ⟨h1, h2, h3, h4, h5, h6, h7⟩ := ih (o.apply vp)
    simp only [List.foldl_cons, h1, h2, h3, h4, h5, h6, h7]
    cases o <;> simp only [VpOp.apply, Vp.addContext, Vp.addType, Vp.addCredential, Vp.setHolder, List.filterMap_cons, VpOp.context?,
      VpOp.type?, VpOp.credential?, VpOp.holder?, List.append_assoc, List.cons_append, List.nil_append, true_and, and_true]
    case type_ t => cases vp.type_ <;> simp [Quota.items, Quota.isOne]
    case credential c => cases vp.credentials <;> simp
    case holder h => rw [List.getLast?_cons]; cases (List.filterMap VpOp.holder? ops).getLast? <;> simp

/-- **C56**, presentations: a `VpBuilder` builds exactly when a further context and a further type were added, and the presentation then
has the base context and type first, followed by what was added, all added credentials in order, the holder set last and a URN of the
fresh UUID as id. -/
theorem C56_vp (uuid : String) (ops : List VpOp) :
    ((∃ vp, vpBuild uuid ops = .ok vp) ↔ ops.filterMap VpOp.context? ≠ [] ∧ ops.filterMap VpOp.type? ≠ []) ∧
    ∀ vp, vpBuild uuid ops = .ok vp →
      vp.context = baseContext :: ops.filterMap VpOp.context? ∧
      vp.type_.items = "VerifiablePresentation" :: ops.filterMap VpOp.type? ∧
      vp.credentials.getD [] = ops.filterMap VpOp.credential? ∧
      vp.holder = (ops.filterMap VpOp.holder?).getLast? ∧
      vp.id = some ("urn:uuid:" ++ uuid) ∧ vp.proof = none := by
  obtain ⟨h1, h2, h3, h4, h5, h6, h7⟩ := vp_fold ops (Vp.builder uuid)
  have hiff : ∀ vp, vpBuild uuid ops = .ok vp ↔ vp = ops.foldl VpOp.apply (Vp.builder uuid) ∧ ops.filterMap VpOp.context? ≠ [] ∧
      ops.filterMap VpOp.type? ≠ [] := by
    intro vp
    unfold vpBuild Vp.build
    rw [h1]
    generalize List.foldl VpOp.apply (Vp.builder uuid) ops = b at *
    cases hc : ops.filterMap VpOp.context? with
    | nil => simp [Vp.builder]
    | cons c cs =>
      rw [if_neg (by simp [Vp.builder])]
      cases ht : b.type_ with
      | one t =>
        rw [ht] at h3
        have h3 := (h3.1 rfl).2
        simp [h3]
      | many l =>
        rw [ht] at h3
        have : ops.filterMap VpOp.type? ≠ [] := by
          intro h
          rw [h] at h3
          simp [Quota.isOne, Vp.builder] at h3
        simp only [Except.ok.injEq, ne_eq, reduceCtorEq, not_false_eq_true, this, and_true]
        exact eq_comm
  constructor
  · constructor
    · rintro ⟨vp, h⟩; exact ((hiff vp).1 h).2
    · intro h; exact ⟨_, (hiff _).2 ⟨rfl, h⟩⟩
  · intro vp h
    obtain ⟨rfl, -, -⟩ := (hiff vp).1 h
    refine ⟨h1, h2, h4, ?_, h6, h7⟩
    rw [h5]
    cases (ops.filterMap VpOp.holder?).getLast? <;> rfl

/-- A credential with two subjects, the first call adding an empty one. -/
def Demo.vcOps : List VcOp :=
  [.context (.string "https://example.com/v1"), .subject {}, .type_ "Employee", .issuer "", .issuer "https://example.com", .id "x",
    .subject { id := some "did:a" }, .subject { id := some "did:b" }]

example : (∃ vc, vcBuild Demo.vcOps = .ok vc) ∧ (∃ e, vcBuild (Demo.vcOps.take 5) = .error e) ∧
    (∃ vp, vpBuild "1" [.context (.string "c"), .type_ "T", .credential (.string "jwt"), .holder "h"] = .ok vp) :=
  ⟨⟨_, rfl⟩, ⟨_, rfl⟩, ⟨_, rfl⟩⟩

/-! ### C58: proofs -/

/-- **C58**, credentials. Verifying a created credential proof returns the same credential and issue time; the token's own claims agree
with the credential's id, issuer, first subject and expiry. -/
theorem C58_vc_round_trip (J : Jose) (hJ : J.RoundTrips) (fmt : W3cFormat) (vc : Vc) (iat : Int) (signer : String) (now : Int)
    (token : String) (h : Proof.create J fmt (.vc vc iat) signer now = .ok token) :
    Proof.verifyVc J (.string token) = .ok (.vc vc iat) ∧
    ∃ c, J.decodeVc token = some c ∧ c.vc = vc ∧ c.iat = iat ∧ c.jti = vc.id.getD "" ∧
      (∀ i, vc.issuer = .string i → c.iss = i) ∧ (∀ o, vc.issuer = .object o → c.iss = o.id) ∧
      (∀ s, vc.subject.items.head? = some s → c.sub = s.id.getD "") ∧ c.exp = vc.validUntil.map timestamp := by
  simp only [Proof.create, Except.bind_ok, require_ok, orErr_ok] at h
  obtain ⟨_, _, c, hc, henc⟩ := h
  have hdec := hJ.vc _ _ _ henc
  have hcs : c.vc = vc ∧ c.iat = iat ∧ c.jti = vc.id.getD "" ∧
      (∀ i, vc.issuer = .string i → c.iss = i) ∧ (∀ o, vc.issuer = .object o → c.iss = o.id) ∧
      (∀ s, vc.subject.items.head? = some s → c.sub = s.id.getD "") ∧ c.exp = vc.validUntil.map timestamp := by
    simp only [VcClaims.fromVc, Except.bind_ok] at hc
    obtain ⟨s, hs, hc⟩ := hc
    cases hc
    refine ⟨rfl, rfl, rfl, fun i h => by simp [h], fun o h => by simp [h], ?_, rfl⟩
    intro s' hs'
    unfold Vc.firstSubject at hs
    split at hs
    · rename_i h; rw [h] at hs'; cases hs; cases hs'; rfl
    · cases hs
    · rename_i h; rw [h] at hs'; cases hs; cases hs'; rfl
  exact ⟨by simp [Proof.verifyVc, hdec, pure, Except.pure, hcs.1, hcs.2.1, orErr, bind, Except.bind], c, hdec, hcs⟩

/-- **C58**, presentations: the presentation, audience and nonce come back, and the token carries the holder as issuer. -/
theorem C58_vp_round_trip (J : Jose) (hJ : J.RoundTrips) (fmt : W3cFormat) (vp : Vp) (clientId nonce signer : String) (now : Int)
    (token : String) (h : Proof.create J fmt (.vp vp clientId nonce) signer now = .ok token) :
    Proof.verifyVp J (.string token) = .ok (.vp vp clientId nonce) ∧
    ∃ c, J.decodeVp token = some c ∧ c.iss = vp.holder.getD "" ∧ c.jti = vp.id.getD "" ∧ c.aud = clientId ∧ c.nonce = nonce ∧
      c.exp = timestamp (now + 3600 * 1000000000) := by
  simp only [Proof.create, Except.bind_ok, require_ok, orErr_ok] at h
  obtain ⟨_, _, henc⟩ := h
  have hdec := hJ.vp _ _ _ henc
  exact ⟨by simp [Proof.verifyVp, hdec, orErr, bind, Except.bind, pure, Except.pure, VpClaims.fromVp], _, hdec, rfl, rfl, rfl, rfl, rfl⟩

/-- **C58**, the data integrity format is refused. -/
theorem C58_data_integrity_unsupported (J : Jose) (p : Payload) (signer : String) (now : Int) :
    ∃ e, Proof.create J .dataIntegrityJsonLd p signer now = .error e := ⟨_, rfl⟩

/-- A codec that accepts one credential and one presentation. -/
noncomputable def Demo.jose (c0 : VcClaims) (p0 : VpClaims) : Jose where
  encodeVc _ c := open Classical in if c = c0 then some "vc" else none
  decodeVc t := if t = "vc" then some c0 else none
  encodeVp _ c := open Classical in if c = p0 then some "vp" else none
  decodeVp t := if t = "vp" then some p0 else none

example (vc : Vc) (s : CredentialSubject) (hs : vc.subject = .one s) : ∃ J : Jose, J.RoundTrips ∧
    Proof.create J .jwtVcJson (.vc vc 5) "key" 7 = .ok "vc" ∧ Proof.create J .jwtVcJson (.vp {} "aud" "n") "key" 7 = .ok "vp" := by
  obtain ⟨c, hc⟩ : ∃ c, VcClaims.fromVc vc 5 = .ok c := by
    simp [VcClaims.fromVc, Vc.firstSubject, hs, bind, Except.bind, pure, Except.pure]
  refine ⟨Demo.jose c { VpClaims.fromVp {} 7 with aud := "aud", nonce := "n" }, ⟨?_, ?_⟩, ?_, ?_⟩
  · intro k c' t h
    simp only [Demo.jose] at h ⊢
    split at h
    · cases h; simp_all
    · cases h
  · intro k c' t h
    simp only [Demo.jose] at h ⊢
    split at h
    · cases h; simp_all
    · cases h
  · simp [Proof.create, hc, Demo.jose, require, orErr, bind, Except.bind]
  · simp [Proof.create, Demo.jose, require, orErr, bind, Except.bind]

end Verif
