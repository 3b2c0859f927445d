import Verif.Mdl.Model
/-!
# Properties of mDL credentials: C59 – C61, C75, C76
-/
namespace Verif.Mdl

/-! ### Specification -/

/-- The items and digests of a name space are right for its elements: one item for each element, in order, no id twice, and under each
id exactly the digest of its item. -/
structure Covers (E : Codec) (fields : List (String × Json)) (items : List Item) (ds : Digests) : Prop where
  elements : items.map (fun x => (x.identifier, x.value)) = fields
  unique : (items.map Item.digestId).Nodup
  digests : ∀ id d, ds.find id = some d ↔ ∃ x ∈ items, x.digestId = id ∧ ∃ bytes, E.itemBytes x = .ok bytes ∧ d = E.sha256 bytes

/-! ### Lemmas -/

theorem Digests.find_insert (ds : Digests) (id id' : Int) (d : Bytes) :
    (ds.insert id d).find id' = if id' = id then some d else ds.find id' := by
  induction ds with
  | nil =>
    by_cases h : id' = id
    · simp [Digests.insert, Digests.find, h]
    · simp [Digests.insert, Digests.find, h, Ne.symm h]
  | cons x ds ih =>
    obtain ⟨i, x⟩ := x
    by_cases h : i = id
    · subst h
      by_cases h' : id' = i
      · simp [Digests.insert, Digests.find, h']
      · simp [Digests.insert, Digests.find, h', Ne.symm h']
    · by_cases h' : id' = id
      · subst h'; simp [Digests.insert, Digests.find, h, ih]
      · by_cases h'' : i = id' <;> simp [Digests.insert, Digests.find, h, h', h'', ih]

theorem gen_ok {b : Build} {R : Rng} {used : List Int} {fuel n : Nat} {id : Int} {n' : Nat} (h : gen b R used fuel n = some (.ok (id, n'))) :
    id ∉ used ∧ n < n' ∧ abs32 b (R.int32 (n' - 1)) = .ok id := by
  induction fuel generalizing n with
  | zero => simp [gen] at h
  | succ fuel ih =>
    simp only [gen] at h
    split at h
    · simp at h
    · rename_i x hx
      split at h
      · have := ih h; exact ⟨this.1, by omega, this.2.2⟩
      · rename_i hu
        simp only [Option.some.injEq, Except.ok.injEq, Prod.mk.injEq] at h
        obtain ⟨rfl, rfl⟩ := h
        exact ⟨hu, by omega, by simpa using hx⟩

theorem addItem_ok {E : Codec} {R : Rng} {ns k : String} {v : Json} {id : Int} {next : Nat} {s s' : St} :
    addItem E R ns k v id next s = .ok s' ↔ E.cborOk v = true ∧ ∃ bytes, E.itemBytes ⟨id, R.salt s.salts, k, v⟩ = .ok bytes ∧
      s' = { s.add ns ⟨id, R.salt s.salts, k, v⟩ (E.sha256 bytes) with draws := next, salts := s.salts + 1 } := by
  unfold addItem
  simp only [Except.bind_ok, require_ok, pure, Except.pure, Except.ok.injEq]
  constructor
  · rintro ⟨_, h1, bytes, h2, rfl⟩; exact ⟨h1, bytes, h2, rfl⟩
  · rintro ⟨h1, bytes, h2, rfl⟩; exact ⟨(), h1, bytes, h2, rfl⟩

/-- What the inner loop adds to one name space. -/
theorem addItems_ok {b : Build} {fuel : Nat} {E : Codec} {R : Rng} {ns : String} {used : List Int} {fields : List (String × Json)}
    {s s' : St} (h : addItems b fuel E R ns used fields s = some (.ok s')) :
    ∃ items : List Item,
      items.map (fun x => (x.identifier, x.value)) = fields ∧ (items.map Item.digestId).Nodup ∧
      (∀ x ∈ items, x.digestId ∉ used ∧ ∃ n, s.draws ≤ n ∧ abs32 b (R.int32 n) = .ok x.digestId) ∧
      (∀ x ∈ items, ∃ bytes, E.itemBytes x = .ok bytes) ∧
      (∀ ns', ns' ≠ ns → s'.nameSpaces.get? ns' = s.nameSpaces.get? ns' ∧ s'.valueDigests.get? ns' = s.valueDigests.get? ns') ∧
      s'.nameSpaces.get? ns = (if items = [] then s.nameSpaces.get? ns else some ((s.nameSpaces.get? ns).getD [] ++ items)) ∧
      (if items = [] then s'.valueDigests.get? ns = s.valueDigests.get? ns else
        ∃ ds, s'.valueDigests.get? ns = some ds ∧ ∀ id d, ds.find id = some d ↔
          (∃ x ∈ items, x.digestId = id ∧ ∃ bytes, E.itemBytes x = .ok bytes ∧ d = E.sha256 bytes) ∨
          ((∀ x ∈ items, x.digestId ≠ id) ∧ ((s.valueDigests.get? ns).getD []).find id = some d)) := by
  induction fields generalizing used s with
  | nil =>
    simp only [addItems, Option.some.injEq, Except.ok.injEq] at h
    subst h
    exact ⟨[], by simp⟩
  | cons f fields ih =>
    obtain ⟨k, v⟩ := f
    simp only [addItems] at h
    split at h
    · cases h
    · simp at h
    · rename_i id next hgen
      split at h
      · simp at h
      · rename_i s1 hadd
        obtain ⟨hu, hlt, habs⟩ := gen_ok hgen
        obtain ⟨-, bytes, hb, rfl⟩ := addItem_ok.1 hadd
        obtain ⟨items, i1, i2, i3, i4, i5, i6, i7⟩ := ih h
        refine ⟨⟨id, R.salt s.salts, k, v⟩ :: items, ?_, ?_, ?_, ?_, ?_, ?_, ?_⟩
        · simp [i1]
        · simp only [List.map_cons, List.nodup_cons]
          refine ⟨?_, i2⟩
          intro hm
          obtain ⟨x, hx, hxe⟩ := List.mem_map.1 hm
          have := (i3 x hx).1
          rw [hxe] at this
          exact this List.mem_cons_self
        · intro x hx
          rcases List.mem_cons.1 hx with rfl | hx
          · exact ⟨hu, next - 1, by omega, habs⟩
          · obtain ⟨h1, n, h2, h3⟩ := i3 x hx
            refine ⟨fun hm => h1 (List.mem_cons_of_mem _ hm), n, ?_, h3⟩
            have : next ≤ n := h2
            omega
        · intro x hx
          rcases List.mem_cons.1 hx with rfl | hx
          · exact ⟨bytes, hb⟩
          · exact i4 x hx
        · intro ns' hne
          obtain ⟨h1, h2⟩ := i5 ns' hne
          rw [h1, h2]
          simp [St.add, Dict.get?_insert, hne]
        · rw [i6]
          simp only [St.add, Dict.get?_insert, if_true, reduceCtorEq, if_false]
          split <;> simp_all
        · simp only [reduceCtorEq, if_false]
          simp only [St.add, Dict.get?_insert, if_true] at i7
          by_cases hi : items = []
          · rw [if_pos hi] at i7
            refine ⟨_, i7, ?_⟩
            subst hi
            intro id' d
            rw [Digests.find_insert]
            by_cases he : id' = id
            · subst he
              simp only [if_true, Option.some.injEq, List.mem_singleton]
              constructor
              · rintro rfl; exact .inl ⟨_, rfl, rfl, bytes, hb, rfl⟩
              · rintro (⟨x, rfl, _, bytes', hb', rfl⟩ | ⟨hno, _⟩)
                · rw [hb] at hb'; cases hb'; rfl
                · exact absurd rfl (hno _ rfl)
            · simp only [he, if_false]
              constructor
              · intro hf; exact .inr ⟨by simp; exact fun h => he h.symm, hf⟩
              · rintro (⟨x, hx, hxe, _⟩ | ⟨_, hf⟩)
                · simp only [List.mem_singleton] at hx; subst hx; exact absurd hxe.symm he
                · exact hf
          · rw [if_neg hi] at i7
            obtain ⟨ds, hds, hfind⟩ := i7
            refine ⟨ds, hds, ?_⟩
            intro id' d
            rw [hfind]
            simp only [Option.getD_some, Digests.find_insert, List.mem_cons, exists_eq_or_imp, forall_eq_or_imp]
            constructor
            · rintro (hx | ⟨hno, hf⟩)
              · exact .inl (.inr hx)
              · by_cases he : id' = id
                · subst he
                  simp only [if_true, Option.some.injEq] at hf
                  exact .inl (.inl ⟨rfl, bytes, hb, hf.symm⟩)
                · simp only [he, if_false] at hf
                  exact .inr ⟨⟨fun h => he h.symm, hno⟩, hf⟩
            · rintro ((⟨rfl, bytes', hb', rfl⟩ | hx) | ⟨⟨hne, hno⟩, hf⟩)
              · rw [hb] at hb'; cases hb'
                refine .inr ⟨?_, by simp⟩
                intro x hx hxe
                have := (i3 x hx).1
                rw [hxe] at this
                exact this List.mem_cons_self
              · exact .inl hx
              · exact .inr ⟨hno, by rw [if_neg (fun h => hne h.symm)]; exact hf⟩

/-- What the outer loop makes of a dataset: name spaces of the rest are not there yet. -/
theorem addSpaces_ok {b : Build} {fuel : Nat} {E : Codec} {R : Rng} {data : Dict Json} (hn : data.Nodup) {s s' : St}
    (hfresh : ∀ ns, Dict.get? data ns ≠ none → s.nameSpaces.get? ns = none ∧ s.valueDigests.get? ns = none)
    (h : addSpaces b fuel E R data s = some (.ok s')) (ns : String) :
    (∀ v, Dict.get? data ns = some v → ∃ fields, v = .obj fields) ∧
    (Dict.get? data ns = none → s'.nameSpaces.get? ns = s.nameSpaces.get? ns ∧ s'.valueDigests.get? ns = s.valueDigests.get? ns) ∧
    (Dict.get? data ns = some (.obj []) → s'.nameSpaces.get? ns = none ∧ s'.valueDigests.get? ns = none) ∧
    (∀ f fs, Dict.get? data ns = some (.obj (f :: fs)) → ∃ items ds, s'.nameSpaces.get? ns = some items ∧
      s'.valueDigests.get? ns = some ds ∧ Covers E (f :: fs) items ds ∧
      ∀ x ∈ items, ∃ n, abs32 b (R.int32 n) = .ok x.digestId) := by
  induction data generalizing s with
  | nil =>
    simp only [addSpaces, Option.some.injEq, Except.ok.injEq] at h
    subst h
    simp [Dict.get?]
  | cons e rest ih =>
    obtain ⟨k, v⟩ := e
    simp only [addSpaces] at h
    split at h
    · rename_i fields
      split at h
      · cases h
      · simp at h
      · rename_i s1 hitems
        obtain ⟨items, i1, i2, i3, i4, i5, i6, i7⟩ := addItems_ok hitems
        simp only [Dict.Nodup, Dict.keys, List.map_cons, List.nodup_cons] at hn
        have hk : Dict.get? rest k = none := by
          cases hg : Dict.get? rest k with
          | none => rfl
          | some x => exact absurd (List.mem_map.2 ⟨_, Dict.mem_of_get? hg, rfl⟩) hn.1
        have hfr : ∀ ns, Dict.get? rest ns ≠ none → s1.nameSpaces.get? ns = none ∧ s1.valueDigests.get? ns = none := by
          intro ns hns
          have hne : ns ≠ k := by rintro rfl; exact hns hk
          obtain ⟨h1, h2⟩ := i5 ns hne
          rw [h1, h2]
          apply hfresh
          simp only [Dict.get?, Ne.symm hne, if_false]
          exact hns
        obtain ⟨r1, r2, r3, r4⟩ := ih hn.2 hfr h
        by_cases hns : k = ns
        · subst hns
          obtain ⟨h1, h2⟩ := r2 hk
          obtain ⟨f1, f2⟩ := hfresh k (by simp [Dict.get?])
          rw [h1, h2]
          simp only [Dict.get?, if_true]
          refine ⟨?_, by simp, ?_, ?_⟩
          · intro v hv; cases hv; exact ⟨_, rfl⟩
          · intro hv
            simp only [Option.some.injEq, Json.obj.injEq] at hv
            subst hv
            have : items = [] := by simpa using i1
            subst this
            simp only [if_true] at i6 i7
            rw [i6, i7]; exact ⟨f1, f2⟩
          · intro f fs hv
            simp only [Option.some.injEq, Json.obj.injEq] at hv
            subst hv
            have hne : items ≠ [] := by rintro rfl; simp at i1
            rw [if_neg hne] at i6 i7
            obtain ⟨ds, hds, hfind⟩ := i7
            refine ⟨items, ds, ?_, hds, ⟨i1, i2, ?_⟩, ?_⟩
            · rw [i6, f1]; simp
            · intro id d
              rw [hfind, f2]
              simp [Digests.find]
            · intro x hx
              obtain ⟨_, n, _, h⟩ := i3 x hx
              exact ⟨n, h⟩
        · obtain ⟨h1, h2⟩ := i5 ns (Ne.symm hns)
          simp only [Dict.get?, hns, if_false]
          rw [← h1, ← h2]
          exact ⟨r1, r2, r3, r4⟩
    · simp at h

theorem sign_ok {E : Codec} {signer : Signer} {now : Nat → Int} {s : St} {doc : IssuerSigned} :
    sign E signer now s = .ok doc ↔ ∃ key bytes, signer.publicKey = .ok key ∧
      E.msoBytes ⟨s.valueDigests, key, now 1, now 2, now 0 + validity⟩ = .ok bytes ∧ signer.algorithm = .edDSA ∧
      doc = ⟨s.nameSpaces, ⟨signer.algorithm, signer.verificationMethod, bytes, signer.sign bytes⟩⟩ := by
  unfold sign
  simp only [Except.bind_ok, require_ok, decide_eq_true_eq, pure, Except.pure, Except.ok.injEq]
  constructor
  · rintro ⟨key, h1, bytes, h2, _, h3, rfl⟩; exact ⟨key, bytes, h1, h2, h3, rfl⟩
  · rintro ⟨key, bytes, h1, h2, h3, rfl⟩; exact ⟨key, h1, bytes, h2, (), h3, rfl⟩

theorem document_ok {b : Build} {fuel : Nat} {E : Codec} {R : Rng} {signer : Signer} {now : Nat → Int} {data : Dict Json} {doc : IssuerSigned} :
    document b fuel E R signer now data = some (.ok doc) ↔
      ∃ s, addSpaces b fuel E R data ⟨[], [], 0, 0⟩ = some (.ok s) ∧ sign E signer now s = .ok doc := by
  unfold document
  split <;> simp_all

/-! ### C59, C60, C61 -/

/-- **C59**. Within a name space no two items have the same digest id, for every random source. -/
theorem C59_digest_ids_unique (b : Build) (fuel : Nat) (E : Codec) (R : Rng) (signer : Signer) (now : Nat → Int) (data : Dict Json) (hn : data.Nodup)
    (doc : IssuerSigned) (h : document b fuel E R signer now data = some (.ok doc)) (ns : String) (items : List Item)
    (hi : doc.nameSpaces.get? ns = some items) : (items.map Item.digestId).Nodup := by
  obtain ⟨s, hs, hsign⟩ := document_ok.1 h
  obtain ⟨key, bytes, _, _, _, rfl⟩ := sign_ok.1 hsign
  have hsp := addSpaces_ok hn (by intro ns _; exact ⟨rfl, rfl⟩) hs ns
  cases hg : Dict.get? data ns with
  | none => rw [(hsp.2.1 hg).1] at hi; cases hi
  | some v =>
    obtain ⟨fields, rfl⟩ := hsp.1 v hg
    cases fields with
    | nil => rw [(hsp.2.2.1 hg).1] at hi; cases hi
    | cons f fs =>
      obtain ⟨items', ds, h1, h2, h3, _⟩ := hsp.2.2.2 f fs hg
      rw [h1] at hi; cases hi
      exact h3.unique

/-- **C60**, what holds: where no random draw is the least 32-bit integer, or in a debug build, every digest id is in range. -/
theorem C60_ids_in_range_partial (b : Build) (fuel : Nat) (E : Codec) (R : Rng) (hR : ∀ n, -2147483648 ≤ R.int32 n ∧ R.int32 n < 2147483648)
    (hb : b = .debug ∨ ∀ n, R.int32 n ≠ -2147483648)
    (signer : Signer) (now : Nat → Int) (data : Dict Json) (hn : data.Nodup)
    (doc : IssuerSigned) (h : document b fuel E R signer now data = some (.ok doc)) (ns : String) (items : List Item)
    (hi : doc.nameSpaces.get? ns = some items) : ∀ x ∈ items, 0 ≤ x.digestId ∧ x.digestId < 2 ^ 31 := by
  obtain ⟨s, hs, hsign⟩ := document_ok.1 h
  obtain ⟨key, bytes, _, _, _, rfl⟩ := sign_ok.1 hsign
  have hsp := addSpaces_ok hn (by intro ns _; exact ⟨rfl, rfl⟩) hs ns
  cases hg : Dict.get? data ns with
  | none => rw [(hsp.2.1 hg).1] at hi; cases hi
  | some v =>
    obtain ⟨fields, rfl⟩ := hsp.1 v hg
    cases fields with
    | nil => rw [(hsp.2.2.1 hg).1] at hi; cases hi
    | cons f fs =>
      obtain ⟨items', ds, h1, h2, h3, h4⟩ := hsp.2.2.2 f fs hg
      rw [h1] at hi; cases hi
      intro x hx
      obtain ⟨n, hn⟩ := h4 x hx
      have hr := hR n
      unfold abs32 at hn
      split at hn
      · rename_i hmin
        rcases hb with rfl | hb
        · cases hn
        · exact absurd hmin (hb n)
      · simp only [Except.ok.injEq] at hn
        rw [← hn]
        split <;> omega

/-- **C61**. In an issued mDL each dataset element appears exactly once, the signed security object holds under each id exactly the digest
of that item, there are no other items or digests, and the payload is what was signed. -/
theorem C61_elements_digested_once (b : Build) (fuel : Nat) (E : Codec) (R : Rng) (signer : Signer) (now : Nat → Int) (data : Dict Json)
    (hn : data.Nodup) (doc : IssuerSigned) (h : document b fuel E R signer now data = some (.ok doc)) :
    ∃ mso, E.msoBytes mso = .ok doc.issuerAuth.payload ∧ doc.issuerAuth.signature = signer.sign doc.issuerAuth.payload ∧
      mso.signed = now 1 ∧ mso.validFrom = now 2 ∧ mso.validUntil = now 0 + 365 * 86400 * 1000000000 ∧
      (∀ ns v, Dict.get? data ns = some v → ∃ fields, v = .obj fields ∧
        (fields ≠ [] → ∃ items ds, doc.nameSpaces.get? ns = some items ∧ mso.valueDigests.get? ns = some ds ∧ Covers E fields items ds) ∧
        (fields = [] → doc.nameSpaces.get? ns = none ∧ mso.valueDigests.get? ns = none)) ∧
      (∀ ns, Dict.get? data ns = none → doc.nameSpaces.get? ns = none ∧ mso.valueDigests.get? ns = none) := by
  obtain ⟨s, hs, hsign⟩ := document_ok.1 h
  obtain ⟨key, bytes, _, hm, _, rfl⟩ := sign_ok.1 hsign
  refine ⟨_, hm, rfl, rfl, rfl, rfl, ?_, ?_⟩
  · intro ns v hv
    have hsp := addSpaces_ok hn (by intro ns _; exact ⟨rfl, rfl⟩) hs ns
    obtain ⟨fields, rfl⟩ := hsp.1 v hv
    refine ⟨fields, rfl, ?_, ?_⟩
    · intro hne
      cases fields with
      | nil => exact absurd rfl hne
      | cons f fs =>
        obtain ⟨items', ds, h1, h2, h3, _⟩ := hsp.2.2.2 f fs hv
        exact ⟨_, _, h1, h2, h3⟩
    · rintro rfl; exact hsp.2.2.1 hv
  · intro ns hns
    have hsp := addSpaces_ok hn (by intro ns _; exact ⟨rfl, rfl⟩) hs ns
    exact hsp.2.1 hns

/-- **C61**, refusal: a dataset with a name space that is not an object yields no credential. -/
theorem C61_non_object_refused (b : Build) (fuel : Nat) (E : Codec) (R : Rng) (signer : Signer) (now : Nat → Int) (data : Dict Json)
    (hn : data.Nodup) (ns : String) (v : Json) (hv : Dict.get? data ns = some v) (hno : ∀ fields, v ≠ .obj fields) (out : String) :
    toCredential b fuel E R signer now data ≠ some (.ok out) := by
  intro h
  unfold toCredential at h
  split at h
  · cases h
  · simp at h
  · rename_i doc hdoc
    obtain ⟨s, hs, _⟩ := document_ok.1 hdoc
    obtain ⟨fields, rfl⟩ := (addSpaces_ok hn (by intro ns _; exact ⟨rfl, rfl⟩) hs ns).1 v hv
    exact hno fields rfl

/-! ### Ending -/

/-- The random source is not stuck: as long as not all 2^31 ids are used, a draw outside of the used ones comes eventually. -/
def Fair (b : Build) (R : Rng) : Prop := ∀ n (used : List Int), used.length < 2 ^ 31 → ∃ m, n ≤ m ∧ ∀ id, abs32 b (R.int32 m) = .ok id → id ∉ used

theorem gen_mono {b : Build} {R : Rng} {used : List Int} {fuel n : Nat} {x : Res (Int × Nat)} (h : gen b R used fuel n = some x) (k : Nat) :
    gen b R used (fuel + k) n = some x := by
  induction fuel generalizing n with
  | zero => simp [gen] at h
  | succ fuel ih =>
    rw [show fuel + 1 + k = (fuel + k) + 1 by omega]
    simp only [gen] at h ⊢
    split at h
    · exact h
    · split at h
      · rename_i hu; simp only [hu, if_true]; exact ih h
      · rename_i hu; simp only [hu, if_false]; exact h

theorem gen_ends {b : Build} {R : Rng} (used : List Int) (m : Nat) : ∀ d n, m = n + d → (∀ id, abs32 b (R.int32 m) = .ok id → id ∉ used) →
    gen b R used (d + 1) n ≠ none := by
  intro d
  induction d with
  | zero =>
    rintro n hm h
    subst hm
    simp only [gen]
    split
    · simp
    · rename_i id hid
      simp [h id (by simpa using hid)]
  | succ d ih =>
    intro n hm h
    rw [gen]
    split
    · simp
    · split
      · exact ih (n + 1) (by omega) h
      · simp

theorem addItems_mono {b : Build} {fuel : Nat} {E : Codec} {R : Rng} {ns : String} {used : List Int} {fields : List (String × Json)}
    {s : St} {x : Res St} (h : addItems b fuel E R ns used fields s = some x) (k : Nat) : addItems b (fuel + k) E R ns used fields s = some x := by
  induction fields generalizing used s with
  | nil => exact h
  | cons f fields ih =>
    obtain ⟨name, v⟩ := f
    simp only [addItems] at h ⊢
    cases hg : gen b R used fuel s.draws with
    | none => rw [hg] at h; cases h
    | some y =>
      rw [gen_mono hg k]
      rw [hg] at h
      cases y with
      | error e => exact h
      | ok y =>
        obtain ⟨id, next⟩ := y
        simp only at h ⊢
        cases ha : addItem E R ns name v id next s with
        | error e => rw [ha] at h; exact h
        | ok s1 => rw [ha] at h; exact ih h

theorem addItems_ends {b : Build} {E : Codec} {R : Rng} (hR : Fair b R) {ns : String} (fields : List (String × Json)) (used : List Int) (s : St)
    (hlen : used.length + fields.length ≤ 2 ^ 31) : ∃ fuel x, addItems b fuel E R ns used fields s = some x := by
  induction fields generalizing used s with
  | nil => exact ⟨0, _, rfl⟩
  | cons f fields ih =>
    obtain ⟨name, v⟩ := f
    simp only [List.length_cons] at hlen
    obtain ⟨m, hm, hid⟩ := hR s.draws used (by omega)
    obtain ⟨y, hy⟩ := Option.ne_none_iff_exists'.1 (gen_ends (b := b) (R := R) used m (m - s.draws) s.draws (by omega) hid)
    cases y with
    | error e => exact ⟨_, .error e, by simp only [addItems]; rw [hy]⟩
    | ok y =>
      obtain ⟨id, next⟩ := y
      cases ha : addItem E R ns name v id next s with
      | error e => exact ⟨_, .error e, by simp only [addItems]; rw [hy]; simp only [ha]⟩
      | ok s1 =>
        obtain ⟨fuel, x, hx⟩ := ih (id :: used) s1 (by simp only [List.length_cons]; omega)
        refine ⟨(m - s.draws + 1) + fuel, x, ?_⟩
        simp only [addItems]
        rw [gen_mono hy fuel]
        simp only [ha]
        have := addItems_mono hx (m - s.draws + 1)
        rw [Nat.add_comm] at this
        exact this

theorem addSpaces_mono {b : Build} {fuel : Nat} {E : Codec} {R : Rng} {data : List (String × Json)} {s : St} {x : Res St}
    (h : addSpaces b fuel E R data s = some x) (k : Nat) : addSpaces b (fuel + k) E R data s = some x := by
  induction data generalizing s with
  | nil => exact h
  | cons e data ih =>
    obtain ⟨ns, v⟩ := e
    cases v with
    | obj fields =>
      simp only [addSpaces] at h ⊢
      cases hg : addItems b fuel E R ns [] fields s with
      | none => rw [hg] at h; cases h
      | some y =>
        rw [addItems_mono hg k]
        rw [hg] at h
        cases y with
        | error e => exact h
        | ok s1 => exact ih h
    | _ => exact h

/-- **C61**, progress: the id loop ends for every dataset as long as the random source is not stuck and no name space
has more elements than there are ids, so `to_credential` gives an answer. -/
theorem C61_ends (b : Build) (E : Codec) (R : Rng) (hR : Fair b R) (signer : Signer) (now : Nat → Int) (data : Dict Json)
    (hlen : ∀ ns fields, (ns, Json.obj fields) ∈ data → fields.length ≤ 2 ^ 31) : ∃ fuel, toCredential b fuel E R signer now data ≠ none := by
  have key : ∀ (data : List (String × Json)), (∀ ns fields, (ns, Json.obj fields) ∈ data → fields.length ≤ 2 ^ 31) → ∀ s : St,
      ∃ fuel x, addSpaces b fuel E R data s = some x := by
    intro data
    induction data with
    | nil => intro _ s; exact ⟨0, _, rfl⟩
    | cons e data ih =>
      intro hlen s
      obtain ⟨ns, v⟩ := e
      cases v with
      | obj fields =>
        obtain ⟨f1, y, hy⟩ := addItems_ends (E := E) hR (ns := ns) fields [] s
          (by have := hlen ns fields List.mem_cons_self; simpa using this)
        cases y with
        | error e => exact ⟨f1, .error e, by simp only [addSpaces]; rw [hy]⟩
        | ok s1 =>
          obtain ⟨f2, x, hx⟩ := ih (fun n f h => hlen n f (List.mem_cons_of_mem _ h)) s1
          refine ⟨f1 + f2, x, ?_⟩
          simp only [addSpaces]
          rw [addItems_mono hy f2]
          have := addSpaces_mono hx f1
          rw [Nat.add_comm] at this
          exact this
      | _ => exact ⟨0, _, rfl⟩
  obtain ⟨fuel, x, hx⟩ := key data hlen ⟨[], [], 0, 0⟩
  refine ⟨fuel, ?_⟩
  unfold toCredential document
  rw [hx]
  cases x with
  | error e => simp
  | ok s => simp only; cases sign E signer now s <;> simp

/-! ### C75, C76 -/

/-- **C75 is false**: the device key in every issued mDL is the issuer's own key; the holder's key has no way in. -/
theorem C75_device_key_is_issuers (b : Build) (fuel : Nat) (E : Codec) (R : Rng) (signer : Signer) (now : Nat → Int) (data : Dict Json)
    (doc : IssuerSigned) (h : document b fuel E R signer now data = some (.ok doc)) :
    ∃ mso, E.msoBytes mso = .ok doc.issuerAuth.payload ∧ .ok mso.deviceKey = signer.publicKey := by
  obtain ⟨s, hs, hsign⟩ := document_ok.1 h
  obtain ⟨key, bytes, hk, hm, _, rfl⟩ := sign_ok.1 hsign
  exact ⟨_, hm, hk.symm⟩

/-- What a COSE_Sign1 signature is made over, RFC 9052 §4.4: `["Signature1", protected, external_aad, payload]` in CBOR. `bstr` is the CBOR
encoding of a byte string, `prot` the encoded protected header. -/
def sigStructure (bstr : Bytes → Bytes) (prot payload : Bytes) : Bytes :=
  [0x84, 0x6a] ++ "Signature1".toUTF8.toList ++ bstr prot ++ bstr [] ++ bstr payload

/-- **C76 is false**: the signature is made over the payload alone, so a verifier that follows RFC 9052 never finds it to be the
signature of the structure, under every signature scheme where different messages have different signatures. -/
theorem C76_signature_not_cose (b : Build) (fuel : Nat) (E : Codec) (R : Rng) (signer : Signer) (now : Nat → Int) (data : Dict Json)
    (doc : IssuerSigned) (h : document b fuel E R signer now data = some (.ok doc))
    (hinj : ∀ x y, signer.sign x = signer.sign y → x = y) (bstr : Bytes → Bytes) (hbstr : ∀ x, x.length ≤ (bstr x).length) (prot : Bytes) :
    doc.issuerAuth.signature ≠ signer.sign (sigStructure bstr prot doc.issuerAuth.payload) := by
  obtain ⟨s, hs, hsign⟩ := document_ok.1 h
  obtain ⟨key, bytes, hk, hm, _, rfl⟩ := sign_ok.1 hsign
  intro he
  have := congrArg List.length (hinj _ _ he)
  simp only [sigStructure, List.length_append, List.length_cons, List.length_nil] at this
  have := hbstr bytes
  omega

/-! ### A concrete issuance -/

namespace Demo

def E : Codec where
  cborOk _ := true
  itemBytes x := .ok (x.identifier.toUTF8.toList ++ x.random)
  msoBytes m := .ok m.deviceKey
  docBytes d := .ok d.issuerAuth.payload
  sha256 x := x
  base64 x := toString x.length

/-- Draws -1, 1, 2, 3, …: the second collides with the first. -/
def R : Rng where
  int32 n := if n = 0 then -1 else n
  salt n := [n.toUInt8]

def signer : Signer where
  publicKey := .ok [1, 2, 3]
  sign x := x
  algorithm := .edDSA
  verificationMethod := "did:web:issuer#0"

def data : Dict Json := [("org.iso.18013.5.1", .obj [("given_name", .str "A"), ("family_name", .str "B")]), ("empty", .obj [])]

example : ∃ doc items, document .debug 5 E R signer (fun n => n) data = some (.ok doc) ∧ (Dict.keys data).Nodup ∧
    doc.nameSpaces.get? "org.iso.18013.5.1" = some items ∧ items.map Item.digestId = [1, 2] :=
  ⟨_, _, rfl, by decide, rfl, rfl⟩

example : ∃ out, toCredential .debug 5 E R signer (fun n => n) data = some (.ok out) := ⟨_, rfl⟩

theorem unused : ∀ (k : Nat) (used : List Int), used.length < k → ∃ j : Nat, j < k ∧ (j : Int) ∉ used := by
  intro k
  induction k with
  | zero => intro used h; omega
  | succ k ih =>
    intro used h
    by_cases hm : (k : Int) ∈ used
    · have hp := List.length_pos_of_mem hm
      obtain ⟨j, hj, hn⟩ := ih (used.erase k) (by rw [List.length_erase_of_mem hm]; omega)
      refine ⟨j, by omega, ?_⟩
      rw [List.mem_erase_of_ne (by omega)] at hn
      exact hn
    · exact ⟨k, by omega, hm⟩

/-- A source that runs through all ids again and again is fair. -/
example : Fair .debug { int32 := fun n => ((n % 2147483648 : Nat) : Int), salt := fun _ => [] } := by
  intro n used hlen
  obtain ⟨j, hj, hu⟩ := unused _ used hlen
  refine ⟨n * 2147483648 + j, by omega, ?_⟩
  intro id hid
  have hmod : (n * 2147483648 + j) % 2147483648 = j := by omega
  simp only [hmod, abs32] at hid
  rw [if_neg (by omega), if_neg (by omega)] at hid
  cases hid
  exact hu

/-- A random source that gives the least 32-bit integer first. -/
def Rmin : Rng where
  int32 n := if n = 0 then -2147483648 else n
  salt n := [n.toUInt8]

/-- **C60 is false**: in a release build the least integer is used as a (negative) digest id, in a debug build it panics. -/
theorem C60_negative_id :
    (∃ doc items, document .release 5 E Rmin signer (fun n => n) data = some (.ok doc) ∧ doc.nameSpaces.get? "org.iso.18013.5.1" = some items ∧
      items.map Item.digestId = [-2147483648, 1]) ∧
    ∃ m, toCredential .debug 5 E Rmin signer (fun n => n) data = some (.error (.panic m)) :=
  ⟨⟨_, _, rfl, rfl, rfl⟩, _, rfl⟩

end Demo

end Verif.Mdl
