import Verif.Mdl.Text
import Verif.Mdl.Props
/-!
# Reading back what was written
-/
namespace Verif.Mdl

/-! ### Sizes and ranges -/

theorem FitsArr_iff (l : List Cbor) : FitsArr l ↔ ∀ c ∈ l, c.Fits := by
  induction l with
  | nil => simp [FitsArr]
  | cons c l ih => simp [FitsArr, ih]

theorem FitsMap_iff (m : List (Cbor × Cbor)) : FitsMap m ↔ ∀ e ∈ m, e.1.Fits ∧ e.2.Fits := by
  induction m with
  | nil => simp [FitsMap]
  | cons e m ih =>
    obtain ⟨k, v⟩ := e
    simp [FitsMap, ih, and_assoc]

theorem mem_encodeArr {l : List Cbor} {c : Cbor} (h : c ∈ l) : c.encode.length ≤ (encodeArr l).length := by
  induction l with
  | nil => cases h
  | cons d l ih =>
    simp only [encodeArr, List.length_append]
    rcases List.mem_cons.1 h with rfl | h
    · omega
    · have := ih h; omega

theorem mem_encodeMap {m : List (Cbor × Cbor)} {e : Cbor × Cbor} (h : e ∈ m) : e.2.encode.length ≤ (encodeMap m).length := by
  induction m with
  | nil => cases h
  | cons d m ih =>
    obtain ⟨k, v⟩ := d
    simp only [encodeMap, List.length_append]
    rcases List.mem_cons.1 h with rfl | h
    · show v.encode.length ≤ _
      omega
    · have := ih h; omega

theorem arr_length (l : List Cbor) : (encodeArr l).length ≤ (Cbor.arr l).encode.length := by
  simp only [Cbor.encode, List.length_append]; omega

theorem map_length (m : List (Cbor × Cbor)) : (encodeMap m).length ≤ (Cbor.map m).encode.length := by
  simp only [Cbor.encode, List.length_append]; omega

theorem mem_arr {l : List Cbor} {c : Cbor} (h : c ∈ l) : c.encode.length ≤ (Cbor.arr l).encode.length := Nat.le_trans (mem_encodeArr h) (arr_length l)

theorem mem_map {m : List (Cbor × Cbor)} {k v : Cbor} (h : (k, v) ∈ m) : v.encode.length ≤ (Cbor.map m).encode.length :=
  Nat.le_trans (mem_encodeMap h) (map_length m)

theorem bytes_length (b : Bytes) : b.length ≤ (Cbor.bytes b).encode.length := by
  simp only [Cbor.encode, List.length_append]; omega

theorem tag24_length (b : Bytes) : b.length ≤ (tag24 b).encode.length := by
  have := bytes_length b
  rw [tag24, Cbor.encode, List.length_append]
  omega

theorem tag24_fits (b : Bytes) : (tag24 b).Fits := by simp [tag24, Cbor.Fits]

mutual

theorem fits_toCbor {num : String → Cbor} (hnum : ∀ t, (num t).Fits) : ∀ j, (toCbor num j).Fits
  | .null => by simp [toCbor, Cbor.Fits]
  | .bool _ => by simp [toCbor, Cbor.Fits]
  | .num t => hnum t
  | .str _ => by simp [toCbor, Cbor.Fits]
  | .arr l => fits_toCborList hnum l
  | .obj m => fits_toCborEntries hnum m

theorem fits_toCborList {num : String → Cbor} (hnum : ∀ t, (num t).Fits) : ∀ l, FitsArr (toCborList num l)
  | [] => trivial
  | j :: l => ⟨fits_toCbor hnum j, fits_toCborList hnum l⟩

theorem fits_toCborEntries {num : String → Cbor} (hnum : ∀ t, (num t).Fits) : ∀ m, FitsMap (toCborEntries num m)
  | [] => trivial
  | (_, j) :: m => ⟨trivial, fits_toCbor hnum j, fits_toCborEntries hnum m⟩

end

theorem fits_octets (b : Bytes) : (octets b).Fits := by
  rw [octets, Cbor.Fits, FitsArr_iff]
  intro c hc
  obtain ⟨x, _, rfl⟩ := List.mem_map.1 hc
  have := x.toNat_lt
  simp only [Cbor.Fits]
  omega

/-! ### Reading the parts -/

theorem mapM_map {α β γ : Type} {f : β → Option γ} {g : α → β} {h : α → γ} : ∀ (l : List α), (∀ x ∈ l, f (g x) = some (h x)) →
    (l.map g).mapM f = some (l.map h)
  | [], _ => rfl
  | x :: l, hx => by
    rw [List.map_cons, List.mapM_cons, hx x List.mem_cons_self, Option.bind_eq_bind, Option.bind_some, mapM_map l (fun y hy => hx y (List.mem_cons_of_mem _ hy))]
    rfl

theorem readOctets_octets (b : Bytes) : readOctets (octets b) = some b := by
  simp only [octets, readOctets]
  rw [mapM_map (h := id)]
  · rw [List.map_id]
  · intro x _
    have := x.toNat_lt
    simp only
    rw [if_pos (by omega)]
    simp

theorem readInt_int {n : Int} (h : -2147483648 ≤ n ∧ n < 2147483648) : readInt (.int n) = some n := if_pos h

theorem fits_int {n : Int} (h : -2147483648 ≤ n ∧ n < 2147483648) : (Cbor.int n).Fits := by
  simp only [Cbor.Fits]; omega

/-- An item as it is read. -/
def ReadItem.of (W : World) (x : Item) : ReadItem where
  raw := (itemCbor W x).encode
  digestId := x.digestId
  random := x.random
  identifier := x.identifier
  value := toCbor W.num x.value

theorem fits_item {W : World} (hnum : ∀ t, (W.num t).Fits) (x : Item) (hid : -2147483648 ≤ x.digestId ∧ x.digestId < 2147483648) : (itemCbor W x).Fits :=
  ⟨trivial, fits_int hid, trivial, fits_octets _, trivial, trivial, trivial, fits_toCbor hnum _, trivial⟩

theorem readItem_item (W : World) (hnum : ∀ t, (W.num t).Fits) (x : Item) (hid : -2147483648 ≤ x.digestId ∧ x.digestId < 2147483648)
    (hl : (itemCbor W x).encode.length < 2 ^ 64) : readItem (tag24 (itemCbor W x).encode) = some (.of W x) := by
  simp only [readItem, tag24, decode_encode (fits_item hnum x hid) hl]
  simp [itemCbor, field, readText, readOctets_octets, readInt_int hid, ReadItem.of]

theorem readDict_map {α β : Type} {read : Cbor → Option β} {f : α → Cbor} {g : α → β} (m : List (String × α)) (h : ∀ e ∈ m, read (f e.2) = some (g e.2)) :
    readDict read (.map (m.map fun e => (.text e.1, f e.2))) = some (m.map fun e => (e.1, g e.2)) := by
  rw [readDict]
  apply mapM_map
  intro e he
  simp [readText, h e he]

theorem place_perm {α : Type} (le : α → α → Bool) (x : α) (l : List α) : (place le x l).Perm (x :: l) := by
  induction l with
  | nil => exact .refl _
  | cons y l ih =>
    rw [place]
    split
    · exact .refl _
    · exact (ih.cons y).trans (.swap x y l)

theorem inOrder_perm {α : Type} (le : α → α → Bool) (l : List α) : (inOrder le l).Perm l := by
  induction l with
  | nil => exact .refl _
  | cons x l ih => exact (place_perm le x _).trans (ih.cons x)

theorem mem_sortKeys {α : Type} {m : List (String × α)} {e : String × α} : e ∈ sortKeys m ↔ e ∈ m := (inOrder_perm _ _).mem_iff

theorem mem_sortIds {α : Type} {m : List (Int × α)} {e : Int × α} : e ∈ sortIds m ↔ e ∈ m := (inOrder_perm _ _).mem_iff

theorem sortKeys_nodup {α : Type} {m : Dict α} (h : m.Nodup) : Dict.Nodup (sortKeys m) :=
  ((inOrder_perm _ m).map Prod.fst).nodup_iff.2 h

/-- Order does not matter to looking up. -/
theorem get?_sortKeys {α : Type} {m : Dict α} (h : m.Nodup) (k : String) : Dict.get? (sortKeys m) k = m.get? k := by
  cases hm : m.get? k with
  | some v => exact Dict.get?_of_mem (sortKeys_nodup h) (mem_sortKeys.2 (Dict.mem_of_get? hm))
  | none =>
    cases hs : Dict.get? (sortKeys m) k with
    | none => rfl
    | some v =>
      rw [Dict.get?_of_mem h (mem_sortKeys.1 (Dict.mem_of_get? hs))] at hm
      cases hm

theorem get?_map {α β : Type} (g : α → β) (m : List (String × α)) (k : String) : Dict.get? (m.map fun e => (e.1, g e.2)) k = (Dict.get? m k).map g := by
  induction m with
  | nil => rfl
  | cons e m ih =>
    simp only [List.map_cons, Dict.get?]
    split
    · rfl
    · exact ih

/-- The ids of digests. -/
def Digests.ids (ds : Digests) : List Int := ds.map Prod.fst

theorem Digests.mem_of_find {ds : Digests} {id : Int} {d : Bytes} (h : ds.find id = some d) : (id, d) ∈ ds := by
  induction ds with
  | nil => cases h
  | cons e ds ih =>
    obtain ⟨i, x⟩ := e
    simp only [Digests.find] at h
    split at h
    · rename_i hi; cases h; subst hi; exact List.mem_cons_self
    · exact List.mem_cons_of_mem _ (ih h)

theorem Digests.find_of_mem {ds : Digests} (hn : ds.ids.Nodup) {id : Int} {d : Bytes} (h : (id, d) ∈ ds) : ds.find id = some d := by
  induction ds with
  | nil => cases h
  | cons e ds ih =>
    obtain ⟨i, x⟩ := e
    simp only [Digests.ids, List.map_cons, List.nodup_cons] at hn
    rcases List.mem_cons.1 h with h | h
    · cases h; simp [Digests.find]
    · have hne : i ≠ id := by rintro rfl; exact hn.1 (List.mem_map.2 ⟨_, h, rfl⟩)
      simp only [Digests.find, hne, if_false]
      exact ih hn.2 h

theorem find_sortIds {ds : Digests} (hn : ds.ids.Nodup) (id : Int) : Digests.find (sortIds ds) id = ds.find id := by
  have hs : Digests.ids (sortIds ds) |>.Nodup := ((inOrder_perm _ ds).map Prod.fst).nodup_iff.2 hn
  cases hm : ds.find id with
  | some v => exact Digests.find_of_mem hs (mem_sortIds.2 (Digests.mem_of_find hm))
  | none =>
    cases hf : Digests.find (sortIds ds) id with
    | none => rfl
    | some v =>
      rw [Digests.find_of_mem hn (mem_sortIds.1 (Digests.mem_of_find hf))] at hm
      cases hm

theorem readDigests_digests (ds : Digests) (h : ∀ i ∈ ds.ids, -2147483648 ≤ i ∧ i < 2147483648) : readDigests (digestsCbor ds) = some (sortIds ds) := by
  simp only [digestsCbor, readDigests]
  rw [mapM_map (h := id)]
  · rw [List.map_id]
  · intro e he
    simp only [readInt_int (h e.1 (List.mem_map.2 ⟨e, mem_sortIds.1 he, rfl⟩)), readOctets_octets]
    rfl

theorem fits_digests (ds : Digests) (h : ∀ i ∈ ds.ids, -2147483648 ≤ i ∧ i < 2147483648) : (digestsCbor ds).Fits := by
  simp only [digestsCbor, Cbor.Fits, FitsMap_iff]
  intro e he
  obtain ⟨d, hd, rfl⟩ := List.mem_map.1 he
  exact ⟨fits_int (h d.1 (List.mem_map.2 ⟨d, mem_sortIds.1 hd, rfl⟩)), fits_octets _⟩

/-! ### The states `to_credential` goes through -/

/-- No name space twice, no id twice in the digests of a name space, and ids are 32-bit. -/
structure Tidy (s : St) : Prop where
  spaces : s.nameSpaces.Nodup
  digests : s.valueDigests.Nodup
  items : ∀ e ∈ s.nameSpaces, ∀ x ∈ e.2, -2147483648 ≤ x.digestId ∧ x.digestId < 2147483648
  ids : ∀ e ∈ s.valueDigests, e.2.ids.Nodup ∧ ∀ i ∈ e.2.ids, -2147483648 ≤ i ∧ i < 2147483648

theorem Digests.mem_ids_insert {ds : Digests} {id i : Int} {d : Bytes} (h : i ∈ (ds.insert id d).ids) : i = id ∨ i ∈ ds.ids := by
  induction ds with
  | nil => simpa [Digests.insert, Digests.ids] using h
  | cons e ds ih =>
    obtain ⟨j, x⟩ := e
    simp only [Digests.insert] at h
    split at h
    · simp only [Digests.ids, List.map_cons, List.mem_cons] at h ⊢
      rcases h with h | h
      · exact .inl h
      · exact .inr (.inr h)
    · simp only [Digests.ids, List.map_cons, List.mem_cons] at h ⊢
      rcases h with h | h
      · exact .inr (.inl h)
      · rcases ih h with h | h
        · exact .inl h
        · exact .inr (.inr h)

theorem Digests.nodup_insert {ds : Digests} (hn : ds.ids.Nodup) (id : Int) (d : Bytes) : (ds.insert id d).ids.Nodup := by
  induction ds with
  | nil => simp [Digests.insert, Digests.ids]
  | cons e ds ih =>
    obtain ⟨j, x⟩ := e
    simp only [Digests.ids, List.map_cons, List.nodup_cons] at hn
    simp only [Digests.insert]
    split
    · rename_i h; subst h
      simp only [Digests.ids, List.map_cons, List.nodup_cons]; exact hn
    · rename_i h
      simp only [Digests.ids, List.map_cons, List.nodup_cons]
      refine ⟨fun hm => ?_, ih hn.2⟩
      rcases Digests.mem_ids_insert hm with h' | h'
      · exact h h'
      · exact hn.1 h'

theorem tidy_add {s : St} (h : Tidy s) (ns : String) (x : Item) (d : Bytes) (n m : Nat) (hx : -2147483648 ≤ x.digestId ∧ x.digestId < 2147483648) :
    Tidy { s.add ns x d with draws := n, salts := m } where
  spaces := Dict.nodup_insert h.spaces _ _
  digests := Dict.nodup_insert h.digests _ _
  items := by
    intro e he y hy
    rcases Dict.mem_insert he with rfl | he
    · rcases List.mem_append.1 hy with hy | hy
      · cases hg : s.nameSpaces.get? ns with
        | none => rw [hg] at hy; cases hy
        | some l => rw [hg] at hy; exact h.items _ (Dict.mem_of_get? hg) y hy
      · cases List.mem_singleton.1 hy; exact hx
    · exact h.items e he y hy
  ids := by
    intro e he
    rcases Dict.mem_insert he with rfl | he
    · cases hg : s.valueDigests.get? ns with
      | none =>
        simp only [Option.getD_none]
        refine ⟨Digests.nodup_insert (by simp [Digests.ids]) _ _, fun i hi => ?_⟩
        rcases Digests.mem_ids_insert hi with rfl | hi
        · exact hx
        · cases hi
      | some l =>
        have := h.ids _ (Dict.mem_of_get? hg)
        simp only [Option.getD_some]
        refine ⟨Digests.nodup_insert this.1 _ _, fun i hi => ?_⟩
        rcases Digests.mem_ids_insert hi with rfl | hi
        · exact hx
        · exact this.2 i hi
    · exact h.ids e he

theorem abs32_range {b : Build} {x y : Int} (hx : -2147483648 ≤ x ∧ x < 2147483648) (h : abs32 b x = .ok y) : -2147483648 ≤ y ∧ y < 2147483648 := by
  unfold abs32 at h
  split at h
  · cases b
    · cases h
    · cases h; omega
  · cases h
    split <;> omega

theorem addItems_tidy {b : Build} {fuel : Nat} {E : Codec} {R : Rng} (hR : ∀ n, -2147483648 ≤ R.int32 n ∧ R.int32 n < 2147483648) {ns : String} {used : List Int}
    {fields : List (String × Json)} {s s' : St} (ht : Tidy s) (h : addItems b fuel E R ns used fields s = some (.ok s')) : Tidy s' := by
  induction fields generalizing used s with
  | nil => simp only [addItems, Option.some.injEq, Except.ok.injEq] at h; exact h ▸ ht
  | cons f fields ih =>
    obtain ⟨k, v⟩ := f
    simp only [addItems] at h
    split at h
    · cases h
    · simp at h
    · rename_i id next hgen
      split at h
      · simp at h
      · rename_i s1 hadd
        obtain ⟨_, _, habs⟩ := gen_ok hgen
        obtain ⟨-, bytes, hb, rfl⟩ := addItem_ok.1 hadd
        exact ih (tidy_add ht _ _ _ _ _ (abs32_range (hR _) habs)) h

theorem addSpaces_tidy {b : Build} {fuel : Nat} {E : Codec} {R : Rng} (hR : ∀ n, -2147483648 ≤ R.int32 n ∧ R.int32 n < 2147483648)
    {data : List (String × Json)} {s s' : St} (ht : Tidy s) (h : addSpaces b fuel E R data s = some (.ok s')) : Tidy s' := by
  induction data generalizing s with
  | nil => simp only [addSpaces, Option.some.injEq, Except.ok.injEq] at h; exact h ▸ ht
  | cons e data ih =>
    obtain ⟨ns, v⟩ := e
    simp only [addSpaces] at h
    split at h
    · split at h
      · cases h
      · simp at h
      · rename_i s1 h1
        exact ih (addItems_tidy hR ht h1) h
    · simp at h

/-! ### The whole document -/

theorem over_inside (t : TagVec) (raw : Bytes) (h : (t.over raw).length < 2 ^ 64) : t.inside (t.over raw) = some raw := by
  cases t with
  | whole =>
    simp only [TagVec.inside, TagVec.over] at h ⊢
    rw [decode_encode (tag24_fits raw) h]
    rfl
  | inner => rfl

theorem raw_le_over (t : TagVec) (raw : Bytes) : raw.length ≤ (t.over raw).length := by
  cases t with
  | whole => exact tag24_length raw
  | inner => exact Nat.le_refl _

/-- The security object as it is read. -/
def ReadMso.of (W : World) (m : Mso) : ReadMso where
  version := "1.0"
  digestAlgorithm := "SHA-256"
  valueDigests := (sortKeys m.valueDigests).map fun e => (e.1, sortIds e.2)
  deviceKey := W.key m.deviceKey
  docType := "org.iso.18013.5.1.mDL"
  signed := W.time m.signed
  validFrom := W.time m.validFrom
  validUntil := W.time m.validUntil

theorem fits_mso (W : World) (hkey : ∀ k, (W.key k).Fits) (m : Mso) (hd : ∀ e ∈ m.valueDigests, ∀ i ∈ e.2.ids, -2147483648 ≤ i ∧ i < 2147483648) :
    (msoCbor W m).Fits := by
  have h1 : FitsMap ((sortKeys m.valueDigests).map fun e => (Cbor.text e.1, digestsCbor e.2)) := by
    rw [FitsMap_iff]
    intro e he
    obtain ⟨d, hd', rfl⟩ := List.mem_map.1 he
    exact ⟨trivial, fits_digests _ (hd d (mem_sortKeys.1 hd'))⟩
  exact ⟨trivial, trivial, trivial, trivial, trivial, h1, trivial, ⟨trivial, hkey _, trivial⟩, trivial, trivial, trivial,
    ⟨trivial, trivial, trivial, trivial, trivial, trivial, trivial, trivial, trivial⟩, trivial⟩

theorem field_here (k : String) (v : Cbor) (m : List (Cbor × Cbor)) : field k ((.text k, v) :: m) = some v := if_pos rfl

theorem field_there {k n : String} (v : Cbor) (m : List (Cbor × Cbor)) (h : k ≠ n) : field n ((.text k, v) :: m) = field n m := if_neg h

theorem readMsoCbor_mso (W : World) (m : Mso) (hd : ∀ e ∈ m.valueDigests, ∀ i ∈ e.2.ids, -2147483648 ≤ i ∧ i < 2147483648) :
    readMsoCbor (msoCbor W m) = some (.of W m) := by
  have hdig := readDict_map (read := readDigests) (f := digestsCbor) (g := sortIds) (sortKeys m.valueDigests)
    (fun e he => readDigests_digests e.2 (hd e (mem_sortKeys.1 he)))
  rw [msoCbor, readMsoCbor]
  rw [field_here, field_there _ _ (by decide), field_here, field_there _ _ (by decide), field_there _ _ (by decide), field_here,
    field_there _ _ (by decide), field_there _ _ (by decide), field_there _ _ (by decide), field_here,
    field_there _ _ (by decide), field_there _ _ (by decide), field_there _ _ (by decide), field_there _ _ (by decide), field_here,
    field_there _ _ (by decide), field_there _ _ (by decide), field_there _ _ (by decide), field_there _ _ (by decide), field_there _ _ (by decide), field_here]
  simp only [Option.bind_some, Option.bind_eq_bind, hdig, readText]
  rw [field_here, field_here, field_there _ _ (by decide), field_here, field_there _ _ (by decide), field_there _ _ (by decide), field_here]
  rfl

theorem readMso_mso (W : World) (hkey : ∀ k, (W.key k).Fits) (m : Mso) (hd : ∀ e ∈ m.valueDigests, ∀ i ∈ e.2.ids, -2147483648 ≤ i ∧ i < 2147483648)
    (hl : (W.tagVec.over (msoCbor W m).encode).length < 2 ^ 64) : readMso W.tagVec (W.tagVec.over (msoCbor W m).encode) = some (.of W m) := by
  have hlen := Nat.lt_of_le_of_lt (raw_le_over W.tagVec (msoCbor W m).encode) hl
  rw [readMso, over_inside _ _ hl, Option.bind_eq_bind, Option.bind_some, decode_encode (fits_mso W hkey m hd) hlen, Option.bind_eq_bind, Option.bind_some,
    readMsoCbor_mso W m hd]

/-- The document as it is read. -/
def ReadDoc.of (W : World) (d : IssuerSigned) : ReadDoc where
  nameSpaces := (sortKeys d.nameSpaces).map fun e => (e.1, e.2.map (ReadItem.of W))
  issuerAuth := { header := (Cbor.map [(.int 1, .int (algNumber d.issuerAuth.algorithm))]).encode, keyId := utf8 d.issuerAuth.keyId.toList, payload := d.issuerAuth.payload,
                  signature := d.issuerAuth.signature }

theorem item_length (W : World) (d : IssuerSigned) {e : String × List Item} (he : e ∈ d.nameSpaces) {x : Item} (hx : x ∈ e.2) :
    (itemCbor W x).encode.length ≤ (docCbor W d).encode.length :=
  Nat.le_trans (tag24_length _) <| Nat.le_trans (mem_arr (List.mem_map.2 ⟨x, hx, rfl⟩)) <|
    Nat.le_trans (mem_map (List.mem_map.2 ⟨e, mem_sortKeys.2 he, rfl⟩)) (mem_map List.mem_cons_self)

theorem payload_length (W : World) (d : IssuerSigned) : d.issuerAuth.payload.length ≤ (docCbor W d).encode.length :=
  Nat.le_trans (bytes_length _) <| Nat.le_trans (mem_arr (List.mem_cons_of_mem _ (List.mem_cons_of_mem _ List.mem_cons_self)))
    (mem_map (List.mem_cons_of_mem _ List.mem_cons_self))

theorem fits_doc (W : World) (d : IssuerSigned) : (docCbor W d).Fits := by
  have h1 : FitsMap ((sortKeys d.nameSpaces).map fun e => (Cbor.text e.1, Cbor.arr (e.2.map fun x => tag24 (itemCbor W x).encode))) := by
    rw [FitsMap_iff]
    intro e he
    obtain ⟨d, hd', rfl⟩ := List.mem_map.1 he
    refine ⟨trivial, ?_⟩
    rw [Cbor.Fits, FitsArr_iff]
    intro c hc
    obtain ⟨x, _, rfl⟩ := List.mem_map.1 hc
    exact tag24_fits _
  have h2 : (authCbor d.issuerAuth).Fits := ⟨trivial, ⟨fits_int (by omega), trivial, trivial⟩, trivial, trivial, trivial⟩
  exact ⟨trivial, h1, trivial, h2, trivial⟩

theorem readDoc_doc (W : World) (hnum : ∀ t, (W.num t).Fits) (d : IssuerSigned)
    (hi : ∀ e ∈ d.nameSpaces, ∀ x ∈ e.2, -2147483648 ≤ x.digestId ∧ x.digestId < 2147483648) (hl : (docCbor W d).encode.length < 2 ^ 64) :
    (decode (docCbor W d).encode).bind readDoc = some (.of W d) := by
  rw [decode_encode (fits_doc W d) hl, Option.bind_some]
  have hitem : ∀ e ∈ sortKeys d.nameSpaces, readItems (.arr (e.2.map fun x => tag24 (itemCbor W x).encode)) = some (e.2.map (ReadItem.of W)) := by
    intro e he
    rw [readItems]
    apply mapM_map
    intro x hx
    exact readItem_item W hnum x (hi e (mem_sortKeys.1 he) x hx) (Nat.lt_of_le_of_lt (item_length W d (mem_sortKeys.1 he) hx) hl)
  have hd := readDict_map (read := readItems) (f := fun l => Cbor.arr (l.map fun x => tag24 (itemCbor W x).encode)) (g := fun l => l.map (ReadItem.of W))
    (sortKeys d.nameSpaces) hitem
  have h1 : field "nameSpaces" [(Cbor.text "nameSpaces", Cbor.map ((sortKeys d.nameSpaces).map fun e => (.text e.1, .arr (e.2.map fun x => tag24 (itemCbor W x).encode)))),
      (.text "issuerAuth", authCbor d.issuerAuth)] = some (.map ((sortKeys d.nameSpaces).map fun e => (.text e.1, .arr (e.2.map fun x => tag24 (itemCbor W x).encode)))) := by
    simp [field]
  have h2 : field "issuerAuth" [(Cbor.text "nameSpaces", Cbor.map ((sortKeys d.nameSpaces).map fun e => (.text e.1, .arr (e.2.map fun x => tag24 (itemCbor W x).encode)))),
      (.text "issuerAuth", authCbor d.issuerAuth)] = some (authCbor d.issuerAuth) := by
    simp [field]
  simp only [docCbor, readDoc, h1, h2, hd, Option.bind_some, Option.bind_eq_bind]
  rfl

/-- What `to_credential` gives. -/
theorem toCredential_ok {W : World} {b : Build} {fuel : Nat} {R : Rng} {signer : Signer} {now : Nat → Int} {data : Dict Json} {out : String}
    (h : toCredential b fuel W.codec R signer now data = some (.ok out)) :
    ∃ doc, document b fuel W.codec R signer now data = some (.ok doc) ∧ out.toList = Verif.base64 (docCbor W doc).encode := by
  unfold toCredential at h
  split at h
  · cases h
  · simp at h
  · rename_i doc hdoc
    refine ⟨doc, hdoc, ?_⟩
    simp only [World.codec, Except.map, Option.some.injEq, Except.ok.injEq] at h
    rw [← h, String.toList_ofList]

end Verif.Mdl
