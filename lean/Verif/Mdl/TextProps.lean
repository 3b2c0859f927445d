import Verif.Mdl.TextLemmas
import Verif.Holder.ReceiveProps
/-!
# Properties of the bytes of an mDL: C158 – C162
-/
namespace Verif.Mdl

/-! ### Specification -/

/-- What is assumed of the external code: numbers and keys become CBOR values with numbers CBOR has, and random integers are 32-bit. -/
structure Sound (W : World) (R : Rng) : Prop where
  num : ∀ t, (W.num t).Fits
  key : ∀ k, (W.key k).Fits
  int32 : ∀ n, -2147483648 ≤ R.int32 n ∧ R.int32 n < 2147483648

/-- A name space as read says the same as the data set: the elements in order with their values, no id twice, and under each id the digest of the bytes its item was read
from. -/
structure SameSpace (W : World) (fields : List (String × Json)) (items : List ReadItem) (ds : Digests) : Prop where
  elements : items.map (fun x => (x.identifier, x.value)) = fields.map fun f => (f.1, toCbor W.num f.2)
  unique : (items.map ReadItem.digestId).Nodup
  digests : ∀ id d, ds.find id = some d ↔ ∃ x ∈ items, x.digestId = id ∧ d = W.sha256 (W.tagVec.over x.raw)

/-- A document and its security object as read say what the data set says. -/
structure SameData (W : World) (data : Dict Json) (d : ReadDoc) (m : ReadMso) : Prop where
  spaces : ∀ ns v, data.get? ns = some v → ∃ fields, v = .obj fields ∧
    (fields = [] → d.nameSpaces.get? ns = none ∧ m.valueDigests.get? ns = none) ∧
    (fields ≠ [] → ∃ items ds, d.nameSpaces.get? ns = some items ∧ m.valueDigests.get? ns = some ds ∧ SameSpace W fields items ds)
  only : ∀ ns, data.get? ns = none → d.nameSpaces.get? ns = none ∧ m.valueDigests.get? ns = none

/-! ### C158 An issued mDL reads back as what it was made from -/

theorem length_base64 (b : Bytes) : b.length ≤ (Verif.base64 b).length := by rw [base64_length]; omega

/-- What `document` makes is tidy and its parts are what the state says. -/
theorem document_tidy {b : Build} {fuel : Nat} {E : Codec} {R : Rng} (hR : ∀ n, -2147483648 ≤ R.int32 n ∧ R.int32 n < 2147483648) {signer : Signer} {now : Nat → Int}
    {data : Dict Json} {doc : IssuerSigned} (h : document b fuel E R signer now data = some (.ok doc)) :
    ∃ s, addSpaces b fuel E R data ⟨[], [], 0, 0⟩ = some (.ok s) ∧ sign E signer now s = .ok doc ∧ Tidy s := by
  obtain ⟨s, hs, hsign⟩ := document_ok.1 h
  refine ⟨s, hs, hsign, addSpaces_tidy hR ?_ hs⟩
  exact ⟨List.nodup_nil, List.nodup_nil, by simp, by simp⟩

/-- Reading an issued mDL gives its document and security object. -/
theorem read_issued {W : World} {R : Rng} (hW : Sound W R) {b : Build} {fuel : Nat} {signer : Signer} {now : Nat → Int} {data : Dict Json} {out : String}
    (h : toCredential b fuel W.codec R signer now data = some (.ok out)) (hl : out.toList.length < 2 ^ 64) :
    ∃ s key, addSpaces b fuel W.codec R data ⟨[], [], 0, 0⟩ = some (.ok s) ∧ Tidy s ∧ signer.publicKey = .ok key ∧
      (let mso : Mso := ⟨s.valueDigests, key, now 1, now 2, now 0 + validity⟩
       let payload := W.tagVec.over (msoCbor W mso).encode
       let doc : IssuerSigned := ⟨s.nameSpaces, ⟨.edDSA, signer.verificationMethod, payload, signer.sign payload⟩⟩
       out.toList = Verif.base64 (docCbor W doc).encode ∧ (docCbor W doc).encode.length < 2 ^ 64 ∧
       readMdl out = some (.of W doc) ∧ readMso W.tagVec payload = some (.of W mso) ∧ payload.length < 2 ^ 64) := by
  obtain ⟨doc, hdoc, hout⟩ := toCredential_ok h
  obtain ⟨s, hs, hsign, ht⟩ := document_tidy hW.int32 hdoc
  obtain ⟨key, bytes, hk, hm, halg, rfl⟩ := sign_ok.1 hsign
  simp only [World.codec, Except.ok.injEq] at hm
  subst hm
  rw [halg] at hout
  have hlen := Nat.lt_of_le_of_lt (length_base64 _) (hout ▸ hl)
  have hp := Nat.lt_of_le_of_lt (payload_length W ⟨s.nameSpaces, ⟨.edDSA, signer.verificationMethod, W.tagVec.over (msoCbor W ⟨s.valueDigests, key, now 1, now 2, now 0 + validity⟩).encode,
    signer.sign (W.tagVec.over (msoCbor W ⟨s.valueDigests, key, now 1, now 2, now 0 + validity⟩).encode)⟩⟩) hlen
  refine ⟨s, key, hs, ht, hk, hout, hlen, ?_, ?_, hp⟩
  · rw [readMdl, hout, base64Decode_base64, Option.bind_eq_bind, Option.bind_some, Option.bind_eq_bind]
    exact readDoc_doc W hW.num _ ht.items hlen
  · exact readMso_mso W hW.key _ (fun e he => (ht.ids e he).2) hp

/-- **C158**. Every mDL that is issued can be read again (base64url, CBOR, and the types of this crate), and says exactly what the data set said: every element once with its
value, the digest of each item under its id, the issuer's signature over the payload, the version, the algorithm, the type of document and the times. -/
theorem C158_reads_back (W : World) (R : Rng) (hW : Sound W R) (b : Build) (fuel : Nat) (signer : Signer) (now : Nat → Int) (data : Dict Json) (hn : data.Nodup) (out : String)
    (h : toCredential b fuel W.codec R signer now data = some (.ok out)) (hl : out.toList.length < 2 ^ 64) :
    ∃ d m, readMdl out = some d ∧ readMso W.tagVec d.issuerAuth.payload = some m ∧ SameData W data d m ∧
      d.issuerAuth.signature = signer.sign d.issuerAuth.payload ∧ d.issuerAuth.keyId = utf8 signer.verificationMethod.toList ∧
      m.version = "1.0" ∧ m.digestAlgorithm = "SHA-256" ∧ m.docType = "org.iso.18013.5.1.mDL" ∧ (∃ key, signer.publicKey = .ok key ∧ m.deviceKey = W.key key) ∧
      m.signed = W.time (now 1) ∧ m.validFrom = W.time (now 2) ∧ m.validUntil = W.time (now 0 + 365 * 86400 * 1000000000) := by
  obtain ⟨s, key, hs, ht, hk, -, -, hd, hm, -⟩ := read_issued hW h hl
  refine ⟨_, _, hd, hm, ⟨?_, ?_⟩, rfl, rfl, rfl, rfl, rfl, ⟨key, hk, rfl⟩, rfl, rfl, rfl⟩
  · intro ns v hv
    have hsp := addSpaces_ok hn (by intro ns _; exact ⟨rfl, rfl⟩) hs ns
    obtain ⟨fields, rfl⟩ := hsp.1 v hv
    refine ⟨fields, rfl, ?_, ?_⟩
    · rintro rfl
      obtain ⟨h1, h2⟩ := hsp.2.2.1 hv
      simp only [ReadDoc.of, ReadMso.of]
      rw [get?_map (fun l => List.map (ReadItem.of W) l), get?_map sortIds, get?_sortKeys ht.spaces, get?_sortKeys ht.digests, h1, h2]
      exact ⟨rfl, rfl⟩
    · intro hne
      cases fields with
      | nil => exact absurd rfl hne
      | cons f fs =>
        obtain ⟨items, ds, h1, h2, h3, _⟩ := hsp.2.2.2 f fs hv
        refine ⟨items.map (ReadItem.of W), sortIds ds, ?_, ?_, ?_, ?_, ?_⟩
        · simp only [ReadDoc.of]
          rw [get?_map (fun l => List.map (ReadItem.of W) l), get?_sortKeys ht.spaces, h1]; rfl
        · simp only [ReadMso.of]
          rw [get?_map sortIds, get?_sortKeys ht.digests, h2]; rfl
        · rw [← h3.elements, List.map_map, List.map_map]; rfl
        · rw [List.map_map]; exact h3.unique
        · intro id dg
          rw [find_sortIds (ht.ids _ (Dict.mem_of_get? h2)).1, h3.digests]
          constructor
          · rintro ⟨x, hx, hid, bytes, hb, rfl⟩
            simp only [World.codec, Except.ok.injEq] at hb
            exact ⟨_, List.mem_map.2 ⟨x, hx, rfl⟩, hid, by rw [← hb]; rfl⟩
          · rintro ⟨y, hy, hid, rfl⟩
            obtain ⟨x, hx, rfl⟩ := List.mem_map.1 hy
            exact ⟨x, hx, hid, _, rfl, rfl⟩
  · intro ns hns
    have hsp := addSpaces_ok hn (by intro ns _; exact ⟨rfl, rfl⟩) hs ns
    obtain ⟨h1, h2⟩ := hsp.2.1 hns
    simp only [ReadDoc.of, ReadMso.of]
    rw [get?_map (fun l => List.map (ReadItem.of W) l), get?_map sortIds, get?_sortKeys ht.spaces, get?_sortKeys ht.digests, h1, h2]
    exact ⟨rfl, rfl⟩

/-! ### C159 Readers made to the standard -/

/-- `bstr`. -/
def isoBytes : Cbor → Option Bytes
  | .bytes b => some b
  | _ => none

/-- `uint`. -/
def isoUint : Cbor → Option Int
  | .int n => if 0 ≤ n then some n else none
  | _ => none

/-- `tdate`, `#6.0(tstr)`. -/
def isoDate : Cbor → Option String
  | .tag 0 (.text s) => some s
  | _ => none

/-- `IssuerSignedItemBytes` of ISO/IEC 18013-5 §8.3.2.1.2.2: `#6.24(bstr .cbor {"digestID": uint, "random": bstr, "elementIdentifier": tstr, "elementValue": any})`. -/
def isoItem : Cbor → Option ReadItem
  | .tag 24 (.bytes raw) => do
    match ← decode raw with
    | .map m =>
      let id ← (field "digestID" m).bind isoUint
      let random ← (field "random" m).bind isoBytes
      let identifier ← (field "elementIdentifier" m).bind readText
      let value ← field "elementValue" m
      pure { raw := raw, digestId := id, random := random, identifier := identifier, value := value }
    | _ => none
  | _ => none

/-- The items of an `IssuerSigned` by the standard. -/
def isoNameSpaces (s : String) : Option (Dict (List ReadItem)) := do
  match ← decode (← base64Decode s.toList) with
  | .map m => (field "nameSpaces" m).bind (readDict fun | .arr l => l.mapM isoItem | _ => none)
  | _ => none

/-- `ValueDigests` of ISO/IEC 18013-5 §9.1.2.4: name spaces to digest ids to `bstr`. -/
def isoValueDigests : Cbor → Option (Dict Digests)
  | .map m => (field "valueDigests" m).bind (readDict fun
    | .map ds => ds.mapM fun e => do
      let k ← isoUint e.1
      let v ← isoBytes e.2
      pure (k, v)
    | _ => none)
  | _ => none

/-- `validFrom` and `validUntil` of `ValidityInfo`, ISO/IEC 18013-5 §9.1.2.4. -/
def isoValidity : Cbor → Option (String × String)
  | .map m => do
    match ← field "validityInfo" m with
    | .map v =>
      let a ← (field "validFrom" v).bind isoDate
      let b ← (field "validUntil" v).bind isoDate
      pure (a, b)
    | _ => none
  | _ => none

theorem mapM_none {α β : Type} {f : α → Option β} {l : List α} {x : α} (hx : x ∈ l) (h : f x = none) : l.mapM f = none := by
  induction l with
  | nil => cases hx
  | cons y l ih =>
    rw [List.mapM_cons]
    rcases List.mem_cons.1 hx with rfl | hx
    · rw [h]; rfl
    · rw [ih hx]
      cases f y <;> rfl

theorem readDict_none {α β : Type} {read : Cbor → Option β} {f : α → Cbor} {m : List (String × α)} {e : String × α} (he : e ∈ m) (h : read (f e.2) = none) :
    readDict read (.map (m.map fun e => (.text e.1, f e.2))) = none := by
  rw [readDict]
  exact mapM_none (List.mem_map.2 ⟨e, he, rfl⟩) (by simp [readText, h])

theorem isoItem_item (W : World) (x : Item) (hc : (itemCbor W x).Fits) (hl : (itemCbor W x).encode.length < 2 ^ 64) : isoItem (tag24 (itemCbor W x).encode) = none := by
  simp only [isoItem, tag24, decode_encode hc hl]
  rw [Option.bind_eq_bind, Option.bind_some]
  rfl

/-- The first element of a name space with elements is in the document. -/
theorem first_item {b : Build} {fuel : Nat} {W : World} {R : Rng} {data : Dict Json} (hn : data.Nodup) {s : St}
    (hs : addSpaces b fuel W.codec R data ⟨[], [], 0, 0⟩ = some (.ok s)) {ns : String} {f : String × Json} {fs : List (String × Json)}
    (hv : data.get? ns = some (.obj (f :: fs))) :
    ∃ items ds x y, (ns, items) ∈ s.nameSpaces ∧ (ns, ds) ∈ s.valueDigests ∧ x ∈ items ∧ y ∈ ds := by
  obtain ⟨items, ds, h1, h2, h3, _⟩ := (addSpaces_ok hn (by intro ns _; exact ⟨rfl, rfl⟩) hs ns).2.2.2 f fs hv
  have hne : items ≠ [] := by rintro rfl; have := h3.elements; simp at this
  obtain ⟨x, rest, rfl⟩ := List.exists_cons_of_ne_nil hne
  have := (h3.digests x.digestId _).2 ⟨x, List.mem_cons_self, rfl, _, rfl, rfl⟩
  exact ⟨_, _, x, _, Dict.mem_of_get? h1, Dict.mem_of_get? h2, List.mem_cons_self, Digests.mem_of_find this⟩

/-- **C159 is false**: no data element of any issued mDL can be read by a reader made to the standard, as the members of an item are called `digest_id`,
`element_identifier` and `element_value` and its `random` is not a byte string. -/
theorem C159_violated_items (W : World) (R : Rng) (hW : Sound W R) (b : Build) (fuel : Nat) (signer : Signer) (now : Nat → Int) (data : Dict Json) (hn : data.Nodup) (out : String)
    (h : toCredential b fuel W.codec R signer now data = some (.ok out)) (hl : out.toList.length < 2 ^ 64)
    (ns : String) (f : String × Json) (fs : List (String × Json)) (hv : data.get? ns = some (.obj (f :: fs))) : isoNameSpaces out = none := by
  obtain ⟨s, key, hs, ht, hk, hout, hlen, -, -, -⟩ := read_issued hW h hl
  obtain ⟨items, ds, x, y, h1, -, hx, -⟩ := first_item hn hs hv
  have hi := item_length W ⟨s.nameSpaces, ⟨.edDSA, signer.verificationMethod, W.tagVec.over (msoCbor W ⟨s.valueDigests, key, now 1, now 2, now 0 + validity⟩).encode,
    signer.sign (W.tagVec.over (msoCbor W ⟨s.valueDigests, key, now 1, now 2, now 0 + validity⟩).encode)⟩⟩ h1 hx
  have hno : isoItem (tag24 (itemCbor W x).encode) = none :=
    isoItem_item W x (fits_item hW.num x (ht.items _ h1 x hx)) (Nat.lt_of_le_of_lt hi hlen)
  rw [isoNameSpaces, hout, base64Decode_base64, Option.bind_eq_bind, Option.bind_some, decode_encode (fits_doc W _) hlen, Option.bind_eq_bind, Option.bind_some]
  simp only [docCbor]
  rw [field_here, Option.bind_some]
  exact readDict_none (f := fun l : List Item => Cbor.arr (l.map fun x => tag24 (itemCbor W x).encode)) (mem_sortKeys.2 h1)
    (mapM_none (List.mem_map.2 ⟨x, hx, rfl⟩) hno)

/-- **C159 is false** for the security object too: its digests are not byte strings and its times are not dates, whatever is issued. -/
theorem C159_violated_mso (W : World) (R : Rng) (hW : Sound W R) (b : Build) (fuel : Nat) (signer : Signer) (now : Nat → Int) (data : Dict Json) (hn : data.Nodup) (out : String)
    (h : toCredential b fuel W.codec R signer now data = some (.ok out)) (hl : out.toList.length < 2 ^ 64) :
    ∃ d raw c, readMdl out = some d ∧ W.tagVec.inside d.issuerAuth.payload = some raw ∧ decode raw = some c ∧ (readMsoCbor c).isSome = true ∧ isoValidity c = none ∧
      ∀ ns f fs, data.get? ns = some (.obj (f :: fs)) → isoValueDigests c = none := by
  obtain ⟨s, key, hs, ht, hk, hout, hlen, hd, hm, hp⟩ := read_issued hW h hl
  have hids := fun e (he : e ∈ s.valueDigests) => (ht.ids e he).2
  refine ⟨_, _, msoCbor W ⟨s.valueDigests, key, now 1, now 2, now 0 + validity⟩, hd, over_inside _ _ hp, decode_encode (fits_mso W hW.key _ hids) ?_, ?_, ?_, ?_⟩
  · exact Nat.lt_of_le_of_lt (raw_le_over _ _) hp
  · rw [readMsoCbor_mso W _ hids]; rfl
  · rw [msoCbor, isoValidity]
    rw [field_there _ _ (by decide), field_there _ _ (by decide), field_there _ _ (by decide), field_there _ _ (by decide), field_there _ _ (by decide), field_here,
      Option.bind_eq_bind, Option.bind_some]
    simp only
    rw [field_there _ _ (by decide), field_here, Option.bind_some]
    rfl
  · intro ns f fs hv
    obtain ⟨items, ds, x, y, -, h2, -, hy⟩ := first_item hn hs hv
    rw [msoCbor, isoValueDigests]
    rw [field_there _ _ (by decide), field_there _ _ (by decide), field_here, Option.bind_some]
    refine readDict_none (f := digestsCbor) (mem_sortKeys.2 h2) ?_
    simp only [digestsCbor]
    refine mapM_none (List.mem_map.2 ⟨y, mem_sortIds.2 hy, rfl⟩) ?_
    simp only [octets, isoBytes]
    cases isoUint (.int y.1) <;> rfl

/-- **C159**, what holds: the outer members have the names of the standard, and the items are tagged byte strings, in every mDL that is issued: this is what `readMdl` reads. -/
theorem C159_envelope_partial (W : World) (R : Rng) (hW : Sound W R) (b : Build) (fuel : Nat) (signer : Signer) (now : Nat → Int) (data : Dict Json) (out : String)
    (h : toCredential b fuel W.codec R signer now data = some (.ok out)) (hl : out.toList.length < 2 ^ 64) :
    ∃ bytes spaces auth, base64Decode out.toList = some bytes ∧ decode bytes = some (.map [(.text "nameSpaces", .map spaces), (.text "issuerAuth", auth)]) ∧
      (∃ p k payload sig, auth = .arr [.bytes p, k, .bytes payload, .bytes sig] ∧ decode p = some (.map [(.int 1, .int (-8))])) ∧
      ∀ e ∈ spaces, ∃ ns l, e = (.text ns, .arr l) ∧ ∀ c ∈ l, ∃ raw, c = .tag 24 (.bytes raw) := by
  obtain ⟨s, key, hs, ht, hk, hout, hlen, hd, hm, hp⟩ := read_issued hW h hl
  have hprot : decode (Cbor.map [(.int 1, .int (-8))]).encode = some (.map [(.int 1, .int (-8))]) :=
    decode_encode ⟨fits_int (by decide), fits_int (by decide), trivial⟩ (by decide)
  refine ⟨_, _, _, (congrArg base64Decode hout).trans (base64Decode_base64 _), decode_encode (fits_doc W _) hlen, ⟨_, _, _, _, rfl, hprot⟩, ?_⟩
  · intro e he
    obtain ⟨d, _, rfl⟩ := List.mem_map.1 he
    refine ⟨_, _, rfl, ?_⟩
    intro c hc
    obtain ⟨x, _, rfl⟩ := List.mem_map.1 hc
    exact ⟨_, rfl⟩

/-! ### C160 The digests are over the bytes a reader has -/

/-- **C160** turns on what `Tag24::to_vec` gives: the digests are those of ISO/IEC 18013-5 §9.1.2.4, over the tagged item as it stands in the document, exactly if it gives
the tagged byte string. If it gives the bytes inside, as the repository's own test has it, a reader made to the standard finds no digest right. -/
theorem C160_digest_of_tagged_item (W : World) (R : Rng) (hW : Sound W R) (hsha : ∀ x y, W.sha256 x = W.sha256 y → x = y) (b : Build) (fuel : Nat) (signer : Signer)
    (now : Nat → Int) (data : Dict Json) (hn : data.Nodup) (out : String) (h : toCredential b fuel W.codec R signer now data = some (.ok out)) (hl : out.toList.length < 2 ^ 64) :
    ∃ d m, readMdl out = some d ∧ readMso W.tagVec d.issuerAuth.payload = some m ∧
      ∀ ns items x, d.nameSpaces.get? ns = some items → x ∈ items → ∃ ds, m.valueDigests.get? ns = some ds ∧
        (ds.find x.digestId = some (W.sha256 (Cbor.tag 24 (.bytes x.raw)).encode) ↔ W.tagVec = .whole) := by
  obtain ⟨d, m, h1, h2, h3, _⟩ := C158_reads_back W R hW b fuel signer now data hn out h hl
  refine ⟨d, m, h1, h2, ?_⟩
  intro ns items x hi hx
  cases hg : data.get? ns with
  | none => rw [(h3.only ns hg).1] at hi; cases hi
  | some v =>
    obtain ⟨fields, rfl, he, hf⟩ := h3.spaces ns v hg
    cases fields with
    | nil => rw [(he rfl).1] at hi; cases hi
    | cons f fs =>
      obtain ⟨items', ds, g1, g2, g3⟩ := hf (by simp)
      rw [g1] at hi; cases hi
      refine ⟨ds, g2, ?_⟩
      have hfind : ds.find x.digestId = some (W.sha256 (W.tagVec.over x.raw)) := (g3.digests _ _).2 ⟨x, hx, rfl, rfl⟩
      rw [hfind, Option.some.injEq]
      constructor
      · intro heq
        cases ht : W.tagVec with
        | whole => rfl
        | inner =>
          rw [ht] at heq
          have := congrArg List.length (hsha _ _ heq)
          have h2 := bytes_length x.raw
          have h3 := head_length 6 24
          simp only [TagVec.over, Cbor.encode, List.length_append] at this h2
          omega
      · intro ht; rw [ht]; rfl

/-! ### C161 Salts -/

/-- The items of a document, in the order of the data set. -/
def itemsIn {α : Type} (data : List (String × Json)) (spaces : Dict (List α)) : List α := data.flatMap fun e => (spaces.get? e.1).getD []

theorem addItems_salts {b : Build} {fuel : Nat} {E : Codec} {R : Rng} {ns : String} {used : List Int} {fields : List (String × Json)}
    {s s' : St} (h : addItems b fuel E R ns used fields s = some (.ok s')) :
    ∃ items : List Item, (s'.nameSpaces.get? ns).getD [] = (s.nameSpaces.get? ns).getD [] ++ items ∧ items.map Item.random = (List.range' s.salts items.length).map R.salt ∧
      s'.salts = s.salts + items.length ∧ ∀ ns', ns' ≠ ns → s'.nameSpaces.get? ns' = s.nameSpaces.get? ns' := by
  induction fields generalizing used s with
  | nil =>
    simp only [addItems, Option.some.injEq, Except.ok.injEq] at h
    subst h
    exact ⟨[], by simp⟩
  | cons f fields ih =>
    obtain ⟨k, v⟩ := f
    simp only [addItems] at h
    split at h
    · cases h
    · simp at h
    · rename_i id next hgen
      split at h
      · simp at h
      · rename_i s1 hadd
        obtain ⟨-, bytes, hb, rfl⟩ := addItem_ok.1 hadd
        obtain ⟨items, h1, h2, h3, h4⟩ := ih h
        refine ⟨⟨id, R.salt s.salts, k, v⟩ :: items, ?_, ?_, ?_, ?_⟩
        · rw [h1]
          simp [St.add, Dict.get?_insert]
        · simp [List.range'_succ, h2]
        · rw [h3]
          simp only [List.length_cons]
          omega
        · intro ns' hne
          rw [h4 ns' hne]
          simp [St.add, Dict.get?_insert, hne]

theorem addSpaces_salts {b : Build} {fuel : Nat} {E : Codec} {R : Rng} {data : Dict Json} (hn : data.Nodup) {s s' : St}
    (hfresh : ∀ ns ∈ Dict.keys data, s.nameSpaces.get? ns = none) (h : addSpaces b fuel E R data s = some (.ok s')) :
    (itemsIn data s'.nameSpaces).map Item.random = (List.range' s.salts (itemsIn data s'.nameSpaces).length).map R.salt ∧
      ∀ ns, ns ∉ Dict.keys data → s'.nameSpaces.get? ns = s.nameSpaces.get? ns := by
  induction data generalizing s with
  | nil =>
    simp only [addSpaces, Option.some.injEq, Except.ok.injEq] at h
    subst h
    exact ⟨rfl, fun _ _ => rfl⟩
  | cons e data ih =>
    obtain ⟨ns, v⟩ := e
    simp only [Dict.Nodup, Dict.keys, List.map_cons, List.nodup_cons] at hn
    simp only [addSpaces] at h
    split at h
    · split at h
      · cases h
      · simp at h
      · rename_i s1 h1
        obtain ⟨items, i1, i2, i3, i4⟩ := addItems_salts h1
        have hne : ∀ n ∈ Dict.keys data, n ≠ ns := by rintro n hm rfl; exact hn.1 hm
        obtain ⟨r1, r2⟩ := ih hn.2 (fun n hm => by rw [i4 n (hne n hm)]; exact hfresh n (List.mem_cons_of_mem _ hm)) h
        have hget : (s'.nameSpaces.get? ns).getD [] = items := by
          rw [r2 ns hn.1, i1, hfresh ns List.mem_cons_self]
          simp
        constructor
        · rw [itemsIn, List.flatMap_cons, List.map_append, hget, i2, List.length_append, ← List.range'_append_1, List.map_append]
          congr 1
          rw [i3] at r1
          exact r1
        · intro n hm
          simp only [Dict.keys, List.map_cons, List.mem_cons, not_or] at hm
          rw [r2 n hm.2, i4 n hm.1]
    · simp at h

/-- **C161**. Every data element of an mDL is salted with a draw of its own: going through the items as read, in the order of the data set, their salts are the first draw of
16 random bytes, the second, and so on. No draw is used for two elements or left out. -/
theorem C161_own_salt (W : World) (R : Rng) (hW : Sound W R) (b : Build) (fuel : Nat) (signer : Signer) (now : Nat → Int) (data : Dict Json) (hn : data.Nodup) (out : String)
    (h : toCredential b fuel W.codec R signer now data = some (.ok out)) (hl : out.toList.length < 2 ^ 64) :
    ∃ d, readMdl out = some d ∧
      (itemsIn data d.nameSpaces).map ReadItem.random = (List.range (itemsIn data d.nameSpaces).length).map R.salt := by
  obtain ⟨s, key, hs, ht, -, -, -, hd, -, -⟩ := read_issued hW h hl
  refine ⟨_, hd, ?_⟩
  have heq : itemsIn data (ReadDoc.of W ⟨s.nameSpaces, ⟨.edDSA, signer.verificationMethod, W.tagVec.over (msoCbor W ⟨s.valueDigests, key, now 1, now 2, now 0 + validity⟩).encode,
      signer.sign (W.tagVec.over (msoCbor W ⟨s.valueDigests, key, now 1, now 2, now 0 + validity⟩).encode)⟩⟩).nameSpaces =
      (itemsIn data s.nameSpaces).map (ReadItem.of W) := by
    unfold itemsIn
    rw [List.map_flatMap]
    congr 1
    funext e
    simp only [ReadDoc.of]
    rw [get?_map (fun l => List.map (ReadItem.of W) l), get?_sortKeys ht.spaces]
    cases s.nameSpaces.get? e.1 <;> rfl
  rw [heq, List.length_map, List.map_map, List.range_eq_range']
  exact (addSpaces_salts hn (by intros; rfl) hs).1

/-- **C161**: so where no two draws are the same, no two elements of an mDL have the same salt, in whichever name spaces they are. -/
theorem C161_salts_differ (W : World) (R : Rng) (hW : Sound W R) (hR : ∀ n m, R.salt n = R.salt m → n = m) (b : Build) (fuel : Nat) (signer : Signer) (now : Nat → Int)
    (data : Dict Json) (hn : data.Nodup) (out : String) (h : toCredential b fuel W.codec R signer now data = some (.ok out)) (hl : out.toList.length < 2 ^ 64) :
    ∃ d, readMdl out = some d ∧ ((itemsIn data d.nameSpaces).map ReadItem.random).Nodup := by
  obtain ⟨d, hd, he⟩ := C161_own_salt W R hW b fuel signer now data hn out h hl
  refine ⟨d, hd, ?_⟩
  rw [he, List.Nodup, List.pairwise_map]
  exact List.nodup_range.imp fun hne heq => hne (hR _ _ heq)

/-! ### C162 The wallet and mDLs -/

/-- JWTs have dots in them: the external JWT decoder takes compact serializations only. -/
def Dotted (J : Jose) : Prop := ∀ t c, J.decodeVc t = some c → '.' ∈ t.toList

theorem no_dot (bs : Bytes) : '.' ∉ Verif.base64 bs := by
  intro h
  have := base64_alphabet bs _ h
  revert this
  decide

theorem tokens_call {ev : Holder.Event} {t : String} (h : t ∈ ev.tokens) : (∃ q, ev.call = .credential q) ∨ ∃ q, ev.call = .deferred q := by
  obtain ⟨call, o⟩ := ev
  cases call with
  | credential q => exact .inl ⟨q, rfl⟩
  | deferred q => exact .inr ⟨q, rfl⟩
  | _ => cases h

/-- **C162 is false** for mDLs: whichever call of the wallet is answered with an mDL, at whatever point of whatever history, fails, with everything else it was answered
with: the wallet takes every credential to be a JWT. -/
theorem C162_violated_mdl_fails (W : World) (b : Build) (fuel : Nat) (R : Rng) (signer : Signer) (now : Nat → Int) (data : Dict Json) (out : String)
    (hmdl : toCredential b fuel W.codec R signer now data = some (.ok out))
    {e : Holder.HEnv} {w : Holder.HWorld} (hf : e.Fresh) (hr : Holder.Reachable e w) {en : Holder.Entry} (hen : en ∈ w.log) (hJ : Dotted en.provider.jose)
    (ht : out ∈ en.events.flatMap Holder.Event.tokens) : Holder.Fails en.result := by
  obtain ⟨doc, -, hout⟩ := toCredential_ok hmdl
  have hnot : ∀ c : Holder.Credential, Holder.Verified en.provider.jose c → c.issued ≠ out := by
    rintro c ⟨claims, hc, _⟩ rfl
    have := hJ _ _ hc
    rw [hout] at this
    exact no_dot _ this
  have hgrown : ∀ {evs i j}, Holder.Grown en.provider.jose evs i j → out ∉ evs.flatMap Holder.Event.tokens := by
    rintro evs i j ⟨creds, defs, nonce, exp, -, h1, h2, -⟩ hm
    rw [← h1] at hm
    obtain ⟨c, hc, hce⟩ := List.mem_map.1 hm
    exact hnot c (h2 c hc) hce
  obtain ⟨ev, hev, htok⟩ := List.mem_flatMap.1 ht
  have hall := Holder.entry_calls hf hr hen hev
  obtain ⟨pre, post, h⟩ := List.append_of_mem hen
  obtain ⟨w0, w2, hI, hlog, hrec, -, hrun, hevs⟩ := Holder.entry_run hf hr h
  rw [← hevs] at ht
  generalize en.req = q at hrun hall
  generalize en.result = r at hrun ⊢
  have hq : (∃ r, q = .credentials r) ∨ ∃ r, q = .deferred r := by
    rcases tokens_call htok with ⟨x, hx⟩ | ⟨x, hx⟩ <;> rw [hx] at hall <;> cases q <;> first | exact .inl ⟨_, rfl⟩ | exact .inr ⟨_, rfl⟩ | cases hall
  rcases hq with ⟨r, rfl⟩ | ⟨r, rfl⟩
  · obtain ⟨evs, ws, hE, h1⟩ := Holder.credentials_did hrun
    rw [hE.recent, hrec, List.nil_append] at ht
    rcases h1 with ⟨hf, -, -⟩ | ⟨i, jwt, -, -, -, -, -, ⟨hf, -⟩ | ⟨j, hg, -⟩⟩
    · exact hf
    · exact hf
    · exact absurd ht (hgrown hg)
  · obtain ⟨evs, ws, hE, h1⟩ := Holder.deferred_did hrun
    rw [hE.recent, hrec, List.nil_append] at ht
    rcases h1 with ⟨hf, -, -⟩ | ⟨i, o, logos, -, -, -, -, ⟨hf, -⟩ | ⟨j, hg, -⟩⟩
    · exact hf
    · exact hf
    · exact absurd ht (hgrown hg)

/-- **C162 is false** for mDLs: none is ever stored, in any history. -/
theorem C162_violated_never_stored (W : World) (b : Build) (fuel : Nat) (R : Rng) (signer : Signer) (now : Nat → Int) (data : Dict Json) (out : String)
    (hmdl : toCredential b fuel W.codec R signer now data = some (.ok out))
    {e : Holder.HEnv} {w : Holder.HWorld} (hf : e.Fresh) (hr : Holder.Reachable e w) (hJ : ∀ en ∈ w.log, Dotted en.provider.jose)
    {en : Holder.Entry} (hen : en ∈ w.log) {c : Holder.Credential} {o : Option Unit} (hs : ⟨.save c, o⟩ ∈ en.events) : c.issued ≠ out := by
  obtain ⟨doc, -, hout⟩ := toCredential_ok hmdl
  obtain ⟨pre, post, h⟩ := List.append_of_mem hen
  obtain ⟨k, -, x, hx, -, -, claims, hc, -⟩ := Holder.C68_saved_credentials_came hf hr h hs
  rintro rfl
  have := hJ x (h ▸ List.mem_append_left _ hx) _ _ hc
  rw [hout] at this
  exact no_dot _ this

end Verif.Mdl
