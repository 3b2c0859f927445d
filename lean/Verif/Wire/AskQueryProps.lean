import Verif.Wire.AskQuery
import Verif.Wire.AskedProps
import Verif.Wire.RequestProps
import Verif.Interop.PresentProps
/-!
# C123: presentation requests as query strings
-/
namespace Verif.Wire
open Verifier (Metadata)

/-! ### Specification -/

/-- A request made of plain texts (`PlainText`: no character that JSON escapes, no `=` or `&`, no bracket at either end), without times of the client's registration. -/
def PlainAsk (r : Verifier.RequestObject) : Prop := PlainMembers (writeAsk r)

/-- A request to make a presentation request that is made of plain texts. -/
structure PlainCreate (req : Verifier.CreateRequestRequest) (md : Metadata) : Prop where
  clientId : PlainText req.clientId.toList
  purpose : PlainText req.purpose.toList
  descriptors : ∀ d ∈ req.inputDescriptors, PlainJson (writeDescriptor d)
  metadata : PlainJson (writeMetadata md)

/-! ### Proofs -/

theorem decode_plain_nested (lossy : List UInt8 → List Char) {m : List (String × Json)} (hne : m ≠ []) (hp : PlainMembers m)
    (ht : ∀ p ∈ m, (∃ s, p.2 = .str s) ∨ (∃ l, p.2 = .arr l) ∨ ∃ l, p.2 = .obj l) : urlDecode lossy (urlEncode (.strct (toSm m))) = some (.obj m) := by
  have hne' : toSm m ≠ [] := by cases m with | nil => exact absurd rfl hne | cons p l => obtain ⟨k, j⟩ := p; simp [toSm]
  rw [C43_query_is_json_partial lossy (toSm m) hne' (toSm_plain m hp).1]
  · simp [SVal.json, (toSm_plain m hp).2]
  · clear hne hne' hp
    induction m with
    | nil => intro q hq; cases hq
    | cons p l ih =>
      obtain ⟨k, j⟩ := p
      intro q hq
      simp only [toSm, List.mem_cons] at hq
      rcases hq with rfl | hq
      · rcases ht _ (.head _) with ⟨s, hs⟩ | ⟨l', hl⟩ | ⟨l', hl⟩
        · simp only at hs; subst hs; exact .inl ⟨s, rfl⟩
        · simp only at hl; subst hl; exact .inr (.inl ⟨_, rfl⟩)
        · simp only at hl; subst hl; exact .inr (.inr (.inr ⟨_, rfl⟩))
      · exact ih (fun p hp => ht p (.tail _ hp)) q hq

theorem members_mem {fs : List (String × Option Json)} {p : String × Json} (h : p ∈ members fs) : (p.1, some p.2) ∈ fs := by
  obtain ⟨f, hf, e⟩ := List.mem_filterMap.1 h
  obtain ⟨k, o⟩ := f
  cases o with
  | none => cases e
  | some j => cases e; exact hf

theorem writeAsk_shape (r : Verifier.RequestObject) : ∀ p ∈ writeAsk r, (∃ s, p.2 = .str s) ∨ (∃ l, p.2 = .arr l) ∨ ∃ l, p.2 = .obj l := by
  have ho : ∀ (o : Option String) j, some j = o.map Json.str → (∃ s, j = .str s) := by
    rintro (_ | o) j h
    · cases h
    · exact ⟨o, Option.some.inj h⟩
  intro p hp
  have hp := members_mem hp
  obtain ⟨k, j⟩ := p
  simp only [askFields, List.mem_cons, Prod.mk.injEq, List.not_mem_nil, or_false] at hp
  rcases hp with ⟨-, h⟩ | ⟨-, h⟩ | ⟨-, h⟩ | ⟨-, h⟩ | ⟨-, h⟩ | ⟨-, h⟩ | ⟨-, h⟩ | ⟨-, h⟩ | ⟨-, h⟩ | ⟨-, h⟩ | ⟨-, h⟩
  · exact .inl ⟨_, Option.some.inj h⟩
  · exact .inl ⟨_, Option.some.inj h⟩
  · exact .inl (ho _ _ h)
  · exact .inl (ho _ _ h)
  · exact .inl (ho _ _ h)
  · exact .inl (ho _ _ h)
  · exact .inl ⟨_, Option.some.inj h⟩
  · exact .inl (ho _ _ h)
  · have h := Option.some.inj h
    cases hd : r.presentationDefinition with
    | string s => rw [hd] at h; exact .inl ⟨s, h⟩
    | object d => rw [hd] at h; exact .inr (.inr ⟨_, h⟩)
  · obtain ⟨s, -, e⟩ := Option.map_eq_some_iff.1 h.symm
    exact .inl ⟨_, e.symm⟩
  · exact .inr (.inr ⟨_, Option.some.inj h⟩)

theorem containsText_append (t a b : List Char) : Holder.containsText t (a ++ t ++ b) = true := by
  induction a with
  | nil =>
    cases t with
    | nil => cases b <;> simp [Holder.containsText]
    | cons c t => simp [Holder.containsText]
  | cons c a ih => simp only [List.cons_append, Holder.containsText, ih, Bool.or_true]

theorem paramText_at {m m' : List (String × SVal)} (hm : m ≠ []) (k : String) (v : SVal) :
    ∃ a b, joinWith '&' ((m ++ (k, v) :: m').map paramPair) = a ++ '&' :: k.toList ++ b := by
  cases m with
  | nil => exact absurd rfl hm
  | cons p m =>
    rw [List.cons_append, List.map_cons, joinWith_cons]
    refine ⟨paramPair p ++ (m.map paramPair).flatMap (fun y => '&' :: y), '=' :: paramText v ++ (m'.map paramPair).flatMap (fun y => '&' :: y), ?_⟩
    simp [paramPair]

theorem writeAsk_split (r : Verifier.RequestObject) : ∃ a j b, a ≠ [] ∧ writeAsk r = a ++ ("presentation_definition", j) :: b := by
  refine ⟨members [("response_type", some (.str (vResponseName r.responseType))), ("client_id", some (.str r.clientId)), ("redirect_uri", r.redirectUri.map .str),
    ("response_mode", r.responseMode.map .str), ("response_uri", r.responseUri.map .str), ("scope", r.scope.map .str), ("nonce", some (.str r.nonce)),
    ("state", r.state.map .str)], writeKind writeAsked r.presentationDefinition, members [("client_id_scheme", r.clientIdScheme.map fun s => .str (schemeName s)),
    ("client_metadata", some (writeMetadata r.clientMetadata))], ?_, ?_⟩
  · intro h; cases h
  · generalize hk : writeKind writeAsked r.presentationDefinition = j
    generalize hm : writeMetadata r.clientMetadata = md
    rw [writeAsk, askFields, hk, hm]
    simp only [members, List.filterMap_cons, List.filterMap_nil, Option.map_some]
    cases r.redirectUri <;> cases r.responseMode <;> cases r.responseUri <;> cases r.scope <;> cases r.state <;> rfl

theorem plainText_append {a b : String} (ha : PlainText a.toList) (hb : PlainText b.toList) : PlainText (a ++ b).toList := by
  rw [String.toList_append]
  refine ⟨fun c hc => ?_, fun hc => ?_, fun hc => ?_, fun c hc => ?_, fun c hc => ?_⟩
  · rcases List.mem_append.1 hc with hc | hc
    · exact ha.1 c hc
    · exact hb.1 c hc
  · rcases List.mem_append.1 hc with hc | hc
    · exact ha.2 hc
    · exact hb.2 hc
  · rcases List.mem_append.1 hc with hc | hc
    · exact ha.3 hc
    · exact hb.3 hc
  · cases hl : a.toList with
    | nil => rw [hl] at hc; exact hb.4 c hc
    | cons x l => rw [hl] at hc; exact ha.4 c (by rw [hl]; exact hc)
  · cases hl : b.toList with
    | nil => rw [hl, List.append_nil] at hc; exact ha.5 c hc
    | cons x l =>
      rw [List.getLast?_append, List.getLast?_eq_some_getLast (by rw [hl]; simp)] at hc
      refine hb.5 c ?_
      rw [List.getLast?_eq_some_getLast (by rw [hl]; simp)]
      exact hc

theorem plain_members_mk {fs : List (String × Option Json)} (h : ∀ f ∈ fs, PlainText f.1.toList ∧ ∀ j, f.2 = some j → PlainJson j) : PlainMembers (members fs) := by
  induction fs with
  | nil => trivial
  | cons f fs ih =>
    obtain ⟨k, o⟩ := f
    have ih := ih fun f hf => h f (.tail _ hf)
    have hk := h _ (.head _)
    cases o with
    | none => exact ih
    | some j =>
      rw [show members ((k, some j) :: fs) = (k, j) :: members fs from rfl, PlainMembers]
      exact ⟨hk.1, hk.2 j rfl, ih⟩

theorem plain_str {s : String} (h : PlainText s.toList) (j : Json) (e : some (Json.str s) = some j) : PlainJson j := by
  cases e; rw [PlainJson]; exact h

theorem plain_vec {α : Type} {w : α → Json} {l : List α} (h : ∀ a ∈ l, PlainJson (w a)) : PlainJson (writeVec w l) := by
  rw [writeVec, PlainJson, plainElems_iff]
  intro j hj
  obtain ⟨a, ha, rfl⟩ := List.mem_map.1 hj
  exact h a ha

theorem plain_created {req : Verifier.CreateRequestRequest} {a b c : String} {md : Metadata} (h : PlainCreate req md) (ha : PlainText a.toList)
    (hb : PlainText b.toList) (hc : PlainText c.toList) : PlainAsk (Verifier.CreateRequest.object req a b c md) := by
  have hk : ∀ s : String, (s.toList.all fun c => c != '"' && c != '\\' && decide (32 ≤ c.toNat) && c != '=' && c != '&' && c != '[' && c != '{' &&
    c != ']' && c != '}') = true → PlainText s.toList := fun _ => plain_const
  have hf : PlainJson (writeFormatMap [("jwt_vc", { alg := some ["EdDSA"] })]) := by
    simp only [writeFormatMap, writeMap, List.map_cons, List.map_nil, writeClaimFormat, writeFormats, members, List.filterMap_cons, List.filterMap_nil, Option.map_some,
      Option.map_none, writeVec, PlainJson, PlainMembers, PlainElems, and_true]
    exact ⟨hk _ (by decide), hk _ (by decide), hk _ (by decide)⟩
  have hd : PlainJson (writeAsked (Verifier.CreateRequest.definition a req)) := by
    rw [writeAsked, PlainJson]
    refine plain_members_mk ?_
    simp only [List.forall_mem_cons, Verifier.CreateRequest.definition]
    refine ⟨⟨hk _ (by decide), plain_str ha⟩, ⟨hk _ (by decide), ?_⟩, ⟨hk _ (by decide), nofun⟩, ⟨hk _ (by decide), plain_str h.purpose⟩, ⟨hk _ (by decide), ?_⟩, nofun⟩
    · rintro j ⟨⟩; exact plain_vec h.descriptors
    · rintro j ⟨⟩; exact hf
  unfold PlainAsk writeAsk
  refine plain_members_mk ?_
  have hcb : PlainText (req.clientId ++ "/callback").toList := plainText_append h.clientId (hk _ (by decide))
  have hpo : PlainText (req.clientId ++ "/post").toList := plainText_append h.clientId (hk _ (by decide))
  have hm := h.metadata
  rw [askFields]
  generalize hw : writeMetadata (Verifier.CreateRequest.object req a b c md).clientMetadata = jm
  have hjm : PlainJson jm := by
    rw [← hw]
    unfold Verifier.CreateRequest.object
    split <;> exact hm
  generalize hw2 : writeKind writeAsked (Verifier.CreateRequest.object req a b c md).presentationDefinition = jd
  have hjd : PlainJson jd := by
    rw [← hw2]
    unfold Verifier.CreateRequest.object
    split <;> exact hd
  clear hw hw2 hd hf hm
  unfold Verifier.CreateRequest.object
  simp only [List.forall_mem_cons]
  cases req.deviceFlow with
  | crossDevice =>
    dsimp only
    exact ⟨⟨hk _ (by decide), plain_str (hk _ (by decide))⟩, ⟨hk _ (by decide), plain_str hpo⟩, ⟨hk _ (by decide), nofun⟩,
      ⟨hk _ (by decide), plain_str (hk _ (by decide))⟩, ⟨hk _ (by decide), plain_str hpo⟩, ⟨hk _ (by decide), nofun⟩, ⟨hk _ (by decide), plain_str hc⟩,
      ⟨hk _ (by decide), plain_str hb⟩, ⟨hk _ (by decide), fun j e => Option.some.inj e ▸ hjd⟩, ⟨hk _ (by decide), plain_str (hk _ (by decide))⟩,
      ⟨hk _ (by decide), fun j e => Option.some.inj e ▸ hjm⟩, nofun⟩
  | sameDevice =>
    dsimp only
    exact ⟨⟨hk _ (by decide), plain_str (hk _ (by decide))⟩, ⟨hk _ (by decide), plain_str hcb⟩, ⟨hk _ (by decide), nofun⟩,
      ⟨hk _ (by decide), nofun⟩, ⟨hk _ (by decide), nofun⟩, ⟨hk _ (by decide), nofun⟩, ⟨hk _ (by decide), plain_str hc⟩,
      ⟨hk _ (by decide), plain_str hb⟩, ⟨hk _ (by decide), fun j e => Option.some.inj e ▸ hjd⟩, ⟨hk _ (by decide), plain_str (hk _ (by decide))⟩,
      ⟨hk _ (by decide), fun j e => Option.some.inj e ▸ hjm⟩, nofun⟩

theorem percent_of_utf8 {s : List Char} (h : (37 : UInt8) ∈ utf8 s) : '%' ∈ s := by
  simp only [utf8, List.mem_flatMap] at h
  obtain ⟨c, hc, hm⟩ := h
  have big : ∀ n : Nat, 128 ≤ n → n < 256 → (37 : UInt8) ≠ UInt8.ofNat n := by
    intro n h1 h2 e
    have := congrArg UInt8.toNat e
    simp only [UInt8.toNat_ofNat'] at this
    have : 37 = n % 256 := this
    omega
  have : c.val.toNat = 37 := by
    simp only [String.utf8EncodeChar] at hm
    split at hm
    · simp only [List.mem_singleton] at hm
      have := congrArg UInt8.toNat hm
      simp only [UInt8.toNat_ofNat'] at this
      have : 37 = c.val.toNat % 256 := this
      omega
    split at hm
    · simp only [List.mem_cons, List.not_mem_nil, or_false] at hm
      rcases hm with hm | hm <;> exact absurd hm (big _ (by omega) (by omega))
    split at hm
    · simp only [List.mem_cons, List.not_mem_nil, or_false] at hm
      rcases hm with hm | hm | hm <;> exact absurd hm (big _ (by omega) (by omega))
    · simp only [List.mem_cons, List.not_mem_nil, or_false] at hm
      rcases hm with hm | hm | hm | hm <;> exact absurd hm (big _ (by omega) (by omega))
  have : c = '%' := Char.ext (UInt32.toNat_inj.1 this)
  rwa [← this]

theorem decodeBytes_raw {u : List UInt8} (h : 37 ∉ u) (l : List UInt8) : decodeBytes (u ++ l) = u ++ decodeBytes l := by
  induction u with
  | nil => rfl
  | cons b u ih =>
    simp only [List.mem_cons, not_or] at h
    rw [List.cons_append, decodeBytes_cons (Ne.symm h.1), ih h.2]; rfl

/-- Text without a percent sign in front of an encoded text stands for itself. -/
theorem percentDecode_raw (lossy : List UInt8 → List Char) {u : List Char} (h : '%' ∉ u) (s : List Char) : percentDecode lossy (u ++ percentEncode s) = u ++ s := by
  have hs : utf8 (percentEncode s) = (utf8 s).flatMap encodeByte := by
    apply utf8_ascii
    intro b hb
    obtain ⟨x, _, hx⟩ := List.mem_flatMap.1 hb
    exact (encodeByte_spec x).1 b hx
  have hd := decodeBytes_encode (utf8 s) []
  simp only [List.append_nil, decodeBytes] at hd
  rw [percentDecode, utf8_append, hs, decodeBytes_raw fun hm => h (percent_of_utf8 hm), hd, ← utf8_append, utf8?_utf8]

theorem writeAsk_head (r : Verifier.RequestObject) : ∃ b, writeAsk r = ("response_type", .str (vResponseName r.responseType)) :: b ∧ ∀ p ∈ b, p.1 ≠ "response_type" := by
  generalize hk : writeKind writeAsked r.presentationDefinition = j
  generalize hm : writeMetadata r.clientMetadata = md
  rw [writeAsk, askFields, hk, hm]
  refine ⟨_, rfl, fun p hp => ?_⟩
  have := members_keys hp
  intro e
  rw [e] at this
  exact absurd this (by simp only [List.map_cons, List.map_nil]; decide)

theorem join_prefixed (u k : String) (v : Json) (b : List (String × Json)) :
    joinWith '&' ((toSm ((u ++ k, v) :: b)).map paramPair) = u.toList ++ joinWith '&' ((toSm ((k, v) :: b)).map paramPair) := by
  rw [toSm, toSm, List.map_cons, List.map_cons, joinWith_cons, joinWith_cons]
  simp only [paramPair, String.toList_append, List.append_assoc]

theorem decode_prefixed (lossy : List UInt8 → List Char) (u k : String) (v : Json) (b : List (String × Json)) (h1 : PlainMembers ((k, v) :: b))
    (h2 : PlainMembers ((u ++ k, v) :: b)) (hpc : '%' ∉ u.toList) :
    urlDecode lossy (u.toList ++ urlEncode (.strct (toSm ((k, v) :: b)))) = urlDecode lossy (urlEncode (.strct (toSm ((u ++ k, v) :: b)))) := by
  rw [urlDecode, urlDecode, urlEncode, urlEncode, percentDecode_raw lossy hpc, C42_percent_round_trip, ser_top _ (toSm_plain _ h1).1, ser_top _ (toSm_plain _ h2).1,
    join_prefixed]

theorem append_ne {u : String} (h : u ≠ "") (k : String) : u ++ k ≠ k := by
  intro e
  have := congrArg (fun s => s.toList.length) e
  simp only [String.toList_append, List.length_append] at this
  exact h (String.toList_eq_nil_iff.1 (List.length_eq_zero_iff.1 (by omega)))

/-! ### Theorems -/

/-- C123: A presentation request made of plain texts, written as a query string, is read as the same request. -/
theorem C123_request_round_trip_partial (lossy : List UInt8 → List Char) (r : Verifier.RequestObject) (hp : PlainAsk r) (hs : SoundAsk r) :
    readQuery lossy (toQuery r) = some r := by
  obtain ⟨a, j, b, -, e⟩ := writeAsk_split r
  rw [readQuery, toQuery, decode_plain_nested lossy (by rw [e]; simp) hp (writeAsk_shape r)]
  exact readAsk_write hs

/-- C123: The wallet takes the query string of a plain request for a request, not for the address of one. -/
theorem C123_query_recognized (r : Verifier.RequestObject) (hp : PlainAsk r) : Holder.containsText "&presentation_definition".toList (toQuery r) = true := by
  obtain ⟨a, j, b, ha, e⟩ := writeAsk_split r
  rw [toQuery, urlEncode, ser_top _ (toSm_plain _ hp).1, e, toSm_append]
  have hne : toSm a ≠ [] := by cases a with | nil => exact absurd rfl ha | cons p l => obtain ⟨k, j⟩ := p; simp [toSm]
  obtain ⟨x, y, h⟩ := paramText_at (m' := toSm b) hne "presentation_definition" (toS j)
  have he : percentEncode ('&' :: "presentation_definition".toList) = "&presentation_definition".toList := by decide
  rw [toSm, h, List.append_assoc, percentEncode_append, percentEncode_append, he, ← List.append_assoc]
  exact containsText_append _ _ _

/-- C123: A plain request for the same device reaches the wallet as the verifier stored it: whatever the wallet's state, it takes the query string of the
reply for exactly that request, without asking anyone. -/
theorem C123_same_device_request_reaches_wallet_partial (lossy : List UInt8 → List Char) (P : Verifier.Provider) (req : Verifier.CreateRequestRequest) (e : Env)
    (w w' : World Verifier.VState) (resp : Verifier.CreateRequestResponse) (hf : req.deviceFlow = .sameDevice)
    (hrun : (Verifier.createRequest P req).run e w = (.ok resp, w')) (hT : RustTyped P (.createRequest req))
    (hreq : ∀ md, P.verifier req.clientId = some md → PlainCreate req md) (htok : ∀ i, PlainText (e.rng i).toList)
    (W : Holder.Provider) (hW : ∀ url, W.parseRequest url = readQuery lossy url.toList) :
    ∃ r s, resp.requestObject = some r ∧ w'.store (e.rng (w.drawn + 1)) = some s ∧ s.requestObject = r ∧
      ∀ (he : Holder.HEnv) (hw : Holder.HWorld) (d : String),
        (Holder.obtainRequest W (String.ofList (toQuery r)) d).run he hw = (.ok r, hw) := by
  obtain ⟨-, m, hm, -, o, ho, rfl, rfl⟩ := Verifier.createRequest_ok.1 hrun
  have hp : PlainAsk o := ho ▸ plain_created (hreq m hm) (htok _) (htok _) (htok _)
  have hs : SoundAsk o := ho ▸ object_sound (hT.formats req rfl) (hT.metadata _ m hm)
  have hq : (String.ofList (toQuery o)).toList = toQuery o := String.toList_ofList
  refine ⟨o, { expiresAt := w.now + Verifier.requestDur, requestObject := o }, ?_, ?_, rfl, fun he hw d => Interop.obtain_inline ?_ ?_⟩
  · simp only [Verifier.CreateRequest.reply, hf]
  · simp [upd]
  · rw [hW, hq]; exact C123_request_round_trip_partial lossy o hp hs
  · rw [hq]; exact C123_query_recognized o hp

/-- C123 fails for a request in a URL: with the address of the wallet in front, which ends in a question mark, the first parameter is not seen. -/
theorem C123_url_unreadable (lossy : List UInt8 → List Char) (r : Verifier.RequestObject) (hp : PlainAsk r) (u : String) (hne : u ≠ "")
    (hu : PlainText u.toList) (hpc : '%' ∉ u.toList) : readQuery lossy (u.toList ++ toQuery r) = none := by
  obtain ⟨b, e, hb⟩ := writeAsk_head r
  have hsh := writeAsk_shape r
  have hm : PlainMembers ((u ++ "response_type", .str (vResponseName r.responseType)) :: b) := by
    have := hp
    rw [PlainAsk, e, PlainMembers] at this
    rw [PlainMembers]
    exact ⟨plainText_append hu this.1, this.2⟩
  rw [PlainAsk, e] at hp
  rw [e] at hsh
  rw [readQuery, toQuery, e]
  have hk := append_ne hne "response_type"
  have hs : single ((u ++ "response_type", Json.str (vResponseName r.responseType)) :: b) "response_type" = some none := by
    rw [single_skip hk]; exact single_absent hb
  rw [decode_prefixed lossy u _ _ _ hp hm hpc, decode_plain_nested lossy (List.cons_ne_nil _ _) hm]
  · exact readAsk_missing hs
  · intro p hp'
    rcases List.mem_cons.1 hp' with rfl | hp'
    · exact .inl ⟨_, rfl⟩
    · exact hsh p (.tail _ hp')

/-! ### Requests that do not come back -/

/-- A request for the same device with a given purpose and path. -/
def badAsk (purpose path : String) : Verifier.RequestObject where
  responseType := .vpToken
  clientId := "c"
  nonce := "n"
  state := some "s"
  presentationDefinition := .object { id := "d", inputDescriptors := [{ id := "i", constraints := { fields := some [{ path := [path] }] } }], purpose := some purpose }
  clientMetadata := { oauth := { clientId := "c" } }

/-- C123 fails for paths in bracket notation: the wallet cannot read the request. -/
theorem C123_bracketed_path_unreadable (lossy : List UInt8 → List Char) : readQuery lossy (toQuery (badAsk "p" "$['type']")) = none := by
  rw [readQuery, urlDecode, toQuery, urlEncode, C42_percent_round_trip]
  have : (parseJson (queryToJson (ser (.strct (toSm (writeAsk (badAsk "p" "$['type']")))) { out := [], level := 0 }).out)).isNone = true := by decide +kernel
  rw [Option.isNone_iff_eq_none.1 this]
  rfl

/-- C123 fails for a purpose with an ampersand: the wallet cannot read the request. -/
theorem C123_ampersand_unreadable (lossy : List UInt8 → List Char) : readQuery lossy (toQuery (badAsk "R&D" "$.type")) = none := by
  rw [readQuery, urlDecode, toQuery, urlEncode, C42_percent_round_trip]
  have : (parseJson (queryToJson (ser (.strct (toSm (writeAsk (badAsk "R&D" "$.type")))) { out := [], level := 0 }).out)).isNone = true := by decide +kernel
  rw [Option.isNone_iff_eq_none.1 this]
  rfl

/-- C123 fails for a purpose with quotation marks: the wallet reads a request that differs from the one that was made. -/
theorem C123_quotes_change_request (lossy : List UInt8 → List Char) :
    ∃ r, readQuery lossy (toQuery (badAsk "p\",\"name\":\"n" "$.type")) = some r ∧ r ≠ badAsk "p\",\"name\":\"n" "$.type" := by
  have h : ∃ r, (parseJson (queryToJson (ser (.strct (toSm (writeAsk (badAsk "p\",\"name\":\"n" "$.type")))) { out := [], level := 0 }).out)).bind readAsk = some r ∧
      r ≠ badAsk "p\",\"name\":\"n" "$.type" := by
    have : ((parseJson (queryToJson (ser (.strct (toSm (writeAsk (badAsk "p\",\"name\":\"n" "$.type")))) { out := [], level := 0 }).out)).bind readAsk).any
      (fun r => decide (r ≠ badAsk "p\",\"name\":\"n" "$.type")) = true := by decide +kernel
    obtain ⟨r, hr, h⟩ := Option.any_eq_true .. |>.1 this
    exact ⟨r, hr, by simpa using h⟩
  obtain ⟨r, hr, h⟩ := h
  refine ⟨r, ?_, h⟩
  rw [readQuery, urlDecode, toQuery, urlEncode, C42_percent_round_trip]
  exact hr

/-! ### Instances -/

/-- A check that suffices for `PlainText`. -/
def plainChars (s : String) : Bool :=
  s.toList.all fun c => c != '"' && c != '\\' && decide (32 ≤ c.toNat) && c != '=' && c != '&' && c != '[' && c != '{' && c != ']' && c != '}'

mutual
/-- A check that suffices for `PlainJson`. -/
def plainCheck : Json → Bool
  | .str s => plainChars s
  | .arr l => !l.isEmpty && plainChecks l
  | .obj m => !m.isEmpty && plainCheckm m
  | _ => false
/-- `plainCheck` on elements. -/
def plainChecks : List Json → Bool
  | [] => true
  | j :: l => plainCheck j && plainChecks l
/-- `plainCheck` on members. -/
def plainCheckm : List (String × Json) → Bool
  | [] => true
  | (k, j) :: l => plainChars k && plainCheck j && plainCheckm l
end

mutual
theorem plainCheck_sound : ∀ j : Json, plainCheck j = true → PlainJson j
  | .str s, h => by rw [plainCheck] at h; rw [PlainJson]; exact plain_const h
  | .arr l, h => by simp only [plainCheck, Bool.and_eq_true, Bool.not_eq_true', List.isEmpty_eq_false_iff] at h; rw [PlainJson]; exact plainChecks_sound l h.2
  | .obj l, h => by simp only [plainCheck, Bool.and_eq_true, Bool.not_eq_true', List.isEmpty_eq_false_iff] at h; rw [PlainJson]; exact plainCheckm_sound l h.2
  | .null, h => by simp [plainCheck] at h
  | .bool _, h => by simp [plainCheck] at h
  | .num _, h => by simp [plainCheck] at h
theorem plainChecks_sound : ∀ l : List Json, plainChecks l = true → PlainElems l
  | [], _ => by rw [PlainElems]; trivial
  | j :: l, h => by rw [plainChecks, Bool.and_eq_true] at h; rw [PlainElems]; exact ⟨plainCheck_sound j h.1, plainChecks_sound l h.2⟩
theorem plainCheckm_sound : ∀ l : List (String × Json), plainCheckm l = true → PlainMembers l
  | [], _ => by rw [PlainMembers]; trivial
  | (k, j) :: l, h => by
    rw [plainCheckm, Bool.and_eq_true, Bool.and_eq_true] at h
    rw [PlainMembers]
    exact ⟨plain_const h.1.1, plainCheck_sound j h.1.2, plainCheckm_sound l h.2⟩
end

theorem plain_demo : PlainCreate (Verifier.Demo.createReq .sameDevice) { oauth := { clientId := "md" } } where
  clientId := plain_const (by decide)
  purpose := plain_const (by decide)
  descriptors := by
    intro d hd
    simp only [Verifier.Demo.createReq, List.mem_singleton] at hd
    subst hd
    exact plainCheck_sound _ (by decide +kernel)
  metadata := plainCheck_sound _ (by decide +kernel)

/-- The request of the demonstration reaches the wallet. -/
example (lossy : List UInt8 → List Char) (w w' : World Verifier.VState) (resp : Verifier.CreateRequestResponse)
    (hrun : (Verifier.createRequest Verifier.Demo.provider (Verifier.Demo.createReq .sameDevice)).run Verifier.Demo.env w = (.ok resp, w'))
    (W : Holder.Provider) (hW : ∀ url, W.parseRequest url = readQuery lossy url.toList) :
    ∃ r s, resp.requestObject = some r ∧ w'.store (Verifier.Demo.env.rng (w.drawn + 1)) = some s ∧ s.requestObject = r ∧
      ∀ (he : Holder.HEnv) (hw : Holder.HWorld) (d : String),
        (Holder.obtainRequest W (String.ofList (toQuery r)) d).run he hw = (.ok r, hw) := by
  refine C123_same_device_request_reaches_wallet_partial lossy Verifier.Demo.provider _ _ w w' resp rfl hrun
    (vdemo_typed _ (.tail _ (.tail _ (.head _)))) ?_ ?_ W hW
  · intro md h
    simp only [Verifier.Demo.provider] at h
    split at h
    · cases h; exact plain_demo
    · cases h
  · intro i
    refine plain_const ?_
    simp only [Verifier.Demo.env, Verifier.Demo.rng, String.toList_ofList, List.all_eq_true]
    intro c hc
    rw [(List.mem_replicate.1 hc).2]
    decide

/-- Such a call succeeds. -/
example : vIsOk ((Verifier.createRequest Verifier.Demo.provider (Verifier.Demo.createReq .sameDevice)).run Verifier.Demo.env (Verifier.start 0)).1 = true := by
  decide +kernel

theorem plain_badAsk : PlainAsk (badAsk "p" "$.type") := plainCheckm_sound _ (by decide +kernel)

example (lossy : List UInt8 → List Char) : readQuery lossy (toQuery (badAsk "p" "$.type")) = some (badAsk "p" "$.type") :=
  C123_request_round_trip_partial lossy _ plain_badAsk
    (readAsk_sound (j := .obj (writeAsk (badAsk "p" "$.type"))) (by decide +kernel))

example (lossy : List UInt8 → List Char) : readQuery lossy ("openid4vp://wallet?".toList ++ toQuery (badAsk "p" "$.type")) = none :=
  C123_url_unreadable lossy _ plain_badAsk "openid4vp://wallet?" (by decide) (plain_const (by decide)) (by decide)

end Verif.Wire
