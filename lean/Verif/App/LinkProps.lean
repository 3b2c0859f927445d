import Verif.App.ScreenProps
import Verif.Wire.StoreText
import Verif.Wire.Request
/-!
# Offers and requests that come as links (C153), and the details of a credential (C154)
-/
namespace Verif.App
open Holder (Credential HEnv HWorld Req Resp PStatus Event Call Entry Issuance Presentation HVal Inv HProg)

variable {a : Around} {s : App} {t : Nat}

/-! ### Reading offers -/

/-- `urlencoding::decode`: the bytes must be UTF-8. -/
def decodeText (l : List Char) : Option (List Char) := utf8? (decodeBytes (utf8 l))

/-- How the application reads an offer, app/issuance.rs 34-35. -/
def readOfferText (e : String) : Option Issuer.CredentialOffer := (decodeText e.toList).bind fun l => (parseJson l).bind Wire.readCredentialOffer

theorem decodeText_percentEncode (l : List Char) : decodeText (percentEncode l) = some l := by
  have h : utf8 (percentEncode l) = (utf8 l).flatMap encodeByte := by
    apply utf8_ascii
    intro b hb
    obtain ⟨x, _, hx⟩ := List.mem_flatMap.1 hb
    exact (encodeByte_spec x).1 b hx
  have hd := decodeBytes_encode (utf8 l) []
  simp only [List.append_nil, decodeBytes] at hd
  rw [decodeText, h, hd, utf8?_utf8]

/-! ### Query strings begin with the name of their first field -/

/-- The output begins with this text. -/
def Begins (l : List Char) (s : Ser) : Prop := ∃ r, s.out = l ++ r

theorem Begins.add {l : List Char} {s : Ser} (h : Begins l s) (m : List Char) : Begins l (s.add m) := by
  obtain ⟨r, h⟩ := h
  exact ⟨r ++ m, by simp [Ser.add, h]⟩
theorem Begins.up {l : List Char} {s : Ser} (h : Begins l s) : Begins l s.up := h
theorem Begins.down {l : List Char} {s : Ser} (h : Begins l s) : Begins l s.down := h
theorem Begins.str {l : List Char} {s : Ser} (h : Begins l s) (m : List Char) : Begins l (s.str m) := by
  unfold Ser.str; split <;> exact h.add _
theorem Begins.sep {l : List Char} {s : Ser} (h : Begins l s) (c : Char) : Begins l (s.sep c) := by
  unfold Ser.sep; split
  · exact h
  · exact h.add _

theorem Begins.ite {l : List Char} {c : Prop} [Decidable c] {s s' : Ser} (h : Begins l s) (h' : Begins l s') : Begins l (if c then s else s') := by
  split
  · exact h
  · exact h'

mutual
theorem ser_begins {l : List Char} : ∀ (v : SVal) (s : Ser), Begins l s → Begins l (ser v s)
  | .bool _, s, h => by rw [ser]; exact h.add _
  | .int _, s, h => by rw [ser]; exact h.add _
  | .str _, s, h => by rw [ser]; exact h.str _
  | .unit, s, h => by rw [ser]; exact h.add _
  | .seq m, s, h => by rw [ser]; exact ((serElems_begins m _ (h.up.add _)).add _).down
  | .tuple m, s, h => by rw [ser]; exact ((serElems_begins m _ (h.up.up.add _)).add _).down
  | .strct fs, s, h => by
    rw [ser]
    have : Begins l (if s.up.nested then s.up.add ['{'] else s.up) := by split <;> first | exact h.up.add _ | exact h.up
    have := serFields_begins fs _ this
    exact (this.add _).down.ite this
  | .map es, s, h => by
    rw [ser]
    have : Begins l (if s.up.nested then s.up.add ['{'] else s.up) := by split <;> first | exact h.up.add _ | exact h.up
    exact ((serEntries_begins es _ this).add _).down
  | .newtypeVariant v x, s, h => by
    rw [ser]
    split
    · exact ((ser_begins x _ (((h.up.add _).str _).add _)).add _).down
    · exact (ser_begins x _ ((h.up.str _).add _)).down
  | .tupleVariant v m, s, h => by
    rw [ser]
    have : Begins l (if s.up.nested then ((s.up.add ['{']).str v.toList).add [':', '['] else (s.up.str v.toList).add ['=', '[']) := by
      split <;> first | exact ((h.up.add _).str _).add _ | exact (h.up.str _).add _
    have := serElems_begins m _ this
    exact (this.add _).down.ite (this.add _).down
  | .structVariant v fs, s, h => by
    rw [ser]
    have : Begins l (if s.up.nested then ((s.up.add ['{']).str v.toList).add [':', '{'] else (s.up.str v.toList).add ['=', '{']) := by
      split <;> first | exact ((h.up.add _).str _).add _ | exact (h.up.str _).add _
    have := serEntries_begins fs _ this
    exact (this.add _).down.ite (this.add _).down
theorem serElems_begins {l : List Char} : ∀ (m : List SVal) (s : Ser), Begins l s → Begins l (serElems m s)
  | [], s, h => by rw [serElems]; exact h
  | x :: m, s, h => by rw [serElems]; exact serElems_begins m _ (ser_begins x _ (h.sep _))
theorem serFields_begins {l : List Char} : ∀ (m : List (String × SVal)) (s : Ser), Begins l s → Begins l (serFields m s)
  | [], s, h => by rw [serFields]; exact h
  | (k, v) :: m, s, h => by
    rw [serFields]
    have : Begins l (if s.nested then s.sep '{' else if s.out.isEmpty then s else s.add ['&']) := by
      split
      · exact h.sep _
      · split
        · exact h
        · exact h.add _
    exact serFields_begins m _ (ser_begins v _ ((this.str _).add _))
theorem serEntries_begins {l : List Char} : ∀ (m : List (String × SVal)) (s : Ser), Begins l s → Begins l (serEntries m s)
  | [], s, h => by rw [serEntries]; exact h
  | (k, v) :: m, s, h => by rw [serEntries]; exact serEntries_begins m _ (ser_begins v _ (((h.sep _).str _).add _))
end

theorem query_begins (k : String) (v : SVal) (fs : List (String × SVal)) : ∃ r, (ser (.strct ((k, v) :: fs)) { out := [], level := 0 }).out = k.toList ++ r := by
  have h : Begins k.toList (Ser.str { out := [], level := 1 } k.toList) := ⟨[], by simp [Ser.str, Ser.nested, Ser.add]⟩
  have h2 : Begins k.toList (serFields ((k, v) :: fs) { out := [], level := 1 }) := by
    rw [serFields]
    exact serFields_begins fs _ (ser_begins v _ (h.add _))
  rw [ser]
  have e : (if Ser.nested (Ser.up { out := [], level := 0 }) = true then (Ser.up { out := [], level := 0 }).add ['{'] else Ser.up { out := [], level := 0 }) =
    ({ out := [], level := 1 } : Ser) := rfl
  rw [e]
  show Begins k.toList (if _ then _ else _)
  split
  · exact (h2.add _).down
  · exact h2

theorem parseJson_letter (r : List Char) : parseJson ('c' :: r) = none := by
  have : value (2 * ('c' :: r).length + 2) ('c' :: r) = none := by
    show value ((2 * ('c' :: r).length + 1) + 1) ('c' :: r) = none
    rw [value]
    have hw : skipWs ('c' :: r) = 'c' :: r := rfl
    simp only [hw]
    rfl
  rw [parseJson, this]

theorem not_prefix {p q : List Char} (n : Nat) (hp : n ≤ p.length) (hq : n ≤ q.length) (h : p.take n ≠ q.take n) (x : List Char) : ¬ p.isPrefixOf (q ++ x) = true := by
  intro hh
  obtain ⟨r, hr⟩ := List.isPrefixOf_iff_prefix.mp hh
  apply h
  have := congrArg (List.take n) hr
  rwa [List.take_append_of_le_length hp, List.take_append_of_le_length hq] at this

/-! ### C153 -/

/-- **C153** An offer that comes as percent-encoded JSON – what the application expects – is read as it was made. -/
theorem C153_json_offer_read_partial (o : Issuer.CredentialOffer) : readOfferText (String.ofList (percentEncode (Wire.writeCredentialOffer o).chars)) = some o := by
  unfold readOfferText
  rw [String.toList_ofList, decodeText_percentEncode, Option.bind_some, parseJson_chars _ (Wire.wf_credentialOffer o), Option.bind_some,
    Wire.readCredentialOffer_write]

/-- `CredentialOffer::to_querystring`, /repo/crates/openid/src/issuer.rs 253-262, which `to_qrcode` puts after the endpoint (233-238). Simplification: numbers, of which
there is one in the description of a PIN, are left out. -/
def offerQuery (o : Issuer.CredentialOffer) : String :=
  String.ofList (urlEncode (.strct (Wire.toSm (Wire.members [("credential_issuer", Wire.nonEmpty o.credentialIssuer),
    ("credential_configuration_ids", some (Wire.writeVec .str o.configIds)), ("grants", o.grants.map Wire.writeGrants)]))))

/-- **C153** An offer that comes as the query string that the library makes of it, for links and QR codes, cannot be read, whatever is in it. -/
theorem C153_violated_query_unreadable (o : Issuer.CredentialOffer) : readOfferText (offerQuery o) = none := by
  obtain ⟨k, j, fs, hm, hk⟩ : ∃ k j fs, Wire.toSm (Wire.members [("credential_issuer", Wire.nonEmpty o.credentialIssuer),
      ("credential_configuration_ids", some (Wire.writeVec .str o.configIds)), ("grants", o.grants.map Wire.writeGrants)]) = (k, j) :: fs ∧
      ∃ r, k.toList = 'c' :: r := by
    unfold Wire.members
    cases Wire.nonEmpty o.credentialIssuer with
    | none => exact ⟨"credential_configuration_ids", _, _, rfl, "redential_configuration_ids".toList, by decide +kernel⟩
    | some x => exact ⟨"credential_issuer", _, _, rfl, "redential_issuer".toList, by decide +kernel⟩
  obtain ⟨m, hk⟩ := hk
  obtain ⟨r, hr⟩ := query_begins k j fs
  unfold readOfferText offerQuery
  rw [String.toList_ofList, hm, urlEncode, decodeText_percentEncode, hr, hk]
  simp only [Option.bind_some, List.cons_append, parseJson_letter, Option.bind_none]

/-- **C153** A link with the application's own prefix does what the command does; errors are not reported. -/
theorem C153_link_is_command (a : Around) (s : App) (t : Nat) (x : String) :
    ((serve a s t (.link (String.ofList (offerPrefix ++ x.toList)))).2 = (serve a s t (.offer x)).2 ∧
      ∀ v, (serve a s t (.link (String.ofList (offerPrefix ++ x.toList)))).1 = .view v ↔ (serve a s t (.offer x)).1 = .view v) ∧
    (serve a s t (.link (String.ofList (requestPrefix ++ x.toList)))).2 = (serve a s t (.request x)).2 ∧
      ∀ v, (serve a s t (.link (String.ofList (requestPrefix ++ x.toList)))).1 = .view v ↔ (serve a s t (.request x)).1 = .view v := by
  have hl : ∀ y : Out × App, (logged y).2 = y.2 ∧ ∀ v, (logged y).1 = .view v ↔ y.1 = .view v := by
    rintro ⟨o, s⟩
    cases o <;> simp [logged]
  have h1 : serve a s t (.link (String.ofList (offerPrefix ++ x.toList))) = logged (offer a s t x) := by
    show link a s t _ = _
    unfold link
    rw [String.toList_ofList, if_pos (by simp)]
    simp
  have hp : ¬ offerPrefix.isPrefixOf (requestPrefix ++ x.toList) = true := not_prefix 8 (by decide +kernel) (by decide +kernel) (by decide +kernel) _
  have h2 : serve a s t (.link (String.ofList (requestPrefix ++ x.toList))) = logged (request a s t x) := by
    show link a s t _ = _
    unfold link
    rw [String.toList_ofList, if_neg hp, if_pos (by simp)]
    simp
  rw [h1, h2]
  exact ⟨hl _, hl _⟩

/-- The prefix for links that `to_qrcode` of an offer suggests, /repo/crates/openid/src/issuer.rs 226. -/
def suggestedOffer : List Char := "openid-credential-offer://credential_offer=".toList
/-- The prefix for links that `to_qrcode` of a request suggests, /repo/crates/openid/src/verifier.rs 351. -/
def suggestedRequest : List Char := "openid-vc://?request_uri=".toList

/-- **C153** A link with one of the prefixes that the library's documentation suggests does nothing at all, whatever follows. -/
theorem C153_violated_suggested_links_ignored (a : Around) (s : App) (t : Nat) (x : List Char) :
    serve a s t (.link (String.ofList (suggestedOffer ++ x))) = (.nothing, s) ∧ serve a s t (.link (String.ofList (suggestedRequest ++ x))) = (.nothing, s) := by
  constructor
  · show link a s t _ = _
    unfold link
    rw [String.toList_ofList, if_neg (not_prefix 27 (by decide +kernel) (by decide +kernel) (by decide +kernel) _), if_neg (not_prefix 8 (by decide +kernel) (by decide +kernel) (by decide +kernel) _)]
  · show link a s t _ = _
    unfold link
    rw [String.toList_ofList, if_neg (not_prefix 8 (by decide +kernel) (by decide +kernel) (by decide +kernel) _), if_neg (not_prefix 13 (by decide +kernel) (by decide +kernel) (by decide +kernel) _)]

/-- **C153** So a link made with the library's query string reaches nobody: the application changes nothing, says nothing and calls nobody. -/
theorem C153_violated_query_link (hr : a.readOffer = readOfferText) (s : App) (t : Nat) (o : Issuer.CredentialOffer) :
    serve a s t (.link (String.ofList (offerPrefix ++ (offerQuery o).toList))) = (.nothing, s) := by
  show link a s t _ = _
  unfold link
  rw [String.toList_ofList, if_pos (by simp)]
  simp only [List.drop_left, String.ofList_toList]
  unfold offer
  rw [hr, C153_violated_query_unreadable]
  rfl

/-! ### C154 -/

theorem get_collect (k : String) (l : List (String × Json)) (acc : Dict Json) :
    (collect acc l).get? k = match (l.reverse.find? fun x => x.1 == k) with | some x => some x.2 | none => acc.get? k := by
  induction l generalizing acc with
  | nil => rfl
  | cons x l ih =>
    obtain ⟨j, v⟩ := x
    rw [collect, ih, List.reverse_cons, List.find?_append]
    cases l.reverse.find? fun x => x.1 == k with
    | some y => simp
    | none =>
      simp only [Option.none_or, Dict.get?_insert, List.find?_cons, List.find?_nil]
      by_cases h : k = j
      · simp [h]
      · have : (j == k) = false := by simpa using Ne.symm h
        simp [h, this]

theorem foldl_collect (subs : List CredentialSubject) (acc : Dict Json) :
    subs.foldl (fun acc s => collect acc s.claims) acc = collect acc (subs.flatMap (·.claims)) := by
  have hc : ∀ (l m : List (String × Json)) (acc : Dict Json), collect acc (l ++ m) = collect (collect acc l) m := by
    intro l
    induction l with
    | nil => intros; rfl
    | cons x l ih => intro m acc; exact ih _ _
  induction subs generalizing acc with
  | nil => rfl
  | cons x subs ih => rw [List.foldl_cons, ih, List.flatMap_cons, hc]

/-- **C154** The details of a credential show its times, its issuer, its name, and of the claims of each name the last one among its subjects. -/
theorem C154_details {c : Credential} {d : Detail} (h : detailOf c = some d) :
    DisplayedAs c d.display ∧ d.validFrom = c.vc.validFrom ∧ d.validUntil = c.vc.validUntil ∧
    ∀ k, d.claims.get? k = (((subjects c.vc).flatMap (·.claims)).reverse.find? fun x => x.1 == k).map (·.2) := by
  unfold detailOf at h
  cases hd : firstDisplay c.display with
  | none => rw [hd] at h; cases h
  | some x =>
    cases hp : displayOf c with
    | none => rw [hd, hp] at h; cases h
    | some y =>
      rw [hd, hp] at h
      cases h
      refine ⟨displayOf_spec hp, rfl, rfl, fun k => ?_⟩
      show (List.foldl _ _ _ : Dict Json).get? k = _
      rw [foldl_collect, get_collect]
      cases List.find? _ _ <;> rfl

/-- **C154** Of a credential about one subject all claims are shown, as they are, and no others. -/
theorem C154_one_subject_partial {c : Credential} {d : Detail} (h : detailOf c = some d) {sub : CredentialSubject} (hs : c.vc.subject = .one sub)
    (hn : (sub.claims.map (·.1)).Nodup) (k : String) (v : Json) : d.claims.get? k = some v ↔ (k, v) ∈ sub.claims := by
  rw [(C154_details h).2.2.2 k]
  have : (subjects c.vc).flatMap (·.claims) = sub.claims := by simp [subjects, hs]
  rw [this]
  constructor
  · intro hv
    obtain ⟨x, hx, rfl⟩ := Option.map_eq_some_iff.mp hv
    have h1 := List.mem_of_find?_eq_some hx
    have h2 := List.find?_some hx
    simp only [beq_iff_eq] at h2
    rw [← h2]
    exact List.mem_reverse.mp h1
  · intro hm
    cases hx : sub.claims.reverse.find? fun x => x.1 == k with
    | none =>
      rw [List.find?_eq_none] at hx
      have := hx (k, v) (List.mem_reverse.mpr hm)
      simp at this
    | some x =>
      have h1 := List.mem_reverse.mp (List.mem_of_find?_eq_some hx)
      have h2 := List.find?_some hx
      simp only [beq_iff_eq] at h2
      obtain ⟨j, w⟩ := x
      simp only at h2
      subst h2
      have : ∀ l : List (String × Json), (l.map (·.1)).Nodup → (j, w) ∈ l → (j, v) ∈ l → w = v := by
        intro l
        induction l with
        | nil => intro _ h; cases h
        | cons y l ih =>
          intro hn h1 h2
          simp only [List.map_cons, List.nodup_cons] at hn
          rcases List.mem_cons.mp h1 with e1 | m1 <;> rcases List.mem_cons.mp h2 with e2 | m2
          · rw [← e1] at e2; exact (Prod.mk.inj e2).2.symm
          · rw [← e1] at hn; exact absurd (List.mem_map.mpr ⟨(j, v), m2, rfl⟩) hn.1
          · rw [← e2] at hn; exact absurd (List.mem_map.mpr ⟨(j, w), m1, rfl⟩) hn.1
          · exact ih hn.2 m1 m2
      rw [this _ hn h1 hm]
      rfl

/-- **C154** Of a credential about two subjects, a claim of the first is not shown if the second has another of the same name. -/
theorem C154_violated_claim_hidden {c : Credential} {d : Detail} (h : detailOf c = some d) {s1 s2 : CredentialSubject} (hs : c.vc.subject = .many [s1, s2])
    {k : String} {v w : Json} (h1 : (k, v) ∈ s1.claims) (h2 : ∀ x, (k, x) ∈ s2.claims ↔ x = w) (hne : v ≠ w) : d.claims.get? k = some w ∧ d.claims.get? k ≠ some v := by
  have key : d.claims.get? k = some w := by
    rw [(C154_details h).2.2.2 k]
    have : (subjects c.vc).flatMap (·.claims) = s1.claims ++ s2.claims := by simp [subjects, hs]
    rw [this, List.reverse_append, List.find?_append]
    cases hx : s2.claims.reverse.find? fun x => x.1 == k with
    | none =>
      rw [List.find?_eq_none] at hx
      have := hx (k, w) (List.mem_reverse.mpr ((h2 w).mpr rfl))
      simp at this
    | some x =>
      have h3 := List.mem_reverse.mp (List.mem_of_find?_eq_some hx)
      have h4 := List.find?_some hx
      simp only [beq_iff_eq] at h4
      obtain ⟨j, y⟩ := x
      simp only at h4
      subst h4
      rw [(h2 y).mp h3]
      rfl
  exact ⟨key, by rw [key]; intro h; exact hne (Option.some.inj h).symm⟩

end Verif.App
