import Verif.Core.JsonGrammarLemmas
import Verif.Core.Dumps
import Verif.Wire.CreateRequestProps
import Verif.Wire.ForeignProps
import Verif.Wire.IssuerMetaProps
import Verif.App.LinkProps
/-!
# C205: a text is read for what it says, however it is written

The specification is the grammar of RFC 8259, `Verif.Grammar.Denotes`, which says which texts denote which values.
-/
namespace Verif.Wire
open Verif.Grammar

/-- C205: A text is read as a value exactly when the grammar of JSON says that it denotes this value: with white space between any two parts and around
the whole, and with each character of a string written as itself, by a short escape, by its number or by its surrogate pair. No other text is read. -/
theorem C205_read_iff (text : List Char) (j : Json) : parseJson text = some j ↔ Denotes text j := parse_iff text j

/-- C205: No text can be read in two ways. -/
theorem C205_one_meaning {text : List Char} {j j' : Json} (h : Denotes text j) (h' : Denotes text j') : j = j' := by
  have h1 := (parse_iff _ _).2 h
  have h2 := (parse_iff _ _).2 h'
  rw [h1] at h2
  exact Option.some.inj h2

/-! ### Other writers -/

theorem hex_char (v : Nat) (h : v < 16) : Hex (hexChar v) v := by
  have : ∀ x : Fin 16, "0123456789abcdef".toList[x.val]? = some (hexChar x.val) := by decide
  exact .inl (this ⟨v, h⟩)

theorem hex_chars (n : Nat) (h : n < 65536) : Hex4 (hexChars n) n :=
  ⟨_, _, _, _, _, _, _, _, rfl, hex_char _ (by omega), hex_char _ (by omega), hex_char _ (by omega), hex_char _ (by omega), by omega⟩

theorem chars_ascii (s : List Char) : Chars (s.flatMap asciiChar) s := by
  induction s with
  | nil => exact .nil
  | cons c s ih =>
    rw [List.flatMap_cons]
    unfold asciiChar
    split
    · rename_i h; subst h; exact .short (by decide) ih
    split
    · rename_i h; subst h; exact .short (by decide) ih
    split
    · rename_i h; exact .short (by rw [h]; decide) ih
    split
    · rename_i h; exact .short (by rw [h]; decide) ih
    split
    · rename_i h; exact .short (by rw [h]; decide) ih
    split
    · rename_i h; exact .short (by rw [h]; decide) ih
    split
    · rename_i h; exact .short (by rw [h]; decide) ih
    rename_i h1 h2 _ _ _ _ _
    by_cases h : 0x20 ≤ c.toNat ∧ c.toNat ≤ 0x7E
    · rw [if_pos h]; exact .plain h1 h2 h.1 ih
    rw [if_neg h]
    by_cases h' : c.toNat < 0x10000
    · rw [if_pos h']; exact .digits (hex_chars _ h') ih
    rw [if_neg h']
    have hv : c.toNat < 0xD800 ∨ 0xDFFF < c.toNat ∧ c.toNat < 0x110000 := c.valid
    have := Chars.pair (c := c) (hex_chars (0xD800 + (c.toNat - 0x10000) / 0x400) (by omega)) (hex_chars (0xDC00 + (c.toNat - 0x10000) % 0x400) (by omega)) (by omega) (by omega)
      (by omega) (by omega) (by omega) ih
    rwa [List.cons_append, List.cons_append, List.append_assoc] at this

theorem items_space {l : List Json} {t : List Char} (h : Text (.items l) t) : Text (.items l) (' ' :: t) := by
  have w : ∀ {a : List Char}, Ws a → Ws (' ' :: a) := by
    intro a ha c hc
    rcases List.mem_cons.1 hc with rfl | hc
    · exact .inl rfl
    · exact ha c hc
  cases h with
  | item ha h hb => exact .item (w ha) h hb
  | items ha h hb hu => exact .items (w ha) h hb hu

theorem members_space {l : List (String × Json)} {t : List Char} (h : Text (.members l) t) : Text (.members l) (' ' :: t) := by
  have w : ∀ {a : List Char}, Ws a → Ws (' ' :: a) := by
    intro a ha c hc
    rcases List.mem_cons.1 hc with rfl | hc
    · exact .inl rfl
    · exact ha c hc
  cases h with
  | member ha hk hb hc h hd => exact .member (w ha) hk hb hc h hd
  | members ha hk hb hc h hd hu => exact .members (w ha) hk hb hc h hd hu

theorem ws_nil : Ws [] := fun _ h => by cases h
theorem ws_space : Ws [' '] := fun c h => by rw [List.mem_singleton.1 h]; exact .inl rfl

mutual
theorem text_dumps : ∀ j : Json, j.WF → Text (.value j) (dumps j)
  | .null, _ => by rw [dumps]; exact .null
  | .bool true, _ => by rw [dumps]; exact .true
  | .bool false, _ => by rw [dumps]; exact .false
  | .num t, h => by
    rw [dumps]
    have := Text.number ((number_iff t.toList).2 (by simpa [Json.WF] using h))
    rwa [String.ofList_toList] at this
  | .str s, _ => by
    rw [dumps]
    have := Text.string (chars_ascii s.toList)
    rwa [String.ofList_toList] at this
  | .arr [], _ => by rw [dumps, dumpsArr]; exact .noItems ws_nil
  | .arr (x :: l), h => by
    rw [dumps]
    rw [Json.WF] at h
    exact .array (text_dumpsArr (x :: l) (by simp) h)
  | .obj [], _ => by rw [dumps, dumpsObj]; exact .noMembers ws_nil
  | .obj (x :: m), h => by
    rw [dumps]
    rw [Json.WF] at h
    exact .object (text_dumpsObj (x :: m) (by simp) h)
theorem text_dumpsArr : ∀ l : List Json, l ≠ [] → Json.WFArr l → Text (.items l) (dumpsArr l)
  | [], h, _ => absurd rfl h
  | [x], _, h => by
    rw [Json.WFArr] at h
    rw [dumpsArr]
    have := Text.item ws_nil (text_dumps x h.1) ws_nil
    rwa [List.nil_append, List.append_nil] at this
  | x :: y :: l, _, h => by
    rw [Json.WFArr] at h
    rw [dumpsArr]
    have := Text.items ws_nil (text_dumps x h.1) ws_nil (items_space (text_dumpsArr (y :: l) (by simp) h.2))
    rwa [List.nil_append, List.append_nil] at this
theorem text_dumpsObj : ∀ m : List (String × Json), m ≠ [] → Json.WFObj m → Text (.members m) (dumpsObj m)
  | [], h, _ => absurd rfl h
  | [(k, x)], _, h => by
    rw [Json.WFObj] at h
    rw [dumpsObj]
    have := Text.member ws_nil (chars_ascii k.toList) ws_nil ws_space (text_dumps x h.1) ws_nil
    rw [String.ofList_toList] at this
    simpa [asciiQuote] using this
  | (k, x) :: y :: l, _, h => by
    rw [Json.WFObj] at h
    rw [dumpsObj]
    have := Text.members ws_nil (chars_ascii k.toList) ws_nil ws_space (text_dumps x h.1) ws_nil (members_space (text_dumpsObj (y :: l) (by simp) h.2))
    rw [String.ofList_toList] at this
    simpa [asciiQuote] using this
end

/-- What is denoted has numbers that are numbers of JSON. -/
theorem wf_text {p : Part} {t : List Char} (h : Text p t) :
    match p with
    | .value j => j.WF
    | .items l => Json.WFArr l
    | .members m => Json.WFObj m := by
  induction h with
  | null | true | false | string _ => simp [Json.WF]
  | number h => simpa [Json.WF] using (number_iff _).1 h
  | noItems _ => simp [Json.WF, Json.WFArr]
  | noMembers _ => simp [Json.WF, Json.WFObj]
  | array _ ih => simpa only [Json.WF] using ih
  | object _ ih => simpa only [Json.WF] using ih
  | item _ _ _ ih => simp only [Json.WFArr]; exact ⟨ih, trivial⟩
  | items _ _ _ _ ih ih' => simp only [Json.WFArr]; exact ⟨ih, ih'⟩
  | member _ _ _ _ _ _ ih => simp only [Json.WFObj]; exact ⟨ih, trivial⟩
  | members _ _ _ _ _ _ _ ih ih' => simp only [Json.WFObj]; exact ⟨ih, ih'⟩

/-- C205: A value that some text denotes may be written anew, by a program that keeps to printable ASCII and puts spaces after commas and colons (`json.dumps`
of Python), or compactly as vercre itself writes it, and is read the same: whatever characters its strings have, those with a number beyond 65535 included. -/
theorem C205_respelled {text : List Char} {j : Json} (h : Denotes text j) : parseJson (dumps j) = some j ∧ Denotes j.chars j := by
  obtain ⟨a, t, b, -, -, ht, -⟩ := h
  have hw : j.WF := wf_text ht
  exact ⟨(parse_iff _ _).2 ⟨[], dumps j, [], by simp, ws_nil, text_dumps j hw, ws_nil⟩, (parse_iff _ _).1 (parseJson_chars j hw)⟩

/-! ### What is not read -/

theorem lexStr_none {t s : List Char} (h : Chars t s) {r : List Char} (hr : ∀ n, lexStr n r = none) (n : Nat) : lexStr n (t ++ r) = none := by
  induction h generalizing n with
  | nil => exact hr n
  | plain h1 h2 h3 _ ih =>
    cases n with
    | zero => rfl
    | succ n =>
      have h3' : ¬ _ < 32 := Nat.not_lt.2 h3
      simp only [List.cons_append, lexStr, h1, h2, h3', if_false, ih n, Option.map_none]
  | @short e c t s h1 hc ih =>
    cases n with
    | zero => rfl
    | succ n =>
      have he : ∀ l, escape (e :: l) = some (c, l) := by
        intro l
        have hc : ∀ {k : Nat}, c.toNat = k → c = Char.ofNat k := fun h => by rw [← h, Char.ofNat_toNat]
        simp only [shorts, List.mem_cons, Prod.mk.injEq, List.not_mem_nil, or_false] at h1
        rcases h1 with ⟨rfl, h⟩ | ⟨rfl, h⟩ | ⟨rfl, h⟩ | ⟨rfl, h⟩ | ⟨rfl, h⟩ | ⟨rfl, h⟩ | ⟨rfl, h⟩ | ⟨rfl, h⟩ <;> rw [hc h] <;> rfl
      simp only [List.cons_append, lexStr, he, ih n, Option.map_none]
      rfl
  | @digits h c t s h1 _ ih =>
    cases n with
    | zero => rfl
    | succ n =>
      have he : escape ('u' :: (h ++ (t ++ r))) = some (c, t ++ r) := by
        show unicodeEscape (h ++ (t ++ r)) = _
        have hs := not_surrogate c
        unfold unicodeEscape
        simp only [(hex4_iff _ _ _).2 ⟨h, rfl, h1⟩, bind, Option.bind]
        rw [if_neg (by omega), if_neg (by omega), Char.ofNat_toNat]
        rfl
      simp only [List.cons_append, List.append_assoc, lexStr, he, ih n, Option.map_none]
      rfl
  | @pair h h' hi lo c t s h1 h2 a1 a2 a3 a4 hc _ ih =>
    cases n with
    | zero => rfl
    | succ n =>
      have he : escape ('u' :: (h ++ ('\\' :: 'u' :: (h' ++ (t ++ r))))) = some (c, t ++ r) := by
        show unicodeEscape (h ++ ('\\' :: 'u' :: (h' ++ (t ++ r)))) = _
        unfold unicodeEscape
        simp only [(hex4_iff _ _ _).2 ⟨h, rfl, h1⟩, bind, Option.bind]
        rw [if_pos (by omega)]
        simp only [lowSurrogate, (hex4_iff _ _ _).2 ⟨h', rfl, h2⟩, bind, Option.bind]
        rw [if_pos (by omega), ← Char.ofNat_toNat c, hc]
        rfl
      simp only [List.cons_append, List.append_assoc, lexStr, he, ih n, Option.map_none]
      rfl

/-- C205: A string with half a surrogate pair, which JavaScript programs can write, is refused: a second half without a first, and a first half that is not
followed by another escape by number. -/
theorem C205_half_pair_refused {before s h rest : List Char} {n : Nat} (hb : Chars before s) (hh : Hex4 h n) (h1 : 0xD800 ≤ n) (h2 : n < 0xE000)
    (hr : n < 0xDC00 → ¬ ['\\', 'u'] <+: rest) : parseJson ('"' :: before ++ '\\' :: 'u' :: h ++ rest) = none := by
  have hu : escape ('u' :: (h ++ rest)) = none := by
    show unicodeEscape (h ++ rest) = none
    unfold unicodeEscape
    simp only [(hex4_iff _ _ _).2 ⟨h, rfl, hh⟩, bind, Option.bind]
    by_cases hn : n < 0xDC00
    · rw [if_pos (by omega)]
      unfold lowSurrogate
      split
      · exact absurd ⟨_, rfl⟩ (hr hn)
      · rfl
    · rw [if_neg (by omega), if_pos (by omega)]
  have hl : ∀ k, lexStr k ('\\' :: 'u' :: (h ++ rest)) = none := by
    intro k
    cases k with
    | zero => rfl
    | succ k =>
      simp only [lexStr, hu]
      rfl
  unfold parseJson
  simp only [List.cons_append, List.append_assoc]
  unfold value
  rw [skipWs_cons (by decide)]
  simp only [if_true, lexStr_none hb hl, Option.map_none]

/-! ### Messages -/

/-- C205: An offer that another issuer's program made is taken by the wallet application from its link, however the text of the offer is written: here an
offer with a code and no PIN. -/
theorem C205_offer_link_read {text : List Char} {m gm pm : List (String × Json)} (ht : Denotes text (.obj m)) (issuer code : String) (ids : List String)
    (hp : Has pm [("pre-authorized_code", txt (some code)), ("tx_code", none), ("authorization_server", none)])
    (hg : Has gm [("authorization_code", none), ("urn:ietf:params:oauth:grant-type:pre-authorized_code", some (.obj pm))])
    (h : Has m [("credential_issuer", txt (some issuer)), ("credential_configuration_ids", txts (some ids)), ("grants", some (.obj gm))]) :
    App.readOfferText (String.ofList (percentEncode text)) =
      some { credentialIssuer := issuer, configIds := ids,
             grants := some { authorizationCode := none, preAuthorizedCode := some { preAuthorizedCode := code, txCode := false, authorizationServer := none } } } := by
  have e1 : readPreAuthorized (.obj pm) = some { preAuthorizedCode := code, txCode := false, authorizationServer := none } :=
    C128_pre_authorized_grant (t := []) code none none none false none (fun _ h => by cases h) (by intro f hf; simp [txt, int] at hf; rcases hf with rfl | rfl | rfl <;> simp [Says]) hp
  unfold App.readOfferText
  rw [String.toList_ofList, App.decodeText_percentEncode, Option.bind_some, (parse_iff _ _).2 ht, Option.bind_some]
  refine C128_credential_offer (some issuer) ids none (some (.obj pm)) none (some _) rfl ?_ hg h
  simp only [optional, e1]
  rfl

/-- C205: What a front end asks of the verifier is understood however it is written, whatever order its members have and whatever it leaves out. -/
theorem C205_front_end_understood {text : List Char} {m : List (String × Json)} (ht : Denotes text (.obj m)) {client purpose scheme : Option String}
    {flow : Option Verifier.DeviceFlow} {ds : Option (List Dif.InputDescriptor)}
    (hd : ∀ l, ds = some l → ∀ i ∈ l, ∀ m, i.format = some m → (m.map Prod.fst).Nodup)
    (h : Has m [("client_id", txt client), ("purpose", txt purpose), ("input_descriptors", ds.map fun l => .arr (l.map writeDescriptor)),
      ("device_flow", txt (flow.map flowSpec)), ("client_id_scheme", txt scheme)]) :
    (parseJson text).bind readCreateRequest =
      some { clientId := client.getD "", purpose := purpose.getD "", inputDescriptors := ds.getD [], deviceFlow := flow.getD .crossDevice } := by
  rw [(parse_iff _ _).2 ht, Option.bind_some]
  exact C189_left_out hd h

/-- C205: What vercre sends is JSON by the grammar, for every program that reads by it: offers, tokens, metadata and requests. -/
theorem C205_sends_json (o : Issuer.CreateOfferResponse) (t : TokenResponse) (i : IssuerMeta) (s : ServerMeta) (r : Verifier.CreateRequestResponse) :
    Denotes (writeOffered o).chars (writeOffered o) ∧ Denotes (writeTokenResponse t).chars (writeTokenResponse t) ∧
      Denotes (writeIssuerMeta i).chars (writeIssuerMeta i) ∧ Denotes (writeServer s).chars (writeServer s) ∧ Denotes (writeCreated r).chars (writeCreated r) :=
  ⟨(parse_iff _ _).1 (parseJson_chars _ (wf_offered o)), (parse_iff _ _).1 (parseJson_chars _ (wf_tokenResponse t)),
    (parse_iff _ _).1 (parseJson_chars _ (wf_issuerMeta i)), (parse_iff _ _).1 (parseJson_chars _ (wf_server s)), (parse_iff _ _).1 (parseJson_chars _ (wf_created r))⟩

end Verif.Wire
