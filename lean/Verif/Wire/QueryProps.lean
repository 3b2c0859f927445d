import Verif.Wire.FormLemmas
import Verif.Wire.RequestProps
import Verif.Wire.StoreLemmas
/-!
# C148: authorization requests as queries of the example issuer
-/
namespace Verif.Wire

/-! ### Specification -/

/-- None of the texts of a request has an ampersand. -/
structure NoAmp (r : Issuer.RequestObject) : Prop where
  credentialIssuer : '&' ∉ r.credentialIssuer.toList
  clientId : '&' ∉ r.clientId.toList
  redirectUri : ∀ s, r.redirectUri = some s → '&' ∉ s.toList
  state : ∀ s, r.state = some s → '&' ∉ s.toList
  codeChallenge : '&' ∉ r.codeChallenge.toList
  scope : ∀ s, r.scope = some s → '&' ∉ s.toList
  subjectId : '&' ∉ r.subjectId.toList
  issuerState : ∀ s, r.issuerState = some s → '&' ∉ s.toList

/-! ### Texts of queries -/

/-- A text as bytes of a query. -/
def enc (s : List Char) : List UInt8 := (utf8 s).flatMap encodeByte

theorem utf8_percentEncode (s : List Char) : utf8 (percentEncode s) = enc s := by
  apply utf8_ascii
  intro b hb
  obtain ⟨x, _, hx⟩ := List.mem_flatMap.1 hb
  exact (encodeByte_spec x).1 b hx

theorem enc_append (a b : List Char) : enc (a ++ b) = enc a ++ enc b := by simp [enc, utf8_append]

theorem encodeByte_marks (b : UInt8) : (38 ∈ encodeByte b → b = 38) ∧ (61 ∈ encodeByte b → b = 61) ∧ 43 ∉ encodeByte b := by
  have key : ∀ b : Fin 256, let b : UInt8 := UInt8.ofFin b
      (38 ∈ encodeByte b → b = 38) ∧ (61 ∈ encodeByte b → b = 61) ∧ 43 ∉ encodeByte b := by decide +kernel
  exact key b.toFin

theorem enc_amp {s : List Char} (h : '&' ∉ s) : 38 ∉ enc s := by
  intro hm
  obtain ⟨b, hb, hx⟩ := List.mem_flatMap.1 hm
  rw [(encodeByte_marks b).1 hx] at hb
  exact h (amp_of_utf8 hb)

theorem enc_plus (s : List Char) : 43 ∉ enc s := by
  intro hm
  obtain ⟨b, hb, hx⟩ := List.mem_flatMap.1 hm
  exact (encodeByte_marks b).2.2 hx

theorem formText_enc (lossy : List UInt8 → List Char) (s : List Char) : formText lossy (enc s) = String.ofList s := by
  have e : (enc s).map (fun b => if b = 43 then 32 else b) = enc s := by
    have : ∀ l : List UInt8, 43 ∉ l → l.map (fun b => if b = 43 then 32 else b) = l := by
      intro l hl
      induction l with
      | nil => rfl
      | cons x l ih =>
        simp only [List.mem_cons, not_or] at hl
        rw [List.map_cons, if_neg (Ne.symm hl.1), ih hl.2]
    exact this _ (enc_plus s)
  have hd := decodeBytes_encode (utf8 s) []
  simp only [List.append_nil, decodeBytes] at hd
  simp only [formText, e]
  rw [show decodeBytes (enc s) = utf8 s from hd, utf8?_utf8]
  rfl

/-- `name=text`, as the serializer writes it. -/
def queryPair (p : String × String) : List Char := p.1.toList ++ '=' :: p.2.toList

/-- The name of a parameter has none of the marks. -/
def Named (k : String) : Prop := '&' ∉ k.toList ∧ 61 ∉ enc k.toList

theorem enc_pair (p : String × String) : enc (queryPair p) = enc p.1.toList ++ 61 :: enc p.2.toList := by
  rw [queryPair, show p.1.toList ++ '=' :: p.2.toList = p.1.toList ++ (['='] ++ p.2.toList) from rfl, enc_append, enc_append,
    show enc ['='] = [61] by decide]
  rfl

theorem cut_pair (lossy : List UInt8 → List Char) {p : String × String} (h : 61 ∉ enc p.1.toList) (rest : List UInt8) :
    formText lossy (cutFirst (enc p.1.toList ++ 61 :: rest)).1 = p.1 := by
  rw [cutFirst_pair h, formText_enc]
  exact String.ofList_toList

theorem parse_query (lossy : List UInt8 → List Char) (l : List (String × String)) (h : ∀ p ∈ l, Named p.1 ∧ '&' ∉ p.2.toList) :
    parseForm lossy (enc (joinWith '&' (l.map queryPair))) = l := by
  induction l with
  | nil => rfl
  | cons p l ih =>
    simp only [List.forall_mem_cons] at h
    have hp : 38 ∉ enc (queryPair p) := by
      refine enc_amp ?_
      simp only [queryPair, List.mem_append, List.mem_cons, not_or]
      exact ⟨h.1.1.1, by decide, h.1.2⟩
    have hne : enc (queryPair p) ≠ [] := by rw [enc_pair]; simp
    have hr : (formText lossy (cutFirst (enc (queryPair p))).1, formText lossy (cutFirst (enc (queryPair p))).2) = p := by
      rw [enc_pair, cutFirst_pair h.1.1.2, formText_enc, formText_enc]
      simp [String.ofList_toList]
    cases l with
    | nil =>
      simp only [List.map_cons, List.map_nil, joinWith]
      rw [parseForm, cutAll_last hp]
      simp only [List.nil_append, List.filter_cons, hne, ne_eq, not_false_eq_true, decide_true, if_true, List.filter_nil, List.map_cons, List.map_nil, hr]
    | cons q l =>
      simp only [List.map_cons, joinWith] at ih ⊢
      rw [show queryPair p ++ '&' :: joinWith '&' (queryPair q :: l.map queryPair) = queryPair p ++ (['&'] ++ joinWith '&' (queryPair q :: l.map queryPair)) from rfl,
        enc_append, enc_append, show enc ['&'] = [38] by decide, List.singleton_append, parseForm, cutAll_more hp]
      simp only [List.nil_append, List.filter_cons, hne, ne_eq, not_false_eq_true, decide_true, if_true, List.map_cons, hr]
      have := ih h.2
      rw [parseForm] at this
      exact congrArg _ this

/-! ### The texts of a request -/

/-- A parameter that may be missing. -/
def param (k : String) (o : Option String) : List (String × String) := (o.map fun s => (k, s)).toList

/-- The parameters of a request without details, without the last. -/
def params (o : RequestObject) : List (String × String) :=
  (if o.credentialIssuer = "" then [] else [("credential_issuer", o.credentialIssuer)]) ++
  [("response_type", o.responseType.name), ("client_id", o.clientId)] ++ param "redirect_uri" o.redirectUri ++ param "state" o.state ++
  [("code_challenge", o.codeChallenge), ("code_challenge_method", "S256")] ++
  param "scope" o.scope ++ param "resource" o.resource ++ [("subject_id", o.subjectId)] ++ param "wallet_issuer" o.walletIssuer ++
  param "user_hint" o.userHint

theorem opt_param (k : String) (o : Option String) : opt k .str o = (param k o).map fun p => (p.1, Json.str p.2) := by cases o <;> rfl

theorem writeObject_params (o : RequestObject) (h : o.authorizationDetails = none) :
    writeObject o = (params o ++ param "issuer_state" o.issuerState).map fun p => (p.1, Json.str p.2) := by
  have e : opt "authorization_details" (writeVec writeDetail) o.authorizationDetails = [] := by rw [h]; rfl
  simp only [writeObject, params, opt_param, e, List.map_append, List.append_nil, List.append_assoc, List.map_cons, List.cons_append, List.nil_append]
  congr 1
  split <;> rfl

theorem toSm_texts (l : List (String × String)) : toSm (l.map fun p => (p.1, Json.str p.2)) = l.map fun p => (p.1, SVal.str p.2) := by
  induction l with
  | nil => rfl
  | cons p l ih => simp only [List.map_cons, toSm, toS, ih]

theorem text_params (l : List (String × String)) :
    (ser (.strct (l.map fun p => (p.1, SVal.str p.2))) { out := [], level := 0 }).out = joinWith '&' (l.map queryPair) := by
  rw [ser_top_values _ (by intro p hp; obtain ⟨q, _, rfl⟩ := List.mem_map.1 hp; exact .inr ⟨_, rfl⟩), List.map_map]
  rfl

theorem display_params (o : RequestObject) (h : o.authorizationDetails = none) :
    utf8 (display (.object o)) = enc (joinWith '&' ((params o ++ param "issuer_state" o.issuerState).map queryPair)) := by
  rw [display, urlEncode, utf8_percentEncode, writeRequest, writeObject_params o h, toSm_texts, text_params]

/-! ### Reading -/

theorem known_params {o : RequestObject} {p : String × String} (h : p ∈ params o ++ param "issuer_state" o.issuerState) : p.1 ∈ objectNames := by
  have hp : ∀ {k : String} {o : Option String}, p ∈ param k o → k ∈ objectNames → p.1 ∈ objectNames := by
    intro k o hm hk
    cases o with
    | none => cases hm
    | some s => rw [param, Option.map_some, Option.toList_some, List.mem_singleton] at hm; subst hm; exact hk
  simp only [params, List.mem_append, List.mem_cons, List.not_mem_nil, or_false] at h
  rcases h with (((((((((h | h | h) | h) | h) | h | h) | h) | h) | h) | h) | h) | h
  · split at h
    · cases h
    · rw [List.mem_singleton] at h; subst h; simp [objectNames]
  all_goals first | exact hp h (by decide) | (subst h; simp [objectNames])

theorem named_all {k : String} (h : k ∈ objectNames) : Named k := by
  have : ∀ k ∈ objectNames, '&' ∉ k.toList ∧ 61 ∉ enc k.toList := by decide
  exact this k h

theorem filter_params {l : List (String × String)} (h : ∀ p ∈ l, p.1 ∈ objectNames) : l.filter (fun p => requestNames.contains p.1) = l := by
  refine List.filter_eq_self.2 fun p hp => ?_
  rw [List.contains_iff_mem]
  exact List.mem_cons_of_mem _ (h p hp)

theorem noAmp_params {r : Issuer.RequestObject} (h : NoAmp r) {p : String × String}
    (hp : p ∈ params (objectOf r) ++ param "issuer_state" (objectOf r).issuerState) : '&' ∉ p.2.toList := by
  have ho : ∀ {k : String} {o : Option String}, (∀ s, o = some s → '&' ∉ s.toList) → p ∈ param k o → '&' ∉ p.2.toList := by
    intro k o hk hm
    cases o with
    | none => cases hm
    | some s => rw [param, Option.map_some, Option.toList_some, List.mem_singleton] at hm; subst hm; exact hk s rfl
  simp only [params, List.mem_append, List.mem_cons, List.not_mem_nil, or_false] at hp
  rcases hp with (((((((((hp | hp | hp) | hp) | hp) | hp | hp) | hp) | hp) | hp) | hp) | hp) | hp
  · split at hp
    · cases hp
    · rw [List.mem_singleton] at hp; subst hp; exact h.credentialIssuer
  · subst hp
    show '&' ∉ (ResponseType.name _).toList
    cases (objectOf r).responseType <;> decide
  · subst hp; exact h.clientId
  · exact ho h.redirectUri hp
  · exact ho h.state hp
  · subst hp; exact h.codeChallenge
  · subst hp; show '&' ∉ "S256".toList; decide
  · exact ho h.scope hp
  · exact ho (fun s (hs : none = some s) => nomatch hs) hp
  · subst hp; exact h.subjectId
  · exact ho (fun s (hs : none = some s) => nomatch hs) hp
  · exact ho (fun s (hs : none = some s) => nomatch hs) hp
  · exact ho h.issuerState hp

/-- **C148** A request that names credentials by scope, none of whose texts has an ampersand, comes back from the redirect after a login as it was. Missing: requests with details
(`C148_details_lost`), and texts with ampersands (`C148_redirect_changes_client`). -/
theorem C148_redirect_leads_back_partial (lossy : List UInt8 → List Char) (r : Issuer.RequestObject) (hd : r.authorizationDetails = none) (h : NoAmp r) :
    querySeen lossy (redirectQuery r) = some (.object r) := by
  have hd' : (objectOf r).authorizationDetails = none := by simp [objectOf, hd]
  rw [querySeen, redirectQuery, display_params _ hd', readRequestForm,
    parse_query lossy _ fun p hp => ⟨named_all (known_params hp), noAmp_params h hp⟩, filter_params fun p hp => known_params hp, formJson, ← writeObject_params _ hd']
  have := read_written (objectOf r) (fun l hl => by rw [hd'] at hl; cases hl) ""
  rw [readRequest, this, Option.map_some, authorizationRequestSeen, objectSeen_of]

theorem read_more {l m : List (String × Json)} {obj o : RequestObject} {uri : String} (h : readRequestMembers l obj uri = some (.object o)) :
    readRequestMembers (l ++ m) obj uri = readRequestMembers m o "" := by
  induction l generalizing obj uri with
  | nil =>
    simp only [readRequestMembers, Option.some.injEq] at h
    split at h
    · rename_i hu; cases h; rw [hu]; rfl
    · cases h
  | cons p l ih =>
    obtain ⟨k, j⟩ := p
    rw [List.cons_append]
    rw [readRequestMembers] at h ⊢
    by_cases hk : k = "credential_issuer"
    · rw [if_pos hk] at h ⊢
      obtain ⟨x, hx, h⟩ := Option.bind_eq_some_iff.1 h
      rw [hx, Option.bind_some]
      exact ih h
    rw [if_neg hk] at h ⊢
    clear hk
    by_cases hk : k = "response_type"
    · rw [if_pos hk] at h ⊢
      obtain ⟨x, hx, h⟩ := Option.bind_eq_some_iff.1 h
      rw [hx, Option.bind_some]
      exact ih h
    rw [if_neg hk] at h ⊢
    clear hk
    by_cases hk : k = "client_id"
    · rw [if_pos hk] at h ⊢
      obtain ⟨x, hx, h⟩ := Option.bind_eq_some_iff.1 h
      rw [hx, Option.bind_some]
      exact ih h
    rw [if_neg hk] at h ⊢
    clear hk
    by_cases hk : k = "redirect_uri"
    · rw [if_pos hk] at h ⊢
      obtain ⟨x, hx, h⟩ := Option.bind_eq_some_iff.1 h
      rw [hx, Option.bind_some]
      exact ih h
    rw [if_neg hk] at h ⊢
    clear hk
    by_cases hk : k = "state"
    · rw [if_pos hk] at h ⊢
      obtain ⟨x, hx, h⟩ := Option.bind_eq_some_iff.1 h
      rw [hx, Option.bind_some]
      exact ih h
    rw [if_neg hk] at h ⊢
    clear hk
    by_cases hk : k = "code_challenge"
    · rw [if_pos hk] at h ⊢
      obtain ⟨x, hx, h⟩ := Option.bind_eq_some_iff.1 h
      rw [hx, Option.bind_some]
      exact ih h
    rw [if_neg hk] at h ⊢
    clear hk
    by_cases hk : k = "code_challenge_method"
    · rw [if_pos hk] at h ⊢
      obtain ⟨x, hx, h⟩ := Option.bind_eq_some_iff.1 h
      rw [hx, Option.bind_some]
      exact ih h
    rw [if_neg hk] at h ⊢
    clear hk
    by_cases hk : k = "authorization_details"
    · rw [if_pos hk] at h ⊢
      obtain ⟨x, hx, h⟩ := Option.bind_eq_some_iff.1 h
      rw [hx, Option.bind_some]
      exact ih h
    rw [if_neg hk] at h ⊢
    clear hk
    by_cases hk : k = "scope"
    · rw [if_pos hk] at h ⊢
      obtain ⟨x, hx, h⟩ := Option.bind_eq_some_iff.1 h
      rw [hx, Option.bind_some]
      exact ih h
    rw [if_neg hk] at h ⊢
    clear hk
    by_cases hk : k = "resource"
    · rw [if_pos hk] at h ⊢
      obtain ⟨x, hx, h⟩ := Option.bind_eq_some_iff.1 h
      rw [hx, Option.bind_some]
      exact ih h
    rw [if_neg hk] at h ⊢
    clear hk
    by_cases hk : k = "subject_id"
    · rw [if_pos hk] at h ⊢
      obtain ⟨x, hx, h⟩ := Option.bind_eq_some_iff.1 h
      rw [hx, Option.bind_some]
      exact ih h
    rw [if_neg hk] at h ⊢
    clear hk
    by_cases hk : k = "wallet_issuer"
    · rw [if_pos hk] at h ⊢
      obtain ⟨x, hx, h⟩ := Option.bind_eq_some_iff.1 h
      rw [hx, Option.bind_some]
      exact ih h
    rw [if_neg hk] at h ⊢
    clear hk
    by_cases hk : k = "user_hint"
    · rw [if_pos hk] at h ⊢
      obtain ⟨x, hx, h⟩ := Option.bind_eq_some_iff.1 h
      rw [hx, Option.bind_some]
      exact ih h
    rw [if_neg hk] at h ⊢
    clear hk
    by_cases hk : k = "issuer_state"
    · rw [if_pos hk] at h ⊢
      obtain ⟨x, hx, h⟩ := Option.bind_eq_some_iff.1 h
      rw [hx, Option.bind_some]
      exact ih h
    rw [if_neg hk] at h ⊢
    clear hk
    by_cases hk : k = "request_uri"
    · rw [if_pos hk] at h ⊢
      obtain ⟨x, hx, h⟩ := Option.bind_eq_some_iff.1 h
      rw [hx, Option.bind_some]
      exact ih h
    rw [if_neg hk] at h ⊢
    clear hk
    cases h

/-- The parameters of a request that has another parameter in its last text. -/
theorem params_injected (l : List (String × String)) (k a k' c : String) :
    joinWith '&' ((l ++ [(k, a ++ ("&" ++ (k' ++ ("=" ++ c))))]).map queryPair) = joinWith '&' ((l ++ [(k, a), (k', c)]).map queryPair) := by
  have e : queryPair (k, a ++ ("&" ++ (k' ++ ("=" ++ c)))) = queryPair (k, a) ++ '&' :: queryPair (k', c) := by
    simp [queryPair, String.toList_append]
  cases l with
  | nil => simp [joinWith, e]
  | cons p l => simp [joinWith_cons, e]

/-- **C148** The redirect after a login can lead to a request of another client: if the last text of a request, which anyone can choose, has an ampersand and the name of a
parameter in it, then the server goes on with what follows. -/
theorem C148_redirect_changes_client (lossy : List UInt8 → List Char) (r : Issuer.RequestObject) (hd : r.authorizationDetails = none) (a c : String)
    (h : NoAmp { r with issuerState := some a }) (hc : '&' ∉ c.toList) :
    querySeen lossy (redirectQuery { r with issuerState := some (a ++ ("&" ++ ("client_id" ++ ("=" ++ c)))) }) =
      some (.object { r with issuerState := some a, clientId := c }) := by
  have hd' : (objectOf { r with issuerState := some (a ++ ("&" ++ ("client_id" ++ ("=" ++ c)))) }).authorizationDetails = none := by simp [objectOf, hd]
  have hd2 : (objectOf { r with issuerState := some a }).authorizationDetails = none := by simp [objectOf, hd]
  have e1 : params (objectOf { r with issuerState := some (a ++ ("&" ++ ("client_id" ++ ("=" ++ c)))) }) = params (objectOf { r with issuerState := some a }) := rfl
  have hsplit : params (objectOf { r with issuerState := some a }) ++ [("issuer_state", a), ("client_id", c)] =
      (params (objectOf { r with issuerState := some a }) ++ param "issuer_state" (objectOf { r with issuerState := some a }).issuerState) ++ [("client_id", c)] := by
    simp [param, objectOf]
  have hmem : ∀ p ∈ params (objectOf { r with issuerState := some a }) ++ [("issuer_state", a), ("client_id", c)], p.1 ∈ objectNames ∧ '&' ∉ p.2.toList := by
    intro p hp
    rw [hsplit] at hp
    rcases List.mem_append.1 hp with hp | hp
    · exact ⟨known_params hp, noAmp_params h hp⟩
    · rw [List.mem_singleton] at hp; subst hp; exact ⟨by simp [objectNames], hc⟩
  rw [querySeen, redirectQuery, display_params _ hd', e1]
  show ((readRequestForm lossy (enc (joinWith '&' ((params (objectOf { r with issuerState := some a }) ++ [("issuer_state", a ++ ("&" ++ ("client_id" ++ ("=" ++ c))))]).map
    queryPair)))).map authorizationRequestSeen) = _
  rw [params_injected, readRequestForm, parse_query lossy _ fun p hp => ⟨named_all (hmem p hp).1, (hmem p hp).2⟩, filter_params fun p hp => (hmem p hp).1, formJson, hsplit,
    List.map_append, ← writeObject_params _ hd2]
  have := read_written (objectOf { r with issuerState := some a }) (fun l hl => by rw [hd2] at hl; cases hl) ""
  rw [readRequest, read_more this]
  show (some (AuthorizationRequest.object { objectOf { r with issuerState := some a } with clientId := c })).map authorizationRequestSeen = _
  have e2 : { objectOf { r with issuerState := some a } with clientId := c } = objectOf { r with issuerState := some a, clientId := c } := rfl
  rw [e2, Option.map_some, authorizationRequestSeen, objectSeen_of]

/-! ### Details -/

theorem add_grows (s : Ser) (t : List Char) : s.out <+: (s.add t).out := List.prefix_append _ _

theorem str_grows (s : Ser) (t : List Char) : s.out <+: (s.str t).out := by
  rw [Ser.str]
  split <;> exact List.prefix_append _ _

theorem sep_grows (s : Ser) (c : Char) : s.out <+: (s.sep c).out := by
  rw [Ser.sep]
  split
  · exact List.prefix_rfl
  · exact List.prefix_append _ _

mutual
/-- The serializer only adds to its output. -/
theorem ser_grows : ∀ (v : SVal) (s : Ser), s.out <+: (ser v s).out
  | .bool b, s => ⟨_, rfl⟩
  | .int n, s => ⟨_, rfl⟩
  | .str t, s => by
    rw [ser, Ser.str]
    split <;> exact ⟨_, rfl⟩
  | .unit, s => ⟨_, rfl⟩
  | .seq l, s => by
    rw [ser]
    exact ((List.prefix_append s.out _).trans (serElems_grows l (s.up.add ['[']))).trans (List.prefix_append _ _)
  | .tuple l, s => by
    rw [ser]
    exact ((List.prefix_append s.out _).trans (serElems_grows l (s.up.up.add ['[']))).trans (List.prefix_append _ _)
  | .strct fs, s => by
    rw [ser]
    have h : s.out <+: (serFields fs (if s.up.nested then s.up.add ['{'] else s.up)).out := by
      refine List.IsPrefix.trans ?_ (serFields_grows fs _)
      split
      · exact List.prefix_append _ _
      · exact List.prefix_rfl
    generalize serFields fs (if s.up.nested then s.up.add ['{'] else s.up) = s' at h ⊢
    show s.out <+: (if s'.nested then (s'.add ['}']).down else s').out
    split
    · exact h.trans (add_grows s' _)
    · exact h
  | .map es, s => by
    rw [ser]
    have h : s.out <+: (serEntries es (if s.up.nested then s.up.add ['{'] else s.up)).out := by
      refine List.IsPrefix.trans ?_ (serEntries_grows es _)
      split
      · exact List.prefix_append _ _
      · exact List.prefix_rfl
    exact h.trans (List.prefix_append _ _)
  | .newtypeVariant v x, s => by
    rw [ser]
    split
    · exact ((((add_grows s.up ['{']).trans (str_grows _ v.toList)).trans (add_grows _ [':'])).trans (ser_grows x _)).trans (add_grows _ ['}'])
    · exact ((str_grows s.up v.toList).trans (add_grows _ ['='])).trans (ser_grows x _)
  | .tupleVariant v l, s => by
    rw [ser]
    have h : s.out <+: (serElems l (if s.up.nested then ((s.up.add ['{']).str v.toList).add [':', '['] else (s.up.str v.toList).add ['=', '['])).out := by
      refine List.IsPrefix.trans ?_ (serElems_grows l _)
      split
      · exact ((add_grows s.up ['{']).trans (str_grows _ v.toList)).trans (add_grows _ [':', '['])
      · exact (str_grows s.up v.toList).trans (add_grows _ ['=', '['])
    generalize serElems l (if s.up.nested then ((s.up.add ['{']).str v.toList).add [':', '['] else (s.up.str v.toList).add ['=', '[']) = s' at h ⊢
    show s.out <+: (if s'.nested then (s'.add [']', '}']).down else (s'.add [']']).down).out
    split <;> exact h.trans (add_grows s' _)
  | .structVariant v fs, s => by
    rw [ser]
    have h : s.out <+: (serEntries fs (if s.up.nested then ((s.up.add ['{']).str v.toList).add [':', '{'] else (s.up.str v.toList).add ['=', '{'])).out := by
      refine List.IsPrefix.trans ?_ (serEntries_grows fs _)
      split
      · exact ((add_grows s.up ['{']).trans (str_grows _ v.toList)).trans (add_grows _ [':', '{'])
      · exact (str_grows s.up v.toList).trans (add_grows _ ['=', '{'])
    generalize serEntries fs (if s.up.nested then ((s.up.add ['{']).str v.toList).add [':', '{'] else (s.up.str v.toList).add ['=', '{']) = s' at h ⊢
    show s.out <+: (if s'.nested then (s'.add ['}', '}']).down else (s'.add ['}']).down).out
    split <;> exact h.trans (add_grows s' _)
theorem serElems_grows : ∀ (l : List SVal) (s : Ser), s.out <+: (serElems l s).out
  | [], _ => List.prefix_rfl
  | x :: l, s => ((sep_grows s '[').trans (ser_grows x _)).trans (serElems_grows l _)
theorem serFields_grows : ∀ (l : List (String × SVal)) (s : Ser), s.out <+: (serFields l s).out
  | [], s => List.prefix_rfl
  | (k, x) :: l, s => by
    rw [serFields]
    refine List.IsPrefix.trans ?_ (serFields_grows l _)
    refine List.IsPrefix.trans ?_ (ser_grows x _)
    refine List.IsPrefix.trans ?_ (List.prefix_append _ _)
    refine List.IsPrefix.trans ?_ (str_grows _ _)
    split
    · exact sep_grows s '{'
    split
    · exact List.prefix_rfl
    · exact List.prefix_append _ _
theorem serEntries_grows : ∀ (l : List (String × SVal)) (s : Ser), s.out <+: (serEntries l s).out
  | [], _ => List.prefix_rfl
  | (k, x) :: l, s => ((((sep_grows s '{').trans (str_grows _ k.toList)).trans (add_grows _ [':'])).trans (ser_grows x _)).trans (serEntries_grows l _)
end

theorem details_text_fails {l : List (String × Json)} {s : String} (h : ("authorization_details", Json.str s) ∈ l) : ∀ obj uri, readRequestMembers l obj uri = none := by
  induction l with
  | nil => cases h
  | cons p l ih =>
    intro obj uri
    obtain ⟨k', j'⟩ := p
    rcases List.mem_cons.1 h with e | h
    · cases e
      rfl
    · have ih := ih h
      have hb : ∀ {α : Type} (o : Option α), (o.bind fun _ => (none : Option AuthorizationRequest)) = none := by intro α o; cases o <;> rfl
      simp only [readRequestMembers, ih, hb, ite_self]

/-- **C148** No query with details can be read, whatever they are. -/
theorem C148_details_not_read (lossy : List UInt8 → List Char) (query : List UInt8) (s : String) (h : ("authorization_details", s) ∈ parseForm lossy query) :
    querySeen lossy query = none ∧ pushSeen lossy query = none := by
  constructor
  · have : readRequestForm lossy query = none := by
      rw [readRequestForm, formJson, readRequest]
      refine details_text_fails (s := s) (List.mem_map.2 ⟨("authorization_details", s), List.mem_filter.2 ⟨h, ?_⟩, rfl⟩) {} ""
      simp [requestNames, objectNames]
    rw [querySeen, this]; rfl
  · have : readForm lossy readObject query = none := by
      cases hr : readForm lossy readObject query with
      | none => rfl
      | some o =>
        exfalso
        rw [readForm, formJson, readObject] at hr
        split at hr
        case h_2 => cases hr
        rename_i ci rt cid ru st cc cm ad sc rs sid wi uh is hl
        have ha : single ((parseForm lossy query).map fun p => (p.1, Json.str p.2)) "authorization_details" = some ad := by
          simp only [structFieldsDefault, objectNames, List.mapM_cons, List.mapM_nil, Option.bind_eq_bind, Option.pure_def] at hl
          iterate 7
            obtain ⟨_, _, hl⟩ := Option.bind_eq_some_iff.1 hl
            obtain ⟨_, hl, e⟩ := Option.bind_eq_some_iff.1 hl
            cases e
          obtain ⟨_, h3, hl⟩ := Option.bind_eq_some_iff.1 hl
          obtain ⟨_, hl, e⟩ := Option.bind_eq_some_iff.1 hl
          cases e
          exact h3
        cases ad with
        | none =>
          have hm : ("authorization_details", Json.str s) ∈ ((parseForm lossy query).map fun p => (p.1, Json.str p.2)).filter fun p => p.1 = "authorization_details" :=
            List.mem_filter.2 ⟨List.mem_map.2 ⟨_, h, rfl⟩, by simp⟩
          unfold single at ha
          split at ha
          · rename_i hn; rw [hn] at hm; cases hm
          · cases ha
          · cases ha
        | some j =>
          obtain ⟨t, rfl⟩ := single_str ha
          iterate 7 obtain ⟨_, _, hr⟩ := Option.bind_eq_some_iff.1 hr
          obtain ⟨_, hd, hr⟩ := Option.bind_eq_some_iff.1 hr
          cases hd
    rw [pushSeen, this]; rfl

theorem cutAll_behind (a b acc : List UInt8) : ∃ l, cutAll (a ++ 38 :: b) acc = l ++ cutAll b [] := by
  induction a generalizing acc with
  | nil => exact ⟨[acc], by simp [cutAll]⟩
  | cons x a ih =>
    rw [List.cons_append, cutAll]
    split
    · obtain ⟨l, hl⟩ := ih []
      exact ⟨acc :: l, by rw [hl]; rfl⟩
    · exact ih _

theorem cutAll_starts (q acc : List UInt8) : ∃ y l, cutAll q acc = (acc ++ y) :: l := by
  induction q generalizing acc with
  | nil => exact ⟨[], [], by simp [cutAll]⟩
  | cons x q ih =>
    rw [cutAll]
    split
    · exact ⟨[], cutAll q [], by simp⟩
    · obtain ⟨y, l, h⟩ := ih (acc ++ [x])
      exact ⟨x :: y, l, by rw [h]; simp⟩

theorem cutAll_front {p : List UInt8} (h : 38 ∉ p) (q acc : List UInt8) : cutAll (p ++ q) acc = cutAll q (acc ++ p) := by
  induction p generalizing acc with
  | nil => simp
  | cons x p ih =>
    simp only [List.mem_cons, not_or] at h
    rw [List.cons_append, cutAll, if_neg (Ne.symm h.1), ih h.2]; simp

/-- A parameter in the midst of a query is read, whatever is around it. -/
theorem param_seen (lossy : List UInt8 → List Char) (a b : List UInt8) {k : String} (hk : k ∈ objectNames) :
    ∃ s, (k, s) ∈ parseForm lossy (a ++ 38 :: (enc k.toList ++ 61 :: b)) := by
  obtain ⟨l, hl⟩ := cutAll_behind a (enc k.toList ++ 61 :: b) []
  obtain ⟨y, l', hy⟩ := cutAll_starts b (enc k.toList ++ [61])
  have hn := named_all hk
  have hfront : cutAll (enc k.toList ++ 61 :: b) [] = (enc k.toList ++ 61 :: y) :: l' := by
    rw [cutAll_front (enc_amp hn.1), cutAll, if_neg (by decide)]
    simpa using hy
  refine ⟨formText lossy (cutFirst (enc k.toList ++ 61 :: y)).2, ?_⟩
  rw [parseForm, hl, hfront]
  refine List.mem_map.2 ⟨enc k.toList ++ 61 :: y, List.mem_filter.2 ⟨by simp, by simp⟩, ?_⟩
  rw [cut_pair lossy (p := (k, "")) hn.2]

theorem serFields_append (a b : List (String × SVal)) (s : Ser) : serFields (a ++ b) s = serFields b (serFields a s) := by
  induction a generalizing s with
  | nil => rfl
  | cons p a ih =>
    obtain ⟨k, v⟩ := p
    rw [List.cons_append, serFields, serFields]
    exact ih _

/-- The text of a struct with texts first. -/
theorem text_then (l : List (String × String)) (hne : l ≠ []) (k : String) (v : SVal) (rest : List (String × SVal)) :
    ∃ x, (ser (.strct ((l.map fun p => (p.1, SVal.str p.2)) ++ (k, v) :: rest)) { out := [], level := 0 }).out =
      joinWith '&' (l.map queryPair) ++ '&' :: (k.toList ++ '=' :: x) := by
  have h1 := (ser_top_rest (l.map fun p => (p.1, SVal.str p.2)) (by intro p hp; obtain ⟨q, _, rfl⟩ := List.mem_map.1 hp; exact .inr ⟨_, rfl⟩)
    { out := [], level := 1 } rfl).1 rfl
  rw [List.map_map] at h1
  have h1 : serFields (l.map fun p => (p.1, SVal.str p.2)) { out := [], level := 1 } = { out := joinWith '&' (l.map queryPair), level := 1 } := by
    rw [h1]; simp only [Ser.add, List.nil_append]; rfl
  have hne' : (joinWith '&' (l.map queryPair)).isEmpty = false := by
    cases l with
    | nil => exact absurd rfl hne
    | cons p l => rw [List.map_cons, joinWith_cons]; simp [queryPair]
  have h2 : (joinWith '&' (l.map queryPair) ++ '&' :: (k.toList ++ ['='])) <+:
      (serFields ((l.map fun p => (p.1, SVal.str p.2)) ++ (k, v) :: rest) { out := [], level := 1 }).out := by
    rw [serFields_append, h1, serFields]
    refine List.IsPrefix.trans ?_ (serFields_grows rest _)
    refine List.IsPrefix.trans ?_ (ser_grows v _)
    simp [Ser.nested, Ser.str, Ser.add, hne']
  have h3 : (serFields ((l.map fun p => (p.1, SVal.str p.2)) ++ (k, v) :: rest) { out := [], level := 1 }).out <+:
      (ser (.strct ((l.map fun p => (p.1, SVal.str p.2)) ++ (k, v) :: rest)) { out := [], level := 0 }).out := by
    rw [ser]
    generalize hs : serFields ((l.map fun p => (p.1, SVal.str p.2)) ++ (k, v) :: rest) { out := [], level := 1 } = s'
    have hs : serFields ((l.map fun p => (p.1, SVal.str p.2)) ++ (k, v) :: rest)
      (if ({ out := [], level := 0 } : Ser).up.nested = true then ({ out := [], level := 0 } : Ser).up.add ['{'] else ({ out := [], level := 0 } : Ser).up) = s' := hs
    simp only [hs]
    show s'.out <+: (if s'.nested then (s'.add ['}']).down else s').out
    split
    · exact add_grows s' _
    · exact List.prefix_rfl
  obtain ⟨x, hx⟩ := h2.trans h3
  exact ⟨x, by rw [← hx]; simp⟩

/-- The parameters before the details. -/
def before (o : RequestObject) : List (String × String) :=
  (if o.credentialIssuer = "" then [] else [("credential_issuer", o.credentialIssuer)]) ++
  [("response_type", o.responseType.name), ("client_id", o.clientId)] ++ param "redirect_uri" o.redirectUri ++ param "state" o.state ++
  [("code_challenge", o.codeChallenge), ("code_challenge_method", "S256")]

theorem writeObject_details (o : RequestObject) {ds : List AuthorizationDetail} (h : o.authorizationDetails = some ds) :
    ∃ rest, writeObject o = ((before o).map fun p => (p.1, Json.str p.2)) ++ ("authorization_details", writeVec writeDetail ds) :: rest := by
  refine ⟨opt "scope" .str o.scope ++ opt "resource" .str o.resource ++ [("subject_id", .str o.subjectId)] ++ opt "wallet_issuer" .str o.walletIssuer ++
    opt "user_hint" .str o.userHint ++ opt "issuer_state" .str o.issuerState, ?_⟩
  have e : opt "authorization_details" (writeVec writeDetail) o.authorizationDetails = [("authorization_details", writeVec writeDetail ds)] := by rw [h]; rfl
  simp only [writeObject, before, opt_param, e, List.map_append, List.append_assoc, List.map_cons, List.map_nil, List.cons_append, List.nil_append]
  congr 1
  split <;> rfl

/-- **C148** A request with details does not come back from the redirect after a login: the redirect leads to a query that cannot be read. -/
theorem C148_details_lost (lossy : List UInt8 → List Char) (r : Issuer.RequestObject) (ds : List Verif.AuthorizationDetail) (h : r.authorizationDetails = some ds) :
    querySeen lossy (redirectQuery r) = none := by
  have h' : (objectOf r).authorizationDetails = some (ds.map detailOf) := by simp [objectOf, h]
  obtain ⟨rest, hw⟩ := writeObject_details _ h'
  obtain ⟨x, hx⟩ := text_then (before (objectOf r)) (by simp [before]) "authorization_details" (toS (writeVec writeDetail (ds.map detailOf))) (toSm rest)
  have e : redirectQuery r = enc (joinWith '&' ((before (objectOf r)).map queryPair)) ++ 38 :: (enc "authorization_details".toList ++ 61 :: enc x) := by
    rw [redirectQuery, display, urlEncode, utf8_percentEncode, writeRequest, hw, toSm_append, toSm_texts, toSm, hx,
      show ∀ a b : List Char, a ++ '&' :: b = a ++ (['&'] ++ b) from fun _ _ => rfl, enc_append, enc_append, show enc ['&'] = [38] by decide,
      show ∀ a b : List Char, a ++ '=' :: b = a ++ (['='] ++ b) from fun _ _ => rfl, enc_append, enc_append, show enc ['='] = [61] by decide]
    rfl
  obtain ⟨s, hs⟩ := param_seen lossy (enc (joinWith '&' ((before (objectOf r)).map queryPair))) (enc x) (k := "authorization_details") (by simp [objectNames])
  rw [e]
  exact (C148_details_not_read lossy _ s hs).1

end Verif.Wire
