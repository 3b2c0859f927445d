import Verif.Wire.ForeignAskProps
/-!
# C128, continued: credentials and presentations made by others
-/
namespace Verif.Wire

/-- What a member with a point in time says. -/
def moment (T : TimeText) (o : Option Int) : Option Json := o.map fun t => .str (T.text t)

theorem optional_moment (T : TimeText) (o : Option Int) : optional T.readJson (moment T o) = some o := by
  cases o with
  | none => rfl
  | some t => exact congrArg (Option.map some) (T.read_text t)

/-- C128: The issuer of a credential, if more than its identifier is given. -/
theorem C128_credential_issuer {m : List (String × Json)} (id : String) (extra : Dict Json) (he : readMap some (m.filter fun p => ¬ p.1 = "id") = some extra)
    (h : Has m [("id", txt (some id))]) : readIssuer (.obj m) = some { id := id, extra := some extra } := by
  have e1 : defaulted "" readStr (txt (some id)) = some id := rfl
  have e2 : (m.filter fun p => decide ¬ p.1 ∈ ["id"]) = m.filter fun p => decide ¬ p.1 = "id" := List.filter_congr fun p _ => by simp
  unfold readIssuer
  rw [h.flat (names := ["id"]) rfl, e2]
  simp only [List.map_cons, List.map_nil, Option.bind_eq_bind, Option.bind_some, e1, he]

/-- C128: The subject of a credential: every member but the identifier is a claim. -/
theorem C128_subject {m : List (String × Json)} (id : Option String) (claims : Dict Json) (hc : readMap some (m.filter fun p => ¬ p.1 = "id") = some claims)
    (h : Has m [("id", txt id)]) : readSubject (.obj m) = some { id := id, claims := claims } := by
  have e2 : (m.filter fun p => decide ¬ p.1 ∈ ["id"]) = m.filter fun p => decide ¬ p.1 = "id" := List.filter_congr fun p _ => by simp
  unfold readSubject
  rw [h.flat (names := ["id"]) rfl, e2]
  simp only [List.map_cons, List.map_nil, Option.bind_eq_bind, Option.bind_some, optional_txt, hc]

/-- C128: A credential of the W3C data model. -/
theorem C128_credential (T : TimeText) {m : List (String × Json)} (context types : List String) (id : Option String) (is s : Json) (issuer : Kind VcIssuer)
    (subject : Quota Subject) (from_ until_ : Option Int) (n d st sc p r rf te ev : Option Json) (name description : Option LangString) (status : Option (Quota Status))
    (schema : Option (Quota Schema)) (proof : Option (Quota IntProof)) (related : Option (Quota RelatedResource)) (refresh : Option RefreshService)
    (terms : Option (Quota Term)) (evidence : Option (Quota Evidence)) (hi : readKind readIssuer is = some issuer) (hs : readQuota readSubject s = some subject)
    (hn : optional readLang n = some name) (hd : optional readLang d = some description) (hst : optional (readQuota readStatus) st = some status)
    (hsc : optional (readQuota readSchema) sc = some schema) (hp : optional (readQuota (readIntProof T)) p = some proof)
    (hr : optional (readQuota readRelated) r = some related) (hrf : optional readRefresh rf = some refresh) (hte : optional (readQuota readTerm) te = some terms)
    (hev : optional (readQuota readEvidence) ev = some evidence)
    (h : Has m [("@context", txts (some context)), ("id", txt id), ("type", txts (some types)), ("name", n), ("description", d), ("issuer", some is),
      ("credentialSubject", some s), ("validFrom", moment T from_), ("validUntil", moment T until_), ("credentialStatus", st), ("credentialSchema", sc), ("proof", p),
      ("relatedResource", r), ("refreshService", rf), ("termsOfUse", te), ("evidence", ev)]) :
    readVc T (.obj m) =
      some { context := context.map .string, id := id, type_ := .many types, name := name, description := description, issuer := issuer, subject := subject,
             validFrom := from_, validUntil := until_, status := status, schema := schema, proof := proof, related := related, refresh := refresh, terms := terms,
             evidence := evidence } := by
  have e1 : defaulted [] (readVec (readKind some)) (txts (some context)) = some (context.map .string) := by
    show (context.map Json.str).mapM (readKind some) = some (context.map .string)
    clear h
    induction context with
    | nil => rfl
    | cons a l ih => rw [List.map_cons, List.mapM_cons, ih]; rfl
  have e2 : defaulted (.one "") (readQuota readStr) (txts (some types)) = some (.many types) := congrArg (Option.map Quota.many) (readVec_txts types)
  have e3 : defaulted (.string "") (readKind readIssuer) (some is) = some issuer := hi
  have e4 : defaulted (.one {}) (readQuota readSubject) (some s) = some subject := hs
  have e5 : structDefault vcNames (.obj m) =
      some [txts (some context), txt id, txts (some types), n, d, some is, some s, moment T from_, moment T until_, st, sc, p, r, rf, te, ev] := h.fields
  have hb : ∀ {α β : Type} (a : α) (f : α → Option β), (some a >>= f) = f a := fun _ _ => rfl
  rw [readVc, e5]
  clear e5 h
  simp only [hb, e1, e2, e3, e4, optional_txt, optional_moment, hn, hd, hst, hsc, hp, hr, hrf, hte, hev]

/-- C128 is violated for credentials with a status: their status is an entry of a bitstring status list, whose members vercre knows by names of its own. A status with
the names of the W3C recommendation is refused, and the credential with it. -/
theorem C128_status_refused (T : TimeText) {m sm : List (String × Json)} (hs : Has sm [("type", txt (some "BitstringStatusListEntry")), ("status_purpose", none)])
    (h : Has m [("credentialStatus", some (.obj sm))]) : readVc T (.obj m) = none := by
  have e0 : readStatus (.obj sm) = none := by
    cases hr : readStatus (.obj sm) with
    | none => rfl
    | some r =>
      exfalso
      unfold readStatus flatFields at hr
      obtain ⟨⟨l, rest⟩, hl, hr⟩ := Option.bind_eq_some_iff.1 hr
      obtain ⟨l0, hl0, e⟩ := Option.map_eq_some_iff.1 hl
      cases e
      split at hr
      · rename_i heq
        simp only [Prod.mk.injEq] at heq
        obtain ⟨-, rfl⟩ := heq
        obtain ⟨_, -, hr⟩ := Option.bind_eq_some_iff.1 hr
        obtain ⟨q, hq, hr⟩ := Option.bind_eq_some_iff.1 hr
        have hk := found hq 0 rfl (((hs.drop 1).restOf (names := ["id", "type"]) (by simp)) _ (List.mem_singleton.2 rfl))
        match q, hq, hr, hk with
        | [_, _, _, _, _, _], hq, hr, hk =>
          cases hk
          obtain ⟨_, hx, -⟩ := Option.bind_eq_some_iff.1 hr
          cases hx
      · cases hr
  have e1 : optional (readQuota readStatus) (some (.obj sm)) = none := optional_refused (by rw [readQuota, e0]; rfl) (fun h => nomatch h)
  cases hr : readVc T (.obj m) with
  | none => rfl
  | some r =>
    exfalso
    unfold readVc at hr
    obtain ⟨l, hl, hr⟩ := Option.bind_eq_some_iff.1 hr
    have hk := found hl 9 rfl (h _ (List.mem_singleton.2 rfl))
    match l, hr, hk with
    | [_, _, _, _, _, _, _, _, _, st, _, _, _, _, _, _], hr, hk =>
      cases hk
      obtain ⟨_, -, hr⟩ := Option.bind_eq_some_iff.1 hr
      obtain ⟨_, -, hr⟩ := Option.bind_eq_some_iff.1 hr
      obtain ⟨_, -, hr⟩ := Option.bind_eq_some_iff.1 hr
      obtain ⟨_, -, hr⟩ := Option.bind_eq_some_iff.1 hr
      obtain ⟨_, -, hr⟩ := Option.bind_eq_some_iff.1 hr
      obtain ⟨_, -, hr⟩ := Option.bind_eq_some_iff.1 hr
      obtain ⟨_, -, hr⟩ := Option.bind_eq_some_iff.1 hr
      obtain ⟨_, -, hr⟩ := Option.bind_eq_some_iff.1 hr
      obtain ⟨_, -, hr⟩ := Option.bind_eq_some_iff.1 hr
      obtain ⟨_, hx, -⟩ := Option.bind_eq_some_iff.1 hr
      rw [e1] at hx
      cases hx

/-- C128: The claims of a credential that is a JWT. -/
theorem C128_credential_claims (T : TimeText) {m : List (String × Json)} (sub iss jti : String) (nbf exp : Option Int) (iat : Int) (v : Json) (vc : Vc)
    (hn : SoundI64 nbf) (he : SoundI64 exp) (hi : SoundI64 (some iat)) (hv : readVc T v = some vc)
    (h : Has m [("sub", txt (some sub)), ("nbf", int nbf), ("iss", txt (some iss)), ("iat", int (some iat)), ("jti", txt (some jti)), ("exp", int exp), ("vc", some v)]) :
    readVcClaims T (.obj m) = some { sub := sub, nbf := nbf, iss := iss, iat := iat, jti := jti, exp := exp, vc := vc } := by
  have e1 : ∀ s : String, required readStr (txt (some s)) = some s := fun _ => rfl
  have e2 : required (readVc T) (some v) = some vc := hv
  have hb : ∀ {α β : Type} (a : α) (f : α → Option β), (some a >>= f) = f a := fun _ _ => rfl
  unfold readVcClaims
  rw [h.struct (names := ["sub", "nbf", "iss", "iat", "jti", "exp", "vc"]) rfl]
  simp only [List.map_cons, List.map_nil, hb, e1, e2, optional_int hn, optional_int he, required_int hi]

/-- C128 is violated for credentials without an identifier, or whose subject has none: RFC 7519 lets `jti` and `sub` be left out, but a token without them is refused. -/
theorem C128_nameless_claims_refused (T : TimeText) {m : List (String × Json)} (h : Has m [("jti", none)] ∨ Has m [("sub", none)]) : readVcClaims T (.obj m) = none := by
  cases hr : readVcClaims T (.obj m) with
  | none => rfl
  | some r =>
    exfalso
    unfold readVcClaims at hr
    obtain ⟨l, hl, hr⟩ := Option.bind_eq_some_iff.1 hr
    match l, hl, hr with
    | [s, _, _, _, t, _, _], hl, hr =>
      obtain ⟨_, x0, hr⟩ := Option.bind_eq_some_iff.1 hr
      obtain ⟨_, -, hr⟩ := Option.bind_eq_some_iff.1 hr
      obtain ⟨_, -, hr⟩ := Option.bind_eq_some_iff.1 hr
      obtain ⟨_, -, hr⟩ := Option.bind_eq_some_iff.1 hr
      obtain ⟨_, x4, hr⟩ := Option.bind_eq_some_iff.1 hr
      rcases h with h | h
      · cases found hl 4 rfl (h _ (List.mem_singleton.2 rfl))
        cases x4
      · cases found hl 0 rfl (h _ (List.mem_singleton.2 rfl))
        cases x0

/-- C128: The claims of a presentation that is a JWT. -/
theorem C128_presentation_claims (T : TimeText) {m : List (String × Json)} (iss jti aud nonce : String) (nbf iat exp : Int) (v : Json) (vp : Vp)
    (hn : SoundI64 (some nbf)) (he : SoundI64 (some exp)) (hi : SoundI64 (some iat)) (hv : readVp T v = some vp)
    (h : Has m [("iss", txt (some iss)), ("jti", txt (some jti)), ("aud", txt (some aud)), ("nonce", txt (some nonce)), ("nbf", int (some nbf)), ("iat", int (some iat)),
      ("exp", int (some exp)), ("vp", some v)]) :
    readVpClaims T (.obj m) = some { iss := iss, jti := jti, aud := aud, nonce := nonce, nbf := nbf, iat := iat, exp := exp, vp := vp } := by
  have e1 : ∀ s : String, required readStr (txt (some s)) = some s := fun _ => rfl
  have e2 : required (readVp T) (some v) = some vp := hv
  have hb : ∀ {α β : Type} (a : α) (f : α → Option β), (some a >>= f) = f a := fun _ _ => rfl
  unfold readVpClaims
  rw [h.struct (names := ["iss", "jti", "aud", "nonce", "nbf", "iat", "exp", "vp"]) rfl]
  simp only [List.map_cons, List.map_nil, hb, e1, e2, required_int hn, required_int he, required_int hi]

/-! ### Messages as others write them -/

/-- A token request with its members in another order, and members vercre does not know. -/
example : readTokenRequest (.obj [("redirect_uri", .str "https://wallet.example"), ("resource", .str "https://issuer.example"), ("code", .str "c"),
    ("client_id", .str "wallet"), ("grant_type", .str "authorization_code"), ("code_verifier", .str "v"), ("dpop_jkt", .null)]) =
    some { credentialIssuer := "", clientId := some "wallet", grantType := .authorizationCode "c" (some "https://wallet.example") (some "v") } := by
  refine C128_token_request_code none (some "wallet") (some "https://wallet.example") (some "v") none "c" none none rfl ?_
  intro f hf
  simp only [List.mem_cons, List.not_mem_nil, or_false] at hf
  rcases hf with rfl | rfl | rfl | rfl | rfl | rfl | rfl | rfl | rfl <;> rfl

/-- The metadata of a server that also gives out refresh tokens. -/
example (m : List (String × Json)) (h : ∀ p ∈ m, p.1 ≠ "grant_types_supported") :
    readServer (.obj (("grant_types_supported", .arr [.str "authorization_code", .str "refresh_token"]) :: m)) = none := by
  refine (C128_capable_server_refused [.str "authorization_code", .str "refresh_token"] "refresh_token" (by simp)).1 (by decide) fun f hf => ?_
  cases List.mem_singleton.1 hf
  show List.filter _ _ = [_]
  rw [List.filter_cons, if_pos (by simp), List.filter_eq_nil_iff.2 fun p hp => by simpa using h p hp]

/-- The filter that most presentation definitions have for the type of a credential. -/
example : readFilter (.obj [("type", .str "array"), ("contains", .obj [("const", .str "EmployeeID")])]) = none := by
  refine C128_filter_refused fun t k v hk hp => ?_
  have hm := hp.symm.subset (List.mem_cons_of_mem _ (List.mem_singleton.2 rfl))
  simp only [List.mem_cons, List.not_mem_nil, or_false, Prod.mk.injEq] at hm
  rcases hm with ⟨rfl, -⟩ | ⟨-, e⟩
  · rcases hk with h | h | h <;> exact absurd h (by decide)
  · cases e

end Verif.Wire
