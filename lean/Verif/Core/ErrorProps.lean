import Verif.Core.Errors
import Std.Data.String.ToInt
/-!
# C38: what an OAuth error looks like outside
-/
namespace Verif

/-- The end of the text of a simple error, from its description on. -/
def tailText (d : String) : List Char := d.toList ++ ['"', '}']

/-- Names of members. -/
def nErr : List Char := "error".toList
@[inherit_doc nErr] def nDesc : List Char := "error_description".toList

theorem display_eq (c : OidCode) (d : String) : (OidErr.plain c d).display = '{' :: ('"' :: nErr ++ '"' :: ':' :: ' ' :: '"' ::
      (c.text.toList ++ '"' :: ',' :: (' ' :: '"' :: nDesc ++ '"' :: ':' :: ' ' :: '"' :: tailText d))) := by
  have e1 : "{\"error\": \"".toList = '{' :: ('"' :: nErr ++ ['"', ':', ' ', '"']) := by decide +kernel
  have e2 : "\", \"error_description\": \"".toList = ['"', ','] ++ (' ' :: '"' :: nDesc ++ ['"', ':', ' ', '"']) := by decide +kernel
  have e3 : "\"}".toList = ['"', '}'] := by decide +kernel
  show _ ++ _ ++ _ ++ _ ++ _ = _
  simp only [tailText, e1, e2, e3, List.append_assoc, List.cons_append, List.nil_append]

theorem parseJson_obj (t : List Char) : parseJson ('{' :: '"' :: t) =
    match members (2 * t.length + 5) ('"' :: t) with
    | some (ms, r) => if skipWs r = [] then some (.obj ms) else none
    | none => none := by
  have hn : 2 * ('{' :: '"' :: t).length + 2 = (2 * t.length + 5) + 1 := by simp only [List.length_cons]; omega
  rw [parseJson, hn, value, skipWs_cons (by decide)]
  simp only
  rw [if_neg (by decide), if_neg (by decide), if_pos trivial, skipWs_cons (by decide)]
  cases h : members (2 * t.length + 5) ('"' :: t) with
  | none => rfl
  | some p => rfl

theorem nErr_clean : Clean nErr := by unfold Clean; decide +kernel
theorem nDesc_clean : Clean nDesc := by unfold Clean; decide +kernel

theorem display_parse (c : OidCode) (d : String) : ∃ n, 2 ≤ n ∧ parseJson (OidErr.plain c d).display =
    match lexStr ((tailText d).length + 1) (tailText d) with
    | none => none
    | some (s, r) =>
      match skipWs r with
      | ',' :: r =>
        match members n r with
        | none => none
        | some (ms, r) =>
          if skipWs r = [] then some (.obj (("error", .str c.text) :: ("error_description", .str (String.ofList s)) :: ms)) else none
      | '}' :: r => if skipWs r = [] then some (.obj [("error", .str c.text), ("error_description", .str (String.ofList s))]) else none
      | _ => none := by
  rw [display_eq, List.cons_append, parseJson_obj]
  generalize hN : 2 * List.length _ + 5 = N
  obtain ⟨n, rfl⟩ : ∃ n, N = n + 1 + 2 := ⟨N - 3, by omega⟩
  refine ⟨n + 1, ?_, ?_⟩
  · simp only [List.length_append, List.length_cons] at hN; omega
  have h1 := members_str (n + 1) nErr (c.text.toList ++ '"' :: ',' :: (' ' :: '"' :: nDesc ++ '"' :: ':' :: ' ' :: '"' :: tailText d))
    nErr_clean [] (.inl rfl)
  rw [lexStr_clean _ _ c.clean _ (by simp only [List.length_append, List.length_cons]; omega)] at h1
  simp only [skipWs_cons (show isWs ',' = false by decide)] at h1
  have h2 := members_str n nDesc (tailText d) nDesc_clean [' '] (.inr rfl)
  simp only [List.cons_append, List.nil_append] at h1 h2
  have e1 : String.ofList nErr = "error" := by decide +kernel
  have e2 : String.ofList nDesc = "error_description" := by decide +kernel
  rw [h2, e1, e2, String.ofList_toList] at h1
  simp only [List.cons_append]
  rw [h1]
  cases hl : lexStr ((tailText d).length + 1) (tailText d) with
  | none => rfl
  | some p =>
    obtain ⟨s, r⟩ := p
    simp only
    cases hq : skipWs r with
    | nil => rfl
    | cons ch q =>
      by_cases hc : ch = ','
      · subst hc
        simp only
        cases hm : members (n + 1) q with
        | none => rfl
        | some q => rfl
      · by_cases hb : ch = '}'
        · subst hb; rfl
        · simp [hc, hb]

/-- **C38** An error read from its JSON text carries its code and its description exactly when the description has no character that JSON requires
to be escaped. -/
theorem C38_error_json_partial (c : OidCode) (d : String) :
    ((OidErr.plain c d).toJson.member? "error" = some (.str c.text) ∧
      (OidErr.plain c d).toJson.member? "error_description" = some (.str d)) ↔ Clean d.toList := by
  obtain ⟨n, hn, hp⟩ := display_parse c d
  constructor
  · rintro ⟨-, h⟩
    rw [OidErr.toJson, hp] at h
    cases hl : lexStr ((tailText d).length + 1) (tailText d) with
    | none => rw [hl] at h; cases h
    | some p =>
      obtain ⟨s, r⟩ := p
      rw [hl] at h
      simp only at h
      have hle := lexStr_length hl
      have hsp := lexStr_spec _ _ _ _ hl
      have htl : (tailText d).length = d.toList.length + 2 := by simp [tailText]
      have hw := skipWs_length r
      -- if the description came back from this string, it is clean
      have hdone : r ≠ [] → s = d.toList → Clean d.toList := by
        intro hr hs
        rcases hsp with ⟨_, hc⟩ | hlt
        · rw [← hs]; exact hc
        · have : 0 < r.length := List.length_pos_iff.2 hr
          rw [hs] at hlt; omega
      split at h
      · rename_i r' heq
        rw [heq] at hw; simp only [List.length_cons] at hw
        cases hm : members n r' with
        | none => rw [hm] at h; cases h
        | some q =>
          obtain ⟨ms, r2⟩ := q
          rw [hm] at h
          simp only at h
          have hms := (reading_length n).2.2 _ _ _ hm
          split at h
          · simp only [Option.getD_some, Json.member?, List.reverse_cons, List.append_assoc] at h
            rw [List.find?_append] at h
            cases hf : ms.reverse.find? (·.1 == "error_description") with
            | none =>
              rw [hf] at h
              simp at h
              exact hdone (by intro h0; rw [h0] at heq; cases heq) (by rw [← h]; simp)
            | some kv =>
              rw [hf] at h
              simp only [Option.some_or, Option.map_some, Option.some.injEq] at h
              have hmem := List.mem_of_find?_eq_some hf
              obtain ⟨k, v⟩ := kv
              simp only at h
              rw [h] at hmem
              have := hms.2 k d (List.mem_reverse.1 hmem)
              omega
          · cases h
      · rename_i r' heq
        split at h
        · simp [Json.member?] at h
          exact hdone (by intro h0; rw [h0] at heq; cases heq) (by rw [← h]; simp)
        · cases h
      · cases h
  · intro hc
    have hl : lexStr ((tailText d).length + 1) (tailText d) = some (d.toList, ['}']) :=
      lexStr_clean d.toList ['}'] hc _ (by simp [tailText]; omega)
    rw [hl] at hp
    simp only [skipWs_cons (show isWs '}' = false by decide)] at hp
    rw [if_pos (show skipWs [] = [] from rfl)] at hp
    rw [OidErr.toJson, hp]
    simp [Json.member?, List.find?, String.ofList_toList]

theorem plain_clean_parse (c : OidCode) (d : String) (hc : Clean d.toList) :
    parseJson (OidErr.plain c d).display = some (.obj [("error", .str c.text), ("error_description", .str d)]) := by
  obtain ⟨n, -, hp⟩ := display_parse c d
  have hl : lexStr ((tailText d).length + 1) (tailText d) = some (d.toList, ['}']) :=
    lexStr_clean d.toList ['}'] hc _ (by simp [tailText]; omega)
  rw [hl] at hp
  simp only [skipWs_cons (show isWs '}' = false by decide)] at hp
  rw [if_pos (show skipWs [] = [] from rfl), String.ofList_toList] at hp
  exact hp

/-- **C38** A simple error with a clean description serializes as its code and description and nothing else. -/
theorem C38_error_serializes_partial (c : OidCode) (d : String) (hc : Clean d.toList) :
    (OidErr.plain c d).fields = some { error := c.text, description := d, state := none, cNonce := none, expiresIn := none } := by
  rw [OidErr.fields, OidFields.ofText, plain_clean_parse c d hc]
  rfl

/-- **C38, violated.** A description can replace the error code: whatever the error, a description that continues with a quote and a second `error`
member is read as the code chosen in the description. -/
theorem C38_description_replaces_code (c : OidCode) (d x : List Char) (hd : Clean d) (hx : Clean x) :
    (OidErr.plain c (String.ofList (d ++ "\", \"error\": \"".toList ++ x))).toJson.member? "error" = some (.str (String.ofList x)) := by
  have ht : tailText (String.ofList (d ++ "\", \"error\": \"".toList ++ x)) =
      d ++ '"' :: (',' :: (' ' :: '"' :: nErr ++ '"' :: ':' :: ' ' :: '"' :: (x ++ '"' :: ['}']))) := by
    have e2 : "\", \"error\": \"".toList = ['"', ','] ++ (' ' :: '"' :: nErr ++ ['"', ':', ' ', '"']) := by decide +kernel
    simp only [tailText, String.toList_ofList, e2, List.append_assoc, List.cons_append, List.nil_append]
  obtain ⟨n, hn, hp⟩ := display_parse c (String.ofList (d ++ "\", \"error\": \"".toList ++ x))
  obtain ⟨m, rfl⟩ : ∃ m, n = m + 2 := ⟨n - 2, by omega⟩
  have h1 := members_str m nErr (x ++ '"' :: ['}']) nErr_clean [' '] (.inr rfl)
  rw [lexStr_clean _ _ hx _ (by simp only [List.length_append, List.length_cons]; omega)] at h1
  simp only [skipWs_cons (show isWs '}' = false by decide), List.cons_append, List.nil_append] at h1
  simp only [List.cons_append] at ht
  rw [ht, lexStr_clean _ _ hd _ (by simp only [List.length_append, List.length_cons]; omega)] at hp
  simp only [skipWs_cons (show isWs ',' = false by decide)] at hp
  have e1 : String.ofList nErr = "error" := by decide +kernel
  rw [h1, e1] at hp
  simp only [skipWs, if_true] at hp
  rw [OidErr.toJson, hp]
  simp [Json.member?]

/-- **C38, violated.** A description with a line break or another control character gives no JSON at all. -/
theorem C38_control_character_loses_error (c : OidCode) (d e : List Char) (x : Char) (hd : Clean d) (hx : x.toNat < 32) :
    (OidErr.plain c (String.ofList (d ++ x :: e))).toJson = .null ∧ (OidErr.plain c (String.ofList (d ++ x :: e))).fields = none := by
  have hlex : ∀ (s r : List Char) n, Clean s → lexStr n (s ++ x :: r) = none := by
    intro s r n hs
    induction s generalizing n with
    | nil =>
      cases n with
      | zero => rfl
      | succ n =>
        have h1 : x ≠ '"' := by rintro rfl; exact absurd hx (by decide)
        have h2 : x ≠ '\\' := by rintro rfl; exact absurd hx (by decide)
        simp [lexStr, h1, h2, hx]
    | cons a s ih =>
      cases n with
      | zero => rfl
      | succ n =>
        have ha := hs a List.mem_cons_self
        simp only [List.cons_append, lexStr, ha.1, ha.2.1, ha.2.2, if_false]
        rw [ih n fun y hy => hs y (List.mem_cons_of_mem _ hy)]
        rfl
  obtain ⟨n, hn, hp⟩ := display_parse c (String.ofList (d ++ x :: e))
  have ht : tailText (String.ofList (d ++ x :: e)) = d ++ x :: (e ++ ['"', '}']) := by simp [tailText]
  rw [ht, hlex d _ _ hd] at hp
  simp only at hp
  exact ⟨by rw [OidErr.toJson, hp]; rfl, by rw [OidErr.fields, OidFields.ofText, hp]⟩

/-- Names of members. -/
def nProof : List Char := "invalid_proof".toList
@[inherit_doc nProof] def nPending : List Char := "issuance_pending".toList
@[inherit_doc nProof] def nInterval : List Char := "interval".toList
@[inherit_doc nProof] def nNonce : List Char := "c_nonce".toList
@[inherit_doc nProof] def nExpires : List Char := "c_nonce_expires_in".toList

theorem members_next (n : Nat) (k s l : List Char) (hk : Clean k) (hs : Clean s) (w : List Char) (hw : w = [] ∨ w = [' ']) :
    members (n + 2) (w ++ '"' :: k ++ '"' :: ':' :: ' ' :: '"' :: (s ++ '"' :: ',' :: l)) =
      (members (n + 1) l).map fun p => ((String.ofList k, .str (String.ofList s)) :: p.1, p.2) := by
  rw [members_str n k _ hk w hw, lexStr_clean s _ hs _ (by simp only [List.length_append, List.length_cons]; omega)]
  simp only [skipWs_cons (show isWs ',' = false by decide)]

/-- **C38** `issuance_pending` has an interval but can neither be serialized nor put in a query: it has no description. -/
theorem C38_issuance_pending (i : Int) :
    (OidErr.issuancePending i).toJson = .obj [("error", .str "issuance_pending"), ("interval", .num (toString i))] ∧
      (OidErr.issuancePending i).fields = none := by
  have e1 : "{\"error\": \"issuance_pending\", \"interval\": ".toList =
    '{' :: ('"' :: nErr ++ '"' :: ':' :: ' ' :: '"' :: (nPending ++ '"' :: ',' :: (' ' :: '"' :: nInterval ++ ['"', ':', ' ']))) := by
      decide +kernel
  have e3 : "}".toList = ['}'] := by decide +kernel
  have hd : (OidErr.issuancePending i).display = '{' :: ('"' :: nErr ++ '"' :: ':' :: ' ' :: '"' ::
      (nPending ++ '"' :: ',' :: (' ' :: '"' :: nInterval ++ '"' :: ':' :: ' ' :: (intText i ++ ['}'])))) := by
    show _ ++ _ ++ _ = _
    simp only [e1, e3, List.append_assoc, List.cons_append, List.nil_append]
  have hp : parseJson (OidErr.issuancePending i).display =
      some (.obj [("error", .str "issuance_pending"), ("interval", .num (toString i))]) := by
    rw [hd, List.cons_append, parseJson_obj]
    generalize 2 * List.length _ = N
    have h1 := members_next (N + 3) nErr nPending (' ' :: '"' :: nInterval ++ '"' :: ':' :: ' ' :: (intText i ++ ['}'])) nErr_clean
      (by unfold Clean; decide +kernel) [] (.inl rfl)
    rw [members_num (N + 2) nInterval (intText i) (by unfold Clean; decide +kernel) (intText_num i)] at h1
    simp only [List.cons_append, List.nil_append] at h1 ⊢
    rw [h1, show String.ofList nErr = "error" by decide +kernel, show String.ofList nPending = "issuance_pending" by decide +kernel,
      show String.ofList nInterval = "interval" by decide +kernel]
    simp [skipWs, intText]
  refine ⟨by rw [OidErr.toJson, hp]; rfl, ?_⟩
  rw [OidErr.fields, OidFields.ofText, hp]
  rfl

/-- **C38** An `invalid_proof` error carries its hint and the new nonce when both are free of characters JSON requires to be escaped. -/
theorem C38_invalid_proof_partial (hint nonce : String) (e : Int) (hh : Clean hint.toList) (hn : Clean nonce.toList) :
    (OidErr.invalidProof hint nonce e).toJson = .obj [("error", .str "invalid_proof"), ("error_description", .str hint), ("c_nonce", .str nonce),
      ("c_nonce_expires_in", .num (toString e))] ∧
    (OidErr.invalidProof hint nonce e).fields =
      some { error := "invalid_proof", description := hint, state := none, cNonce := some nonce, expiresIn := some (toString e) } := by
  have e1 : "{\"error\": \"invalid_proof\", \"error_description\": \"".toList =
    '{' :: ('"' :: nErr ++ '"' :: ':' :: ' ' :: '"' :: (nProof ++ '"' :: ',' :: (' ' :: '"' :: nDesc ++ ['"', ':', ' ', '"']))) := by
      decide +kernel
  have e2 : "\", \"c_nonce\": \"".toList = '"' :: ',' :: (' ' :: '"' :: nNonce ++ ['"', ':', ' ', '"']) := by decide +kernel
  have e3 : "\", \"c_nonce_expires_in\": ".toList = '"' :: ',' :: (' ' :: '"' :: nExpires ++ ['"', ':', ' ']) := by decide +kernel
  have e4 : "}".toList = ['}'] := by decide +kernel
  have hd : (OidErr.invalidProof hint nonce e).display = '{' :: ('"' :: nErr ++ '"' :: ':' :: ' ' :: '"' ::
      (nProof ++ '"' :: ',' :: (' ' :: '"' :: nDesc ++ '"' :: ':' :: ' ' :: '"' :: (hint.toList ++ '"' :: ',' ::
        (' ' :: '"' :: nNonce ++ '"' :: ':' :: ' ' :: '"' :: (nonce.toList ++ '"' :: ',' ::
          (' ' :: '"' :: nExpires ++ '"' :: ':' :: ' ' :: (intText e ++ ['}'])))))))) := by
    show _ ++ _ ++ _ ++ _ ++ _ ++ _ ++ _ = _
    simp only [e1, e2, e3, e4, List.append_assoc, List.cons_append, List.nil_append]
  have hp : parseJson (OidErr.invalidProof hint nonce e).display = some (.obj [("error", .str "invalid_proof"),
      ("error_description", .str hint), ("c_nonce", .str nonce), ("c_nonce_expires_in", .num (toString e))]) := by
    rw [hd, List.cons_append, parseJson_obj]
    generalize 2 * List.length _ = N
    have h1 := fun l => members_next (N + 3) nErr nProof l nErr_clean (by unfold Clean; decide +kernel) [] (.inl rfl)
    have h2 := fun l => members_next (N + 2) nDesc hint.toList l nDesc_clean hh [' '] (.inr rfl)
    have h3 := fun l => members_next (N + 1) nNonce nonce.toList l (by unfold Clean; decide +kernel) hn [' '] (.inr rfl)
    have h4 := members_num N nExpires (intText e) (by unfold Clean; decide +kernel) (intText_num e)
    simp only [List.cons_append, List.nil_append] at h1 h2 h3 h4 ⊢
    rw [h1, h2, h3, h4, show String.ofList nErr = "error" by decide +kernel, show String.ofList nDesc = "error_description" by decide +kernel,
      show String.ofList nProof = "invalid_proof" by decide +kernel, show String.ofList nNonce = "c_nonce" by decide +kernel,
      show String.ofList nExpires = "c_nonce_expires_in" by decide +kernel]
    simp [skipWs, intText]
  refine ⟨by rw [OidErr.toJson, hp]; rfl, ?_⟩
  rw [OidErr.fields, OidFields.ofText, hp]
  rfl

/-- **C38, violated.** The verifier's answer to a credential of the wrong form (/repo/vercre-verifier/src/response.rs 160) quotes the JSON it
received, so for an object with members it never carries its description. -/
theorem C38_unexpected_format_lost (k : String) (v : Json) (ms : List (String × Json)) :
    (OidErr.plain .invalidRequest ("unexpected VC format: " ++ (Json.obj ((k, v) :: ms)).render)).toJson.member? "error_description" ≠
      some (.str ("unexpected VC format: " ++ (Json.obj ((k, v) :: ms)).render)) ∨
    (OidErr.plain .invalidRequest ("unexpected VC format: " ++ (Json.obj ((k, v) :: ms)).render)).toJson.member? "error" ≠
      some (.str "invalid_request") := by
  have hd : ¬ Clean ("unexpected VC format: " ++ (Json.obj ((k, v) :: ms)).render).toList := by
    intro hc
    have hmem : '"' ∈ ("unexpected VC format: " ++ (Json.obj ((k, v) :: ms)).render).toList := by
      obtain ⟨l, hl⟩ := value_obj (k, v) ms
      rw [String.toList_append, List.mem_append]
      right
      simp [Json.render, Json.chars, hl]
    exact (hc _ hmem).1 rfl
  by_cases h : (OidErr.plain .invalidRequest ("unexpected VC format: " ++ (Json.obj ((k, v) :: ms)).render)).toJson.member? "error" =
      some (.str "invalid_request")
  · left
    intro h2
    exact hd ((C38_error_json_partial _ _).1 ⟨h, h2⟩)
  · right; exact h

/-- The texts an error carries are free of characters that JSON requires to be escaped. -/
def OidErr.Plain : OidErr → Prop
  | .plain _ d => Clean d.toList
  | .invalidProof h n _ => Clean h.toList ∧ Clean n.toList
  | .issuancePending _ => True

/-- Errors of the same kind. -/
inductive OidErr.SameKind : OidErr → OidErr → Prop
  | plain (c : OidCode) (d d' : String) : SameKind (.plain c d) (.plain c d')
  | invalidProof (h n h' n' : String) (i i' : Int) : SameKind (.invalidProof h n i) (.invalidProof h' n' i')
  | issuancePending (i i' : Int) : SameKind (.issuancePending i) (.issuancePending i')

/-- **C38** Different errors do not look alike outside: the `error` member alone tells the kind of error, and whoever reads all of the JSON
can tell the texts and the numbers too, as long as the texts need no escaping. -/
theorem C38_error_told_apart_partial (e e' : OidErr) (he : e.Plain) (he' : e'.Plain) :
    (e.toJson.member? "error" = e'.toJson.member? "error" ↔ e.SameKind e') ∧ (e.toJson = e'.toJson → e = e') := by
  have hcode : ∀ c c' : OidCode, c.text = c'.text → c = c' := by
    intro c c'; cases c <;> cases c' <;> decide +kernel
  have hplain : ∀ c d, Clean d.toList →
      (OidErr.plain c d).toJson = .obj [("error", .str c.text), ("error_description", .str d)] := by
    intro c d hd
    rw [OidErr.toJson, plain_clean_parse c d hd]; rfl
  have hspecial : ∀ c : OidCode, c.text ≠ "invalid_proof" ∧ c.text ≠ "issuance_pending" := by
    intro c; cases c <;> decide +kernel
  have hint : ∀ i j : Int, toString i = toString j → i = j := fun i j h => Int.repr_injective (by simpa using h)
  have hm : ∀ e : OidErr, e.Plain → e.toJson.member? "error" = some (.str (match e with
      | .plain c _ => c.text | .invalidProof _ _ _ => "invalid_proof" | .issuancePending _ => "issuance_pending")) := by
    intro e he
    cases e with
    | plain c d => exact ((C38_error_json_partial c d).2 he).1
    | invalidProof a b i => rw [(C38_invalid_proof_partial a b i he.1 he.2).1]; rfl
    | issuancePending i => rw [(C38_issuance_pending i).1]; rfl
  have hkind : e.toJson.member? "error" = e'.toJson.member? "error" ↔ e.SameKind e' := by
    rw [hm e he, hm e' he', Option.some.injEq, Json.str.injEq]
    constructor
    · intro h
      cases e <;> cases e' <;> simp only at h
      · cases hcode _ _ h; exact .plain _ _ _
      · exact absurd h (hspecial _).1
      · exact absurd h (hspecial _).2
      · exact absurd h.symm (hspecial _).1
      · exact .invalidProof _ _ _ _ _ _
      · exact absurd h (by decide)
      · exact absurd h.symm (hspecial _).2
      · exact absurd h (by decide)
      · exact .issuancePending _ _
    · intro h; cases h <;> rfl
  refine ⟨hkind, fun h => ?_⟩
  cases hkind.1 (by rw [h]) with
  | plain c d d' =>
    rw [hplain c d he, hplain c d' he'] at h
    simp only [Json.obj.injEq, List.cons.injEq, Prod.mk.injEq, Json.str.injEq, true_and, and_true] at h
    rw [h]
  | invalidProof a b a' b' i i' =>
    rw [(C38_invalid_proof_partial a b i he.1 he.2).1, (C38_invalid_proof_partial a' b' i' he'.1 he'.2).1] at h
    simp only [Json.obj.injEq, List.cons.injEq, Prod.mk.injEq, Json.str.injEq, Json.num.injEq, true_and, and_true] at h
    rw [h.1, h.2.1, hint _ _ h.2.2]
  | issuancePending i i' =>
    rw [(C38_issuance_pending i).1, (C38_issuance_pending i').1] at h
    simp only [Json.obj.injEq, List.cons.injEq, Prod.mk.injEq, Json.num.injEq, true_and, and_true] at h
    rw [hint _ _ h]

/-! ### Witnesses -/

example : (OidErr.plain .invalidRequest "bad request").fields =
    some { error := "invalid_request", description := "bad request", state := none, cNonce := none, expiresIn := none } := by decide +kernel

example : (OidErr.plain .invalidGrant "expired").toJson.member? "error" ≠ (OidErr.invalidProof "expired" "n-1" 600).toJson.member? "error" :=
  fun h => nomatch (C38_error_told_apart_partial _ _ (by unfold OidErr.Plain Clean; decide)
    (by unfold OidErr.Plain Clean; decide)).1.1 h

example : (OidErr.plain .invalidRequest "x\", \"error\": \"server_error").toJson.member? "error" = some (.str "server_error") :=
  C38_description_replaces_code .invalidRequest ['x'] "server_error".toList (by unfold Clean; decide) (by unfold Clean; decide)

end Verif
