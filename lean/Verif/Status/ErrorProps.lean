import Verif.Status.Error
import Verif.Core.ErrorProps
/-!
# C190: what the errors of status checks look like outside
-/
namespace Verif.Status

/-! ### Specification -/

/-- The numbers of the errors in the standard (https://www.w3.org/TR/vc-bitstring-status-list/#processing-errors), with the number for ranges taken from the
standard on data integrity. -/
def standardNumber : StatusCode → Int
  | .retrieval => -128
  | .verification => -129
  | .listLength => -130
  | .range => -67

/-- JSON that tells an error as the standard asks: the number, the type that ends with it, and the detail. -/
structure Tells (j : Json) (code : StatusCode) (detail : String) : Prop where
  type_ : j.member? "type" = some (.str ("https://www.w3.org/ns/credentials/status-list#" ++ toString (standardNumber code)))
  code : j.member? "code" = some (.num (toString (standardNumber code)))
  detail : j.member? "detail" = some (.str detail)

/-! ### Reading the text -/

/-- Names of members. -/
def nType : List Char := "type".toList
@[inherit_doc nType] def nCode : List Char := "code".toList
@[inherit_doc nType] def nTitle : List Char := "title".toList
@[inherit_doc nType] def nDetail : List Char := "detail".toList

theorem display_eq (c : StatusCode) (d : String) : (StatusError.mk c d).display = '{' :: ('"' :: nType ++ '"' :: ':' :: ' ' :: '"' ::
      ((typePrefix ++ c.number) ++ '"' :: ',' :: (' ' :: '"' :: nCode ++ '"' :: ':' :: ' ' :: (c.number ++ ',' :: (' ' :: '"' :: nTitle ++ '"' :: ':' :: ' ' :: '"' ::
        (c.title ++ '"' :: ',' :: (' ' :: '"' :: nDetail ++ '"' :: ':' :: ' ' :: '"' :: tailText d))))))) := by
  have e1 : "{\"type\": \"".toList = '{' :: ('"' :: nType ++ ['"', ':', ' ', '"']) := by decide +kernel
  have e2 : "\", \"code\": ".toList = ['"', ','] ++ (' ' :: '"' :: nCode ++ ['"', ':', ' ']) := by decide +kernel
  have e3 : ", \"title\": \"".toList = [','] ++ (' ' :: '"' :: nTitle ++ ['"', ':', ' ', '"']) := by decide +kernel
  have e4 : "\", \"detail\": \"".toList = ['"', ','] ++ (' ' :: '"' :: nDetail ++ ['"', ':', ' ', '"']) := by decide +kernel
  have e5 : "\"}".toList = ['"', '}'] := by decide +kernel
  show _ ++ _ ++ _ ++ _ ++ _ ++ _ ++ _ ++ _ ++ _ ++ _ = _
  simp only [tailText, e1, e2, e3, e4, e5, List.append_assoc, List.cons_append, List.nil_append]

/-- Reading an object member with a clean name and a number, with more to follow. -/
theorem members_num_next (n : Nat) (k t l : List Char) (hk : Clean k) (ht : NumText t) :
    members (n + 2) (' ' :: '"' :: k ++ '"' :: ':' :: ' ' :: (t ++ ',' :: l)) =
      (members (n + 1) l).map fun p => ((String.ofList k, .num (String.ofList t)) :: p.1, p.2) := by
  have h1 : skipWs (' ' :: '"' :: k ++ '"' :: ':' :: ' ' :: (t ++ ',' :: l)) = '"' :: (k ++ '"' :: ':' :: ' ' :: (t ++ ',' :: l)) := by
    simp [skipWs, isWs]
  have h2 : value (n + 1) (' ' :: (t ++ ',' :: l)) = some (.num (String.ofList t), ',' :: l) := by
    obtain ⟨c, l', rfl, hc⟩ := ht.head
    have hl := lexNum_ok ht (',' :: l) (Ends.cons (by simp))
    have hw : isWs c = false := by
      cases hw : isWs c with
      | false => rfl
      | true =>
        simp only [isWs, Bool.or_eq_true, decide_eq_true_eq] at hw
        rcases hw with ((rfl | rfl) | rfl) | rfl <;> exact absurd hc (by decide)
    have hq : c ≠ '"' ∧ c ≠ '[' ∧ c ≠ '{' := by
      refine ⟨?_, ?_, ?_⟩ <;> (rintro rfl; exact absurd hc (by decide))
    simp only [List.cons_append] at hl ⊢
    rw [value]
    simp only [skipWs, show isWs ' ' = true by decide, hw, if_true, Bool.false_eq_true, if_false]
    rw [if_neg hq.1, if_neg hq.2.1, if_neg hq.2.2, if_pos hc, hl]
    rfl
  rw [members, h1]
  simp only
  rw [lexStr_clean k _ hk _ (by simp only [List.length_append, List.length_cons]; omega)]
  simp only [skipWs_cons (show isWs ':' = false by decide), h2, skipWs_cons (show isWs ',' = false by decide)]

theorem number_eq (c : StatusCode) : c.number = intText (standardNumber c) := by cases c <;> decide +kernel

theorem type_clean (c : StatusCode) : Clean (typePrefix ++ c.number) := by cases c <;> (unfold Clean; decide +kernel)

theorem title_clean (c : StatusCode) : Clean c.title := by cases c <;> (unfold Clean; decide +kernel)

/-- The members before the detail. -/
def before (c : StatusCode) : List (String × Json) := [("type", .str ("https://www.w3.org/ns/credentials/status-list#" ++ toString (standardNumber c))),
  ("code", .num (toString (standardNumber c))), ("title", .str (String.ofList c.title))]

theorem display_parse (c : StatusCode) (d : String) : ∃ n, 2 ≤ n ∧ parseJson (StatusError.mk c d).display =
    match lexStr ((tailText d).length + 1) (tailText d) with
    | none => none
    | some (s, r) =>
      match skipWs r with
      | ',' :: r =>
        match members n r with
        | none => none
        | some (ms, r) => if skipWs r = [] then some (.obj (before c ++ ("detail", .str (String.ofList s)) :: ms)) else none
      | '}' :: r => if skipWs r = [] then some (.obj (before c ++ [("detail", .str (String.ofList s))])) else none
      | _ => none := by
  rw [display_eq, List.cons_append, parseJson_obj]
  generalize hN : 2 * List.length _ + 5 = N
  obtain ⟨n, rfl⟩ : ∃ n, N = n + 1 + 4 := ⟨N - 5, by omega⟩
  refine ⟨n + 1, ?_, ?_⟩
  · simp only [List.length_append, List.length_cons] at hN; omega
  have h1 := fun l => members_next (n + 3) nType (typePrefix ++ c.number) l (by unfold Clean; decide +kernel) (type_clean c) [] (.inl rfl)
  have h2 := fun l => members_num_next (n + 2) nCode c.number l (by unfold Clean; decide +kernel) (by rw [number_eq]; exact intText_num _)
  have h3 := fun l => members_next (n + 1) nTitle c.title l (by unfold Clean; decide +kernel) (title_clean c) [' '] (.inr rfl)
  have h4 := members_str n nDetail (tailText d) (by unfold Clean; decide +kernel) [' '] (.inr rfl)
  have t1 : String.ofList (typePrefix ++ c.number) = "https://www.w3.org/ns/credentials/status-list#" ++ toString (standardNumber c) := by
    cases c <;> decide +kernel
  have t2 : String.ofList c.number = toString (standardNumber c) := by cases c <;> decide +kernel
  simp only [List.cons_append, List.nil_append] at h1 h2 h3 h4 ⊢
  rw [h1, h2, h3, h4, t1, t2, show String.ofList nType = "type" by decide +kernel, show String.ofList nCode = "code" by decide +kernel,
    show String.ofList nTitle = "title" by decide +kernel, show String.ofList nDetail = "detail" by decide +kernel]
  cases hl : lexStr ((tailText d).length + 1) (tailText d) with
  | none => rfl
  | some p =>
    obtain ⟨s, r⟩ := p
    simp only
    cases hq : skipWs r with
    | nil => rfl
    | cons ch q =>
      by_cases hc : ch = ','
      · subst hc
        simp only
        cases hm : members (n + 1) q with
        | none => rfl
        | some q => rfl
      · by_cases hb : ch = '}'
        · subst hb; rfl
        · simp [hc, hb]

theorem clean_parse (c : StatusCode) (d : String) (hc : Clean d.toList) :
    parseJson (StatusError.mk c d).display = some (.obj (before c ++ [("detail", .str d)])) := by
  obtain ⟨n, -, hp⟩ := display_parse c d
  have hl : lexStr ((tailText d).length + 1) (tailText d) = some (d.toList, ['}']) :=
    lexStr_clean d.toList ['}'] hc _ (by simp [tailText]; omega)
  rw [hl] at hp
  simp only [skipWs_cons (show isWs '}' = false by decide)] at hp
  rw [if_pos (show skipWs [] = [] from rfl), String.ofList_toList] at hp
  exact hp

/-! ### The claims -/

/-- **C190** The JSON of an error tells its number, its type and its detail exactly when the detail has no character that JSON requires to be escaped. -/
theorem C190_error_json_partial (e : StatusError) : Tells e.toJson e.code e.detail ↔ Clean e.detail.toList := by
  obtain ⟨c, d⟩ := e
  constructor
  · rintro ⟨-, -, h⟩
    obtain ⟨n, hn, hp⟩ := display_parse c d
    rw [StatusError.toJson, hp] at h
    simp only at h ⊢
    cases hl : lexStr ((tailText d).length + 1) (tailText d) with
    | none => rw [hl] at h; cases h
    | some p =>
      obtain ⟨s, r⟩ := p
      rw [hl] at h
      simp only at h
      have hle := lexStr_length hl
      have hsp := lexStr_spec _ _ _ _ hl
      have htl : (tailText d).length = d.toList.length + 2 := by simp [tailText]
      have hw := skipWs_length r
      have hdone : r ≠ [] → s = d.toList → Clean d.toList := by
        intro hr hs
        rcases hsp with ⟨_, hc⟩ | hlt
        · rw [← hs]; exact hc
        · have : 0 < r.length := List.length_pos_iff.2 hr
          rw [hs] at hlt; omega
      split at h
      · rename_i r' heq
        rw [heq] at hw; simp only [List.length_cons] at hw
        cases hm : members n r' with
        | none => rw [hm] at h; cases h
        | some q =>
          obtain ⟨ms, r2⟩ := q
          rw [hm] at h
          simp only at h
          have hms := (reading_length n).2.2 _ _ _ hm
          split at h
          · simp only [Option.getD_some, Json.member?, List.reverse_append, List.reverse_cons, List.append_assoc] at h
            rw [List.find?_append] at h
            cases hf : ms.reverse.find? (·.1 == "detail") with
            | none =>
              rw [hf] at h
              simp [before] at h
              exact hdone (by intro h0; rw [h0] at heq; cases heq) (by rw [← h]; simp)
            | some kv =>
              rw [hf] at h
              simp only [Option.some_or, Option.map_some, Option.some.injEq] at h
              have hmem := List.mem_of_find?_eq_some hf
              obtain ⟨k, v⟩ := kv
              simp only at h
              rw [h] at hmem
              have := hms.2 k d (List.mem_reverse.1 hmem)
              omega
          · cases h
      · rename_i r' heq
        split at h
        · simp [Json.member?, before] at h
          exact hdone (by intro h0; rw [h0] at heq; cases heq) (by rw [← h]; simp)
        · cases h
      · cases h
  · intro hc
    simp only at hc
    refine ⟨?_, ?_, ?_⟩ <;> rw [StatusError.toJson, clean_parse c d hc] <;> simp [Json.member?, before, List.find?]

/-- **C190** With such a detail the error is serialized with the same number, type and detail, and can be told from every other error. -/
theorem C190_error_serializes_partial (e : StatusError) (he : Clean e.detail.toList) :
    (∃ title, e.fields = some {
      type_ := "https://www.w3.org/ns/credentials/status-list#" ++ toString (standardNumber e.code)
      code := toString (standardNumber e.code)
      title := some title
      detail := some e.detail }) ∧
    ∀ e' : StatusError, Clean e'.detail.toList → (e'.fields = e.fields ∨ e'.toJson = e.toJson) → e' = e := by
  have hf : ∀ x : StatusError, Clean x.detail.toList → x.fields = some {
      type_ := "https://www.w3.org/ns/credentials/status-list#" ++ toString (standardNumber x.code)
      code := toString (standardNumber x.code)
      title := some (String.ofList x.code.title)
      detail := some x.detail } := by
    rintro ⟨c, d⟩ hd
    rw [StatusError.fields, ValidationError.ofText, clean_parse c d hd]
    rfl
  have hnum : ∀ c c' : StatusCode, toString (standardNumber c) = toString (standardNumber c') → c = c' := by
    intro c c' h
    cases c <;> cases c' <;> first | rfl | exact absurd h (by decide +kernel)
  refine ⟨⟨_, hf e he⟩, fun e' he' h => ?_⟩
  obtain ⟨c, d⟩ := e
  obtain ⟨c', d'⟩ := e'
  rcases h with h | h
  · rw [hf _ he, hf _ he'] at h
    simp only [Option.some.injEq, ValidationError.mk.injEq] at h
    have := hnum _ _ h.2.1
    subst this
    simp [h.2.2.2]
  · have h1 := (C190_error_json_partial _).2 he
    have h2 := (C190_error_json_partial _).2 he'
    have hc := h2.code
    have hd := h2.detail
    rw [h] at hc hd
    have := hnum _ _ (Json.num.inj (Option.some.inj (h1.code.symm.trans hc)))
    have hd' := Json.str.inj (Option.some.inj (h1.detail.symm.trans hd))
    simp only at this hd'
    rw [this, hd']

/-- **C190, violated.** A detail can replace the number: whatever the error, a detail that continues with a quote and a second `type` is read as the type chosen in
the detail, and the error can no longer be serialized. -/
theorem C190_detail_replaces_type (c : StatusCode) (d x : List Char) (hd : Clean d) (hx : Clean x) :
    (StatusError.mk c (String.ofList (d ++ "\", \"type\": \"".toList ++ x))).toJson.member? "type" = some (.str (String.ofList x)) ∧
    (StatusError.mk c (String.ofList (d ++ "\", \"type\": \"".toList ++ x))).fields = none := by
  have ht : tailText (String.ofList (d ++ "\", \"type\": \"".toList ++ x)) =
      d ++ '"' :: (',' :: (' ' :: '"' :: nType ++ '"' :: ':' :: ' ' :: '"' :: (x ++ '"' :: ['}']))) := by
    have e2 : "\", \"type\": \"".toList = ['"', ','] ++ (' ' :: '"' :: nType ++ ['"', ':', ' ', '"']) := by decide +kernel
    simp only [tailText, String.toList_ofList, e2, List.append_assoc, List.cons_append, List.nil_append]
  obtain ⟨n, hn, hp⟩ := display_parse c (String.ofList (d ++ "\", \"type\": \"".toList ++ x))
  obtain ⟨m, rfl⟩ : ∃ m, n = m + 2 := ⟨n - 2, by omega⟩
  have h1 := members_str m nType (x ++ '"' :: ['}']) (by unfold Clean; decide +kernel) [' '] (.inr rfl)
  rw [lexStr_clean _ _ hx _ (by simp only [List.length_append, List.length_cons]; omega)] at h1
  simp only [skipWs_cons (show isWs '}' = false by decide), List.cons_append, List.nil_append] at h1
  simp only [List.cons_append] at ht
  rw [ht, lexStr_clean _ _ hd _ (by simp only [List.length_append, List.length_cons]; omega)] at hp
  simp only [skipWs_cons (show isWs ',' = false by decide)] at hp
  have e1 : String.ofList nType = "type" := by decide +kernel
  rw [h1, e1] at hp
  simp only [skipWs, if_true] at hp
  refine ⟨by rw [StatusError.toJson, hp]; simp [Json.member?, before], ?_⟩
  rw [StatusError.fields, ValidationError.ofText, hp]
  rfl

/-- **C190, violated.** A detail with a line break or another control character gives no JSON at all. -/
theorem C190_control_character_loses_error (c : StatusCode) (d e : List Char) (x : Char) (hd : Clean d) (hx : x.toNat < 32) :
    (StatusError.mk c (String.ofList (d ++ x :: e))).toJson = .null ∧ (StatusError.mk c (String.ofList (d ++ x :: e))).fields = none := by
  have hlex : ∀ (s r : List Char) n, Clean s → lexStr n (s ++ x :: r) = none := by
    intro s r n hs
    induction s generalizing n with
    | nil =>
      cases n with
      | zero => rfl
      | succ n =>
        have h1 : x ≠ '"' := by rintro rfl; exact absurd hx (by decide)
        have h2 : x ≠ '\\' := by rintro rfl; exact absurd hx (by decide)
        simp [lexStr, h1, h2, hx]
    | cons a s ih =>
      cases n with
      | zero => rfl
      | succ n =>
        have ha := hs a List.mem_cons_self
        simp only [List.cons_append, lexStr, ha.1, ha.2.1, ha.2.2, if_false]
        rw [ih n fun y hy => hs y (List.mem_cons_of_mem _ hy)]
        rfl
  obtain ⟨n, hn, hp⟩ := display_parse c (String.ofList (d ++ x :: e))
  have ht : tailText (String.ofList (d ++ x :: e)) = d ++ x :: (e ++ ['"', '}']) := by simp [tailText]
  rw [ht, hlex d _ _ hd] at hp
  simp only at hp
  exact ⟨by rw [StatusError.toJson, hp]; rfl, by rw [StatusError.fields, ValidationError.ofText, hp]⟩

/-- A detail that needs no escaping. -/
example : Clean (StatusError.mk .range "index 131072 is beyond the list").detail.toList := by unfold Clean; decide +kernel

/-- Details as in `C190_detail_replaces_type` and `C190_control_character_loses_error`. -/
example : Clean "no list".toList ∧ Clean "about:blank".toList ∧ ('\n').toNat < 32 := by unfold Clean; decide +kernel

end Verif.Status
