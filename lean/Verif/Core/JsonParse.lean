import Verif.Core.Json
/-!
# Reading JSON text

Models `serde_json::from_str` on the text level (external crate; the grammar of RFC 8259 as `serde_json` reads it). Simplifications: there is no
limit on nesting (the crate stops at 128), numbers are kept as their text, and the members of an object are kept in the order of the text,
repeated names included.
-/
namespace Verif

/-- JSON white space.
What `serde_json` reads (RFC 8259), used at /repo/crates/test-utils/src/store/state.rs 33, /repo/crates/openid/src/error.rs 194 and elsewhere. -/
def isWs (c : Char) : Bool := c = ' ' || c = '\n' || c = '\t' || c = '\r'

/-- Skipping white space.
What `serde_json` reads (RFC 8259), used at /repo/crates/test-utils/src/store/state.rs 33, /repo/crates/openid/src/error.rs 194 and elsewhere. -/
def skipWs : List Char → List Char
  | [] => []
  | c :: l => if isWs c then skipWs l else c :: l

/-- Value of a hexadecimal digit.
What `serde_json` reads (RFC 8259), used at /repo/crates/test-utils/src/store/state.rs 33, /repo/crates/openid/src/error.rs 194 and elsewhere. -/
def hexVal (c : Char) : Option Nat :=
  if '0' ≤ c ∧ c ≤ '9' then some (c.toNat - 48)
  else if 'a' ≤ c ∧ c ≤ 'f' then some (c.toNat - 87)
  else if 'A' ≤ c ∧ c ≤ 'F' then some (c.toNat - 55)
  else none

/-- Four hexadecimal digits.
What `serde_json` reads (RFC 8259), used at /repo/crates/test-utils/src/store/state.rs 33, /repo/crates/openid/src/error.rs 194 and elsewhere. -/
def hex4 : List Char → Option (Nat × List Char)
  | a :: b :: c :: d :: r => do
    let a ← hexVal a
    let b ← hexVal b
    let c ← hexVal c
    let d ← hexVal d
    pure (a * 4096 + b * 256 + c * 16 + d, r)
  | _ => none

/-- The low half of a surrogate pair.
What `serde_json` reads (RFC 8259), used at /repo/crates/test-utils/src/store/state.rs 33, /repo/crates/openid/src/error.rs 194 and elsewhere. -/
def lowSurrogate (hi : Nat) : List Char → Option (Char × List Char)
  | '\\' :: 'u' :: r => do
    let (lo, r) ← hex4 r
    if 0xDC00 ≤ lo ∧ lo ≤ 0xDFFF then pure (Char.ofNat (0x10000 + (hi - 0xD800) * 1024 + (lo - 0xDC00)), r) else none
  | _ => none

/-- The text after `\u`: lone surrogates are errors.
What `serde_json` reads (RFC 8259), used at /repo/crates/test-utils/src/store/state.rs 33, /repo/crates/openid/src/error.rs 194 and elsewhere. -/
def unicodeEscape (r : List Char) : Option (Char × List Char) := do
  let (n, r) ← hex4 r
  if 0xD800 ≤ n ∧ n ≤ 0xDBFF then lowSurrogate n r
  else if 0xDC00 ≤ n ∧ n ≤ 0xDFFF then none
  else pure (Char.ofNat n, r)

/-- The text after a backslash.
What `serde_json` reads (RFC 8259), used at /repo/crates/test-utils/src/store/state.rs 33, /repo/crates/openid/src/error.rs 194 and elsewhere. -/
def escape : List Char → Option (Char × List Char)
  | [] => none
  | c :: r =>
    if c = '"' ∨ c = '\\' ∨ c = '/' then some (c, r)
    else if c = 'b' then some (Char.ofNat 8, r)
    else if c = 'f' then some (Char.ofNat 12, r)
    else if c = 'n' then some (Char.ofNat 10, r)
    else if c = 'r' then some (Char.ofNat 13, r)
    else if c = 't' then some (Char.ofNat 9, r)
    else if c = 'u' then unicodeEscape r
    else none

/-- A string after its opening quote: its characters and the text after the closing quote. The first argument bounds the number of
characters. What `serde_json` reads (RFC 8259), used at /repo/crates/test-utils/src/store/state.rs 33, /repo/crates/openid/src/error.rs 194 and elsewhere. -/
def lexStr : Nat → List Char → Option (List Char × List Char)
  | 0, _ => none
  | _ + 1, [] => none
  | n + 1, c :: r =>
    if c = '"' then some ([], r)
    else if c = '\\' then
      match escape r with
      | none => none
      | some (x, r) => (lexStr n r).map fun p => (x :: p.1, p.2)
    else if c.toNat < 32 then none
    else (lexStr n r).map fun p => (c :: p.1, p.2)

/-- Decimal digit.
What `serde_json` reads (RFC 8259), used at /repo/crates/test-utils/src/store/state.rs 33, /repo/crates/openid/src/error.rs 194 and elsewhere. -/
def isDig (c : Char) : Bool := '0' ≤ c && c ≤ '9'

/-- Leading digits and the rest.
What `serde_json` reads (RFC 8259), used at /repo/crates/test-utils/src/store/state.rs 33, /repo/crates/openid/src/error.rs 194 and elsewhere. -/
def digits : List Char → List Char × List Char
  | [] => ([], [])
  | c :: l => if isDig c then (c :: (digits l).1, (digits l).2) else ([], c :: l)

/-- At least one digit.
What `serde_json` reads (RFC 8259), used at /repo/crates/test-utils/src/store/state.rs 33, /repo/crates/openid/src/error.rs 194 and elsewhere. -/
def digits1 (l : List Char) : Option (List Char × List Char) :=
  match digits l with
  | ([], _) => none
  | p => some p

/-- Integer part: no leading zeros.
What `serde_json` reads (RFC 8259), used at /repo/crates/test-utils/src/store/state.rs 33, /repo/crates/openid/src/error.rs 194 and elsewhere. -/
def lexInt : List Char → Option (List Char × List Char)
  | '0' :: r => some (['0'], r)
  | l => digits1 l

/-- Fraction, if any.
What `serde_json` reads (RFC 8259), used at /repo/crates/test-utils/src/store/state.rs 33, /repo/crates/openid/src/error.rs 194 and elsewhere. -/
def lexFrac : List Char → Option (List Char × List Char)
  | '.' :: r => (digits1 r).map fun p => ('.' :: p.1, p.2)
  | l => some ([], l)

/-- Sign of an exponent.
What `serde_json` reads (RFC 8259), used at /repo/crates/test-utils/src/store/state.rs 33, /repo/crates/openid/src/error.rs 194 and elsewhere. -/
def lexSign : List Char → List Char × List Char
  | '+' :: r => (['+'], r)
  | '-' :: r => (['-'], r)
  | l => ([], l)

/-- Exponent, if any.
What `serde_json` reads (RFC 8259), used at /repo/crates/test-utils/src/store/state.rs 33, /repo/crates/openid/src/error.rs 194 and elsewhere. -/
def lexExp : List Char → Option (List Char × List Char)
  | c :: r =>
    if c = 'e' ∨ c = 'E' then (digits1 (lexSign r).2).map fun p => (c :: (lexSign r).1 ++ p.1, p.2)
    else some ([], c :: r)
  | [] => some ([], [])

/-- A number without its sign.
What `serde_json` reads (RFC 8259), used at /repo/crates/test-utils/src/store/state.rs 33, /repo/crates/openid/src/error.rs 194 and elsewhere. -/
def lexUnsigned (l : List Char) : Option (List Char × List Char) := do
  let (i, l) ← lexInt l
  let (f, l) ← lexFrac l
  let (e, l) ← lexExp l
  pure (i ++ f ++ e, l)

/-- A number.
What `serde_json` reads (RFC 8259), used at /repo/crates/test-utils/src/store/state.rs 33, /repo/crates/openid/src/error.rs 194 and elsewhere. -/
def lexNum : List Char → Option (List Char × List Char)
  | '-' :: r => (lexUnsigned r).map fun p => ('-' :: p.1, p.2)
  | l => lexUnsigned l

/-- The literal names.
What `serde_json` reads (RFC 8259), used at /repo/crates/test-utils/src/store/state.rs 33, /repo/crates/openid/src/error.rs 194 and elsewhere. -/
def lexLiteral : List Char → Option (Json × List Char)
  | 'n' :: 'u' :: 'l' :: 'l' :: r => some (.null, r)
  | 't' :: 'r' :: 'u' :: 'e' :: r => some (.bool true, r)
  | 'f' :: 'a' :: 'l' :: 's' :: 'e' :: r => some (.bool false, r)
  | _ => none

mutual
/-- A value and the text after it; the first argument bounds the number of nested calls.
What `serde_json` reads (RFC 8259), used at /repo/crates/test-utils/src/store/state.rs 33, /repo/crates/openid/src/error.rs 194 and elsewhere. -/
def value : Nat → List Char → Option (Json × List Char)
  | 0, _ => none
  | n + 1, l =>
    match skipWs l with
    | [] => none
    | c :: r =>
      if c = '"' then (lexStr (r.length + 1) r).map fun p => (.str (String.ofList p.1), p.2)
      else if c = '[' then
        match skipWs r with
        | ']' :: r => some (.arr [], r)
        | _ => (elements n r).map fun p => (.arr p.1, p.2)
      else if c = '{' then
        match skipWs r with
        | '}' :: r => some (.obj [], r)
        | _ => (members n r).map fun p => (.obj p.1, p.2)
      else if c = '-' ∨ isDig c then (lexNum (c :: r)).map fun p => (.num (String.ofList p.1), p.2)
      else lexLiteral (c :: r)
/-- The elements of an array up to the closing bracket.
What `serde_json` reads (RFC 8259), used at /repo/crates/test-utils/src/store/state.rs 33, /repo/crates/openid/src/error.rs 194 and elsewhere. -/
def elements : Nat → List Char → Option (List Json × List Char)
  | 0, _ => none
  | n + 1, l =>
    match value n l with
    | none => none
    | some (v, r) =>
      match skipWs r with
      | ',' :: r => (elements n r).map fun p => (v :: p.1, p.2)
      | ']' :: r => some ([v], r)
      | _ => none
/-- The members of an object up to the closing brace.
What `serde_json` reads (RFC 8259), used at /repo/crates/test-utils/src/store/state.rs 33, /repo/crates/openid/src/error.rs 194 and elsewhere. -/
def members : Nat → List Char → Option (List (String × Json) × List Char)
  | 0, _ => none
  | n + 1, l =>
    match skipWs l with
    | '"' :: r =>
      match lexStr (r.length + 1) r with
      | none => none
      | some (k, r) =>
        match skipWs r with
        | ':' :: r =>
          match value n r with
          | none => none
          | some (v, r) =>
            match skipWs r with
            | ',' :: r => (members n r).map fun p => ((String.ofList k, v) :: p.1, p.2)
            | '}' :: r => some ([(String.ofList k, v)], r)
            | _ => none
        | _ => none
    | _ => none
end

/-- `serde_json::from_str::<Value>`: one value and nothing else but white space. -/
def parseJson (l : List Char) : Option Json :=
  match value (2 * l.length + 2) l with
  | some (j, r) => if skipWs r = [] then some j else none
  | none => none

/-! ### Strings -/

/-- No character that JSON requires to be escaped.
What `serde_json` reads (RFC 8259), used at /repo/crates/test-utils/src/store/state.rs 33, /repo/crates/openid/src/error.rs 194 and elsewhere. -/
def Clean (l : List Char) : Prop := ∀ c ∈ l, c ≠ '"' ∧ c ≠ '\\' ∧ ¬ c.toNat < 32

theorem escape_length {r : List Char} {x : Char} {r' : List Char} (h : escape r = some (x, r')) : r'.length < r.length := by
  have hex : ∀ {r : List Char} {n : Nat} {r' : List Char}, hex4 r = some (n, r') → r'.length < r.length := by
    intro r n r' h
    unfold hex4 at h
    split at h
    · simp only [bind, Option.bind_eq_some_iff, pure, Option.some.injEq, Prod.mk.injEq] at h
      obtain ⟨_, _, _, _, _, _, _, _, _, rfl⟩ := h
      simp only [List.length_cons]; omega
    · cases h
  cases r with
  | nil => simp [escape] at h
  | cons c r =>
    simp only [escape] at h
    repeat' split at h
    all_goals first | (cases h; done) | skip
    all_goals first | (simp only [Option.some.injEq, Prod.mk.injEq] at h; obtain ⟨-, rfl⟩ := h; simp; done) | skip
    unfold unicodeEscape at h
    simp only [bind, Option.bind_eq_some_iff] at h
    obtain ⟨⟨n, r1⟩, h1, h2⟩ := h
    have := hex h1
    simp only [List.length_cons]
    split at h2
    · unfold lowSurrogate at h2
      split at h2
      · rename_i heq
        simp only [bind, Option.bind_eq_some_iff] at h2
        obtain ⟨⟨lo, r2⟩, h3, h4⟩ := h2
        have h5 := hex h3
        have h6 := congrArg List.length heq
        simp only [List.length_cons] at h6
        split at h4
        · simp only [pure, Option.some.injEq, Prod.mk.injEq] at h4
          obtain ⟨-, rfl⟩ := h4
          omega
        · simp at h4
      · simp at h2
    · split at h2
      · simp at h2
      · simp only [pure, Option.some.injEq, Prod.mk.injEq] at h2
        obtain ⟨-, rfl⟩ := h2; omega

/-- What is read as a string is the text up to the closing quote, or there were escapes and it is shorter than the text. -/
theorem lexStr_spec (n : Nat) (l s r : List Char) (h : lexStr n l = some (s, r)) :
    (l = s ++ '"' :: r ∧ Clean s) ∨ s.length + r.length + 1 < l.length := by
  induction n generalizing l s r with
  | zero => simp [lexStr] at h
  | succ n ih =>
    cases l with
    | nil => simp [lexStr] at h
    | cons c l =>
      simp only [lexStr] at h
      split at h
      · rename_i hc
        simp only [Option.some.injEq, Prod.mk.injEq] at h
        obtain ⟨rfl, rfl⟩ := h
        exact .inl ⟨by rw [hc]; rfl, by intro c hc; cases hc⟩
      · split at h
        · split at h
          · cases h
          · rename_i x r1 he
            have hl := escape_length he
            simp only [Option.map_eq_some_iff] at h
            obtain ⟨⟨s1, r2⟩, h1, h2⟩ := h
            simp only [Prod.mk.injEq] at h2
            obtain ⟨rfl, rfl⟩ := h2
            right
            rcases ih _ _ _ h1 with ⟨rfl, _⟩ | h3
            · simp only [List.length_append, List.length_cons] at *; omega
            · simp only [List.length_cons] at *; omega
        · split at h
          · cases h
          · rename_i h1 h2 h3
            simp only [Option.map_eq_some_iff] at h
            obtain ⟨⟨s1, r2⟩, h4, h5⟩ := h
            simp only [Prod.mk.injEq] at h5
            obtain ⟨rfl, rfl⟩ := h5
            rcases ih _ _ _ h4 with ⟨rfl, hcl⟩ | h6
            · left
              refine ⟨rfl, ?_⟩
              intro d hd
              rcases List.mem_cons.1 hd with rfl | hd
              · exact ⟨h1, h2, h3⟩
              · exact hcl d hd
            · right; simp only [List.length_cons] at *; omega

theorem lexStr_clean (s r : List Char) (h : Clean s) (n : Nat) (hn : s.length < n) : lexStr n (s ++ '"' :: r) = some (s, r) := by
  induction s generalizing n with
  | nil =>
    cases n with
    | zero => simp at hn
    | succ n => simp [lexStr]
  | cons c s ih =>
    cases n with
    | zero => simp at hn
    | succ n =>
      have hc := h c List.mem_cons_self
      simp only [List.cons_append, lexStr, hc.1, hc.2.1, hc.2.2, if_false]
      rw [ih (fun d hd => h d (List.mem_cons_of_mem _ hd)) n (by simp at hn; omega)]
      rfl

theorem hexVal_digit : ∀ n : Fin 16, hexVal (hexDigit n) = some n.val := by decide

theorem char_eq {c : Char} {n : Nat} (h : c.toNat = n) : Char.ofNat n = c := by rw [← h, Char.ofNat_toNat]

/-- Reading an escaped character. -/
theorem lexStr_escapeChar (c : Char) (l : List Char) (n : Nat) :
    lexStr (n + 1) (escapeChar c ++ l) = (lexStr n l).map fun p => (c :: p.1, p.2) := by
  unfold escapeChar
  by_cases h1 : c = '"'
  · subst h1; rfl
  · rw [if_neg h1]
    by_cases h2 : c = '\\'
    · subst h2; rfl
    · rw [if_neg h2]
      by_cases h3 : c.toNat = 8
      · rw [if_pos h3, ← char_eq h3]; rfl
      · rw [if_neg h3]
        by_cases h4 : c.toNat = 9
        · rw [if_pos h4, ← char_eq h4]; rfl
        · rw [if_neg h4]
          by_cases h5 : c.toNat = 10
          · rw [if_pos h5, ← char_eq h5]; rfl
          · rw [if_neg h5]
            by_cases h6 : c.toNat = 12
            · rw [if_pos h6, ← char_eq h6]; rfl
            · rw [if_neg h6]
              by_cases h7 : c.toNat = 13
              · rw [if_pos h7, ← char_eq h7]; rfl
              · rw [if_neg h7]
                by_cases h8 : c.toNat < 32
                · rw [if_pos h8]
                  have ha := hexVal_digit ⟨c.toNat / 16, by omega⟩
                  have hb := hexVal_digit ⟨c.toNat % 16, by omega⟩
                  have h0 : hexVal '0' = some 0 := by decide
                  have he : escape ('u' :: '0' :: '0' :: hexDigit (c.toNat / 16) :: hexDigit (c.toNat % 16) :: l) = some (c, l) := by
                    simp only at ha hb
                    have hx : hex4 ('0' :: '0' :: hexDigit (c.toNat / 16) :: hexDigit (c.toNat % 16) :: l) = some (c.toNat, l) := by
                      simp only [hex4, h0, ha, hb, bind, Option.bind, pure, Option.some.injEq, Prod.mk.injEq, and_true]
                      omega
                    have hu : unicodeEscape ('0' :: '0' :: hexDigit (c.toNat / 16) :: hexDigit (c.toNat % 16) :: l) = some (c, l) := by
                      simp only [unicodeEscape, hx, bind, Option.bind]
                      rw [if_neg (by omega), if_neg (by omega)]
                      simp [pure, Char.ofNat_toNat]
                    rw [← hu]; rfl
                  show lexStr (n + 1) ('\\' :: 'u' :: '0' :: '0' :: hexDigit (c.toNat / 16) :: hexDigit (c.toNat % 16) :: l) = _
                  rw [lexStr, if_neg (by decide), if_pos rfl, he]
                · rw [if_neg h8]
                  simp only [List.cons_append, List.nil_append, lexStr, h1, h2, h8, if_false]

theorem lexStr_escaped (s r : List Char) (n : Nat) (hn : s.length < n) : lexStr n (s.flatMap escapeChar ++ '"' :: r) = some (s, r) := by
  induction s generalizing n with
  | nil =>
    cases n with
    | zero => simp at hn
    | succ n => simp [lexStr]
  | cons c s ih =>
    cases n with
    | zero => simp at hn
    | succ n =>
      simp only [List.flatMap_cons, List.append_assoc]
      rw [lexStr_escapeChar, ih n (by simp at hn; omega)]
      rfl

theorem flatMap_escape_length (l : List Char) : l.length ≤ (l.flatMap escapeChar).length := by
  induction l with
  | nil => simp
  | cons c l ih =>
    have := escapeChar_length c
    simp only [List.length_cons, List.flatMap_cons, List.length_append]
    omega

theorem escapeChar_clean {c : Char} (h : c ≠ '"' ∧ c ≠ '\\' ∧ ¬ c.toNat < 32) : escapeChar c = [c] := by
  unfold escapeChar
  simp only [h.1, h.2.1, h.2.2, if_false]
  rw [if_neg (by omega), if_neg (by omega), if_neg (by omega), if_neg (by omega), if_neg (by omega)]

theorem quoteChars_clean {s : List Char} (h : Clean s) : quoteChars s = '"' :: s ++ ['"'] := by
  have : s.flatMap escapeChar = s := by
    induction s with
    | nil => rfl
    | cons c s ih =>
      rw [List.flatMap_cons, escapeChar_clean (h c List.mem_cons_self), ih (fun d hd => h d (List.mem_cons_of_mem _ hd))]
      rfl
  rw [quoteChars, this]

/-! ### Numbers -/

/-- Text that can follow a value.
What `serde_json` reads (RFC 8259), used at /repo/crates/test-utils/src/store/state.rs 33, /repo/crates/openid/src/error.rs 194 and elsewhere. -/
def Ends (r : List Char) : Prop := ∀ c l, r = c :: l → c = ',' ∨ c = ']' ∨ c = '}'

/-- A JSON number: optional sign, digits without leading zero, optional fraction, optional exponent.
What `serde_json` reads (RFC 8259), used at /repo/crates/test-utils/src/store/state.rs 33, /repo/crates/openid/src/error.rs 194 and elsewhere. -/
structure NumText (t : List Char) : Prop where
  parts : ∃ sign int frac exp, t = sign ++ int ++ frac ++ exp ∧ (sign = [] ∨ sign = ['-']) ∧
    (int = ['0'] ∨ (int ≠ [] ∧ (∀ c ∈ int, isDig c = true) ∧ int.head? ≠ some '0')) ∧
    (frac = [] ∨ ∃ d, d ≠ [] ∧ (∀ c ∈ d, isDig c = true) ∧ frac = '.' :: d) ∧
    (exp = [] ∨ ∃ e s d, (e = 'e' ∨ e = 'E') ∧ (s = [] ∨ s = ['+'] ∨ s = ['-']) ∧ d ≠ [] ∧ (∀ c ∈ d, isDig c = true) ∧ exp = e :: s ++ d)

theorem digits_append (d r : List Char) (hd : ∀ c ∈ d, isDig c = true) (hr : ∀ c l, r = c :: l → isDig c = false) :
    digits (d ++ r) = (d, r) := by
  induction d with
  | nil =>
    cases r with
    | nil => rfl
    | cons c r => simp [digits, hr c r rfl]
  | cons c d ih =>
    simp only [List.forall_mem_cons] at hd
    simp [digits, hd.1, ih hd.2]

theorem digits1_append (d r : List Char) (hne : d ≠ []) (hd : ∀ c ∈ d, isDig c = true) (hr : ∀ c l, r = c :: l → isDig c = false) :
    digits1 (d ++ r) = some (d, r) := by
  unfold digits1
  rw [digits_append d r hd hr]
  cases d with
  | nil => exact absurd rfl hne
  | cons c d => rfl

theorem lexNum_ok {t : List Char} (ht : NumText t) (r : List Char) (hr : Ends r) : lexNum (t ++ r) = some (t, r) := by
  obtain ⟨sign, int, frac, exp, rfl, hsign, hint, hfrac, hexp⟩ := ht.parts
  have hrd : ∀ c l, r = c :: l → isDig c = false := by
    intro c l h; rcases hr c l h with rfl | rfl | rfl <;> decide
  have e1 : lexExp (exp ++ r) = some (exp, r) := by
    rcases hexp with rfl | ⟨e, s, d, he, hs, hdne, hd, rfl⟩
    · cases r with
      | nil => rfl
      | cons c r =>
        have : ¬ (c = 'e' ∨ c = 'E') := by rcases hr c r rfl with rfl | rfl | rfl <;> decide
        simp [lexExp, this]
    · have hs2 : lexSign (s ++ (d ++ r)) = (s, d ++ r) := by
        rcases hs with rfl | rfl | rfl
        · cases d with
          | nil => exact absurd rfl hdne
          | cons c d =>
            have hc := hd c List.mem_cons_self
            simp only [List.nil_append, List.cons_append]
            unfold lexSign
            split
            · rename_i h; cases h; exact absurd hc (by decide)
            · rename_i h; cases h; exact absurd hc (by decide)
            · rfl
        · rfl
        · rfl
      simp only [List.cons_append, List.append_assoc, lexExp, he, if_true, hs2, digits1_append d r hdne hd hrd, Option.map_some]
  have hexpd : ∀ c l, exp ++ r = c :: l → isDig c = false ∧ c ≠ '.' := by
    intro c l h
    rcases hexp with rfl | ⟨e, s, d, he, hs, hdne, hd, rfl⟩
    · rcases hr c l h with rfl | rfl | rfl <;> decide
    · simp only [List.cons_append, List.cons.injEq] at h
      rw [← h.1]; rcases he with rfl | rfl <;> decide
  have e2 : lexFrac (frac ++ (exp ++ r)) = some (frac, exp ++ r) := by
    rcases hfrac with rfl | ⟨d, hdne, hd, rfl⟩
    · simp only [List.nil_append]
      unfold lexFrac
      split
      · rename_i h; exact absurd rfl (hexpd _ _ h).2
      · rfl
    · simp only [List.cons_append, lexFrac, digits1_append d _ hdne hd (fun c l h => (hexpd c l h).1), Option.map_some]
  have hfracd : ∀ c l, frac ++ (exp ++ r) = c :: l → isDig c = false := by
    intro c l h
    rcases hfrac with rfl | ⟨d, hdne, hd, rfl⟩
    · exact (hexpd c l h).1
    · simp only [List.cons_append, List.cons.injEq] at h
      rw [← h.1]; decide
  have e3 : lexInt (int ++ (frac ++ (exp ++ r))) = some (int, frac ++ (exp ++ r)) := by
    rcases hint with rfl | ⟨hne, hd, h0⟩
    · rfl
    · unfold lexInt
      split
      · rename_i h
        cases int with
        | nil => exact absurd rfl hne
        | cons c int =>
          simp only [List.cons_append, List.cons.injEq] at h
          simp [h.1] at h0
      · exact digits1_append int _ hne hd hfracd
  have e4 : lexUnsigned (int ++ (frac ++ (exp ++ r))) = some (int ++ frac ++ exp, r) := by
    simp only [lexUnsigned, e3, e2, e1, bind, Option.bind, pure]
  rcases hsign with rfl | rfl
  · simp only [List.nil_append, List.append_assoc]
    unfold lexNum
    split
    · rename_i h
      rcases hint with rfl | ⟨hne, hd, h0⟩
      · cases h
      · cases int with
        | nil => exact absurd rfl hne
        | cons c int =>
          simp only [List.cons_append, List.cons.injEq] at h
          have := hd c List.mem_cons_self
          rw [h.1] at this
          exact absurd this (by decide)
    · rw [e4]; simp
  · simp only [List.append_assoc, List.cons_append, List.nil_append, lexNum, e4, Option.map_some]

theorem NumText.head {t : List Char} (ht : NumText t) : ∃ c l, t = c :: l ∧ (c = '-' ∨ isDig c = true) := by
  obtain ⟨sign, int, frac, exp, rfl, hsign, hint, -, -⟩ := ht.parts
  rcases hsign with rfl | rfl
  · rcases hint with rfl | ⟨hne, hd, -⟩
    · exact ⟨'0', _, rfl, .inr (by decide)⟩
    · cases int with
      | nil => exact absurd rfl hne
      | cons c int => exact ⟨c, _, rfl, .inr (hd c List.mem_cons_self)⟩
  · exact ⟨'-', _, rfl, .inl rfl⟩

/-! ### Values -/

mutual
/-- All numbers of a value are JSON numbers.
What `serde_json` reads (RFC 8259), used at /repo/crates/test-utils/src/store/state.rs 33, /repo/crates/openid/src/error.rs 194 and elsewhere. -/
def Json.WF : Json → Prop
  | .num t => NumText t.toList
  | .arr l => Json.WFArr l
  | .obj m => Json.WFObj m
  | _ => True
/-- The same for the elements of an array. -/
def Json.WFArr : List Json → Prop
  | [] => True
  | x :: l => Json.WF x ∧ Json.WFArr l
/-- The same for the members of an object. -/
def Json.WFObj : List (String × Json) → Prop
  | [] => True
  | (_, x) :: l => Json.WF x ∧ Json.WFObj l
end

theorem skipWs_cons {c : Char} {l : List Char} (h : isWs c = false) : skipWs (c :: l) = c :: l := by simp [skipWs, h]

/-- The text of a value starts with a character that is neither white space nor a closing bracket. -/
theorem chars_head (j : Json) (h : j.WF) : ∃ c l, j.chars = c :: l ∧ isWs c = false ∧ c ≠ ']' ∧ c ≠ '}' := by
  cases j with
  | null => exact ⟨'n', _, rfl, by decide⟩
  | bool b => cases b <;> exact ⟨_, _, rfl, by decide⟩
  | num t =>
    simp only [Json.WF] at h
    obtain ⟨c, l, ht, hc⟩ := h.head
    refine ⟨c, l, by simp only [Json.chars, ht], ?_⟩
    rcases hc with rfl | hc
    · decide
    · refine ⟨?_, ?_, ?_⟩
      · cases hw : isWs c with
        | false => rfl
        | true =>
          simp only [isWs, Bool.or_eq_true, decide_eq_true_eq] at hw
          rcases hw with ((rfl | rfl) | rfl) | rfl <;> exact absurd hc (by decide)
      · rintro rfl; exact absurd hc (by decide)
      · rintro rfl; exact absurd hc (by decide)
  | str s => exact ⟨'"', _, by simp only [Json.chars, quoteChars]; rfl, by decide⟩
  | arr l => exact ⟨'[', _, by simp only [Json.chars]; rfl, by decide⟩
  | obj m => exact ⟨'{', _, by simp only [Json.chars]; rfl, by decide⟩

theorem Ends.cons {c : Char} {l : List Char} (h : c = ',' ∨ c = ']' ∨ c = '}') : Ends (c :: l) := by
  intro d l' he; cases he; exact h

mutual
/-- Reading the text of a value gives the value back. -/
theorem value_chars (j : Json) (h : j.WF) (n : Nat) (hn : 2 * j.chars.length ≤ n) (r : List Char) (hr : Ends r) :
    value n (j.chars ++ r) = some (j, r) := by
  have hpos : 0 < j.chars.length := by obtain ⟨c, l, h, _⟩ := chars_head j h; rw [h]; simp
  cases n with
  | zero => omega
  | succ n =>
    cases j with
    | null => simp [Json.chars, value, skipWs, isWs, isDig, lexLiteral]
    | bool b => cases b <;> simp [Json.chars, value, skipWs, isWs, isDig, lexLiteral]
    | num t =>
      simp only [Json.WF] at h
      obtain ⟨c, l, ht, hc⟩ := h.head
      obtain ⟨c', l', ht', hws, -, -⟩ := chars_head (.num t) (by simp only [Json.WF]; exact h)
      simp only [Json.chars] at ht' ⊢
      rw [ht] at ht'; cases ht'
      have hl := lexNum_ok h r hr
      rw [ht] at hl ⊢
      simp only [List.cons_append] at hl ⊢
      rw [value, skipWs_cons hws]
      simp only
      have hq : c ≠ '"' ∧ c ≠ '[' ∧ c ≠ '{' := by
        rcases hc with rfl | hc
        · decide
        · refine ⟨?_, ?_, ?_⟩ <;> (rintro rfl; exact absurd hc (by decide))
      rw [if_neg hq.1, if_neg hq.2.1, if_neg hq.2.2, if_pos hc, hl]
      simp only [Option.map_some, Option.some.injEq, Prod.mk.injEq, and_true, Json.num.injEq]
      rw [← ht, String.ofList_toList]
    | str s =>
      simp only [Json.chars, quoteChars, List.cons_append, List.append_assoc, List.nil_append]
      rw [value, skipWs_cons (by decide)]
      simp only [if_true]
      rw [lexStr_escaped]
      · simp [String.ofList_toList]
      · have := flatMap_escape_length s.toList
        simp only [List.length_append, List.length_cons]; omega
    | arr l =>
      simp only [Json.WF] at h
      simp only [Json.chars, List.length_cons, List.length_append, List.length_nil] at hn
      simp only [Json.chars, List.cons_append, List.append_assoc, List.nil_append]
      rw [value, skipWs_cons (by decide)]
      simp only
      rw [if_neg (by decide), if_pos trivial]
      cases l with
      | nil => simp [Json.charsArr, skipWs, isWs]
      | cons x l =>
        have hx := value_arr x l h
        obtain ⟨c, l', hc, hws, hb, _⟩ := hx
        have hel := elements_chars (x :: l) (by simp) h n (by omega) r
        rw [hc] at hel ⊢
        simp only [List.cons_append] at hel ⊢
        rw [skipWs_cons hws]
        split
        · rename_i heq; cases heq; exact absurd rfl hb
        · rw [hel]; rfl
    | obj m =>
      simp only [Json.WF] at h
      simp only [Json.chars, List.length_cons, List.length_append, List.length_nil] at hn
      simp only [Json.chars, List.cons_append, List.append_assoc, List.nil_append]
      rw [value, skipWs_cons (by decide)]
      simp only
      rw [if_neg (by decide), if_neg (by decide), if_pos trivial]
      cases m with
      | nil => simp [Json.charsObj, skipWs, isWs]
      | cons x m =>
        obtain ⟨l', hc⟩ := value_obj x m
        have hel := members_chars (x :: m) (by simp) h n (by omega) r
        rw [hc] at hel ⊢
        simp only [List.cons_append] at hel ⊢
        rw [skipWs_cons (by decide)]
        split
        · rename_i heq; cases heq
        · rw [hel]; rfl
/-- Head of the text of a non-empty array. -/
theorem value_arr (x : Json) (l : List Json) (h : Json.WFArr (x :: l)) :
    ∃ c l', Json.charsArr (x :: l) = c :: l' ∧ isWs c = false ∧ c ≠ ']' ∧ c ≠ '}' := by
  simp only [Json.WFArr] at h
  obtain ⟨c, l', hc, hp⟩ := chars_head x h.1
  cases l with
  | nil => exact ⟨c, l', by simp only [Json.charsArr]; exact hc, hp⟩
  | cons y l => exact ⟨c, _, by simp only [Json.charsArr]; rw [hc]; rfl, hp⟩
/-- Head of the text of a non-empty object. -/
theorem value_obj (x : String × Json) (m : List (String × Json)) : ∃ l', Json.charsObj (x :: m) = '"' :: l' := by
  obtain ⟨k, v⟩ := x
  cases m with
  | nil => exact ⟨_, by simp only [Json.charsObj, quoteChars]; rfl⟩
  | cons y m => exact ⟨_, by simp only [Json.charsObj, quoteChars]; rfl⟩
theorem elements_chars (l : List Json) (hne : l ≠ []) (h : Json.WFArr l) (n : Nat) (hn : 2 * (Json.charsArr l).length + 1 ≤ n) (r : List Char) :
    elements n (Json.charsArr l ++ ']' :: r) = some (l, r) := by
  cases n with
  | zero => omega
  | succ n =>
    match l, hne, h with
    | [x], _, h =>
      simp only [Json.WFArr] at h
      simp only [Json.charsArr] at hn ⊢
      rw [elements, value_chars x h.1 n (by omega) _ (Ends.cons (by simp))]
      simp [skipWs, isWs]
    | x :: y :: l, _, h =>
      rw [Json.WFArr] at h
      simp only [Json.charsArr, List.length_append, List.length_cons] at hn
      simp only [Json.charsArr, List.append_assoc, List.cons_append]
      rw [elements, value_chars x h.1 n (by omega) _ (Ends.cons (by simp))]
      simp only
      rw [skipWs_cons (by decide)]
      simp only
      rw [elements_chars (y :: l) (by simp) h.2 n (by omega) r]
      rfl
theorem members_chars (m : List (String × Json)) (hne : m ≠ []) (h : Json.WFObj m) (n : Nat) (hn : 2 * (Json.charsObj m).length + 1 ≤ n)
    (r : List Char) : members n (Json.charsObj m ++ '}' :: r) = some (m, r) := by
  cases n with
  | zero => omega
  | succ n =>
    match m, hne, h with
    | [(k, x)], _, h =>
      simp only [Json.WFObj] at h
      simp only [Json.charsObj, quoteChars, List.length_append, List.length_cons, List.length_nil] at hn
      simp only [Json.charsObj, quoteChars, List.append_assoc, List.cons_append, List.nil_append]
      rw [members, skipWs_cons (by decide)]
      simp only
      rw [lexStr_escaped]
      · simp only
        rw [skipWs_cons (by decide)]
        simp only
        rw [value_chars x h.1 n (by omega) _ (Ends.cons (by simp))]
        simp [skipWs, isWs, String.ofList_toList]
      · have := flatMap_escape_length k.toList
        simp only [List.length_append, List.length_cons]; omega
    | (k, x) :: y :: m, _, h =>
      rw [Json.WFObj] at h
      simp only [Json.charsObj, quoteChars, List.length_append, List.length_cons, List.length_nil] at hn
      simp only [Json.charsObj, quoteChars, List.append_assoc, List.cons_append, List.nil_append]
      rw [members, skipWs_cons (by decide)]
      simp only
      rw [lexStr_escaped]
      · simp only
        rw [skipWs_cons (by decide)]
        simp only
        rw [value_chars x h.1 n (by omega) _ (Ends.cons (by simp))]
        simp only
        rw [skipWs_cons (by decide)]
        simp only
        rw [members_chars (y :: m) (by simp) h.2 n (by omega) r]
        simp [String.ofList_toList]
      · have := flatMap_escape_length k.toList
        simp only [List.length_append, List.length_cons]; omega
end

/-- JSON text round-trips: reading the rendering of a value gives the value. -/
theorem parseJson_chars (j : Json) (h : j.WF) : parseJson j.chars = some j := by
  have := value_chars j h (2 * j.chars.length + 2) (by omega) [] (by intro c l h; cases h)
  rw [List.append_nil] at this
  rw [parseJson, this]
  rfl

/-! ### Integers -/

/-- Decimal text of an integer (`i64::to_string`).
What `serde_json` reads (RFC 8259), used at /repo/crates/test-utils/src/store/state.rs 33, /repo/crates/openid/src/error.rs 194 and elsewhere. -/
def intText (n : Int) : List Char := (toString n).toList

theorem toDigits_spec (n : Nat) : (∀ c ∈ Nat.toDigits 10 n, isDig c = true) ∧ (0 < n → (Nat.toDigits 10 n).head? ≠ some '0') := by
  have hd : ∀ k, k < 10 → isDig (Nat.digitChar k) = true ∧ (0 < k → Nat.digitChar k ≠ '0') := by decide
  induction n using Nat.strongRecOn with
  | _ n ih =>
    rw [Nat.toDigits_eq_if (by omega)]
    split
    · rename_i h
      have := hd n h
      exact ⟨by simpa using this.1, by simpa using this.2⟩
    · rename_i h
      have h1 := ih (n / 10) (by omega)
      have h2 := hd (n % 10) (by omega)
      refine ⟨?_, ?_⟩
      · intro c hc
        rcases List.mem_append.1 hc with hc | hc
        · exact h1.1 c hc
        · simp only [List.mem_singleton] at hc; rw [hc]; exact h2.1
      · intro _
        have h3 := h1.2 (by omega)
        rw [List.head?_append]
        cases hh : (Nat.toDigits 10 (n / 10)).head? with
        | none =>
          have := Nat.toDigits_ne_nil (n := n / 10) (b := 10)
          simp only [List.head?_eq_none_iff] at hh
          exact absurd hh this
        | some c => rw [hh] at h3; simpa using h3

/-- The decimal text of an integer is a JSON number. -/
theorem intText_num (n : Int) : NumText (intText n) := by
  have hnat : ∀ k : Nat, Nat.toDigits 10 k = ['0'] ∨
      (Nat.toDigits 10 k ≠ [] ∧ (∀ c ∈ Nat.toDigits 10 k, isDig c = true) ∧ (Nat.toDigits 10 k).head? ≠ some '0') := by
    intro k
    by_cases h : k = 0
    · left; subst h; decide
    · right; exact ⟨Nat.toDigits_ne_nil, (toDigits_spec k).1, (toDigits_spec k).2 (by omega)⟩
  refine ⟨?_⟩
  simp only [intText, Int.toString_eq_repr, Int.repr_eq_if]
  split
  · exact ⟨[], Nat.toDigits 10 n.toNat, [], [], by simp, .inl rfl, hnat _, .inl rfl, .inl rfl⟩
  · exact ⟨['-'], Nat.toDigits 10 (-n).toNat, [], [], by simp, .inr rfl, hnat _, .inl rfl, .inl rfl⟩

end Verif
