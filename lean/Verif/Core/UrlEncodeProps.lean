import Verif.Core.UrlEncode
/-!
# C43: query strings round-trip for plain values, and not otherwise
-/
namespace Verif

/-! ### Specification -/

/-- A text that none of the replacements of `from_str` can touch: nothing JSON escapes, none of the delimiters `=` and `&`, no bracket next to
where a quote will stand. -/
structure PlainText (l : List Char) : Prop where
  clean : Clean l
  noEq : '=' ∉ l
  noAmp : '&' ∉ l
  first : ∀ c, l.head? = some c → c ≠ '[' ∧ c ≠ '{'
  last : ∀ c, l.getLast? = some c → c ≠ ']' ∧ c ≠ '}'

mutual
/-- Values made of booleans, integers, null, plain strings, sequences, structs and maps. -/
def SVal.Plain : SVal → Prop
  | .str s => PlainText s.toList
  | .seq l => SVal.PlainArr l
  | .strct fs => SVal.PlainObj fs
  | .map es => SVal.PlainObj es
  | .bool _ => True
  | .int _ => True
  | .unit => True
  | _ => False
/-- All elements are plain. -/
def SVal.PlainArr : List SVal → Prop
  | [] => True
  | x :: l => SVal.Plain x ∧ SVal.PlainArr l
/-- All names and values are plain. -/
def SVal.PlainObj : List (String × SVal) → Prop
  | [] => True
  | (k, x) :: l => PlainText k.toList ∧ SVal.Plain x ∧ SVal.PlainObj l
end

mutual
/-- The JSON value `serde_json` would produce. -/
def SVal.json : SVal → Json
  | .bool b => .bool b
  | .int n => .num (toString n)
  | .str s => .str s
  | .unit => .null
  | .seq l => .arr (SVal.jsonArr l)
  | .tuple l => .arr (SVal.jsonArr l)
  | .strct fs => .obj (SVal.jsonObj fs)
  | .map es => .obj (SVal.jsonObj es)
  | .newtypeVariant v x => .obj [(v, SVal.json x)]
  | .tupleVariant v l => .obj [(v, .arr (SVal.jsonArr l))]
  | .structVariant v fs => .obj [(v, .obj (SVal.jsonObj fs))]
/-- Elements. -/
def SVal.jsonArr : List SVal → List Json
  | [] => []
  | x :: l => SVal.json x :: SVal.jsonArr l
/-- Members. -/
def SVal.jsonObj : List (String × SVal) → List (String × Json)
  | [] => []
  | (k, x) :: l => (k, SVal.json x) :: SVal.jsonObj l
end

/-- What a parameter of a query reads back as: everything but sequences and objects becomes text. -/
def SVal.param : SVal → Json
  | .bool b => .str (if b then "true" else "false")
  | .int n => .str (toString n)
  | .unit => .str "null"
  | v => v.json

/-! ### Text without replaceable pairs -/

/-- The pairs of characters `from_str` replaces. -/
def bad (a b : Char) : Bool := (a = '"' && (b = '[' || b = '{')) || ((a = ']' || a = '}') && b = '"')

/-- No replaceable pair occurs. -/
def Safe : List Char → Prop
  | a :: b :: l => bad a b = false ∧ Safe (b :: l)
  | _ => True

theorem Safe.append {u v : List Char} (hu : Safe u) (hv : Safe v) (h : ∀ x y, u.getLast? = some x → v.head? = some y → bad x y = false) :
    Safe (u ++ v) := by
  induction u with
  | nil => exact hv
  | cons a u ih =>
    cases u with
    | nil =>
      cases v with
      | nil => exact hu
      | cons b v => exact ⟨h a b rfl rfl, hv⟩
    | cons b u =>
      refine ⟨hu.1, ih hu.2 ?_⟩
      intro x y hx hy
      exact h x y (by rw [List.getLast?_cons_cons]; exact hx) hy

theorem Safe.cons {a : Char} {v : List Char} (hv : Safe v) (h : ∀ y, v.head? = some y → bad a y = false) : Safe (a :: v) := by
  cases v with
  | nil => trivial
  | cons b v => exact ⟨h b rfl, hv⟩

theorem Safe.snoc {b : Char} {u : List Char} (hu : Safe u) (h : ∀ x, u.getLast? = some x → bad x b = false) : Safe (u ++ [b]) :=
  hu.append trivial (by intro x y hx hy; cases hy; exact h x hx)

theorem replacePair_append (a b : Char) (to u v : List Char) (h : ¬ (u.getLast? = some a ∧ v.head? = some b)) :
    replacePair a b to (u ++ v) = replacePair a b to u ++ replacePair a b to v := by
  induction u using replacePair.induct a b with
  | case1 x y l hxy ih =>
    simp only [List.cons_append, replacePair, hxy, and_self, if_true, List.append_assoc]
    cases l with
    | nil => simp [replacePair]
    | cons z l => rw [ih (by simpa using h)]
  | case2 x y l hxy ih =>
    simp only [List.cons_append, replacePair, hxy, if_false]
    rw [← List.cons_append, ih (by simpa using h)]
  | case3 l hl =>
    match l, hl with
    | [], _ => simp [replacePair]
    | [x], _ =>
      cases v with
      | nil => simp [replacePair]
      | cons y v =>
        have : ¬ (x = a ∧ y = b) := by simpa using h
        simp [replacePair, this]
    | x :: y :: l, hl => exact absurd rfl (hl x y l)

theorem replacePair_safe {a b : Char} (hb : bad a b = true) (to : List Char) {l : List Char} (h : Safe l) : replacePair a b to l = l := by
  induction l using replacePair.induct a b with
  | case1 x y l hxy ih => rw [hxy.1, hxy.2] at h; rw [h.1] at hb; cases hb
  | case2 x y l hxy ih => rw [replacePair, if_neg hxy, ih h.2]
  | case3 l hl => unfold replacePair; split; exact absurd rfl (hl _ _ _); rfl

theorem safe_no_quote {l : List Char} (h : '"' ∉ l) : Safe l := by
  induction l with
  | nil => trivial
  | cons a l ih =>
    simp only [List.mem_cons, not_or] at h
    refine (ih h.2).cons ?_
    intro y hy
    have : y ≠ '"' := by rintro rfl; exact h.2 (List.mem_of_mem_head? (by rw [hy]; rfl))
    simp [bad, Ne.symm h.1, this]

theorem PlainText.noQuote {l : List Char} (h : PlainText l) : '"' ∉ l := fun hm => (h.clean _ hm).1 rfl

theorem PlainText.safe_quoted {l : List Char} (h : PlainText l) : Safe ('"' :: l ++ ['"']) := by
  have h1 : Safe (l ++ ['"']) := (safe_no_quote h.noQuote).snoc fun x hx => by
    have := h.last x hx
    have hq : x ≠ '"' := by rintro rfl; exact h.noQuote (List.mem_of_getLast? hx)
    simp [bad, this.1, this.2, hq]
  refine h1.cons fun y hy => ?_
  cases l with
  | nil => simp at hy; subst hy; decide
  | cons c l =>
    simp at hy; subst hy
    have := h.first c rfl
    simp [bad, this.1, this.2]

/-! ### JSON text of plain values -/

/-- What is needed of the text of a plain value. -/
structure GoodText (l : List Char) : Prop where
  safe : Safe l
  noEq : '=' ∉ l
  noAmp : '&' ∉ l
  ne : l ≠ []
  last : l.getLast? ≠ some '[' ∧ l.getLast? ≠ some '{'

theorem GoodText.quoted {l : List Char} (h : PlainText l) : GoodText (quoteChars l) := by
  rw [quoteChars_clean h.clean]
  refine ⟨h.safe_quoted, ?_, ?_, by simp, ?_⟩
  · simp [h.noEq]
  · simp [h.noAmp]
  · constructor <;> (rw [List.getLast?_concat]; decide)

theorem NumText.mem {t : List Char} (ht : NumText t) : ∀ c ∈ t, c = '-' ∨ c = '.' ∨ c = '+' ∨ c = 'e' ∨ c = 'E' ∨ isDig c = true := by
  obtain ⟨sign, int, frac, exp, rfl, hsign, hint, hfrac, hexp⟩ := ht.parts
  intro c hc
  simp only [List.mem_append] at hc
  rcases hc with ((hc | hc) | hc) | hc
  · rcases hsign with rfl | rfl <;> simp at hc; simp [hc]
  · rcases hint with rfl | ⟨_, hd, _⟩
    · simp at hc; subst hc; right; right; right; right; right; decide
    · simp [hd c hc]
  · rcases hfrac with rfl | ⟨d, _, hd, rfl⟩
    · simp at hc
    · rcases List.mem_cons.1 hc with rfl | hc
      · simp
      · simp [hd c hc]
  · rcases hexp with rfl | ⟨e, s, d, he, hs, _, hd, rfl⟩
    · simp at hc
    · simp only [List.cons_append, List.mem_cons, List.mem_append] at hc
      rcases hc with rfl | hc | hc
      · rcases he with rfl | rfl <;> simp
      · rcases hs with rfl | rfl | rfl <;> simp at hc <;> simp [hc]
      · simp [hd c hc]

theorem GoodText.num {t : List Char} (ht : NumText t) : GoodText t ∧ PlainText t := by
  have h := ht.mem
  have ne : ∀ x : Char, ¬ (x = '-' ∨ x = '.' ∨ x = '+' ∨ x = 'e' ∨ x = 'E' ∨ isDig x = true) → x ∉ t := fun x hx hm => hx (h x hm)
  have hne : t ≠ [] := by obtain ⟨c, l, rfl, _⟩ := ht.head; simp
  refine ⟨⟨safe_no_quote (ne _ (by decide)), ne _ (by decide), ne _ (by decide), hne,
    fun hl => ne _ (by decide) (List.mem_of_getLast? hl), fun hl => ne _ (by decide) (List.mem_of_getLast? hl)⟩,
    ⟨?_, ne _ (by decide), ne _ (by decide), ?_, ?_⟩⟩
  · intro c hc
    have := h c hc
    refine ⟨?_, ?_, ?_⟩
    · rintro rfl; exact absurd this (by decide)
    · rintro rfl; exact absurd this (by decide)
    · rcases this with rfl | rfl | rfl | rfl | rfl | hd
      all_goals first | decide | skip
      simp only [isDig, Bool.and_eq_true, decide_eq_true_eq] at hd
      have h1 : (48 : Nat) ≤ c.toNat := by have := hd.1; exact this
      omega
  · intro c hc
    have := h c (List.mem_of_mem_head? (by rw [hc]; rfl))
    constructor <;> (rintro rfl; exact absurd this (by decide))
  · intro c hc
    have := h c (List.mem_of_getLast? hc)
    constructor <;> (rintro rfl; exact absurd this (by decide))

/-- Elements of an array after the first. -/
theorem charsArr_cons (x : Json) (l : List Json) : Json.charsArr (x :: l) = x.chars ++ l.flatMap fun y => ',' :: y.chars := by
  induction l generalizing x with
  | nil => simp [Json.charsArr]
  | cons y l ih => rw [Json.charsArr, ih y]; simp

/-- Text of a member. -/
def memberText (p : String × Json) : List Char := quoteChars p.1.toList ++ ':' :: p.2.chars

theorem charsObj_cons (p : String × Json) (l : List (String × Json)) :
    Json.charsObj (p :: l) = memberText p ++ l.flatMap fun q => ',' :: memberText q := by
  induction l generalizing p with
  | nil => obtain ⟨k, x⟩ := p; simp [Json.charsObj, memberText]
  | cons q l ih => obtain ⟨k, x⟩ := p; rw [Json.charsObj, ih q]; simp [memberText]

theorem bad_left {a : Char} (h : a ≠ '"' ∧ a ≠ ']' ∧ a ≠ '}') (b : Char) : bad a b = false := by simp [bad, h.1, h.2.1, h.2.2]
theorem bad_right {b : Char} (h : b ≠ '[' ∧ b ≠ '{' ∧ b ≠ '"') (a : Char) : bad a b = false := by simp [bad, h.1, h.2.1, h.2.2]

/-- Texts joined with commas are good if each is. -/
theorem GoodText.joined {x : List Char} (hx : GoodText x) (l : List (List Char)) (hl : ∀ y ∈ l, GoodText y) :
    GoodText (x ++ l.flatMap fun y => ',' :: y) := by
  induction l generalizing x with
  | nil => simpa using hx
  | cons y l ih =>
    have hy := ih (x := y) (hl y List.mem_cons_self) fun z hz => hl z (List.mem_cons_of_mem _ hz)
    rw [List.flatMap_cons, List.cons_append]
    have hc : Safe (',' :: (y ++ l.flatMap fun y => ',' :: y)) := hy.safe.cons fun z _ => bad_left (by decide) z
    refine ⟨hx.safe.append hc ?_, ?_, ?_, ?_, ?_⟩
    · intro a b _ hb; cases hb; exact bad_right (by decide) a
    · simp only [List.mem_append, List.mem_cons, not_or]
      exact ⟨hx.noEq, by decide, by simpa using hy.noEq⟩
    · simp only [List.mem_append, List.mem_cons, not_or]
      exact ⟨hx.noAmp, by decide, by simpa using hy.noAmp⟩
    · simp [hx.ne]
    · have : (x ++ ',' :: (y ++ l.flatMap fun y => ',' :: y)).getLast? = (y ++ l.flatMap fun y => ',' :: y).getLast? := by
        rw [List.getLast?_append, List.getLast?_cons]
        cases hg : (y ++ l.flatMap fun y => ',' :: y).getLast? with
        | none => simp only [List.getLast?_eq_none_iff] at hg; exact absurd hg hy.ne
        | some z => rfl
      rw [this]; exact hy.last

/-- Brackets around a good text. -/
theorem GoodText.bracket {l : List Char} (h : l = [] ∨ GoodText l) (a b : Char) (ha : a = '[' ∨ a = '{') (hb : b = ']' ∨ b = '}') :
    GoodText (a :: l ++ [b]) := by
  have hs : Safe l := by rcases h with rfl | h; trivial; exact h.safe
  have h1 : '=' ∉ l := by rcases h with rfl | h; simp; exact h.noEq
  have h2 : '&' ∉ l := by rcases h with rfl | h; simp; exact h.noAmp
  refine ⟨(hs.cons fun y _ => bad_left ?_ y).snoc fun x _ => bad_right ?_ x, ?_, ?_, by simp, ?_⟩
  · rcases ha with rfl | rfl <;> decide
  · rcases hb with rfl | rfl <;> decide
  · rcases ha with rfl | rfl <;> rcases hb with rfl | rfl <;> simp [h1]
  · rcases ha with rfl | rfl <;> rcases hb with rfl | rfl <;> simp [h2]
  · constructor <;> (rw [List.getLast?_concat]; rcases hb with rfl | rfl <;> decide)

theorem arr_good (l : List Json) (h : (∀ j ∈ l, GoodText j.chars) ∧ Json.WFArr l) :
    (Json.charsArr l = [] ∨ GoodText (Json.charsArr l)) ∧ Json.WFArr l := by
  refine ⟨?_, h.2⟩
  cases l with
  | nil => simp [Json.charsArr]
  | cons x l =>
    simp only [List.forall_mem_cons] at h
    right
    rw [charsArr_cons]
    have := GoodText.joined h.1.1 (l.map Json.chars) (by
      intro y hy; obtain ⟨j, hj, rfl⟩ := List.mem_map.1 hy; exact h.1.2 j hj)
    simpa [List.flatMap_map] using this

theorem obj_good (l : List (String × Json)) (h : (∀ p ∈ l, GoodText (memberText p)) ∧ Json.WFObj l) :
    (Json.charsObj l = [] ∨ GoodText (Json.charsObj l)) ∧ Json.WFObj l := by
  refine ⟨?_, h.2⟩
  cases l with
  | nil => simp [Json.charsObj]
  | cons x l =>
    simp only [List.forall_mem_cons] at h
    right
    rw [charsObj_cons]
    have := GoodText.joined h.1.1 (l.map memberText) (by
      intro y hy; obtain ⟨j, hj, rfl⟩ := List.mem_map.1 hy; exact h.1.2 j hj)
    simpa [List.flatMap_map] using this

theorem member_good {k : String} {j : Json} (hk : GoodText (quoteChars k.toList)) (hj : GoodText j.chars) : GoodText (memberText (k, j)) := by
  have hc : Safe (':' :: j.chars) := hj.safe.cons fun z _ => bad_left (by decide) z
  refine ⟨hk.safe.append hc ?_, ?_, ?_, ?_, ?_⟩
  · intro a b _ hb; cases hb; exact bad_right (by decide) a
  · simp only [memberText, List.mem_append, List.mem_cons, not_or]
    exact ⟨hk.noEq, by decide, hj.noEq⟩
  · simp only [memberText, List.mem_append, List.mem_cons, not_or]
    exact ⟨hk.noAmp, by decide, hj.noAmp⟩
  · simp [memberText]
  · have : (memberText (k, j)).getLast? = j.chars.getLast? := by
      rw [memberText, List.getLast?_append, List.getLast?_cons]
      cases hg : j.chars.getLast? with
      | none => simp only [List.getLast?_eq_none_iff] at hg; exact absurd hg hj.ne
      | some z => rfl
    rw [this]; exact hj.last

mutual
theorem plain_good (v : SVal) (h : v.Plain) : GoodText v.json.chars ∧ v.json.WF := by
  cases v with
  | bool b => cases b <;> refine ⟨⟨by repeat' constructor, by decide, by decide, by decide, by decide, by decide⟩, by simp [SVal.json, Json.WF]⟩
  | int n => exact ⟨by simp only [SVal.json, Json.chars]; exact (GoodText.num (intText_num n)).1, by simp only [SVal.json, Json.WF]; exact intText_num n⟩
  | str s =>
    simp only [SVal.Plain] at h
    exact ⟨by simpa [SVal.json, Json.chars] using GoodText.quoted h, by simp [SVal.json, Json.WF]⟩
  | unit => refine ⟨⟨by repeat' constructor, by decide, by decide, by decide, by decide, by decide⟩, by simp [SVal.json, Json.WF]⟩
  | seq l =>
    simp only [SVal.Plain] at h
    have := arr_good _ (plain_all l h)
    simp only [SVal.json, Json.chars, Json.WF]
    exact ⟨GoodText.bracket this.1 _ _ (.inl rfl) (.inl rfl), this.2⟩
  | strct fs =>
    simp only [SVal.Plain] at h
    have := obj_good _ (plain_members fs h)
    simp only [SVal.json, Json.chars, Json.WF]
    exact ⟨GoodText.bracket this.1 _ _ (.inr rfl) (.inr rfl), this.2⟩
  | map es =>
    simp only [SVal.Plain] at h
    have := obj_good _ (plain_members es h)
    simp only [SVal.json, Json.chars, Json.WF]
    exact ⟨GoodText.bracket this.1 _ _ (.inr rfl) (.inr rfl), this.2⟩
  | tuple l => simp [SVal.Plain] at h
  | newtypeVariant v x => simp [SVal.Plain] at h
  | tupleVariant v l => simp [SVal.Plain] at h
  | structVariant v l => simp [SVal.Plain] at h
theorem plain_all (l : List SVal) (h : SVal.PlainArr l) :
    (∀ j ∈ SVal.jsonArr l, GoodText j.chars) ∧ Json.WFArr (SVal.jsonArr l) := by
  cases l with
  | nil => simp [SVal.jsonArr, Json.WFArr]
  | cons x l =>
    simp only [SVal.PlainArr] at h
    have hx := plain_good x h.1
    have hl := plain_all l h.2
    simp only [SVal.jsonArr, Json.WFArr, List.forall_mem_cons]
    exact ⟨⟨hx.1, hl.1⟩, hx.2, hl.2⟩
theorem plain_members (l : List (String × SVal)) (h : SVal.PlainObj l) :
    (∀ p ∈ SVal.jsonObj l, GoodText (memberText p)) ∧ Json.WFObj (SVal.jsonObj l) := by
  match l with
  | [] => simp [SVal.jsonObj, Json.WFObj]
  | (k, x) :: l =>
    simp only [SVal.PlainObj] at h
    have hx := plain_good x h.2.1
    have hl := plain_members l h.2.2
    simp only [SVal.jsonObj, Json.WFObj, List.forall_mem_cons]
    exact ⟨⟨member_good (GoodText.quoted h.1) hx.1, hl.1⟩, hx.2, hl.2⟩
end

/-! ### The serializer below the top level -/

theorem Ser.nested_of {s : Ser} (h : 2 ≤ s.level) : s.nested = true := by simp [Ser.nested]; omega

theorem Ser.add_add (s : Ser) (a b : List Char) : (s.add a).add b = s.add (a ++ b) := by simp [Ser.add]

theorem Ser.add_nil (s : Ser) : s.add [] = s := by simp [Ser.add]

theorem getLast?_add {l : List Char} (h : GoodText l) (s : Ser) : (s.add l).out.getLast? = l.getLast? := by
  simp only [Ser.add, List.getLast?_append]
  cases hg : l.getLast? with
  | none => simp only [List.getLast?_eq_none_iff] at hg; exact absurd hg h.ne
  | some z => rfl

theorem Ser.key {s : Ser} (hs : 2 ≤ s.level) {k : String} (hk : PlainText k.toList) : s.str k.toList = s.add (quoteChars k.toList) := by
  simp only [Ser.str, Ser.nested_of hs, if_true, quoteChars_clean hk.clean]

mutual
theorem ser_nested (v : SVal) (h : v.Plain) (s : Ser) (hs : 2 ≤ s.level) : ser v s = s.add v.json.chars := by
  match v with
  | .bool b => simp [ser, SVal.json, Json.chars]
  | .int n => simp only [ser, SVal.json, Json.chars]; rfl
  | .str t =>
    simp only [SVal.Plain] at h
    simp only [ser, SVal.json, Json.chars]
    exact Ser.key hs h
  | .unit => simp [ser, SVal.json, Json.chars]
  | .seq l =>
    simp only [SVal.Plain] at h
    have := (ser_elems l h (s.up.add ['[']) (by simp [Ser.up, Ser.add]; omega)).1 (by simp [Ser.add])
    simp only [ser, this, SVal.json, Json.chars]
    simp [Ser.add, Ser.up, Ser.down]
  | .strct fs =>
    simp only [SVal.Plain] at h
    have := (ser_fields fs h (s.up.add ['{']) (by simp [Ser.up, Ser.add]; omega)).1 (by simp [Ser.add])
    have hn : s.up.nested = true := Ser.nested_of (by simp [Ser.up]; omega)
    have hn2 : ∀ l, ((s.up.add ['{']).add l).nested = true := fun l => Ser.nested_of (by simp [Ser.up, Ser.add]; omega)
    simp only [ser, hn, if_true, this, hn2, SVal.json, Json.chars]
    simp [Ser.add, Ser.up, Ser.down]
  | .map es =>
    simp only [SVal.Plain] at h
    have := (ser_entries es h (s.up.add ['{']) (by simp [Ser.up, Ser.add]; omega)).1 (by simp [Ser.add])
    have hn : s.up.nested = true := Ser.nested_of (by simp [Ser.up]; omega)
    simp only [ser, hn, if_true, this, SVal.json, Json.chars]
    simp [Ser.add, Ser.up, Ser.down]
  | .tuple l => simp [SVal.Plain] at h
  | .newtypeVariant v x => simp [SVal.Plain] at h
  | .tupleVariant v l => simp [SVal.Plain] at h
  | .structVariant v l => simp [SVal.Plain] at h
theorem ser_elems (l : List SVal) (h : SVal.PlainArr l) (s : Ser) (hs : 2 ≤ s.level) :
    (s.out.getLast? = some '[' → serElems l s = s.add (Json.charsArr (SVal.jsonArr l))) ∧
    (s.out.getLast? ≠ some '[' → serElems l s = s.add ((SVal.jsonArr l).flatMap fun y => ',' :: y.chars)) := by
  match l with
  | [] => simp [serElems, SVal.jsonArr, Json.charsArr, Ser.add_nil]
  | x :: l =>
    simp only [SVal.PlainArr] at h
    have hg := (plain_good x h.1).1
    have hrest := fun t ht => (ser_elems l h.2 (Ser.add t x.json.chars) ht).2 (by rw [getLast?_add hg]; exact hg.last.1)
    refine ⟨?_, ?_⟩
    · intro hl
      simp only [serElems, Ser.sep, hl, if_true, SVal.jsonArr, charsArr_cons]
      rw [ser_nested x h.1 s hs, hrest s (by simpa [Ser.add] using hs), Ser.add_add]
    · intro hl
      simp only [serElems, Ser.sep, hl, if_false, SVal.jsonArr]
      rw [ser_nested x h.1 _ (by simpa [Ser.add] using hs), hrest _ (by simpa [Ser.add] using hs), Ser.add_add, Ser.add_add]
      simp
theorem ser_fields (l : List (String × SVal)) (h : SVal.PlainObj l) (s : Ser) (hs : 2 ≤ s.level) :
    (s.out.getLast? = some '{' → serFields l s = s.add (Json.charsObj (SVal.jsonObj l))) ∧
    (s.out.getLast? ≠ some '{' → serFields l s = s.add ((SVal.jsonObj l).flatMap fun y => ',' :: memberText y)) := by
  match l with
  | [] => simp [serFields, SVal.jsonObj, Json.charsObj, Ser.add_nil]
  | (k, x) :: l =>
    simp only [SVal.PlainObj] at h
    have hg := member_good (GoodText.quoted h.1) (plain_good x h.2.1).1
    have hrest := fun t ht => (ser_fields l h.2.2 (Ser.add t (memberText (k, x.json))) ht).2 (by rw [getLast?_add hg]; exact hg.last.2)
    have hone : ∀ t : Ser, 2 ≤ t.level →
        ser x ((t.str k.toList).add (if (t.str k.toList).nested then [':'] else ['='])) = t.add (memberText (k, x.json)) := by
      intro t ht
      rw [Ser.key ht h.1, if_pos (Ser.nested_of (by simpa [Ser.add] using ht)), ser_nested x h.2.1 _ (by simpa [Ser.add] using ht),
        Ser.add_add, Ser.add_add]
      simp [memberText]
    refine ⟨?_, ?_⟩
    · intro hl
      simp only [serFields, Ser.nested_of hs, Ser.sep, hl, if_true, SVal.jsonObj, charsObj_cons]
      rw [hone s hs, hrest s (by simpa [Ser.add] using hs), Ser.add_add]
    · intro hl
      simp only [serFields, Ser.nested_of hs, Ser.sep, hl, if_true, if_false, SVal.jsonObj]
      rw [hone _ (by simpa [Ser.add] using hs), hrest _ (by simpa [Ser.add] using hs), Ser.add_add, Ser.add_add]
      simp
theorem ser_entries (l : List (String × SVal)) (h : SVal.PlainObj l) (s : Ser) (hs : 2 ≤ s.level) :
    (s.out.getLast? = some '{' → serEntries l s = s.add (Json.charsObj (SVal.jsonObj l))) ∧
    (s.out.getLast? ≠ some '{' → serEntries l s = s.add ((SVal.jsonObj l).flatMap fun y => ',' :: memberText y)) := by
  match l with
  | [] => simp [serEntries, SVal.jsonObj, Json.charsObj, Ser.add_nil]
  | (k, x) :: l =>
    simp only [SVal.PlainObj] at h
    have hg := member_good (GoodText.quoted h.1) (plain_good x h.2.1).1
    have hrest := fun t ht => (ser_entries l h.2.2 (Ser.add t (memberText (k, x.json))) ht).2 (by rw [getLast?_add hg]; exact hg.last.2)
    have hone : ∀ t : Ser, 2 ≤ t.level → ser x ((t.str k.toList).add [':']) = t.add (memberText (k, x.json)) := by
      intro t ht
      rw [Ser.key ht h.1, ser_nested x h.2.1 _ (by simpa [Ser.add] using ht), Ser.add_add, Ser.add_add]
      simp [memberText]
    refine ⟨?_, ?_⟩
    · intro hl
      simp only [serEntries, Ser.sep, hl, if_true, SVal.jsonObj, charsObj_cons]
      rw [hone s hs, hrest s (by simpa [Ser.add] using hs), Ser.add_add]
    · intro hl
      simp only [serEntries, Ser.sep, hl, if_false, SVal.jsonObj]
      rw [hone _ (by simpa [Ser.add] using hs), hrest _ (by simpa [Ser.add] using hs), Ser.add_add, Ser.add_add]
      simp
end

/-! ### The top level -/

/-- Text of a parameter's value. -/
def paramText : SVal → List Char
  | .bool b => if b then "true".toList else "false".toList
  | .int n => intText n
  | .str s => s.toList
  | .unit => "null".toList
  | v => v.json.chars

theorem ser_param (v : SVal) (h : v.Plain) (s : Ser) (hs : s.level = 1) : ser v s = s.add (paramText v) := by
  have hn : s.nested = false := by simp [Ser.nested, hs]
  have hn2 : s.up.nested = true := Ser.nested_of (by simp [Ser.up, hs])
  match v with
  | .bool b => simp [ser, paramText]
  | .int n => simp [ser, paramText]
  | .str t => simp [ser, paramText, Ser.str, hn]
  | .unit => simp [ser, paramText]
  | .seq l =>
    simp only [SVal.Plain] at h
    have := (ser_elems l h (s.up.add ['[']) (by simp [Ser.up, Ser.add]; omega)).1 (by simp [Ser.add])
    simp only [ser, this, paramText, SVal.json, Json.chars]
    simp [Ser.add, Ser.up, Ser.down]
  | .strct fs =>
    simp only [SVal.Plain] at h
    have := (ser_fields fs h (s.up.add ['{']) (by simp [Ser.up, Ser.add]; omega)).1 (by simp [Ser.add])
    have hn3 : ∀ l, ((s.up.add ['{']).add l).nested = true := fun l => Ser.nested_of (by simp [Ser.up, Ser.add]; omega)
    simp only [ser, hn2, if_true, this, hn3, paramText, SVal.json, Json.chars]
    simp [Ser.add, Ser.up, Ser.down]
  | .map es =>
    simp only [SVal.Plain] at h
    have := (ser_entries es h (s.up.add ['{']) (by simp [Ser.up, Ser.add]; omega)).1 (by simp [Ser.add])
    simp only [ser, hn2, if_true, this, paramText, SVal.json, Json.chars]
    simp [Ser.add, Ser.up, Ser.down]
  | .tuple l => simp [SVal.Plain] at h
  | .newtypeVariant v x => simp [SVal.Plain] at h
  | .tupleVariant v l => simp [SVal.Plain] at h
  | .structVariant v l => simp [SVal.Plain] at h

/-- `name=value`. -/
def paramPair (p : String × SVal) : List Char := p.1.toList ++ '=' :: paramText p.2

/-- Pieces joined with a separator. -/
def joinWith (c : Char) : List (List Char) → List Char
  | [] => []
  | [x] => x
  | x :: y :: l => x ++ c :: joinWith c (y :: l)

theorem joinWith_cons (c : Char) (x : List Char) (l : List (List Char)) : joinWith c (x :: l) = x ++ l.flatMap fun y => c :: y := by
  induction l generalizing x with
  | nil => simp [joinWith]
  | cons y l ih => rw [joinWith, ih y]; simp

theorem ser_value (v : SVal) (h : v.Plain ∨ ∃ t, v = .str t) (s : Ser) (hs : s.level = 1) : ser v s = s.add (paramText v) := by
  rcases h with h | ⟨t, rfl⟩
  · exact ser_param v h s hs
  · simp [ser, paramText, Ser.str, Ser.nested, hs]

/-- Fields whose values are all written without disturbing the level. -/
theorem ser_top_rest (fs : List (String × SVal)) (h : ∀ p ∈ fs, p.2.Plain ∨ ∃ t, p.2 = .str t) (s : Ser) (hs : s.level = 1) :
    (s.out = [] → serFields fs s = s.add (joinWith '&' (fs.map paramPair))) ∧
    (s.out ≠ [] → serFields fs s = s.add ((fs.map paramPair).flatMap fun y => '&' :: y)) := by
  induction fs generalizing s with
  | nil => simp [serFields, joinWith, Ser.add_nil]
  | cons p fs ih =>
    obtain ⟨k, x⟩ := p
    simp only [List.forall_mem_cons] at h
    have hone : ∀ t : Ser, t.level = 1 →
        ser x ((t.str k.toList).add (if (t.str k.toList).nested then [':'] else ['='])) = t.add (paramPair (k, x)) := by
      intro t ht
      have hn : t.nested = false := by simp [Ser.nested, ht]
      have hk : t.str k.toList = t.add k.toList := by simp [Ser.str, hn]
      have hn' : (t.add k.toList).nested = false := hn
      rw [hk, hn', ser_value x h.1 _ (by simpa [Ser.add] using ht)]
      simp [paramPair, Ser.add]
    have hrest := fun t ht => (ih h.2 (Ser.add t (paramPair (k, x))) ht).2 (by simp [Ser.add, paramPair])
    have hn : s.nested = false := by simp [Ser.nested, hs]
    refine ⟨?_, ?_⟩
    · intro hl
      simp only [serFields, hn, hl, List.isEmpty_nil, if_true, Bool.false_eq_true, if_false]
      rw [hone s hs, hrest s (by simpa [Ser.add] using hs), Ser.add_add, List.map_cons, joinWith_cons]
    · intro hl
      have he : s.out.isEmpty = false := by simpa using hl
      simp only [serFields, hn, he, Bool.false_eq_true, if_false]
      rw [hone _ (by simpa [Ser.add] using hs), hrest _ (by simpa [Ser.add] using hs), Ser.add_add, Ser.add_add]
      simp

theorem plainObj_mem {fs : List (String × SVal)} (h : SVal.PlainObj fs) : ∀ p ∈ fs, PlainText p.1.toList ∧ p.2.Plain := by
  induction fs with
  | nil => simp
  | cons q fs ih =>
    obtain ⟨k, v⟩ := q
    simp only [SVal.PlainObj] at h
    simp only [List.forall_mem_cons]
    exact ⟨⟨h.1, h.2.1⟩, ih h.2.2⟩

theorem ser_top_values (fs : List (String × SVal)) (h : ∀ p ∈ fs, p.2.Plain ∨ ∃ t, p.2 = .str t) :
    (ser (.strct fs) { out := [], level := 0 }).out = joinWith '&' (fs.map paramPair) := by
  have := (ser_top_rest fs h { out := [], level := 1 } rfl).1 rfl
  simp only [ser, Ser.up, Ser.nested, Nat.zero_add, Nat.lt_irrefl, decide_false, Bool.false_eq_true, if_false, gt_iff_lt]
  rw [this]
  simp [Ser.add]

theorem ser_top (fs : List (String × SVal)) (h : SVal.PlainObj fs) :
    (ser (.strct fs) { out := [], level := 0 }).out = joinWith '&' (fs.map paramPair) :=
  ser_top_values fs fun p hp => .inl (plainObj_mem h p hp).2

/-! ### Reading a query back -/

theorem replaceChar_append (c : Char) (to u v : List Char) : replaceChar c to (u ++ v) = replaceChar c to u ++ replaceChar c to v := by
  simp [replaceChar]

theorem replaceChar_cons (c : Char) (to : List Char) (x : Char) (v : List Char) :
    replaceChar c to (x :: v) = (if x = c then to else [x]) ++ replaceChar c to v := by
  simp [replaceChar]

theorem replaceChar_none {c : Char} (to : List Char) {l : List Char} (h : c ∉ l) : replaceChar c to l = l := by
  induction l with
  | nil => rfl
  | cons x l ih =>
    simp only [List.mem_cons, not_or] at h
    rw [replaceChar_cons, if_neg (Ne.symm h.1), ih h.2]; rfl

/-- Both character replacements. -/
def delims (l : List Char) : List Char := replaceChar '&' ['"', ',', '"'] (replaceChar '=' ['"', ':', '"'] l)

theorem delims_append (u v : List Char) : delims (u ++ v) = delims u ++ delims v := by simp [delims, replaceChar_append]

theorem delims_none {l : List Char} (h1 : '=' ∉ l) (h2 : '&' ∉ l) : delims l = l := by
  rw [delims, replaceChar_none _ h1, replaceChar_none _ h2]

/-- A parameter between its quotes. -/
def quotedPair (p : String × SVal) : List Char := '"' :: p.1.toList ++ '"' :: ':' :: '"' :: paramText p.2 ++ ['"']

theorem paramText_no (v : SVal) (h : v.Plain) : '=' ∉ paramText v ∧ '&' ∉ paramText v := by
  have hg := (plain_good v h).1
  match v with
  | .bool b => cases b <;> exact ⟨by decide, by decide⟩
  | .int n => exact ⟨(GoodText.num (intText_num n)).1.noEq, (GoodText.num (intText_num n)).1.noAmp⟩
  | .str t => simp only [SVal.Plain] at h; exact ⟨h.noEq, h.noAmp⟩
  | .unit => exact ⟨by decide, by decide⟩
  | .seq l => exact ⟨hg.noEq, hg.noAmp⟩
  | .strct fs => exact ⟨hg.noEq, hg.noAmp⟩
  | .map es => exact ⟨hg.noEq, hg.noAmp⟩

theorem delims_pair (p : String × SVal) (hk : PlainText p.1.toList) (hv : p.2.Plain) : '"' :: delims (paramPair p) ++ ['"'] = quotedPair p := by
  have h := paramText_no p.2 hv
  rw [paramPair, show p.1.toList ++ '=' :: paramText p.2 = p.1.toList ++ (['='] ++ paramText p.2) from rfl, delims_append, delims_append,
    delims_none hk.noEq hk.noAmp, delims_none h.1 h.2]
  simp [quotedPair, delims, replaceChar]

theorem delims_join (x : List Char) (l : List (List Char)) :
    '"' :: delims (joinWith '&' (x :: l)) ++ ['"'] = joinWith ',' ((x :: l).map fun y => '"' :: delims y ++ ['"']) := by
  induction l generalizing x with
  | nil => simp [joinWith]
  | cons y l ih =>
    have h := ih y
    rw [List.map_cons] at h
    rw [joinWith, show x ++ '&' :: joinWith '&' (y :: l) = x ++ (['&'] ++ joinWith '&' (y :: l)) from rfl, delims_append, delims_append,
      List.map_cons, List.map_cons, joinWith, ← h]
    simp [delims, replaceChar]

theorem replacePair_join (a b : Char) (to : List Char) (ha : a ≠ ',') (hb : b ≠ ',') (l : List (List Char)) :
    replacePair a b to (joinWith ',' l) = joinWith ',' (l.map (replacePair a b to)) := by
  induction l using joinWith.induct with
  | case1 => simp [joinWith, replacePair]
  | case2 x => simp [joinWith]
  | case3 x y l ih =>
    rw [List.map_cons] at ih
    rw [joinWith, show x ++ ',' :: joinWith ',' (y :: l) = x ++ ([','] ++ joinWith ',' (y :: l)) from rfl,
      replacePair_append _ _ _ _ _ (by simp; intro _ h; exact hb h.symm),
      replacePair_append _ _ _ _ _ (by simp; intro h; exact absurd h.symm ha), ih, List.map_cons, List.map_cons, joinWith]
    simp [replacePair]

theorem replacePair_braces (a b : Char) (to : List Char) (ha : a ≠ ',' ∧ a ≠ '{') (hb : b ≠ ',' ∧ b ≠ '}') (l : List (List Char)) :
    replacePair a b to ('{' :: joinWith ',' l ++ ['}']) = '{' :: joinWith ',' (l.map (replacePair a b to)) ++ ['}'] := by
  rw [show '{' :: joinWith ',' l ++ ['}'] = ['{'] ++ (joinWith ',' l ++ ['}']) from by simp,
    replacePair_append _ _ _ _ _ (by simp; intro h; exact absurd h.symm ha.2),
    replacePair_append _ _ _ _ _ (by simp; intro _ h; exact hb.2 h.symm), replacePair_join a b to ha.1 hb.1]
  simp [replacePair]

/-- The four pair replacements. -/
def pairs (l : List Char) : List Char :=
  replacePair '}' '"' ['}'] <| replacePair '"' '{' ['{'] <| replacePair ']' '"' [']'] <| replacePair '"' '[' ['['] l

theorem pairs_braces (l : List (List Char)) : pairs ('{' :: joinWith ',' l ++ ['}']) = '{' :: joinWith ',' (l.map pairs) ++ ['}'] := by
  simp only [pairs]
  rw [replacePair_braces _ _ _ (by decide) (by decide), replacePair_braces _ _ _ (by decide) (by decide),
    replacePair_braces _ _ _ (by decide) (by decide), replacePair_braces _ _ _ (by decide) (by decide)]
  simp only [List.map_map]
  rfl

theorem pairs_safe {l : List Char} (h : Safe l) : pairs l = l := by
  simp only [pairs]
  rw [replacePair_safe (by decide) _ h, replacePair_safe (by decide) _ h, replacePair_safe (by decide) _ h, replacePair_safe (by decide) _ h]

/-- A quoted name and colon before any text. -/
theorem pairs_name (k : List Char) (hk : PlainText k) (t : List Char) :
    pairs ('"' :: k ++ '"' :: ':' :: t) = '"' :: k ++ '"' :: ':' :: pairs t := by
  have hsafe : Safe ('"' :: k ++ ['"', ':']) := by
    have := (hk.safe_quoted).snoc (b := ':') fun x _ => bad_right (by decide) x
    simpa using this
  have hl : ('"' :: k ++ ['"', ':']).getLast? = some ':' := by
    rw [show '"' :: k ++ ['"', ':'] = ('"' :: k ++ ['"']) ++ [':'] by simp, List.getLast?_concat]
  have key : ∀ (a b : Char) (to t : List Char), bad a b = true → a ≠ ':' →
      replacePair a b to ('"' :: k ++ '"' :: ':' :: t) = '"' :: k ++ '"' :: ':' :: replacePair a b to t := by
    intro a b to t hb ha
    rw [show '"' :: k ++ '"' :: ':' :: t = ('"' :: k ++ ['"', ':']) ++ t by simp,
      replacePair_append _ _ _ _ _ (by rw [hl]; intro h; exact ha (Option.some.inj h.1).symm), replacePair_safe hb _ hsafe]
    simp
  simp only [pairs]
  rw [key _ _ _ _ (by decide) (by decide), key _ _ _ _ (by decide) (by decide), key _ _ _ _ (by decide) (by decide),
    key _ _ _ _ (by decide) (by decide)]

theorem pairs_arr {u : List Char} (h : Safe ('[' :: u ++ [']'])) : pairs ('"' :: ('[' :: u ++ [']']) ++ ['"']) = '[' :: u ++ [']'] := by
  have h1 : Safe (u ++ [']']) := by
    cases u with
    | nil => trivial
    | cons c u => exact h.2
  have h2 : Safe u := by
    have : ∀ l : List Char, Safe (l ++ [']']) → Safe l := by
      intro l; induction l with
      | nil => intro; trivial
      | cons a l ih =>
        intro hl
        cases l with
        | nil => trivial
        | cons b l => exact ⟨hl.1, ih hl.2⟩
    exact this u h1
  have e1 : replacePair '"' '[' ['['] ('"' :: ('[' :: u ++ [']']) ++ ['"']) = '[' :: u ++ [']', '"'] := by
    have : replacePair '"' '[' ['['] (u ++ [']', '"']) = u ++ [']', '"'] := by
      rw [show u ++ [']', '"'] = (u ++ [']']) ++ ['"'] by simp, replacePair_append _ _ _ _ _ (by simp), replacePair_safe (by decide) _ h1]
      simp [replacePair]
    simp only [List.cons_append, List.append_assoc, replacePair, and_self, if_true, List.nil_append]
    rw [this]
  have hu : Safe ('[' :: u) := h2.cons fun y _ => bad_left (by decide) y
  have e2 : replacePair ']' '"' [']'] ('[' :: u ++ [']', '"']) = '[' :: u ++ [']'] := by
    rw [replacePair_append _ _ _ _ _ (by simp), replacePair_safe (by decide) _ hu]
    simp [replacePair]
  simp only [pairs]
  rw [e1, e2, replacePair_safe (by decide) _ h, replacePair_safe (by decide) _ h]

theorem pairs_obj {u : List Char} (h : Safe ('{' :: u ++ ['}'])) : pairs ('"' :: ('{' :: u ++ ['}']) ++ ['"']) = '{' :: u ++ ['}'] := by
  have h1 : Safe (u ++ ['}']) := by
    cases u with
    | nil => trivial
    | cons c u => exact h.2
  have h2 : Safe u := by
    have : ∀ l : List Char, Safe (l ++ ['}']) → Safe l := by
      intro l; induction l with
      | nil => intro; trivial
      | cons a l ih =>
        intro hl
        cases l with
        | nil => trivial
        | cons b l => exact ⟨hl.1, ih hl.2⟩
    exact this u h1
  have hkeep : ∀ (a b : Char) (to : List Char), bad a b = true → (a = '"' → b ≠ '{') → a ≠ '}' →
      replacePair a b to ('"' :: ('{' :: u ++ ['}']) ++ ['"']) = '"' :: ('{' :: u ++ ['}']) ++ ['"'] := by
    intro a b to hb hab ha
    rw [show '"' :: ('{' :: u ++ ['}']) ++ ['"'] = ['"'] ++ (('{' :: u ++ ['}']) ++ ['"']) by simp,
      replacePair_append _ _ _ _ _ (by simp; intro h1 h2; exact hab h1.symm h2.symm),
      replacePair_append _ _ _ _ _ (by rw [List.getLast?_concat]; intro h; exact ha (Option.some.inj h.1).symm), replacePair_safe hb _ h]
    simp [replacePair]
  have e1 : replacePair '"' '{' ['{'] ('"' :: ('{' :: u ++ ['}']) ++ ['"']) = '{' :: u ++ ['}', '"'] := by
    have : replacePair '"' '{' ['{'] (u ++ ['}', '"']) = u ++ ['}', '"'] := by
      rw [show u ++ ['}', '"'] = (u ++ ['}']) ++ ['"'] by simp, replacePair_append _ _ _ _ _ (by simp), replacePair_safe (by decide) _ h1]
      simp [replacePair]
    simp only [List.cons_append, List.append_assoc, replacePair, and_self, if_true, List.nil_append]
    rw [this]
  have hu : Safe ('{' :: u) := h2.cons fun y _ => bad_left (by decide) y
  have e2 : replacePair '}' '"' ['}'] ('{' :: u ++ ['}', '"']) = '{' :: u ++ ['}'] := by
    rw [replacePair_append _ _ _ _ _ (by simp), replacePair_safe (by decide) _ hu]
    simp [replacePair]
  simp only [pairs]
  rw [hkeep _ _ _ (by decide) (by decide) (by decide), hkeep _ _ _ (by decide) (by decide) (by decide), e1, e2]

theorem pairs_value (v : SVal) (h : v.Plain) : pairs ('"' :: paramText v ++ ['"']) = v.param.chars := by
  have hg := (plain_good v h).1
  have htext : ∀ s : String, PlainText s.toList → pairs ('"' :: s.toList ++ ['"']) = (Json.str s).chars := by
    intro s hs
    rw [pairs_safe hs.safe_quoted, Json.chars, quoteChars_clean hs.clean]
  match v with
  | .bool b => cases b <;> decide
  | .int n => exact htext (toString n) (GoodText.num (intText_num n)).2
  | .str t => simp only [SVal.Plain] at h; exact htext t h
  | .unit => decide
  | .seq l =>
    simp only [paramText, SVal.param, SVal.json, Json.chars] at hg ⊢
    exact pairs_arr hg.safe
  | .strct fs =>
    simp only [paramText, SVal.param, SVal.json, Json.chars] at hg ⊢
    exact pairs_obj hg.safe
  | .map es =>
    simp only [paramText, SVal.param, SVal.json, Json.chars] at hg ⊢
    exact pairs_obj hg.safe

theorem pairs_quotedPair (p : String × SVal) (hk : PlainText p.1.toList) (hv : p.2.Plain) :
    pairs (quotedPair p) = memberText (p.1, p.2.param) := by
  rw [quotedPair, show '"' :: p.1.toList ++ '"' :: ':' :: '"' :: paramText p.2 ++ ['"'] =
    '"' :: p.1.toList ++ '"' :: ':' :: ('"' :: paramText p.2 ++ ['"']) by simp, pairs_name _ hk, pairs_value _ hv, memberText,
    quoteChars_clean hk.clean]
  simp

theorem param_wf (fs : List (String × SVal)) (h : SVal.PlainObj fs) : Json.WFObj (fs.map fun p => (p.1, p.2.param)) := by
  induction fs with
  | nil => simp [Json.WFObj]
  | cons q fs ih =>
    obtain ⟨k, v⟩ := q
    simp only [SVal.PlainObj] at h
    simp only [List.map_cons, Json.WFObj]
    refine ⟨?_, ih h.2.2⟩
    have := (plain_good v h.2.1).2
    match v with
    | .bool b => simp [SVal.param, Json.WF]
    | .int n => simp [SVal.param, Json.WF]
    | .str t => simp [SVal.param, SVal.json, Json.WF]
    | .unit => simp [SVal.param, Json.WF]
    | .seq l => exact this
    | .strct fs => exact this
    | .map es => exact this

/-- The text between serializer and JSON reader. -/
theorem queryToJson_plain (fs : List (String × SVal)) (hne : fs ≠ []) (h : SVal.PlainObj fs) :
    queryToJson (joinWith '&' (fs.map paramPair)) = (Json.obj (fs.map fun p => (p.1, p.2.param))).chars := by
  have hmem := plainObj_mem h
  cases fs with
  | nil => exact absurd rfl hne
  | cons p fs =>
    have e0 : queryToJson (joinWith '&' ((p :: fs).map paramPair)) =
        pairs (delims ('{' :: '"' :: joinWith '&' ((p :: fs).map paramPair) ++ ['"', '}'])) := rfl
    have e1 : delims ('{' :: '"' :: joinWith '&' ((p :: fs).map paramPair) ++ ['"', '}']) =
        '{' :: joinWith ',' ((p :: fs).map quotedPair) ++ ['}'] := by
      have hj := delims_join (paramPair p) (fs.map paramPair)
      rw [← List.map_cons, List.map_map] at hj
      have : (p :: fs).map ((fun y => '"' :: delims y ++ ['"']) ∘ paramPair) = (p :: fs).map quotedPair := by
        apply List.map_congr_left
        intro q hq
        exact delims_pair q (hmem q hq).1 (hmem q hq).2
      rw [this] at hj
      rw [show '{' :: '"' :: joinWith '&' ((p :: fs).map paramPair) ++ ['"', '}'] =
        ['{', '"'] ++ (joinWith '&' ((p :: fs).map paramPair) ++ ['"', '}']) from by simp, delims_append, delims_append, ← hj]
      simp [delims, replaceChar]
    have e2 : ((p :: fs).map quotedPair).map pairs = (p :: fs).map fun q => memberText (q.1, q.2.param) := by
      rw [List.map_map]
      apply List.map_congr_left
      intro q hq
      exact pairs_quotedPair q (hmem q hq).1 (hmem q hq).2
    rw [e0, e1, pairs_braces, e2, Json.chars, List.map_cons, List.map_cons, charsObj_cons, joinWith_cons]
    simp [List.flatMap_map]

/-! ### The property -/

/-- **C43** A request whose names and texts are plain comes back from its query string: each parameter with its name and value, in order. What is
missing for the full statement: texts with delimiters, quotes or outer brackets, an empty request, and numbers or booleans as parameters, which come
back as text. -/
theorem C43_query_round_trip_partial (lossy : List UInt8 → List Char) (fs : List (String × SVal)) (hne : fs ≠ []) (h : SVal.PlainObj fs) :
    urlDecode lossy (urlEncode (.strct fs)) = some (.obj (fs.map fun p => (p.1, p.2.param))) := by
  rw [urlDecode, urlEncode, C42_percent_round_trip, ser_top fs h, queryToJson_plain fs hne h]
  exact parseJson_chars _ (by simp only [Json.WF]; exact param_wf fs h)

/-- **C43** If moreover no parameter is a number, boolean or null, the value read is the JSON value of the request. -/
theorem C43_query_is_json_partial (lossy : List UInt8 → List Char) (fs : List (String × SVal)) (hne : fs ≠ []) (h : SVal.PlainObj fs)
    (hp : ∀ p ∈ fs, (∃ s, p.2 = .str s) ∨ (∃ l, p.2 = .seq l) ∨ (∃ l, p.2 = .strct l) ∨ ∃ l, p.2 = .map l) :
    urlDecode lossy (urlEncode (.strct fs)) = some (SVal.strct fs).json := by
  rw [C43_query_round_trip_partial lossy fs hne h]
  simp only [SVal.json, Option.some.injEq, Json.obj.injEq]
  clear h hne
  induction fs with
  | nil => simp [SVal.jsonObj]
  | cons q fs ih =>
    obtain ⟨k, v⟩ := q
    simp only [List.forall_mem_cons] at hp
    rw [List.map_cons, SVal.jsonObj, ih hp.2]
    congr 2
    rcases hp.1 with ⟨s, hs⟩ | ⟨l, hs⟩ | ⟨l, hs⟩ | ⟨l, hs⟩ <;> (subst hs; rfl)

/-- **C43, violated.** Parameters can be smuggled: a text with a delimiter writes the same query as two parameters, so whatever reads the query
cannot tell the two requests apart. -/
theorem C43_parameter_injection (fs : List (String × SVal)) (h : ∀ p ∈ fs, p.2.Plain ∨ ∃ t, p.2 = .str t) (k v k' v' : String) :
    urlEncode (.strct (fs ++ [(k, .str (v ++ "&" ++ k' ++ "=" ++ v'))])) = urlEncode (.strct (fs ++ [(k, .str v), (k', .str v')])) := by
  rw [urlEncode, urlEncode, ser_top_values, ser_top_values]
  · congr 1
    cases fs with
    | nil => simp [joinWith, paramPair, paramText]
    | cons p fs =>
      rw [List.cons_append, List.cons_append, List.map_cons, List.map_cons, joinWith_cons, joinWith_cons]
      simp [paramPair, paramText]
  · intro p hp
    rcases List.mem_append.mp hp with hp | hp
    · exact h p hp
    · simp only [List.mem_cons, List.not_mem_nil, or_false] at hp
      rcases hp with rfl | rfl <;> exact .inr ⟨_, rfl⟩
  · intro p hp
    rcases List.mem_append.mp hp with hp | hp
    · exact h p hp
    · simp only [List.mem_cons, List.not_mem_nil, or_false] at hp
      subst hp; exact .inr ⟨_, rfl⟩

/-- **C43, violated.** A request without parameters does not come back. -/
theorem C43_empty_request_fails (lossy : List UInt8 → List Char) : urlDecode lossy (urlEncode (.strct [])) = none := by
  rw [urlDecode, urlEncode, C42_percent_round_trip]
  decide +kernel

/-- **C43, violated.** Numbers come back as text, so a type that asks for a number refuses its own query string. -/
theorem C43_number_becomes_text (lossy : List UInt8 → List Char) (k : String) (hk : PlainText k.toList) (n : Int) :
    urlDecode lossy (urlEncode (.strct [(k, .int n)])) = some (.obj [(k, .str (toString n))]) :=
  C43_query_round_trip_partial lossy [(k, .int n)] (by simp) ⟨hk, by simp [SVal.Plain], by simp [SVal.PlainObj]⟩

/-- **C43, violated.** A tuple leaves the nesting level too high, so the parameters after it are written as members of an object. -/
theorem C43_tuple_breaks_query (lossy : List UInt8 → List Char) :
    urlDecode lossy (urlEncode (.strct [("a", .tuple [.int 1]), ("b", .str "x")])) = none := by
  rw [urlDecode, urlEncode, C42_percent_round_trip]
  decide +kernel

/-- **C43, violated.** A map at the top level gets a closing brace without an opening one. -/
theorem C43_map_breaks_query (lossy : List UInt8 → List Char) : urlDecode lossy (urlEncode (.map [("a", .str "x")])) = none := by
  rw [urlDecode, urlEncode, C42_percent_round_trip]
  decide +kernel

/-- **C43, violated.** A text that starts with an opening bracket is taken for a list. -/
theorem C43_bracket_text_changes (lossy : List UInt8 → List Char) :
    urlDecode lossy (urlEncode (.strct [("a", .str "[1]")])) = some (.obj [("a", .arr [.num "1"])]) := by
  rw [urlDecode, urlEncode, C42_percent_round_trip]
  rfl

/-- A request with texts, a list of objects and an object as parameters meets the hypotheses. -/
example : SVal.PlainObj [("client_id", .str "http://wallet.example/a?b"), ("state", .str "héllo"),
    ("details", .seq [.strct [("type", .str "openid_credential"), ("n", .int (-3))], .bool true, .seq []]), ("o", .map [("k", .unit)])] := by
  have plain : ∀ l : List Char, (l.all fun c => c != '"' && c != '\\' && decide (32 ≤ c.toNat) && c != '=' && c != '&' && c != '[' && c != '{' &&
      c != ']' && c != '}') = true → PlainText l := by
    intro l hl
    simp only [List.all_eq_true, Bool.and_eq_true, bne_iff_ne, decide_eq_true_eq] at hl
    refine ⟨fun c hc => ?_, fun hc => ?_, fun hc => ?_, fun c hc => ?_, fun c hc => ?_⟩
    · have := hl c hc; exact ⟨this.1.1.1.1.1.1.1.1, this.1.1.1.1.1.1.1.2, Nat.not_lt.mpr this.1.1.1.1.1.1.2⟩
    · exact (hl _ hc).1.1.1.1.1.2 rfl
    · exact (hl _ hc).1.1.1.1.2 rfl
    · have := hl c (List.mem_of_mem_head? hc); exact ⟨this.1.1.1.2, this.1.1.2⟩
    · have := hl c (List.mem_of_mem_getLast? hc); exact ⟨this.1.2, this.2⟩
  simp only [SVal.PlainObj, SVal.Plain, SVal.PlainArr, and_true]
  repeat' apply And.intro
  all_goals exact plain _ (by decide)

end Verif
