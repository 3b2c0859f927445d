import Verif.Dif.Model
/-!
# Properties of presentation constraints: C48, C49, C50
-/
namespace Verif.Dif

/-! ### Specification -/

/-- What a filter of the library accepts. (C49 compares the constant case with equality.) -/
inductive Accepts (x : Ext) : FilterValue → Json → Prop
  | arrayHas (c : String) (l : List Json) : Json.str c ∈ l → Accepts x (.const c) (.arr l)
  | quoted (c : String) : Accepts x (.const c) (.str (jsonQuote c))
  | number (c : String) : Accepts x (.const c) (.num c)
  | null (c : String) : Accepts x (.const c) .null
  | pattern (p : String) (n : Json) : x.regex p n.render = some true → Accepts x (.pattern p) n
  | date (s : String) : x.isDate s = true → Accepts x (.format "date") (.str s)
  | dateTime (s : String) : x.isDateTime s = true → Accepts x (.format "date-time") (.str s)

/-- Filters the library gives up on by panicking. -/
inductive Panics : FilterValue → Json → Prop
  | object (c : String) (m : List (String × Json)) : Panics (.const c) (.obj m)
  | format (f : String) (n : Json) : f ≠ "date" → f ≠ "date-time" → Panics (.format f) n

/-- The value a field looks at: the first hit of the first path that has a hit, where earlier paths are valid and have none. -/
def Field.Selects (x : Ext) (f : Field) (vc n : Json) : Prop :=
  ∃ pre p post ns, f.path = pre ++ p :: post ∧ (∀ q ∈ pre, x.query q vc = some []) ∧ x.query p vc = some (n :: ns)

/-- A field is met: it selects a value, which passes the filter if there is one. -/
def Field.Met (x : Ext) (f : Field) (vc : Json) : Prop :=
  ∃ n, f.Selects x vc n ∧ ∀ flt, f.filter = some flt → Accepts x flt.value n

/-- Evaluating the field panics. -/
def Field.Crashes (x : Ext) (f : Field) (vc : Json) : Prop :=
  ∃ n flt, f.Selects x vc n ∧ f.filter = some flt ∧ Panics flt.value n

/-! ### Helpers -/

theorem any_isStr (c : String) (l : List Json) : l.any (isStr c) = true ↔ Json.str c ∈ l := by
  rw [List.any_eq_true]
  constructor
  · rintro ⟨j, hj, h⟩
    cases j <;> simp [isStr] at h
    subst h; exact hj
  · intro h; exact ⟨_, h, by simp [isStr]⟩

theorem accepts_iff (x : Ext) (v : FilterValue) (n : Json) : v.matched x n = .ok true ↔ Accepts x v n := by
  constructor
  · intro h
    cases v with
    | const c =>
      cases n <;> simp only [FilterValue.matched, matchConst, Except.ok.injEq, reduceCtorEq, beq_iff_eq, any_isStr, Bool.false_eq_true] at h
      · exact .null c
      · subst h; exact .number _
      · subst h; exact .quoted _
      · exact .arrayHas _ _ h
    | pattern p =>
      simp only [FilterValue.matched, matchPattern, orErr_ok] at h
      exact .pattern _ _ h
    | format f =>
      simp only [FilterValue.matched, matchFormat] at h
      split at h
      · rename_i hf; subst hf
        cases n <;> simp at h
        exact .date _ h
      · split at h
        · rename_i hf; subst hf
          cases n <;> simp at h
          exact .dateTime _ h
        · cases h
  · intro h
    cases h with
    | arrayHas c l h => simp [FilterValue.matched, matchConst, (any_isStr c l).2 h]
    | quoted c => simp [FilterValue.matched, matchConst]
    | number c => simp [FilterValue.matched, matchConst]
    | null c => rfl
    | pattern p n h => simp [FilterValue.matched, matchPattern, orErr_ok, h]
    | date s h => simp [FilterValue.matched, matchFormat, h]
    | dateTime s h => simp [FilterValue.matched, matchFormat, h]

theorem panics_iff (x : Ext) (v : FilterValue) (n : Json) : (∃ m, v.matched x n = .error (.panic m)) ↔ Panics v n := by
  constructor
  · rintro ⟨m, h⟩
    cases v with
    | const c =>
      cases n <;> simp [FilterValue.matched, matchConst] at h
      exact .object _ _
    | pattern p =>
      simp only [FilterValue.matched, matchPattern, orErr] at h
      split at h <;> cases h
    | format f =>
      simp only [FilterValue.matched, matchFormat] at h
      split at h
      · cases h
      · split at h
        · cases h
        · exact .format _ _ (by assumption) (by assumption)
  · intro h
    cases h with
    | object c m => exact ⟨_, rfl⟩
    | format f n h1 h2 => exact ⟨"format matching not implemented", by simp [FilterValue.matched, matchFormat, h1, h2]⟩

/-- What the loop over the paths computes. -/
theorem matchedLoop_cases (x : Ext) (filter : Option Filter) (vc : Json) (ps : List String) :
    (∃ n pre p post ns, ps = pre ++ p :: post ∧ (∀ q ∈ pre, x.query q vc = some []) ∧ x.query p vc = some (n :: ns) ∧
      matchedLoop x filter vc ps = (match filter with | none => .ok true | some f => f.value.matched x n)) ∨
    ((∀ n, ¬ ∃ pre p post ns, ps = pre ++ p :: post ∧ (∀ q ∈ pre, x.query q vc = some []) ∧ x.query p vc = some (n :: ns)) ∧
      (matchedLoop x filter vc ps = .ok false ∨ matchedLoop x filter vc ps = .error (.serverError "Invalid JSONPath"))) := by
  induction ps with
  | nil => right; simp [matchedLoop]
  | cons p ps ih =>
    cases hq : x.query p vc with
    | none =>
      right
      refine ⟨?_, .inr (by simp [matchedLoop, hq])⟩
      rintro n ⟨pre, p', post, ns, h1, h2, h3⟩
      cases pre with
      | nil => simp at h1; rw [← h1.1, hq] at h3; cases h3
      | cons a pre => simp at h1; have := h2 a (by simp); rw [← h1.1, hq] at this; cases this
    | some l =>
      cases l with
      | cons n ns =>
        left
        exact ⟨n, [], p, ps, ns, rfl, by simp, hq, by cases filter <;> simp [matchedLoop, hq]⟩
      | nil =>
        have heq : matchedLoop x filter vc (p :: ps) = matchedLoop x filter vc ps := by simp [matchedLoop, hq]
        rw [heq]
        rcases ih with ⟨n, pre, p', post, ns, h1, h2, h3, h4⟩ | ⟨h1, h2⟩
        · left
          refine ⟨n, p :: pre, p', post, ns, by simp [h1], ?_, h3, h4⟩
          intro q hq'
          rcases List.mem_cons.1 hq' with rfl | hq'
          · exact hq
          · exact h2 q hq'
        · right
          refine ⟨?_, h2⟩
          rintro n ⟨pre, p', post, ns, e1, e2, e3⟩
          cases pre with
          | nil => simp at e1; rw [← e1.1, hq] at e3; cases e3
          | cons a pre =>
            simp at e1
            exact h1 n ⟨pre, p', post, ns, e1.2, fun q hq' => e2 q (by simp [hq']), e3⟩

theorem selects_unique {x : Ext} {f : Field} {vc n n' : Json} (h : f.Selects x vc n) (h' : f.Selects x vc n') : n = n' := by
  obtain ⟨pre, p, post, ns, h1, h2, h3⟩ := h
  obtain ⟨pre', p', post', ns', h1', h2', h3'⟩ := h'
  rw [h1] at h1'
  clear h1
  induction pre generalizing pre' with
  | nil =>
    cases pre' with
    | nil => simp at h1'; rw [← h1'.1, h3] at h3'; cases h3'; rfl
    | cons a pre' => simp at h1'; have := h2' a (by simp); rw [← h1'.1, h3] at this; cases this
  | cons a pre ih =>
    cases pre' with
    | nil => simp at h1'; have := h2 a (by simp); rw [h1'.1, h3'] at this; cases this
    | cons a' pre' =>
      simp at h1'
      exact ih (fun q hq => h2 q (by simp [hq])) pre' h1'.2 (fun q hq => h2' q (by simp [hq]))

theorem matchedOrFalse_true (x : Ext) (f : Field) (vc : Json) : f.matchedOrFalse x vc = .ok true ↔ f.Met x vc := by
  unfold Field.matchedOrFalse Field.matched
  rcases matchedLoop_cases x f.filter vc f.path with ⟨n, pre, p, post, ns, h1, h2, h3, h4⟩ | ⟨h1, h2⟩
  · have hsel : f.Selects x vc n := ⟨pre, p, post, ns, h1, h2, h3⟩
    rw [h4]
    constructor
    · intro h
      refine ⟨n, hsel, fun flt hflt => ?_⟩
      rw [hflt] at h
      rw [← accepts_iff]
      revert h
      simp only
      cases flt.value.matched x n with
      | ok b => exact id
      | error e => cases e <;> exact fun h => (by cases h)
    · rintro ⟨n', hsel', hacc⟩
      cases selects_unique hsel hsel'
      cases hf : f.filter with
      | none => rfl
      | some flt => simp only; rw [(accepts_iff x flt.value n).2 (hacc flt hf)]
  · constructor
    · intro h
      rcases h2 with h2 | h2 <;> rw [h2] at h <;> cases h
    · rintro ⟨n, hsel, _⟩
      exact absurd hsel (h1 n)

theorem matchedOrFalse_panic (x : Ext) (f : Field) (vc : Json) :
    (∃ e, f.matchedOrFalse x vc = .error e) ↔ f.Crashes x vc := by
  unfold Field.matchedOrFalse Field.matched
  rcases matchedLoop_cases x f.filter vc f.path with ⟨n, pre, p, post, ns, h1, h2, h3, h4⟩ | ⟨h1, h2⟩
  · have hsel : f.Selects x vc n := ⟨pre, p, post, ns, h1, h2, h3⟩
    rw [h4]
    constructor
    · rintro ⟨e, h⟩
      cases hf : f.filter with
      | none => rw [hf] at h; cases h
      | some flt =>
        rw [hf] at h
        refine ⟨n, flt, hsel, hf, (panics_iff x _ _).1 ?_⟩
        revert h
        simp only
        cases flt.value.matched x n with
        | ok b => exact fun h => (by cases h)
        | error e => cases e <;> first | exact fun _ => ⟨_, rfl⟩ | exact fun h => (by cases h)
    · rintro ⟨n', flt, hsel', hf, hp⟩
      cases selects_unique hsel hsel'
      obtain ⟨m, hm⟩ := (panics_iff x _ _).2 hp
      exact ⟨.panic m, by rw [hf]; simp only; rw [hm]⟩
  · constructor
    · rintro ⟨e, h⟩
      rcases h2 with h2 | h2 <;> rw [h2] at h <;> cases h
    · rintro ⟨n, flt, hsel, _⟩
      exact absurd hsel (h1 n)

/-! ### Properties -/

/-- **C48**. A credential satisfies constraints exactly when every field either is met, or is optional (and its evaluation does not
panic): the first path of the field with a hit has a first hit that passes the filter. -/
theorem C48_constraints (x : Ext) (fields : List Field) (d : Option String) (vc : Json) :
    (Constraints.mk (some fields) d).satisfied x (some vc) = .ok true ↔
      ∀ f ∈ fields, f.Met x vc ∨ (f.optional = some true ∧ ¬ f.Crashes x vc) := by
  simp only [Constraints.satisfied]
  induction fields with
  | nil => simp [satisfiedLoop]
  | cons f fs ih =>
    rw [List.forall_mem_cons, ← ih, ← matchedOrFalse_true, ← matchedOrFalse_panic]
    simp only [satisfiedLoop]
    cases h : f.matchedOrFalse x vc with
    | error e => simp
    | ok b =>
      cases b with
      | true => simp
      | false =>
        rcases hopt : f.optional with _ | _ | _ <;> simp

/-- **C48**, refusal: constraints are answered with "not satisfied" only if some required field is not met. -/
theorem C48_refusal (x : Ext) (fields : List Field) (d : Option String) (vc : Json)
    (h : (Constraints.mk (some fields) d).satisfied x (some vc) = .ok false) :
    ∃ f ∈ fields, f.optional ≠ some true ∧ ¬ f.Met x vc := by
  simp only [Constraints.satisfied] at h
  induction fields with
  | nil => simp [satisfiedLoop] at h
  | cons f fs ih =>
    simp only [satisfiedLoop] at h
    cases hm : f.matchedOrFalse x vc with
    | error e => rw [hm] at h; cases h
    | ok b =>
      rw [hm] at h
      simp only at h
      split at h
      · rename_i hb
        refine ⟨f, List.mem_cons_self, ?_, ?_⟩
        · intro ho; simp [ho] at hb
        · intro hmet
          rw [(matchedOrFalse_true x f vc).2 hmet] at hm
          cases hm; simp at hb
      · obtain ⟨g, hg, hg'⟩ := ih h
        exact ⟨g, List.mem_cons_of_mem _ hg, hg'⟩

/-- A small JSONPath for examples: `$` is the value, `$.k` the member `k`. -/
def Demo.ext : Ext where
  query p j :=
    if p = "$" then some [j]
    else match p.toList, j with
      | '$' :: '.' :: k, .obj m => some (Dict.get? m (String.ofList k)).toList
      | '$' :: '.' :: _, _ => some []
      | _, _ => none
  regex p t := some ((p.toList).isPrefixOf t.toList)
  isDate s := s.length = 10
  isDateTime s := s.length = 20

/-- A credential as JSON. -/
def Demo.vcJson : Json :=
  .obj [("type", .arr [.str "VerifiableCredential", .str "EmployeeIDCredential"]), ("level", .num "7"), ("email", .str "a@b.c"),
    ("valid", .str "2024-01-01")]

/-- A field asking for the credential type, after a path without hits. -/
def Demo.typeField : Field :=
  { path := ["$.vc", "$.type"], filter := some { type_ := "string", value := .const "EmployeeIDCredential" } }

example : (Constraints.mk (some [Demo.typeField, { path := ["$.phone"], optional := some true },
      { path := ["$.valid"], filter := some ⟨"string", .format "date"⟩ }]) none).satisfied Demo.ext (some Demo.vcJson) = .ok true := rfl

example : (Constraints.mk (some [Demo.typeField, { path := ["$.phone"] }]) none).satisfied Demo.ext (some Demo.vcJson) = .ok false := rfl

/-- **C49, what holds**: a const filter accepts a number exactly when the constant is its text, and an array exactly when it contains the
constant. Missing: strings, Booleans, null and objects, for which it is wrong (below). -/
theorem C49_numbers_and_arrays_partial (x : Ext) (c t : String) (l : List Json) :
    ((FilterValue.const c).matched x (.num t) = .ok true ↔ t = c) ∧
    ((FilterValue.const c).matched x (.arr l) = .ok true ↔ Json.str c ∈ l) := by
  simp [FilterValue.matched, matchConst, ← any_isStr]

/-- **C49 is false**: a string claim equal to the constant is always refused, null is always accepted, no constant accepts a Boolean,
and an object claim panics. -/
theorem C49_const_filters_fail (x : Ext) (c : String) :
    (FilterValue.const c).matched x (.str c) = .ok false ∧
    (FilterValue.const c).matched x .null = .ok true ∧
    (∀ b, (FilterValue.const c).matched x (.bool b) = .ok false) ∧
    (∀ m, ∃ e, (FilterValue.const c).matched x (.obj m) = .error (.panic e)) := by
  refine ⟨?_, rfl, fun _ => rfl, fun m => ⟨_, rfl⟩⟩
  have : ¬ (c == jsonQuote c) = true := by
    rw [beq_iff_eq]
    exact fun h => jsonQuote_ne c h.symm
  simp only [FilterValue.matched, matchConst]
  rw [Bool.not_eq_true] at this
  rw [this]

/-- **C49**, at the level of a whole credential: one whose `email` claim is exactly the required constant is refused, and one whose
claim is null is accepted. -/
theorem C49_refused_example :
    (Constraints.mk (some [{ path := ["$.email"], filter := some ⟨"string", .const "a@b.c"⟩ }]) none).satisfied Demo.ext
      (some Demo.vcJson) = .ok false ∧
    (Constraints.mk (some [{ path := ["$.email"], filter := some ⟨"string", .const "a@b.c"⟩ }]) none).satisfied Demo.ext
      (some (.obj [("email", .null)])) = .ok true := ⟨rfl, rfl⟩

/-- **C50, what holds**: a field that is not marked optional has to be met. -/
theorem C50_required_fields_checked_partial (x : Ext) (fields : List Field) (d : Option String) (vc : Json)
    (h : (Constraints.mk (some fields) d).satisfied x (some vc) = .ok true) (f : Field) (hf : f ∈ fields)
    (hreq : f.optional ≠ some true) : f.Met x vc := by
  rcases (C48_constraints x fields d vc).1 h f hf with h | h
  · exact h
  · exact absurd h.1 hreq

/-- **C50 is false**, in general: adding an optional field whose evaluation does not panic never changes the answer, whatever its filter
and whatever value it selects. -/
theorem C50_optional_filter_ignored (x : Ext) (l1 l2 : List Field) (d : Option String) (f : Field) (vc : Json) (hopt : f.optional = some true)
    (hc : ¬ f.Crashes x vc) :
    (Constraints.mk (some (l1 ++ f :: l2)) d).satisfied x (some vc) = (Constraints.mk (some (l1 ++ l2)) d).satisfied x (some vc) := by
  simp only [Constraints.satisfied]
  induction l1 with
  | nil =>
    simp only [List.nil_append, satisfiedLoop]
    rw [← matchedOrFalse_panic] at hc
    cases h : f.matchedOrFalse x vc with
    | error e => exact absurd ⟨e, h⟩ hc
    | ok b => simp [hopt]
  | cons g l1 ih =>
    simp only [List.cons_append, satisfiedLoop]
    rw [ih]

/-- **C50**, an instance: `level` is present with value 7, the filter demands 8, the field is optional, and the credential passes. -/
theorem C50_failing_value_accepted :
    (Constraints.mk (some [Demo.typeField, { path := ["$.level"], filter := some ⟨"number", .const "8"⟩, optional := some true }]) none).satisfied
      Demo.ext (some Demo.vcJson) = .ok true ∧
    Field.Selects Demo.ext { path := ["$.level"], filter := some ⟨"number", .const "8"⟩, optional := some true } Demo.vcJson (.num "7") ∧
    ¬ Accepts Demo.ext (.const "8") (.num "7") :=
  ⟨rfl, ⟨[], "$.level", [], [], rfl, by simp, rfl⟩, fun h => absurd ((accepts_iff _ _ _).2 h) (by simp [FilterValue.matched, matchConst])⟩

end Verif.Dif
