/-!
# Shared data types: JSON values, maps, `Kind`, `Quota`, whitespace splitting
-/
namespace Verif

/-- JSON values (`serde_json::Value`). Simplification: a number is kept as the text `serde_json` prints for it; an object
is an association list in iteration order. -/
inductive Json where
  | null
  | bool (b : Bool)
  | num (text : String)
  | str (s : String)
  | arr (l : List Json)
  | obj (m : List (String × Json))

/-- Arithmetic overflow panics in a debug build and wraps in a release build.
Models the compiler, no code; see /repo/crates/status/src/bitstring.rs 120-180 for arithmetic. -/
inductive Build where
  | debug
  | release
  deriving DecidableEq, Repr

/-- `HashMap<String, T>` / `serde_json::Map<String, Value>`: an association list. Iteration order is list order; as
providers are arbitrary, theorems about provider-supplied maps hold for every iteration order. -/
abbrev Dict (α : Type) := List (String × α)

namespace Dict
variable {α : Type}

/-- `HashMap::get`. Of the standard library, used for the maps of /repo/crates/openid/src/issuer.rs and elsewhere. -/
def get? (m : Dict α) (k : String) : Option α :=
  match m with
  | [] => none
  | (k', v) :: m => if k' = k then some v else get? m k

/-- `HashMap::contains_key`. Of the standard library, used for the maps of /repo/crates/openid/src/issuer.rs and elsewhere. -/
def has (m : Dict α) (k : String) : Bool := (get? m k).isSome

/-- `HashMap::keys`. Of the standard library, used for the maps of /repo/crates/openid/src/issuer.rs and elsewhere. -/
def keys (m : Dict α) : List String := m.map Prod.fst

/-- `HashMap::values`. Of the standard library, used for the maps of /repo/crates/openid/src/issuer.rs and elsewhere. -/
def values (m : Dict α) : List α := m.map Prod.snd

/-- `HashMap::insert`: replaces the value of an existing key.
Of the standard library, used for the maps of /repo/crates/openid/src/issuer.rs and elsewhere. -/
def insert (m : Dict α) (k : String) (v : α) : Dict α :=
  match m with
  | [] => [(k, v)]
  | (k', v') :: m => if k' = k then (k, v) :: m else (k', v') :: insert m k v

/-- `HashMap::retain` on keys. Of the standard library, used for the maps of /repo/crates/openid/src/issuer.rs and elsewhere. -/
def retainKeys (m : Dict α) (p : String → Bool) : Dict α := m.filter fun e => p e.1

/-- Keys are distinct, as in every real map. Of the standard library, used for the maps of /repo/crates/openid/src/issuer.rs and elsewhere. -/
def Nodup (m : Dict α) : Prop := (keys m).Nodup

theorem get?_insert (m : Dict α) (k k' : String) (v : α) :
    get? (insert m k v) k' = if k' = k then some v else get? m k' := by
  induction m with
  | nil =>
    by_cases h : k' = k
    · simp [insert, get?, h]
    · have : k ≠ k' := fun h' => h h'.symm
      simp [insert, get?, h, this]
  | cons x m ih =>
    obtain ⟨kx, vx⟩ := x
    by_cases h : kx = k
    · subst h
      by_cases h' : k' = kx
      · subst h'; simp [insert, get?]
      · have : kx ≠ k' := fun h => h' h.symm
        simp [insert, get?, h', this]
    · by_cases h' : k' = k
      · subst h'; simp [insert, get?, h, ih]
      · by_cases h'' : kx = k' <;> simp [insert, get?, h, h', h'', ih]

theorem mem_of_get? {m : Dict α} {k : String} {v : α} (h : get? m k = some v) : (k, v) ∈ m := by
  induction m with
  | nil => simp [get?] at h
  | cons x m ih =>
    obtain ⟨kx, vx⟩ := x
    simp only [get?] at h
    split at h
    · simp_all
    · exact List.mem_cons_of_mem _ (ih h)

theorem get?_of_mem {m : Dict α} (hn : Nodup m) {k : String} {v : α} (h : (k, v) ∈ m) : get? m k = some v := by
  induction m with
  | nil => simp at h
  | cons x m ih =>
    obtain ⟨kx, vx⟩ := x
    simp only [Nodup, keys, List.map_cons, List.nodup_cons] at hn
    rcases List.mem_cons.1 h with h | h
    · cases h; simp [get?]
    · have hne : kx ≠ k := by
        rintro rfl
        exact hn.1 (List.mem_map.2 ⟨(kx, v), h, rfl⟩)
      simp [get?, hne, ih hn.2 h]

theorem mem_insert {m : Dict α} {k : String} {v : α} {e : String × α} (h : e ∈ insert m k v) :
    e = (k, v) ∨ e ∈ m := by
  induction m with
  | nil => simpa [insert] using h
  | cons x m ih =>
    obtain ⟨kx, vx⟩ := x
    simp only [insert] at h
    split at h
    · rcases List.mem_cons.1 h with h | h
      · exact .inl h
      · exact .inr (List.mem_cons_of_mem _ h)
    · rcases List.mem_cons.1 h with h | h
      · exact .inr (h ▸ List.mem_cons_self)
      · rcases ih h with h | h
        · exact .inl h
        · exact .inr (List.mem_cons_of_mem _ h)

theorem keys_insert {m : Dict α} {k : String} {v : α} {k' : String} :
    k' ∈ keys (insert m k v) ↔ k' = k ∨ k' ∈ keys m := by
  induction m with
  | nil => simp [insert, keys]
  | cons x m ih =>
    obtain ⟨kx, vx⟩ := x
    simp only [insert]
    split
    · rename_i h; subst h; simp [keys]
    · simp only [keys, List.map_cons, List.mem_cons] at ih ⊢
      rw [ih]
      constructor
      · rintro (h | h | h) <;> simp [h]
      · rintro (h | h | h) <;> simp [h]

theorem nodup_insert {m : Dict α} (hn : Nodup m) (k : String) (v : α) : Nodup (insert m k v) := by
  induction m with
  | nil => simp [insert, Nodup, keys]
  | cons x m ih =>
    obtain ⟨kx, vx⟩ := x
    have hn' := hn
    simp only [Nodup, keys, List.map_cons, List.nodup_cons] at hn
    simp only [insert]
    split
    · rename_i h; subst h; exact hn'
    · rename_i h
      simp only [Nodup, keys, List.map_cons, List.nodup_cons]
      refine ⟨?_, ih hn.2⟩
      intro hm
      have : kx ∈ keys (insert m k v) := hm
      rcases keys_insert.1 this with h' | h'
      · exact h h'
      · exact hn.1 h'

theorem has_iff {m : Dict α} {k : String} : has m k = true ↔ k ∈ keys m := by
  induction m with
  | nil => simp [has, get?, keys]
  | cons x m ih =>
    obtain ⟨kx, vx⟩ := x
    simp only [has, get?, keys, List.map_cons, List.mem_cons] at ih ⊢
    split
    · simp_all
    · rw [ih]
      constructor
      · exact .inr
      · rintro (h | h)
        · simp_all
        · exact h

end Dict

/-- `Kind<T>`: a string or an object. Models /repo/crates/core/src/lib.rs 17-49. -/
inductive Kind (α : Type) where
  | string (s : String)
  | object (a : α)
  deriving DecidableEq, Repr

/-- `Quota<T>`: one or many. Models /repo/crates/core/src/lib.rs 53-114. -/
inductive Quota (α : Type) where
  | one (a : α)
  | many (l : List α)
  deriving DecidableEq, Repr

namespace Quota
variable {α : Type}

/-- `Quota::add`, lib.rs 88-97. -/
def add : Quota α → α → Quota α
  | one a, x => many [a, x]
  | many l, x => many (l ++ [x])

/-- `Quota::len`, lib.rs 100-105. -/
def len : Quota α → Nat
  | one _ => 1
  | many l => l.length

/-- `Quota::is_empty`, lib.rs 108-113. -/
def isEmpty : Quota α → Bool
  | one _ => false
  | many l => l.isEmpty

/-- `Quota::is_one`, lib.rs 71-76. -/
def isOne : Quota α → Bool
  | one _ => true
  | many _ => false

end Quota

/-- Words of a character list separated by spaces, tabs and line breaks. Helper of `splitWs`.
/repo/vercre-issuer/src/authorize.rs 171 and 326, token.rs 163. -/
def splitWsAux : List Char → List Char → List (List Char)
  | [], cur => if cur.isEmpty then [] else [cur.reverse]
  | c :: cs, cur =>
    if c.isWhitespace then
      if cur.isEmpty then splitWsAux cs [] else cur.reverse :: splitWsAux cs []
    else splitWsAux cs (c :: cur)

/-- `str::split_whitespace`. Simplification: ASCII white space only (Rust also splits on other Unicode spaces).
/repo/vercre-issuer/src/authorize.rs 171 and 326, token.rs 163. -/
def splitWs (s : String) : List String := (splitWsAux s.toList []).map String.ofList

/-- Part of a string before the first `#` (`kid.split('#').next()`).
/repo/vercre-issuer/src/credential.rs 157, /repo/vercre-holder/src/presentation/present.rs 47. -/
def beforeHash (s : String) : String := String.ofList (s.toList.takeWhile (· ≠ '#'))

end Verif
