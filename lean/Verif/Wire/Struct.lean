import Std.Data.String.ToInt
import Verif.Wire.Serde
/-!
# Structs, flattened maps, `Kind` and `Quota` as `serde` reads and writes them
-/
namespace Verif.Wire

/-- Members of a struct with `#[serde(default)]`: as `structFields`, but an array may stop early. -/
def structDefault (names : List String) : Json → Option (List (Option Json))
  | .obj m => names.mapM (single m)
  | .arr l => if l.length ≤ names.length then some (l.map some ++ List.replicate (names.length - l.length) none) else none
  | _ => none

/-- A struct with flattened members: the members it names, and the others. It is read from an object only.
What `serde` does in /repo/crates/openid/src/issuer.rs and elsewhere. -/
def flatFields (names : List String) : Json → Option (List (Option Json) × List (String × Json))
  | .obj m => (names.mapM (single m)).map fun l => (l, m.filter fun p => ¬ p.1 ∈ names)
  | _ => none

/-- The members of a struct in the order they are declared; `none` is one that is left out.
What `serde` does in /repo/crates/openid/src/issuer.rs and elsewhere. -/
def members (fs : List (String × Option Json)) : List (String × Json) := fs.filterMap fun f => f.2.map fun j => (f.1, j)

/-- A map with values of any kind (`HashMap`, `serde_json::Map`): a later member replaces an earlier one of the same name. -/
def readMap {α : Type} (r : Json → Option α) : List (String × Json) → Option (Dict α)
  | m => go m []
where
  go : List (String × Json) → Dict α → Option (Dict α)
    | [], acc => some acc
    | (k, j) :: l, acc =>
      match r j with
      | some a => go l (Dict.insert acc k a)
      | none => none

/-- The members of a map. What `serde` does in /repo/crates/openid/src/issuer.rs and elsewhere. -/
def writeMap {α : Type} (w : α → Json) (m : Dict α) : List (String × Json) := m.map fun p => (p.1, w p.2)

/-- The untagged `Kind`, /repo/crates/core/src/lib.rs 17-25. -/
def readKind {α : Type} (r : Json → Option α) : Json → Option (Kind α)
  | .str s => some (.string s)
  | j => (r j).map .object

/-- As `readKind`, writing. -/
def writeKind {α : Type} (w : α → Json) : Kind α → Json
  | .string s => .str s
  | .object a => w a

/-- The untagged `Quota`, core/src/lib.rs 53-61: one value if it can be read as one, otherwise a list. -/
def readQuota {α : Type} (r : Json → Option α) (j : Json) : Option (Quota α) :=
  match r j with
  | some a => some (.one a)
  | none => (readVec r j).map .many

/-- As `readQuota`, writing. -/
def writeQuota {α : Type} (w : α → Json) : Quota α → Json
  | .one a => w a
  | .many l => writeVec w l

/-- A `usize`: a number without sign, fraction or exponent that fits in 64 bits. -/
def readUsize : Json → Option Nat
  | .num t => if t.toList.all Char.isDigit then t.toNat?.filter (· < 2 ^ 64) else none
  | _ => none

/-- As `readUsize`, writing. -/
def writeNat (n : Nat) : Json := .num n.repr

/-- An `i64`: a number without fraction or exponent that fits in 64 bits. -/
def readI64 : Json → Option Int
  | .num t => t.toInt?.filter fun n => -2 ^ 63 ≤ n ∧ n < 2 ^ 63
  | _ => none

/-- As `readI64`, writing. -/
def writeInt (n : Int) : Json := .num n.repr

/-- How the external crate `chrono` writes and reads points in time (nanoseconds): what it writes it reads back.
What `serde` does in /repo/crates/openid/src/issuer.rs and elsewhere. -/
structure TimeText where
  text : Int → String
  read : String → Option Int
  read_text : ∀ t, read (text t) = some t

/-- A `DateTime<Utc>`. What `serde` does in /repo/crates/openid/src/issuer.rs and elsewhere. -/
def TimeText.readJson (T : TimeText) : Json → Option Int
  | .str s => T.read s
  | _ => none

/-- As `TimeText.readJson`, writing. -/
def TimeText.writeJson (T : TimeText) (t : Int) : Json := .str (T.text t)

/-! ### Lemmas -/

theorem members_cons (k : String) (o : Option Json) (fs : List (String × Option Json)) :
    members ((k, o) :: fs) = opt k id o ++ members fs := by
  cases o <;> rfl

theorem members_keys {fs : List (String × Option Json)} {p : String × Json} (h : p ∈ members fs) : p.1 ∈ fs.map Prod.fst := by
  obtain ⟨f, hf, e⟩ := List.mem_filterMap.1 h
  obtain ⟨k, o⟩ := f
  cases o with
  | none => cases e
  | some j => cases e; exact List.mem_map_of_mem hf

/-- Reading the members of a struct gives what was written, whatever else the object has under other names. -/
theorem mapM_members {fs : List (String × Option Json)} (hn : (fs.map Prod.fst).Nodup) {rest : List (String × Json)}
    (hr : ∀ p ∈ rest, p.1 ∉ fs.map Prod.fst) : (fs.map Prod.fst).mapM (single (members fs ++ rest)) = some (fs.map Prod.snd) := by
  suffices h : ∀ (pre post : List (String × Option Json)), pre ++ post = fs →
      (post.map Prod.fst).mapM (single (members fs ++ rest)) = some (post.map Prod.snd) from h [] fs rfl
  intro pre post e
  induction post generalizing pre with
  | nil => rfl
  | cons f post ih =>
    obtain ⟨k, o⟩ := f
    have hs : single (members fs ++ rest) k = some o := by
      subst e
      have hnd := hn
      rw [List.map_append, List.map_cons, List.nodup_append] at hnd
      obtain ⟨-, hnd2, hnd3⟩ := hnd
      have hpre : ∀ p ∈ members pre, p.1 ≠ k := fun p hp e =>
        hnd3 _ (members_keys hp) k (List.mem_cons_self) (e ▸ rfl)
      have hpost : ∀ p ∈ members post ++ rest, p.1 ≠ k := by
        intro p hp e
        rcases List.mem_append.1 hp with hp | hp
        · exact (List.nodup_cons.1 hnd2).1 (e ▸ members_keys hp)
        · refine hr p hp ?_
          rw [e]
          simp
      have e1 : members (pre ++ (k, o) :: post) ++ rest = members pre ++ (opt k id o ++ (members post ++ rest)) := by
        rw [show members (pre ++ (k, o) :: post) = members pre ++ members ((k, o) :: post) from List.filterMap_append, members_cons]
        simp only [List.append_assoc]
      rw [e1, single_append _ _ _ hpre, single_opt hpost, Option.map_id]
      rfl
    rw [List.map_cons, List.mapM_cons, hs, ih (pre ++ [(k, o)]) (by rw [← e]; simp)]
    rfl

theorem structFields_members {fs : List (String × Option Json)} {names : List String} (e : fs.map Prod.fst = names) (hn : names.Nodup) :
    structFields names (.obj (members fs)) = some (fs.map Prod.snd) := by
  subst e
  have := mapM_members hn (rest := []) nofun
  rwa [List.append_nil] at this

theorem structDefault_members {fs : List (String × Option Json)} {names : List String} (e : fs.map Prod.fst = names) (hn : names.Nodup) :
    structDefault names (.obj (members fs)) = some (fs.map Prod.snd) :=
  structFields_members e hn

theorem flatFields_members {fs : List (String × Option Json)} {names : List String} (e : fs.map Prod.fst = names) (hn : names.Nodup)
    {rest : List (String × Json)} (hr : ∀ p ∈ rest, p.1 ∉ names) :
    flatFields names (.obj (members fs ++ rest)) = some (fs.map Prod.snd, rest) := by
  subst e
  simp only [flatFields, mapM_members hn hr, Option.map_some, Option.some.injEq, Prod.mk.injEq, true_and]
  rw [List.filter_append, List.filter_eq_nil_iff.2, List.filter_eq_self.2, List.nil_append]
  · intro p hp; simpa using hr p hp
  · intro p hp
    have := members_keys hp
    simpa using this

theorem flatFields_rest {names : List String} {j : Json} {l : List (Option Json)} {rest : List (String × Json)} (h : flatFields names j = some (l, rest)) :
    ∀ p ∈ rest, p.1 ∉ names := by
  cases j <;> first | (simp [flatFields] at h; done) | skip
  rename_i m
  simp only [flatFields] at h
  cases hm : names.mapM (single m) with
  | none => rw [hm] at h; cases h
  | some l' =>
    rw [hm] at h
    cases h
    intro p hp
    simpa using (List.mem_filter.1 hp).2

theorem dict_insert_keys {α : Type} (m : Dict α) (k : String) (v : α) : ∀ k' ∈ (Dict.insert m k v).keys, k' = k ∨ k' ∈ m.keys := by
  induction m with
  | nil => intro k' h; simp [Dict.insert, Dict.keys] at h; exact .inl h
  | cons x m ih =>
    obtain ⟨kx, vx⟩ := x
    intro k' h
    rw [Dict.insert] at h
    split at h
    · rename_i e
      simp only [Dict.keys, List.map_cons, List.mem_cons] at h ⊢
      rcases h with h | h
      · exact .inl h
      · exact .inr (.inr h)
    · simp only [Dict.keys, List.map_cons, List.mem_cons] at h ⊢
      rcases h with h | h
      · exact .inr (.inl h)
      · rcases ih k' h with h | h
        · exact .inl h
        · exact .inr (.inr h)

theorem dict_insert_nodup {α : Type} {m : Dict α} (h : m.Nodup) (k : String) (v : α) : (Dict.insert m k v).Nodup := by
  induction m with
  | nil => simp [Dict.insert, Dict.Nodup, Dict.keys]
  | cons x m ih =>
    obtain ⟨kx, vx⟩ := x
    have h' : kx ∉ Dict.keys m ∧ Dict.Nodup m := List.nodup_cons.1 h
    rw [Dict.insert]
    split
    · rename_i e
      subst e
      exact List.nodup_cons.2 h'
    · rename_i e
      refine List.nodup_cons.2 ⟨fun hk => ?_, ih h'.2⟩
      rcases dict_insert_keys m k v kx hk with hk | hk
      · exact e hk
      · exact h'.1 hk

theorem dict_insert_fresh {α : Type} {m : Dict α} {k : String} (h : k ∉ m.keys) (v : α) : Dict.insert m k v = m ++ [(k, v)] := by
  induction m with
  | nil => rfl
  | cons x m ih =>
    obtain ⟨kx, vx⟩ := x
    simp only [Dict.keys, List.map_cons, List.mem_cons, not_or] at h
    rw [Dict.insert, if_neg (Ne.symm h.1), ih h.2]
    rfl

theorem readMap_write {α : Type} {r : Json → Option α} {w : α → Json} {m : Dict α} (hn : m.Nodup) (h : ∀ p ∈ m, r (w p.2) = some p.2) :
    readMap r (writeMap w m) = some m := by
  suffices hs : ∀ (m acc : Dict α), (acc ++ m).Nodup → (∀ p ∈ m, r (w p.2) = some p.2) → readMap.go r (writeMap w m) acc = some (acc ++ m) from
    hs m [] hn h
  intro m
  induction m with
  | nil => intro acc _ _; simp [writeMap, readMap.go]
  | cons p m ih =>
    obtain ⟨k, a⟩ := p
    intro acc hn h
    have hk : k ∉ acc.keys := by
      intro hk
      have := hn
      rw [Dict.Nodup, Dict.keys, List.map_append, List.nodup_append] at this
      exact this.2.2 k hk k (by simp) rfl
    have e := h _ (.head _)
    simp only at e
    simp only [writeMap, List.map_cons, readMap.go, e]
    rw [dict_insert_fresh hk]
    have := ih (acc ++ [(k, a)]) (by simpa using hn) fun p hp => h p (.tail _ hp)
    simpa [writeMap] using this

theorem readMap_nodup {α : Type} {r : Json → Option α} {l : List (String × Json)} {m : Dict α} (h : readMap r l = some m) : m.Nodup := by
  suffices hs : ∀ (l : List (String × Json)) (acc : Dict α), acc.Nodup → readMap.go r l acc = some m → m.Nodup from hs l [] (by simp [Dict.Nodup, Dict.keys]) h
  intro l
  induction l with
  | nil => intro acc ha h; cases h; exact ha
  | cons p l ih =>
    obtain ⟨k, j⟩ := p
    intro acc ha h
    simp only [readMap.go] at h
    split at h
    · exact ih _ (dict_insert_nodup ha _ _) h
    · cases h

theorem readMap_keys {α : Type} {r : Json → Option α} {l : List (String × Json)} {m : Dict α} (h : readMap r l = some m) {q : String → Prop}
    (hq : ∀ p ∈ l, q p.1) : ∀ k ∈ m.keys, q k := by
  suffices hs : ∀ (l : List (String × Json)) (acc : Dict α), (∀ k ∈ acc.keys, q k) → (∀ p ∈ l, q p.1) → readMap.go r l acc = some m → ∀ k ∈ m.keys, q k from
    hs l [] nofun hq h
  intro l
  induction l with
  | nil => intro acc ha _ h; cases h; exact ha
  | cons p l ih =>
    obtain ⟨k, j⟩ := p
    intro acc ha hl h
    simp only [readMap.go] at h
    split at h
    · refine ih _ (fun k' hk => ?_) (fun p hp => hl p (.tail _ hp)) h
      rcases dict_insert_keys _ _ _ _ hk with rfl | hk
      · exact hl _ (.head _)
      · exact ha _ hk
    · cases h

theorem readMap_values {α : Type} {r : Json → Option α} {l : List (String × Json)} {m : Dict α} (h : readMap r l = some m) {q : α → Prop}
    (hq : ∀ j a, r j = some a → q a) : ∀ p ∈ m, q p.2 := by
  suffices hs : ∀ (l : List (String × Json)) (acc : Dict α), (∀ p ∈ acc, q p.2) → readMap.go r l acc = some m → ∀ p ∈ m, q p.2 from
    hs l [] nofun h
  intro l
  induction l with
  | nil => intro acc ha h; cases h; exact ha
  | cons p l ih =>
    obtain ⟨k, j⟩ := p
    intro acc ha h
    simp only [readMap.go] at h
    split at h
    · rename_i a hj
      refine ih _ ?_ h
      have : ∀ (acc : Dict α), (∀ p ∈ acc, q p.2) → ∀ p ∈ Dict.insert acc k a, q p.2 := by
        intro acc
        induction acc with
        | nil => intro _ p hp; simp only [Dict.insert, List.mem_singleton] at hp; subst hp; exact hq _ _ hj
        | cons x acc ih =>
          obtain ⟨kx, vx⟩ := x
          intro ha p hp
          rw [Dict.insert] at hp
          split at hp
          · rcases List.mem_cons.1 hp with rfl | hp
            · exact hq _ _ hj
            · exact ha p (.tail _ hp)
          · rcases List.mem_cons.1 hp with rfl | hp
            · exact ha _ (.head _)
            · exact ih (fun p hp => ha p (.tail _ hp)) p hp
      exact this acc ha
    · cases h

theorem readUsize_write {n : Nat} (h : n < 2 ^ 64) : readUsize (writeNat n) = some n := by
  have hd : n.repr.toList.all Char.isDigit = true := by
    rw [List.all_eq_true]
    intro c hc
    rw [Nat.repr, String.toList_ofList] at hc
    exact Nat.isDigit_of_mem_toDigits (by omega) (by omega) hc
  simp only [writeNat, readUsize, hd, if_true, Nat.toNat?_repr]
  simp [Option.filter, h]

theorem readUsize_lt {j : Json} {n : Nat} (h : readUsize j = some n) : n < 2 ^ 64 := by
  cases j <;> first | (simp [readUsize] at h; done) | skip
  simp only [readUsize] at h
  split at h
  · have := Option.filter_eq_some_iff.1 h
    simpa using this.2
  · cases h

theorem readI64_write {n : Int} (h : -2 ^ 63 ≤ n ∧ n < 2 ^ 63) : readI64 (writeInt n) = some n := by
  simp only [writeInt, readI64, Int.toInt?_repr]
  rw [Option.filter, if_pos (by simpa using h)]

theorem readI64_range {j : Json} {n : Int} (h : readI64 j = some n) : -2 ^ 63 ≤ n ∧ n < 2 ^ 63 := by
  cases j <;> first | (simp [readI64] at h; done) | skip
  simp only [readI64] at h
  have := Option.filter_eq_some_iff.1 h
  simpa using this.2

theorem TimeText.readJson_write (T : TimeText) (t : Int) : T.readJson (T.writeJson t) = some t := T.read_text t

theorem readKind_write {α : Type} {r : Json → Option α} {w : α → Json} {k : Kind α} (h : ∀ a, k = .object a → r (w a) = some a ∧ ∀ s, w a ≠ .str s) :
    readKind r (writeKind w k) = some k := by
  cases k with
  | string s => rfl
  | object a =>
    obtain ⟨h1, h2⟩ := h a rfl
    simp only [writeKind]
    generalize w a = j at *
    cases j <;> first | exact absurd rfl (h2 _) | skip
    all_goals simp only [readKind, h1, Option.map_some]

theorem readQuota_one {α : Type} {r : Json → Option α} {w : α → Json} {a : α} (h : r (w a) = some a) : readQuota r (writeQuota w (.one a)) = some (.one a) := by
  simp only [readQuota, writeQuota, h]

theorem readQuota_many {α : Type} {r : Json → Option α} {w : α → Json} {l : List α} (h : ∀ a ∈ l, r (w a) = some a) (hn : r (writeVec w l) = none) :
    readQuota r (writeQuota w (.many l)) = some (.many l) := by
  simp only [readQuota, writeQuota, hn, readVec_written h, Option.map_some]

end Verif.Wire
