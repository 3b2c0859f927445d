import Verif.Wire.Claim
/-!
# C116: claim descriptions on the wire
-/
namespace Verif.Wire

/-! ### Specification -/

/-- The names a description gives a meaning of its own: no claim can be called so. -/
def Reserved (k : String) : Prop := k = "mandatory" ∨ k = "value_type" ∨ k = "display"

mutual

/-- A description that can be put in words: no set of claims, at any depth, is empty, names a claim twice, or names one by a reserved word. -/
def Claim.Sound : Claim → Prop
  | .entry _ => True
  | .set m => m ≠ [] ∧ (m.map Prod.fst).Nodup ∧ SoundMembers m

/-- As `Claim.Sound`, of every member. -/
def SoundMembers : List (String × Claim) → Prop
  | [] => True
  | (k, c) :: l => ¬ Reserved k ∧ c.Sound ∧ SoundMembers l

end

/-- A dictionary of claims, which may be empty and may use any name, whose claims can be put in words. -/
def SoundDict (m : List (String × Claim)) : Prop := (m.map Prod.fst).Nodup ∧ ∀ p ∈ m, p.2.Sound

/-! ### Proofs -/

theorem soundMembers_iff {m : List (String × Claim)} : SoundMembers m ↔ ∀ p ∈ m, ¬ Reserved p.1 ∧ p.2.Sound := by
  induction m with
  | nil => simp [SoundMembers]
  | cons p l ih => obtain ⟨k, c⟩ := p; simp [SoundMembers, ih, and_assoc]

theorem valueType_name (t : ValueType) : ValueType.ofName t.name = some t := by cases t <;> decide

theorem readDisplay_write (d : Display) : readDisplay (writeDisplay d) = some d := by
  obtain ⟨n, l⟩ := d
  cases l <;> rfl

theorem insert_fresh {m : List (String × Claim)} {k : String} {c : Claim} (h : k ∉ m.map Prod.fst) : Dict.insert m k c = m ++ [(k, c)] := by
  induction m with
  | nil => rfl
  | cons p l ih =>
    obtain ⟨k', c'⟩ := p
    simp only [List.map_cons, List.mem_cons, not_or] at h
    have : Dict.insert ((k', c') :: l) k c = (k', c') :: Dict.insert l k c := by
      simp [Dict.insert, Ne.symm h.1]
    rw [this, ih h.2]
    rfl

theorem readMembers_definition (d e : ClaimDefinition) :
    readMembers (writeDefinition d) e [] = some (.entry { mandatory := d.mandatory <|> e.mandatory, valueType := d.valueType <|> e.valueType, display := d.display <|> e.display }) := by
  obtain ⟨a, b, c⟩ := d
  have hd : ∀ l : List Display, readVec readDisplay (writeVec writeDisplay l) = some l := fun l => readVec_written fun d _ => readDisplay_write d
  cases a <;> cases b <;> cases c <;>
    simp [writeDefinition, opt, readMembers, readBool, readUnit, valueType_name, hd]

mutual

theorem readClaim_write : ∀ c : Claim, c.Sound → readClaim (writeClaim c) = some c
  | .entry d, _ => by
    rw [writeClaim, readClaim, readMembers_definition]
    obtain ⟨a, b, c⟩ := d
    cases a <;> cases b <;> cases c <;> rfl
  | .set m, h => by
    rw [Claim.Sound] at h
    rw [writeClaim, readClaim, readMembers_write m [] {} h.2.2 (by simpa using h.2.1)]
    have : m.isEmpty = false := by cases m <;> simp_all
    simp [this]

theorem readMembers_write : ∀ (m acc : List (String × Claim)) (e : ClaimDefinition), SoundMembers m → ((acc ++ m).map Prod.fst).Nodup →
    readMembers (writeMembers m) e acc = some (if (acc ++ m).isEmpty then .entry e else .set (acc ++ m))
  | [], acc, e, _, _ => by simp [writeMembers, readMembers]
  | (k, c) :: l, acc, e, h, hn => by
    rw [SoundMembers] at h
    obtain ⟨hk, hc, hl⟩ := h
    simp only [Reserved, not_or] at hk
    have hf : k ∉ acc.map Prod.fst := by
      rw [List.map_append, List.nodup_append] at hn
      intro hm
      exact hn.2.2 k hm k (by simp) rfl
    have := readMembers_write l (acc ++ [(k, c)]) e hl (by simpa using hn)
    rw [writeMembers, readMembers, if_neg hk.1, if_neg hk.2.1, if_neg hk.2.2, readClaim_write c hc]
    simp only [insert_fresh hf]
    rw [this]
    simp

end

mutual

theorem readClaim_sound : ∀ (j : Json) (c : Claim), readClaim j = some c → c.Sound
  | .obj m, c, h => by
    rw [readClaim] at h
    exact readMembers_sound m {} [] c h (by simp) (by simp [SoundMembers])
  | .null, _, h => by simp [readClaim] at h
  | .bool _, _, h => by simp [readClaim] at h
  | .num _, _, h => by simp [readClaim] at h
  | .str _, _, h => by simp [readClaim] at h
  | .arr _, _, h => by simp [readClaim] at h

theorem readMembers_sound : ∀ (l : List (String × Json)) (e : ClaimDefinition) (acc : List (String × Claim)) (c : Claim),
    readMembers l e acc = some c → (acc.map Prod.fst).Nodup → SoundMembers acc → c.Sound
  | [], e, acc, c, h, hn, hs => by
    rw [readMembers] at h
    cases acc with
    | nil => cases h; simp [Claim.Sound]
    | cons p acc =>
      have : c = .set (p :: acc) := by simpa using h.symm
      rw [this, Claim.Sound]
      exact ⟨nofun, hn, hs⟩
  | (k, j) :: l, e, acc, c, h, hn, hs => by
    rw [readMembers] at h
    split at h
    · split at h
      · exact readMembers_sound l _ acc c h hn hs
      · cases h
    split at h
    · split at h
      · exact readMembers_sound l _ acc c h hn hs
      · cases h
    split at h
    · split at h
      · exact readMembers_sound l _ acc c h hn hs
      · cases h
    rename_i h1 h2 h3
    split at h
    · rename_i c' hc'
      refine readMembers_sound l _ _ c h (Dict.nodup_insert hn k c') ?_
      rw [soundMembers_iff] at hs ⊢
      intro p hp
      rcases Dict.mem_insert hp with rfl | hp
      · exact ⟨by simp [Reserved, h1, h2, h3], readClaim_sound j c' hc'⟩
      · exact hs p (by simpa using hp)
    · cases h

end

theorem readDict_go_write : ∀ (m acc : List (String × Claim)), (∀ p ∈ m, p.2.Sound) → ((acc ++ m).map Prod.fst).Nodup →
    readDict.go (writeMembers m) acc = some (acc ++ m)
  | [], acc, _, _ => by simp [writeMembers, readDict.go]
  | (k, c) :: l, acc, h, hn => by
    have hf : k ∉ acc.map Prod.fst := by
      rw [List.map_append, List.nodup_append] at hn
      intro hm
      exact hn.2.2 k hm k (by simp) rfl
    rw [writeMembers, readDict.go, readClaim_write c (h _ (.head _))]
    simp only [insert_fresh hf]
    rw [readDict_go_write l _ (fun p hp => h p (.tail _ hp)) (by simpa using hn)]
    simp

theorem readDict_write {m : List (String × Claim)} (h : SoundDict m) : readDict (writeDict m) = some m := by
  rw [writeDict, readDict, readDict_go_write m [] h.2 (by simpa using h.1)]
  rfl

theorem readDict_go_sound : ∀ (l : List (String × Json)) (acc m : List (String × Claim)), readDict.go l acc = some m → SoundDict acc → SoundDict m
  | [], acc, m, h, hs => by rw [readDict.go] at h; cases h; exact hs
  | (k, j) :: l, acc, m, h, hs => by
    rw [readDict.go] at h
    split at h
    · rename_i c hc
      refine readDict_go_sound l _ m h ⟨Dict.nodup_insert hs.1 k c, fun p hp => ?_⟩
      rcases Dict.mem_insert hp with rfl | hp
      · exact readClaim_sound j c hc
      · exact hs.2 p (by simpa using hp)
    · cases h

theorem readDict_sound {j : Json} {m : List (String × Claim)} (h : readDict j = some m) : SoundDict m := by
  cases j <;> first | (simp [readDict] at h; done) | skip
  exact readDict_go_sound _ _ _ h ⟨by simp, nofun⟩

theorem write_ne_null (c : Claim) : writeClaim c ≠ .null := by cases c <;> simp [writeClaim]

theorem writeMembers_no_null {m : List (String × Claim)} {k : String} : (k, Json.null) ∉ writeMembers m := by
  induction m with
  | nil => simp [writeMembers]
  | cons p l ih =>
    obtain ⟨k', c⟩ := p
    simp only [writeMembers, List.mem_cons, Prod.mk.injEq, not_or, not_and]
    exact ⟨fun _ e => write_ne_null c e.symm, ih⟩

theorem write_not_unit (c : Claim) : readUnit ValueType.ofName (writeClaim c) = none := by
  cases c with
  | set m =>
    rw [writeClaim]
    have := @writeMembers_no_null m
    cases hm : writeMembers m with
    | nil => rfl
    | cons p l =>
      obtain ⟨k, j⟩ := p
      cases l with
      | nil =>
        cases j <;> first | rfl | skip
        exact absurd (by rw [hm]; exact .head _) (this (k := k))
      | cons q l => cases j <;> rfl
  | entry d =>
    obtain ⟨a, b, c⟩ := d
    cases a <;> cases b <;> cases c <;> rfl

theorem write_not_bool (c : Claim) : readBool (writeClaim c) = none := by cases c <;> rfl

theorem write_not_vec (c : Claim) : readVec readDisplay (writeClaim c) = none := by cases c <;> rfl

theorem readMembers_reserved {m : List (String × Claim)} {k : String} {c : Claim} (hk : Reserved k) (h : (k, c) ∈ m) :
    ∀ e acc, readMembers (writeMembers m) e acc = none := by
  induction m with
  | nil => cases h
  | cons p l ih =>
    intro e acc
    obtain ⟨k', c'⟩ := p
    rw [writeMembers, readMembers, write_not_bool, write_not_unit, write_not_vec]
    rcases List.mem_cons.1 h with h | h
    · cases h
      rcases hk with rfl | rfl | rfl <;> simp
    · split
      · rfl
      split
      · rfl
      split
      · rfl
      split
      · exact ih h _ _
      · rfl

/-! ### Theorems -/

/-- C116: What is read of a claim description is a description that, written out and read again, comes back the same. -/
theorem C116_read_is_stable (j : Json) (c : Claim) (h : readClaim j = some c) : readClaim (writeClaim c) = some c :=
  readClaim_write c (readClaim_sound j c h)

/-- C116: A description made by a program comes back from the wire exactly if it can be put in words. -/
theorem C116_comes_back_iff (c : Claim) : readClaim (writeClaim c) = some c ↔ c.Sound :=
  ⟨fun h => readClaim_sound _ c h, readClaim_write c⟩

/-- C116: the same of a dictionary of claims. -/
theorem C116_dictionary_comes_back_iff (m : List (String × Claim)) : readDict (writeDict m) = some m ↔ SoundDict m :=
  ⟨fun h => readDict_sound h, readDict_write⟩

/-- C116 fails for claims with reserved names: a set that holds a claim called `mandatory`, `value_type` or `display` cannot be read at all. -/
theorem C116_reserved_names_unreadable (m : List (String × Claim)) (k : String) (c : Claim) (hk : Reserved k) (h : (k, c) ∈ m) :
    readClaim (writeClaim (.set m)) = none := by
  rw [writeClaim, readClaim]
  exact readMembers_reserved hk h _ _

theorem readMembers_beside (d e : ClaimDefinition) (l : List (String × Json)) (acc : List (String × Claim)) :
    ∃ e', readMembers (writeDefinition d ++ l) e acc = readMembers l e' acc := by
  obtain ⟨a, b, c⟩ := d
  have hd : ∀ l : List Display, readVec readDisplay (writeVec writeDisplay l) = some l := fun l => readVec_written fun d _ => readDisplay_write d
  cases a <;> cases b <;> cases c <;>
    simp [writeDefinition, opt, readMembers, readBool, readUnit, valueType_name, hd]
  all_goals exact ⟨_, rfl⟩

/-- C116 fails for sets with a definition of their own: where an object names nested claims and also says that the whole is mandatory, of some type or to be
displayed somehow, the latter is dropped without an error. -/
theorem C116_definition_beside_members_dropped (d : ClaimDefinition) (m : List (String × Claim)) (h : (Claim.set m).Sound) :
    readClaim (.obj (writeDefinition d ++ writeMembers m)) = some (.set m) := by
  rw [readClaim]
  obtain ⟨e', he⟩ := readMembers_beside d {} (writeMembers m) []
  rw [Claim.Sound] at h
  rw [he, readMembers_write m [] e' h.2.2 (by simpa using h.2.1)]
  have : m.isEmpty = false := by cases m <;> simp_all
  simp [this]

/-- C116 fails for empty sets: they come back as a single claim. -/
theorem C116_empty_set_becomes_claim : readClaim (writeClaim (.set [])) = some (.entry {}) := rfl

/-! ### Examples -/

/-- An address of two claims. -/
def address : Claim :=
  .set [("street", .entry { mandatory := some true, display := some [{ name := "Street", locale := some "en-NZ" }] }), ("country", .entry { valueType := some .string })]

example : address.Sound := by simp [address, Claim.Sound, SoundMembers, Reserved]

example : readClaim (writeClaim address) = some address := (C116_comes_back_iff _).2 (by simp [address, Claim.Sound, SoundMembers, Reserved])

/-- Read from a text with members of many kinds, one of them twice. -/
example : ∃ c, readClaim (.obj [("display", .arr [.obj [("locale", .null), ("name", .str "A"), ("logo", .str "x")], .arr [.str "B", .str "en"]]), ("mandatory", .bool false),
    ("mandatory", .bool true), ("value_type", .obj [("image", .null)])]) = some c := ⟨_, rfl⟩

example : ¬ (Claim.set [("address", .set [("display", .entry {})])]).Sound := by simp [Claim.Sound, SoundMembers, Reserved]

example : Reserved "display" ∧ ("display", Claim.entry {}) ∈ [("name", Claim.entry {}), ("display", .entry {})] := ⟨.inr (.inr rfl), by simp⟩

example : SoundDict [("display", address), ("mandatory", .entry {})] := by
  simp [SoundDict, address, Claim.Sound, SoundMembers, Reserved]

end Verif.Wire
