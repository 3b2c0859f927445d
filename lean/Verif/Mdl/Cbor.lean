import Verif.Core.Base64
import Verif.Mdl.Model
/-!
# CBOR

The values and bytes of the external crate `ciborium` (RFC 8949), which `cbor::to_vec` and `cbor::from_slice` of /repo/crates/iso-mdl/src rest on, modelled from the
RFC: `ciborium` writes definite lengths and the shortest form of numbers and lengths.
-/
namespace Verif.Mdl

/-- `ciborium::Value`. Simplification: a floating point number is its 2, 4 or 8 bytes. RFC 8949; used at /repo/crates/iso-mdl/src/lib.rs 60-143. -/
inductive Cbor where
  | int (n : Int)
  | bytes (b : Bytes)
  | text (s : String)
  | arr (l : List Cbor)
  | map (m : List (Cbor × Cbor))
  | tag (n : Nat) (v : Cbor)
  | bool (b : Bool)
  | null
  | float (b : Bytes)

/-- The last `k` bytes of a number, the most significant first. RFC 8949; used at /repo/crates/iso-mdl/src/lib.rs 60-143. -/
def be : Nat → Nat → Bytes
  | 0, _ => []
  | k + 1, n => be k (n / 256) ++ [(n % 256).toUInt8]

/-- The number that some bytes are. RFC 8949; used at /repo/crates/iso-mdl/src/lib.rs 60-143. -/
def unbe (l : Bytes) : Nat := l.foldl (fun a b => a * 256 + b.toNat) 0

/-- A major type with its argument, RFC 8949 §3. -/
def head (major n : Nat) : Bytes :=
  if n < 24 then [(major * 32 + n).toUInt8]
  else if n < 256 then (major * 32 + 24).toUInt8 :: be 1 n
  else if n < 65536 then (major * 32 + 25).toUInt8 :: be 2 n
  else if n < 4294967296 then (major * 32 + 26).toUInt8 :: be 4 n
  else (major * 32 + 27).toUInt8 :: be 8 n

/-- The first byte of a floating point number of that many bytes, RFC 8949 §3.3. -/
def floatByte : Nat → UInt8
  | 2 => 0xf9
  | 4 => 0xfa
  | _ => 0xfb

mutual

/-- The bytes of a value, `ciborium::into_writer`. RFC 8949; used at /repo/crates/iso-mdl/src/lib.rs 60-143. -/
def Cbor.encode : Cbor → Bytes
  | .int n => if 0 ≤ n then head 0 n.toNat else head 1 (-1 - n).toNat
  | .bytes b => head 2 b.length ++ b
  | .text s => head 3 (utf8 s.toList).length ++ utf8 s.toList
  | .arr l => head 4 l.length ++ encodeArr l
  | .map m => head 5 m.length ++ encodeMap m
  | .tag n v => head 6 n ++ v.encode
  | .bool b => [if b then 0xf5 else 0xf4]
  | .null => [0xf6]
  | .float b => floatByte b.length :: b

/-- The values of an array, one after the other. RFC 8949; used at /repo/crates/iso-mdl/src/lib.rs 60-143. -/
def encodeArr : List Cbor → Bytes
  | [] => []
  | c :: l => c.encode ++ encodeArr l

/-- The entries of a map, one after the other. RFC 8949; used at /repo/crates/iso-mdl/src/lib.rs 60-143. -/
def encodeMap : List (Cbor × Cbor) → Bytes
  | [] => []
  | (k, v) :: m => k.encode ++ (v.encode ++ encodeMap m)

end

/-- Reading a major type with its argument: the first byte's lower bits too, which tell floating point numbers apart.
RFC 8949; used at /repo/crates/iso-mdl/src/lib.rs 60-143. -/
def readHead : Bytes → Option (Nat × Nat × Nat × Bytes)
  | [] => none
  | b :: l =>
    let major := b.toNat / 32
    let low := b.toNat % 32
    let more (k : Nat) := if k ≤ l.length then some (major, low, unbe (l.take k), l.drop k) else none
    if low < 24 then some (major, low, low, l)
    else if low = 24 then more 1
    else if low = 25 then more 2
    else if low = 26 then more 4
    else if low = 27 then more 8
    else none

/-- The next `n` bytes. RFC 8949; used at /repo/crates/iso-mdl/src/lib.rs 60-143. -/
def split (n : Nat) (l : Bytes) : Option (Bytes × Bytes) := if n ≤ l.length then some (l.take n, l.drop n) else none

/-- A value of major type 7. RFC 8949; used at /repo/crates/iso-mdl/src/lib.rs 60-143. -/
def simple (low : Nat) (l : Bytes) : Option (Cbor × Bytes) :=
  match low with
  | 20 => some (.bool false, l)
  | 21 => some (.bool true, l)
  | 22 => some (.null, l)
  | 25 => (split 2 l).map fun x => (.float x.1, x.2)
  | 26 => (split 4 l).map fun x => (.float x.1, x.2)
  | 27 => (split 8 l).map fun x => (.float x.1, x.2)
  | _ => none

mutual

/-- Reading one value, `ciborium::from_reader`, at most so deep. Simplification: indefinite lengths, which `ciborium` does not write for these types, are not read.
RFC 8949; used at /repo/crates/iso-mdl/src/lib.rs 60-143. -/
def value : Nat → Bytes → Option (Cbor × Bytes)
  | 0, _ => none
  | f + 1, l =>
    match readHead l with
    | none => none
    | some (major, low, n, r) =>
      match major with
      | 0 => some (.int n, r)
      | 1 => some (.int (-1 - n), r)
      | 2 => (split n r).map fun x => (.bytes x.1, x.2)
      | 3 => (split n r).bind fun x => (utf8? x.1).map fun s => (.text (String.ofList s), x.2)
      | 4 => (values f n r).map fun x => (.arr x.1, x.2)
      | 5 => (entries f n r).map fun x => (.map x.1, x.2)
      | 6 => (value f r).map fun x => (.tag n x.1, x.2)
      | _ => simple low (l.drop 1)

/-- Reading that many values. RFC 8949; used at /repo/crates/iso-mdl/src/lib.rs 60-143. -/
def values : Nat → Nat → Bytes → Option (List Cbor × Bytes)
  | _, 0, l => some ([], l)
  | 0, _ + 1, _ => none
  | f + 1, n + 1, l => (value f l).bind fun x => (values f n x.2).map fun y => (x.1 :: y.1, y.2)

/-- Reading that many entries of a map. RFC 8949; used at /repo/crates/iso-mdl/src/lib.rs 60-143. -/
def entries : Nat → Nat → Bytes → Option (List (Cbor × Cbor) × Bytes)
  | _, 0, l => some ([], l)
  | 0, _ + 1, _ => none
  | f + 1, n + 1, l => (value f l).bind fun x => (value f x.2).bind fun y => (entries f n y.2).map fun z => ((x.1, y.1) :: z.1, z.2)

end

/-- Reading a value from all the bytes there are, `cbor::from_slice`. Simplification: bytes after the value, which `ciborium` leaves unread, are refused.
RFC 8949; used at /repo/crates/iso-mdl/src/lib.rs 60-143. -/
def decode (l : Bytes) : Option Cbor :=
  match value (2 * l.length) l with
  | some (c, []) => some c
  | _ => none

mutual

/-- The numbers in a value are ones CBOR has. RFC 8949; used at /repo/crates/iso-mdl/src/lib.rs 60-143. -/
def Cbor.Fits : Cbor → Prop
  | .int n => -(2 ^ 64) ≤ n ∧ n < 2 ^ 64
  | .tag n v => n < 2 ^ 64 ∧ v.Fits
  | .arr l => FitsArr l
  | .map m => FitsMap m
  | .float b => b.length = 2 ∨ b.length = 4 ∨ b.length = 8
  | _ => True

/-- The same, of an array. -/
def FitsArr : List Cbor → Prop
  | [] => True
  | c :: l => c.Fits ∧ FitsArr l

/-- The same, of a map. -/
def FitsMap : List (Cbor × Cbor) → Prop
  | [] => True
  | (k, v) :: m => k.Fits ∧ v.Fits ∧ FitsMap m

end

/-! ### What is written is read -/

theorem be_length (k n : Nat) : (be k n).length = k := by
  induction k generalizing n with
  | zero => rfl
  | succ k ih => simp [be, ih]

theorem unbe_append (l : Bytes) (b : UInt8) : unbe (l ++ [b]) = unbe l * 256 + b.toNat := by simp [unbe, List.foldl_append]

theorem unbe_be (k n : Nat) (h : n < 256 ^ k) : unbe (be k n) = n := by
  induction k generalizing n with
  | zero => simp at h; subst h; rfl
  | succ k ih =>
    rw [be, unbe_append, ih _ (by rw [Nat.pow_succ] at h; omega)]
    have : (n % 256).toUInt8.toNat = n % 256 := by simp
    omega

theorem head_length (major n : Nat) : 1 ≤ (head major n).length := by
  unfold head
  repeat' split
  all_goals simp

theorem readHead_short {major n : Nat} (hm : major < 8) (hn : n < 24) (l : Bytes) : readHead ((major * 32 + n).toUInt8 :: l) = some (major, n, n, l) := by
  have e : ((major * 32 + n).toUInt8).toNat = major * 32 + n := by simp; omega
  simp only [readHead, e]
  rw [if_pos (by omega)]
  rw [show (major * 32 + n) / 32 = major by omega, show (major * 32 + n) % 32 = n by omega]

theorem readHead_long {major n low k : Nat} (hm : major < 8) (hk : low = 24 ∧ k = 1 ∨ low = 25 ∧ k = 2 ∨ low = 26 ∧ k = 4 ∨ low = 27 ∧ k = 8) (hn : n < 256 ^ k) (l : Bytes) :
    readHead ((major * 32 + low).toUInt8 :: (be k n ++ l)) = some (major, low, n, l) := by
  have e : ((major * 32 + low).toUInt8).toNat = major * 32 + low := by simp; omega
  have h1 : (be k n ++ l).take k = be k n := by rw [List.take_append_of_le_length (by rw [be_length]; omega), List.take_of_length_le (by rw [be_length]; omega)]
  have h2 : (be k n ++ l).drop k = l := by
    rw [List.drop_append_of_le_length (by rw [be_length]; omega), List.drop_of_length_le (by rw [be_length]; omega), List.nil_append]
  have h3 : k ≤ (be k n ++ l).length := by rw [List.length_append, be_length]; omega
  simp only [readHead, e, show (major * 32 + low) / 32 = major by omega, show (major * 32 + low) % 32 = low by omega]
  rcases hk with ⟨rfl, rfl⟩ | ⟨rfl, rfl⟩ | ⟨rfl, rfl⟩ | ⟨rfl, rfl⟩ <;> simp only [if_pos h3, h1, h2, unbe_be _ _ hn] <;> simp

/-- A major type and its argument are read as written. -/
theorem readHead_head {major n : Nat} (hm : major < 8) (hn : n < 2 ^ 64) (l : Bytes) : ∃ low, readHead (head major n ++ l) = some (major, low, n, l) := by
  unfold head
  split
  · exact ⟨_, readHead_short hm ‹_› l⟩
  · split
    · exact ⟨_, readHead_long hm (.inl ⟨rfl, rfl⟩) (by simpa using ‹_›) l⟩
    · split
      · exact ⟨_, readHead_long hm (.inr (.inl ⟨rfl, rfl⟩)) (by simpa using ‹_›) l⟩
      · split
        · exact ⟨_, readHead_long hm (.inr (.inr (.inl ⟨rfl, rfl⟩))) (by simpa using ‹_›) l⟩
        · exact ⟨_, readHead_long hm (.inr (.inr (.inr ⟨rfl, rfl⟩))) (by simpa using hn) l⟩

theorem split_append (b l : Bytes) : split b.length (b ++ l) = some (b, l) := by
  rw [split, if_pos (by simp)]
  simp

theorem encode_pos (c : Cbor) : 1 ≤ c.encode.length := by
  cases c <;> simp only [Cbor.encode] <;> (try split) <;> (try simp only [List.length_append]) <;>
    first | exact head_length _ _ | exact Nat.le_trans (head_length _ _) (Nat.le_add_right _ _) | simp

theorem length_arr (l : List Cbor) : l.length ≤ (encodeArr l).length := by
  induction l with
  | nil => simp
  | cons c l ih =>
    have := encode_pos c
    simp only [encodeArr, List.length_append, List.length_cons]
    omega

theorem length_map (m : List (Cbor × Cbor)) : m.length ≤ (encodeMap m).length := by
  induction m with
  | nil => simp
  | cons c l ih =>
    have := encode_pos c.1
    simp only [encodeMap, List.length_append, List.length_cons]
    omega

mutual

/-- Reading the bytes of a value gives it back, with whatever follows left over. -/
theorem value_encode (c : Cbor) (hc : c.Fits) (hl : c.encode.length < 2 ^ 64) (f : Nat) (hf : 2 * c.encode.length ≤ f) (r : Bytes) :
    value f (c.encode ++ r) = some (c, r) := by
  have hpos := encode_pos c
  obtain ⟨f, rfl⟩ : ∃ g, f = g + 1 := ⟨f - 1, by omega⟩
  cases c with
  | int n =>
    simp only [Cbor.Fits] at hc
    simp only [Cbor.encode]
    split
    · rename_i h
      obtain ⟨low, e⟩ := readHead_head (major := 0) (n := n.toNat) (by omega) (by omega) r
      simp only [value, e]
      rw [Int.toNat_of_nonneg h]
    · obtain ⟨low, e⟩ := readHead_head (major := 1) (n := (-1 - n).toNat) (by omega) (by omega) r
      simp only [value, e]
      rw [Int.toNat_of_nonneg (by omega)]
      simp
      omega
  | bytes b =>
    simp only [Cbor.encode, List.length_append] at hl hf ⊢
    obtain ⟨low, e⟩ := readHead_head (major := 2) (n := b.length) (by omega) (by omega) (b ++ r)
    simp only [value, List.append_assoc, e, split_append, Option.map_some]
  | text s =>
    simp only [Cbor.encode, List.length_append] at hl hf ⊢
    obtain ⟨low, e⟩ := readHead_head (major := 3) (n := (utf8 s.toList).length) (by omega) (by omega) (utf8 s.toList ++ r)
    simp only [value, List.append_assoc, e, split_append, Option.bind_some, utf8?_utf8, Option.map_some, String.ofList_toList]
  | arr l =>
    simp only [Cbor.encode, List.length_append] at hl hf ⊢
    have h1 := length_arr l
    have h2 := head_length 4 l.length
    obtain ⟨low, e⟩ := readHead_head (major := 4) (n := l.length) (by omega) (by omega) (encodeArr l ++ r)
    simp only [value, List.append_assoc, e, values_encode l hc (by omega) f (by omega) r, Option.map_some]
  | map m =>
    simp only [Cbor.encode, List.length_append] at hl hf ⊢
    have h1 := length_map m
    have h2 := head_length 5 m.length
    obtain ⟨low, e⟩ := readHead_head (major := 5) (n := m.length) (by omega) (by omega) (encodeMap m ++ r)
    simp only [value, List.append_assoc, e, entries_encode m hc (by omega) f (by omega) r, Option.map_some]
  | tag n v =>
    simp only [Cbor.Fits] at hc
    simp only [Cbor.encode, List.length_append] at hl hf ⊢
    have h2 := head_length 6 n
    obtain ⟨low, e⟩ := readHead_head (major := 6) (n := n) (by omega) (by omega) (v.encode ++ r)
    simp only [value, List.append_assoc, e, value_encode v hc.2 (by omega) f (by omega) r, Option.map_some]
  | bool b => cases b <;> rfl
  | null => rfl
  | float b =>
    simp only [Cbor.Fits] at hc
    simp only [Cbor.encode]
    rcases hc with h | h | h <;> rw [h]
    · obtain ⟨x, y, rfl⟩ : ∃ x y, b = [x, y] := by
        match b, h with
        | [x, y], _ => exact ⟨x, y, rfl⟩
      rfl
    · obtain ⟨x, y, z, w, rfl⟩ : ∃ x y z w, b = [x, y, z, w] := by
        match b, h with
        | [x, y, z, w], _ => exact ⟨x, y, z, w, rfl⟩
      rfl
    · obtain ⟨x, y, z, w, x', y', z', w', rfl⟩ : ∃ x y z w x' y' z' w', b = [x, y, z, w, x', y', z', w'] := by
        match b, h with
        | [x, y, z, w, x', y', z', w'], _ => exact ⟨x, y, z, w, x', y', z', w', rfl⟩
      rfl

theorem values_encode (l : List Cbor) (hc : FitsArr l) (hl : (encodeArr l).length < 2 ^ 64) (f : Nat) (hf : 2 * (encodeArr l).length + 1 ≤ f) (r : Bytes) :
    values f l.length (encodeArr l ++ r) = some (l, r) := by
  obtain ⟨f, rfl⟩ : ∃ g, f = g + 1 := ⟨f - 1, by omega⟩
  cases l with
  | nil => rfl
  | cons c l =>
    have h1 := encode_pos c
    simp only [encodeArr, List.length_append] at hl hf ⊢
    simp only [FitsArr] at hc
    simp only [values, List.length_cons, List.append_assoc, value_encode c hc.1 (by omega) f (by omega), Option.bind_some,
      values_encode l hc.2 (by omega) f (by omega) r, Option.map_some]

theorem entries_encode (m : List (Cbor × Cbor)) (hc : FitsMap m) (hl : (encodeMap m).length < 2 ^ 64) (f : Nat) (hf : 2 * (encodeMap m).length + 1 ≤ f) (r : Bytes) :
    entries f m.length (encodeMap m ++ r) = some (m, r) := by
  obtain ⟨f, rfl⟩ : ∃ g, f = g + 1 := ⟨f - 1, by omega⟩
  cases m with
  | nil => rfl
  | cons x m =>
    obtain ⟨k, v⟩ := x
    have h1 := encode_pos k
    have h2 := encode_pos v
    simp only [encodeMap, List.length_append] at hl hf ⊢
    simp only [FitsMap] at hc
    simp only [entries, List.length_cons, List.append_assoc, value_encode k hc.1 (by omega) f (by omega), Option.bind_some,
      value_encode v hc.2.1 (by omega) f (by omega), entries_encode m hc.2.2 (by omega) f (by omega) r, Option.map_some]

end

/-- What is written is read. -/
theorem decode_encode {c : Cbor} (hc : c.Fits) (hl : c.encode.length < 2 ^ 64) : decode c.encode = some c := by
  have := value_encode c hc hl (2 * c.encode.length) (Nat.le_refl _) []
  rw [List.append_nil] at this
  rw [decode, this]

end Verif.Mdl
