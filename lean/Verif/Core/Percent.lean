import Verif.Core.Base64
/-!
# Percent-encoding

/repo/crates/core/src/urlencode/ser.rs 7-8 and 54 (`utf8_percent_encode` with `UNRESERVED`), /repo/crates/core/src/urlencode.rs 52
(`percent_decode_str(..).decode_utf8_lossy()`). The functions of the crate `percent-encoding` are modelled by what they are documented to do.
-/
namespace Verif

/-- Bytes left alone: `UNRESERVED` (ser.rs 7-8) is `NON_ALPHANUMERIC` without `& = . _ - ~`. -/
def keepByte (b : UInt8) : Bool :=
  (48 ≤ b && b ≤ 57) || (65 ≤ b && b ≤ 90) || (97 ≤ b && b ≤ 122) || b == 38 || b == 61 || b == 46 || b == 95 || b == 45 || b == 126

/-- Upper-case hexadecimal digit. Used at /repo/crates/core/src/urlencode/ser.rs 54 and /repo/crates/core/src/urlencode.rs 52. -/
def hexUpper (n : Nat) : UInt8 := if n < 10 then (48 + n).toUInt8 else (55 + n).toUInt8

/-- One byte of output as one or three bytes. Used at /repo/crates/core/src/urlencode/ser.rs 54 and /repo/crates/core/src/urlencode.rs 52. -/
def encodeByte (b : UInt8) : List UInt8 := if keepByte b then [b] else [37, hexUpper (b.toNat / 16), hexUpper (b.toNat % 16)]

/-- Text of ASCII bytes. Used at /repo/crates/core/src/urlencode/ser.rs 54 and /repo/crates/core/src/urlencode.rs 52. -/
def asciiText (bs : List UInt8) : List Char := bs.map fun b => Char.ofNat b.toNat

/-- `utf8_percent_encode(s, UNRESERVED).to_string()` (ser.rs 54). -/
def percentEncode (s : List Char) : List Char := asciiText ((utf8 s).flatMap encodeByte)

/-- Value of a hexadecimal digit given as a byte. Used at /repo/crates/core/src/urlencode/ser.rs 54 and /repo/crates/core/src/urlencode.rs 52. -/
def hexByte (b : UInt8) : Option Nat :=
  if 48 ≤ b ∧ b ≤ 57 then some (b.toNat - 48)
  else if 97 ≤ b ∧ b ≤ 102 then some (b.toNat - 87)
  else if 65 ≤ b ∧ b ≤ 70 then some (b.toNat - 55)
  else none

/-- `percent_decode`: `%` followed by two hexadecimal digits is a byte, anything else stands for itself.
Used at /repo/crates/core/src/urlencode/ser.rs 54 and /repo/crates/core/src/urlencode.rs 52. -/
def decodeBytes : List UInt8 → List UInt8
  | b :: h :: k :: r =>
    if b = 37 then
      match hexByte h, hexByte k with
      | some x, some y => (x * 16 + y).toUInt8 :: decodeBytes r
      | _, _ => b :: decodeBytes (h :: k :: r)
    else b :: decodeBytes (h :: k :: r)
  | l => l

/-- `percent_decode_str(s).decode_utf8_lossy()` (urlencode.rs 52). What replaces ill-formed UTF-8 is left to `lossy`. -/
def percentDecode (lossy : List UInt8 → List Char) (s : List Char) : List Char :=
  match utf8? (decodeBytes (utf8 s)) with
  | some l => l
  | none => lossy (decodeBytes (utf8 s))

theorem utf8_ascii (bs : List UInt8) (h : ∀ b ∈ bs, b < 128) : utf8 (asciiText bs) = bs := by
  induction bs with
  | nil => rfl
  | cons b bs ih =>
    simp only [List.forall_mem_cons] at h
    have hb : b.toNat < 128 := h.1
    have hv : (Char.ofNat b.toNat).toNat = b.toNat := by
      have : b.toNat.isValidChar := by left; omega
      simp [Char.ofNat, this, Char.toNat, Char.ofNatAux]
    have : String.utf8EncodeChar (Char.ofNat b.toNat) = [b] := by
      have hv' : (Char.ofNat b.toNat).val.toNat = b.toNat := hv
      simp only [String.utf8EncodeChar, hv']
      rw [if_pos (by omega)]
      simp
    simp only [asciiText, List.map_cons, utf8, List.flatMap_cons, this]
    have := ih h.2
    simp only [asciiText, utf8] at this
    rw [this]; rfl

theorem decodeBytes_cons {b : UInt8} (h : b ≠ 37) (l : List UInt8) : decodeBytes (b :: l) = b :: decodeBytes l := by
  match l with
  | [] => rfl
  | [x] => rfl
  | x :: y :: l => rw [decodeBytes, if_neg h]

/-- Each encoded byte is ASCII and is decoded back, whatever follows. -/
theorem encodeByte_spec (b : UInt8) :
    (∀ x ∈ encodeByte b, x < 128) ∧ ∀ l, decodeBytes (encodeByte b ++ l) = b :: decodeBytes l := by
  have key : ∀ b : Fin 256, let b : UInt8 := UInt8.ofFin b
      (keepByte b = true → b < 128 ∧ b ≠ 37) ∧
      (keepByte b = false → hexUpper (b.toNat / 16) < 128 ∧ hexUpper (b.toNat % 16) < 128 ∧
        hexByte (hexUpper (b.toNat / 16)) = some (b.toNat / 16) ∧ hexByte (hexUpper (b.toNat % 16)) = some (b.toNat % 16)) := by decide +kernel
  have hb := key b.toFin
  simp only [UInt8.ofFin_toFin] at hb
  unfold encodeByte
  cases hk : keepByte b with
  | true =>
    have := hb.1 hk
    refine ⟨by simp [this.1], fun l => ?_⟩
    exact decodeBytes_cons this.2 l
  | false =>
    have := hb.2 hk
    refine ⟨by simp [this.1, this.2.1], fun l => ?_⟩
    have e : (b.toNat / 16 * 16 + b.toNat % 16).toUInt8 = b := toUInt8_eq b _ (by omega)
    simp only [Bool.false_eq_true, if_false, List.cons_append, List.nil_append]
    rw [decodeBytes]
    simp only [if_true, this.2.2.1, this.2.2.2, e]

theorem decodeBytes_encode (bs l : List UInt8) : decodeBytes (bs.flatMap encodeByte ++ l) = bs ++ decodeBytes l := by
  induction bs with
  | nil => rfl
  | cons b bs ih => rw [List.flatMap_cons, List.append_assoc, (encodeByte_spec b).2, ih]; rfl

/-- **C42** Percent-decoding the encoding of a text gives back the text. -/
theorem C42_percent_round_trip (lossy : List UInt8 → List Char) (s : List Char) : percentDecode lossy (percentEncode s) = s := by
  have h : utf8 (percentEncode s) = (utf8 s).flatMap encodeByte := by
    apply utf8_ascii
    intro b hb
    obtain ⟨x, _, hx⟩ := List.mem_flatMap.1 hb
    exact (encodeByte_spec x).1 b hx
  have hd := decodeBytes_encode (utf8 s) []
  simp only [List.append_nil, decodeBytes] at hd
  rw [percentDecode, h, hd, utf8?_utf8]

/-- Characters that may stand in a query: letters, digits, `. _ - ~`, the delimiters `& =`, and `%`.
Used at /repo/crates/core/src/urlencode/ser.rs 54 and /repo/crates/core/src/urlencode.rs 52. -/
def queryChars : List Char := "ABCDEFGHIJKLMNOPQRSTUVWXYZabcdefghijklmnopqrstuvwxyz0123456789._-~&=%".toList

/-- **C42** The encoding consists of characters that may stand in a query. -/
theorem C42_encoding_is_query_text (s : List Char) : ∀ c ∈ percentEncode s, c ∈ queryChars := by
  have key : ∀ b : Fin 256, ∀ x ∈ encodeByte (UInt8.ofFin b), Char.ofNat x.toNat ∈ queryChars := by decide +kernel
  intro c hc
  simp only [percentEncode, asciiText, List.mem_map, List.mem_flatMap] at hc
  obtain ⟨x, ⟨b, _, hx⟩, rfl⟩ := hc
  have := key b.toFin x
  rw [UInt8.ofFin_toFin] at this
  exact this hx

/-- Different texts have different encodings. -/
theorem C42_encoding_injective (s t : List Char) (h : percentEncode s = percentEncode t) : s = t := by
  have := congrArg (percentDecode fun _ => []) h
  rwa [C42_percent_round_trip, C42_percent_round_trip] at this

example : percentEncode "a b/ü&c=[".toList = "a%20b%2F%C3%BC&c=%5B".toList := by decide

theorem percentEncode_append (a b : List Char) : percentEncode (a ++ b) = percentEncode a ++ percentEncode b := by
  simp [percentEncode, utf8_append, asciiText]

end Verif
