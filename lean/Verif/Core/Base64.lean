import Verif.Core.Data
/-!
# UTF-8 bytes and unpadded base64url

`Base64UrlUnpadded` of the external crate `base64ct` (RFC 4648 §5), used by /repo/crates/core/src/gen.rs and pkce.rs.
-/
namespace Verif

/-- The UTF-8 bytes of a text (`str::as_bytes`).
Used at /repo/crates/core/src/gen.rs 18-67, /repo/crates/core/src/pkce.rs 22 and /repo/crates/status/src/bitstring.rs 177; the crate base64ct is modelled from RFC 4648, section 5. -/
def utf8 (l : List Char) : List UInt8 := l.flatMap String.utf8EncodeChar

/-- Reading UTF-8 bytes (`str::from_utf8`).
Used at /repo/crates/core/src/gen.rs 18-67, /repo/crates/core/src/pkce.rs 22 and /repo/crates/status/src/bitstring.rs 177; the crate base64ct is modelled from RFC 4648, section 5. -/
def utf8? (bs : List UInt8) : Option (List Char) := (bs.toByteArray.utf8Decode?).map Array.toList

theorem utf8?_utf8 (l : List Char) : utf8? (utf8 l) = some l := by
  have : (utf8 l).toByteArray = l.utf8Encode := by simp [utf8, List.utf8Encode]
  rw [utf8?, this, List.utf8Decode?_utf8Encode]
  simp

theorem utf8_append (a b : List Char) : utf8 (a ++ b) = utf8 a ++ utf8 b := by simp [utf8]

/-- The 64 characters of base64url. -/
def base64Alphabet : List Char := "ABCDEFGHIJKLMNOPQRSTUVWXYZabcdefghijklmnopqrstuvwxyz0123456789-_".toList

/-- Character for six bits.
Used at /repo/crates/core/src/gen.rs 18-67, /repo/crates/core/src/pkce.rs 22 and /repo/crates/status/src/bitstring.rs 177; the crate base64ct is modelled from RFC 4648, section 5. -/
def base64Char (n : Nat) : Char := base64Alphabet.getD n 'A'

/-- Six bits of a character.
Used at /repo/crates/core/src/gen.rs 18-67, /repo/crates/core/src/pkce.rs 22 and /repo/crates/status/src/bitstring.rs 177; the crate base64ct is modelled from RFC 4648, section 5. -/
def base64Val (c : Char) : Option Nat := base64Alphabet.findIdx? (· == c)

/-- Bytes as groups of six bits, without padding.
Used at /repo/crates/core/src/gen.rs 18-67, /repo/crates/core/src/pkce.rs 22 and /repo/crates/status/src/bitstring.rs 177; the crate base64ct is modelled from RFC 4648, section 5. -/
def sextets : List UInt8 → List Nat
  | [] => []
  | [a] => [a.toNat / 4, a.toNat % 4 * 16]
  | [a, b] => [a.toNat / 4, a.toNat % 4 * 16 + b.toNat / 16, b.toNat % 16 * 4]
  | a :: b :: c :: l =>
    a.toNat / 4 :: (a.toNat % 4 * 16 + b.toNat / 16) :: (b.toNat % 16 * 4 + c.toNat / 64) :: c.toNat % 64 :: sextets l

/-- Bytes from groups of six bits.
Used at /repo/crates/core/src/gen.rs 18-67, /repo/crates/core/src/pkce.rs 22 and /repo/crates/status/src/bitstring.rs 177; the crate base64ct is modelled from RFC 4648, section 5. -/
def unsextets : List Nat → Option (List UInt8)
  | [] => some []
  | [_] => none
  | [p, q] => some [(p * 4 + q / 16).toUInt8]
  | [p, q, r] => some [(p * 4 + q / 16).toUInt8, (q % 16 * 16 + r / 4).toUInt8]
  | p :: q :: r :: s :: l =>
    (unsextets l).map fun l => (p * 4 + q / 16).toUInt8 :: (q % 16 * 16 + r / 4).toUInt8 :: (r % 4 * 64 + s).toUInt8 :: l

/-- `Base64UrlUnpadded::encode_string`.
Used at /repo/crates/core/src/gen.rs 18-67, /repo/crates/core/src/pkce.rs 22 and /repo/crates/status/src/bitstring.rs 177; the crate base64ct is modelled from RFC 4648, section 5. -/
def base64 (bs : List UInt8) : List Char := (sextets bs).map base64Char

/-- `Base64UrlUnpadded::decode_vec`. Simplification: trailing bits of the last group are not required to be zero.
Used at /repo/crates/core/src/gen.rs 18-67, /repo/crates/core/src/pkce.rs 22 and /repo/crates/status/src/bitstring.rs 177; the crate base64ct is modelled from RFC 4648, section 5. -/
def base64Decode (l : List Char) : Option (List UInt8) := (l.mapM base64Val).bind unsextets

theorem toUInt8_eq (a : UInt8) (n : Nat) (h : n = a.toNat) : n.toUInt8 = a := by
  subst h; simp

theorem sextets_lt (bs : List UInt8) : ∀ n ∈ sextets bs, n < 64 := by
  induction bs using sextets.induct with
  | case1 => simp [sextets]
  | case2 a =>
    have := a.toNat_lt
    simp [sextets]; omega
  | case3 a b =>
    have := a.toNat_lt
    have := b.toNat_lt
    simp [sextets]; omega
  | case4 a b c l ih =>
    have := a.toNat_lt
    have := b.toNat_lt
    have := c.toNat_lt
    simp only [sextets, List.forall_mem_cons]
    exact ⟨by omega, by omega, by omega, by omega, ih⟩

theorem unsextets_sextets (bs : List UInt8) : unsextets (sextets bs) = some bs := by
  induction bs using sextets.induct with
  | case1 => rfl
  | case2 a =>
    have := a.toNat_lt
    simp only [sextets, unsextets]
    rw [toUInt8_eq a _ (by omega)]
  | case3 a b =>
    have := a.toNat_lt
    have := b.toNat_lt
    simp only [sextets, unsextets]
    rw [toUInt8_eq a _ (by omega), toUInt8_eq b _ (by omega)]
  | case4 a b c l ih =>
    have := a.toNat_lt
    have := b.toNat_lt
    have := c.toNat_lt
    simp only [sextets, unsextets, ih, Option.map_some]
    rw [toUInt8_eq a _ (by omega), toUInt8_eq b _ (by omega), toUInt8_eq c _ (by omega)]

theorem base64Val_char : ∀ n : Fin 64, base64Val (base64Char n) = some n.val := by decide

theorem base64Char_mem : ∀ n : Fin 64, base64Char n ∈ base64Alphabet := by decide

/-- Decoding an encoding gives the bytes back. -/
theorem base64Decode_base64 (bs : List UInt8) : base64Decode (base64 bs) = some bs := by
  have h : ∀ l : List Nat, (∀ n ∈ l, n < 64) → (l.map base64Char).mapM base64Val = some l := by
    intro l
    induction l with
    | nil => intro _; rfl
    | cons n l ih =>
      intro hl
      simp only [List.forall_mem_cons] at hl
      simp [ih hl.2, base64Val_char ⟨n, hl.1⟩]
  rw [base64Decode, base64, h _ (sextets_lt bs)]
  exact unsextets_sextets bs

theorem base64_injective {a b : List UInt8} (h : base64 a = base64 b) : a = b := by
  have := congrArg base64Decode h
  rw [base64Decode_base64, base64Decode_base64] at this
  exact Option.some.inj this

theorem base64_length (bs : List UInt8) : (base64 bs).length = (4 * bs.length + 2) / 3 := by
  have : (sextets bs).length = (4 * bs.length + 2) / 3 := by
    induction bs using sextets.induct with
    | case1 => rfl
    | case2 a => simp [sextets]
    | case3 a b => simp [sextets]
    | case4 a b c l ih => simp only [sextets, List.length_cons, ih]; omega
  rw [base64, List.length_map, this]

theorem base64_alphabet (bs : List UInt8) : ∀ c ∈ base64 bs, c ∈ base64Alphabet := by
  intro c hc
  obtain ⟨n, hn, rfl⟩ := List.mem_map.1 hc
  exact base64Char_mem ⟨n, sextets_lt bs n hn⟩

end Verif
