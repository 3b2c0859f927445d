import Verif.Holder.Model
/-!
# Text of a presentation status

`Display` and `FromStr` of `Status`, /repo/vercre-holder/src/presentation.rs 69-97. Texts are lists of characters; a slice is by bytes of the
UTF-8 form and panics when it does not start at a character.
-/
namespace Verif.Holder.StatusText
open Verif Verif.Holder

/-- `Status`, presentation.rs 51-67, with its message. -/
inductive Status where
  | inactive
  | requested
  | authorized
  | failed (message : List Char)
deriving DecidableEq

/-- `Display`, presentation.rs 70-79. -/
def display : Status → List Char
  | .inactive => "Inactive".toList
  | .requested => "Requested".toList
  | .authorized => "Authorized".toList
  | .failed m => "Failed: ".toList ++ m

/-- `&s[n..]`: `none` when out of range or inside a character. /repo/vercre-holder/src/presentation.rs 88. -/
def dropBytes : Nat → List Char → Option (List Char)
  | 0, l => some l
  | _ + 1, [] => none
  | n + 1, c :: l => if c.utf8Size ≤ n + 1 then dropBytes (n + 1 - c.utf8Size) l else none

/-- `from_str`, presentation.rs 82-97. -/
def parse (s : List Char) : HRes Status :=
  if "Failed".toList.isPrefixOf s then
    match dropBytes 8 s with
    | some m => .ok (.failed m)
    | none => .error (.panic "byte index 8 is not a char boundary or out of bounds")
  else if s = "Inactive".toList then .ok .inactive
  else if s = "Requested".toList then .ok .requested
  else if s = "Authorized".toList then .ok .authorized
  else .error (.refused "Invalid status")

/-- Length of the UTF-8 form. Specification; models no code. -/
def bytes (l : List Char) : Nat := (l.map Char.utf8Size).sum

/-- Cutting off whole characters is the only way to cut. -/
theorem dropBytes_iff (n : Nat) (s m : List Char) : dropBytes n s = some m ↔ ∃ p, s = p ++ m ∧ bytes p = n := by
  induction s generalizing n with
  | nil =>
    cases n with
    | zero =>
      simp only [dropBytes, Option.some.injEq]
      constructor
      · rintro rfl; exact ⟨[], rfl, rfl⟩
      · rintro ⟨p, h, hb⟩
        cases p with
        | nil => simpa using h
        | cons c p => cases h
    | succ n =>
      simp only [dropBytes, reduceCtorEq, false_iff]
      rintro ⟨p, h, hb⟩
      cases p with
      | nil => simp [bytes] at hb
      | cons c p => cases h
  | cons c l ih =>
    have hc : 0 < c.utf8Size := Char.utf8Size_pos c
    cases n with
    | zero =>
      simp only [dropBytes, Option.some.injEq]
      constructor
      · rintro rfl; exact ⟨[], rfl, rfl⟩
      · rintro ⟨p, h, hb⟩
        cases p with
        | nil => exact h
        | cons d p => simp [bytes] at hb; have := Char.utf8Size_pos d; omega
    | succ n =>
      rw [dropBytes]
      split
      · rw [ih]
        constructor
        · rintro ⟨p, rfl, hb⟩
          exact ⟨c :: p, rfl, by simp [bytes] at hb ⊢; omega⟩
        · rintro ⟨p, h, hb⟩
          cases p with
          | nil => simp [bytes] at hb
          | cons d p => cases h; exact ⟨p, rfl, by simp [bytes] at hb ⊢; omega⟩
      · simp only [reduceCtorEq, false_iff]
        rintro ⟨p, h, hb⟩
        cases p with
        | nil => simp [bytes] at hb
        | cons d p => cases h; simp [bytes] at hb; omega

/-- **C71**: the text of a status parses back to it. -/
theorem C71_round_trip_partial (s : Status) : parse (display s) = .ok s := by
  cases s with
  | inactive => rfl
  | requested => rfl
  | authorized => rfl
  | failed m =>
    have h1 : "Failed".toList.isPrefixOf (display (.failed m)) = true :=
      List.isPrefixOf_iff_prefix.mpr ⟨':' :: ' ' :: m, rfl⟩
    have h2 : dropBytes 8 (display (.failed m)) = some m := (dropBytes_iff ..).mpr ⟨"Failed: ".toList, rfl, by decide⟩
    rw [parse, if_pos h1, h2]

/-- Parsing panics exactly on texts that start with `Failed` and have no character starting at their ninth byte nor end there. -/
theorem C71_panics_iff (s : List Char) :
    (∃ why, parse s = .error (.panic why)) ↔ "Failed".toList <+: s ∧ ¬ ∃ p m, s = p ++ m ∧ bytes p = 8 := by
  have hp : "Failed".toList.isPrefixOf s = true ↔ "Failed".toList <+: s := List.isPrefixOf_iff_prefix
  unfold parse
  by_cases h : "Failed".toList.isPrefixOf s = true
  · rw [if_pos h]
    simp only [← hp, h, true_and]
    cases hd : dropBytes 8 s with
    | some m =>
      obtain ⟨p, h1, h2⟩ := (dropBytes_iff ..).mp hd
      simp only [reduceCtorEq, exists_false, false_iff, Classical.not_not]
      exact ⟨p, m, h1, h2⟩
    | none =>
      simp only [Except.error.injEq, HErr.panic.injEq, exists_eq', true_iff]
      rintro ⟨p, m, h1, h2⟩
      rw [(dropBytes_iff ..).mpr ⟨p, h1, h2⟩] at hd
      cases hd
  · rw [if_neg h]
    simp only [← hp, h, false_and, iff_false, Bool.false_eq_true]
    rintro ⟨why, h⟩
    split at h
    · cases h
    split at h
    · cases h
    split at h <;> cases h

/-- Parsing does panic: on the bare word, and on a message cut inside a character. -/
theorem C71_parse_panics :
    (∃ why, parse "Failed".toList = .error (.panic why)) ∧ (∃ why, parse "Failed:".toList = .error (.panic why)) ∧
    ∀ (c : Char) (m : List Char), 2 < c.utf8Size → ∃ why, parse ("Failed".toList ++ c :: m) = .error (.panic why) := by
  refine ⟨⟨_, rfl⟩, ⟨_, rfl⟩, fun c m hc => ?_⟩
  rw [C71_panics_iff]
  refine ⟨⟨_, rfl⟩, ?_⟩
  rintro ⟨p, q, h, hb⟩
  rw [show "Failed".toList = ['F', 'a', 'i', 'l', 'e', 'd'] from rfl] at h
  have sz : 'F'.utf8Size = 1 ∧ 'a'.utf8Size = 1 ∧ 'i'.utf8Size = 1 ∧ 'l'.utf8Size = 1 ∧ 'e'.utf8Size = 1 ∧ 'd'.utf8Size = 1 := by decide
  obtain ⟨s1, s2, s3, s4, s5, s6⟩ := sz
  match p, h with
  | [], _ => simp [bytes] at hb
  | [a], h => cases h; simp [bytes, s1] at hb
  | [a, b], h => cases h; simp [bytes, s1, s2] at hb
  | [a, b, d], h => cases h; simp [bytes, s1, s2, s3] at hb
  | [a, b, d, f], h => cases h; simp [bytes, s1, s2, s3, s4] at hb
  | [a, b, d, f, g], h => cases h; simp [bytes, s1, s2, s3, s4, s5] at hb
  | [a, b, d, f, g, i], h => cases h; simp [bytes, s1, s2, s3, s4, s5, s6] at hb
  | a :: b :: d :: f :: g :: i :: j :: t, h => cases h; simp [bytes, s1, s2, s3, s4, s5, s6] at hb; omega

/-- The separator is not looked at. -/
example : parse "FailedXYz".toList = .ok (.failed ['z']) := rfl
example : parse "Failed: no".toList = .ok (.failed ['n', 'o']) := rfl
example : 2 < '€'.utf8Size := by decide

end Verif.Holder.StatusText
