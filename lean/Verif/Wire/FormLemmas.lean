import Verif.Wire.FormNet
import Verif.Wire.MessageLemmas
/-!
# Lemmas on forms
-/
namespace Verif.Wire

/-- Plus signs as spaces. -/
theorem formByte_spec (b : UInt8) :
    (38 ∉ formByte b) ∧ (61 ∉ formByte b) ∧
    ∀ l, decodeBytes ((formByte b).map (fun b => if b = 43 then 32 else b) ++ l) = b :: decodeBytes l := by
  have key : ∀ b : Fin 256, let b : UInt8 := UInt8.ofFin b
      (38 ∉ formByte b) ∧ (61 ∉ formByte b) ∧ (formKeep b = true → b ≠ 37 ∧ b ≠ 43) ∧
      (hexUpper (b.toNat / 16) ≠ 43 ∧ hexUpper (b.toNat % 16) ≠ 43 ∧
        hexByte (hexUpper (b.toNat / 16)) = some (b.toNat / 16) ∧ hexByte (hexUpper (b.toNat % 16)) = some (b.toNat % 16)) := by decide +kernel
  have hb := key b.toFin
  simp only [UInt8.ofFin_toFin] at hb
  obtain ⟨h1, h2, h3, h4, h5, h6, h7⟩ := hb
  refine ⟨h1, h2, fun l => ?_⟩
  unfold formByte
  by_cases hk : formKeep b = true
  · have := h3 hk
    rw [if_pos hk]
    simp only [List.map_cons, List.map_nil, if_neg this.2, List.cons_append, List.nil_append]
    exact decodeBytes_cons this.1 l
  · rw [if_neg hk]
    by_cases hs : b = 32
    · subst hs
      rw [if_pos rfl]
      exact decodeBytes_cons (by decide) l
    · have e : (b.toNat / 16 * 16 + b.toNat % 16).toUInt8 = b := toUInt8_eq b _ (by omega)
      rw [if_neg hs]
      simp only [List.map_cons, List.map_nil, if_neg h4, if_neg h5, List.cons_append, List.nil_append]
      rw [if_neg (by decide), decodeBytes]
      simp only [if_true, h6, h7, e]

theorem formBytes_clear (s : String) : 38 ∉ formBytes s ∧ 61 ∉ formBytes s := by
  simp only [formBytes, List.mem_flatMap, not_exists, not_and]
  exact ⟨fun b _ => (formByte_spec b).1, fun b _ => (formByte_spec b).2.1⟩

theorem decode_form (bs : List UInt8) : decodeBytes ((bs.flatMap formByte).map (fun b => if b = 43 then 32 else b)) = bs := by
  induction bs with
  | nil => rfl
  | cons b bs ih => rw [List.flatMap_cons, List.map_append, (formByte_spec b).2.2, ih]

theorem formText_bytes (lossy : List UInt8 → List Char) (s : String) : formText lossy (formBytes s) = s := by
  simp only [formText, formBytes, decode_form, utf8?_utf8, Option.getD_some]
  exact String.ofList_toList

theorem cutFirst_pair {a b : List UInt8} (h : 61 ∉ a) : cutFirst (a ++ 61 :: b) = (a, b) := by
  induction a with
  | nil => simp [cutFirst]
  | cons x a ih =>
    simp only [List.mem_cons, not_or] at h
    rw [List.cons_append, cutFirst, if_neg (Ne.symm h.1), ih h.2]

theorem cutAll_last {p : List UInt8} (h : 38 ∉ p) (acc : List UInt8) : cutAll p acc = [acc ++ p] := by
  induction p generalizing acc with
  | nil => simp [cutAll]
  | cons x p ih =>
    simp only [List.mem_cons, not_or] at h
    rw [cutAll, if_neg (Ne.symm h.1), ih h.2]; simp

theorem cutAll_more {p : List UInt8} (h : 38 ∉ p) (acc q : List UInt8) : cutAll (p ++ 38 :: q) acc = (acc ++ p) :: cutAll q [] := by
  induction p generalizing acc with
  | nil => simp [cutAll]
  | cons x p ih =>
    simp only [List.mem_cons, not_or] at h
    rw [List.cons_append, cutAll, if_neg (Ne.symm h.1), ih h.2]; simp

theorem formPair_clear (p : String × String) : 38 ∉ formPair p := by
  simp only [formPair, List.mem_append, List.mem_cons, not_or]
  exact ⟨(formBytes_clear p.1).1, by decide, (formBytes_clear p.2).1⟩

theorem formPair_read (lossy : List UInt8 → List Char) (p : String × String) :
    (formText lossy (cutFirst (formPair p)).1, formText lossy (cutFirst (formPair p)).2) = p := by
  rw [formPair, cutFirst_pair (formBytes_clear p.1).2, formText_bytes, formText_bytes]

theorem formPair_ne (p : String × String) : formPair p ≠ [] := by simp [formPair]

/-- A form that was written reads as the pairs it was written from. -/
theorem parseForm_pairs (lossy : List UInt8 → List Char) (l : List (String × String)) : parseForm lossy (formPairs l) = l := by
  induction l with
  | nil => rfl
  | cons p l ih =>
    cases l with
    | nil =>
      rw [formPairs, parseForm, cutAll_last (formPair_clear p)]
      simp only [List.nil_append, List.filter_cons, formPair_ne, ne_eq, not_false_eq_true, decide_true, if_true, List.filter_nil, List.map_cons, List.map_nil, formPair_read]
    | cons q l =>
      rw [formPairs, parseForm, cutAll_more (formPair_clear p)]
      simp only [List.nil_append, List.filter_cons, formPair_ne, ne_eq, not_false_eq_true, decide_true, if_true, List.map_cons, formPair_read]
      rw [parseForm] at ih
      exact congrArg _ ih
      nofun

/-! ### Members as pairs -/

/-- Texts and what is missing. -/
def Flat : Json → Prop
  | .null => True
  | .str _ => True
  | _ => False

theorem formMembers_append (a b : List (String × Json)) :
    formMembers (a ++ b) = (formMembers a).bind fun x => (formMembers b).map fun y => x ++ y := by
  induction a with
  | nil => simp [formMembers]
  | cons p a ih =>
    obtain ⟨k, j⟩ := p
    simp only [List.cons_append, formMembers, ih]
    cases formValue j with
    | none => rfl
    | some v =>
      cases formMembers a with
      | none => rfl
      | some x => cases formMembers b <;> simp

/-- What is there. -/
def present : Json → Bool
  | .null => false
  | _ => true

/-- The pairs of members that are texts or missing, as members: those that are texts. -/
theorem formMembers_flat {m : List (String × Json)} (h : ∀ p ∈ m, Flat p.2) :
    ∃ l, formMembers m = some l ∧ l.map (fun p => (p.1, Json.str p.2)) = m.filter fun p => present p.2 := by
  induction m with
  | nil => exact ⟨[], rfl, rfl⟩
  | cons p m ih =>
    obtain ⟨k, j⟩ := p
    obtain ⟨l, hl, e⟩ := ih fun p hp => h p (List.mem_cons_of_mem _ hp)
    have hj := h (k, j) List.mem_cons_self
    cases j with
    | null => exact ⟨l, by simp [formMembers, formValue, hl], by simp [e, present]⟩
    | str s => exact ⟨(k, s) :: l, by simp [formMembers, formValue, hl], by simp [e, present]⟩
    | bool b => exact absurd hj id
    | num b => exact absurd hj id
    | arr b => exact absurd hj id
    | obj b => exact absurd hj id

theorem formMembers_part {m : List (String × Json)} {k : String} {j : Json} (h : (k, j) ∈ m) (hj : formValue j = none) : formMembers m = none := by
  obtain ⟨a, b, rfl⟩ := List.append_of_mem h
  rw [formMembers_append]
  have : formMembers ((k, j) :: b) = none := by simp [formMembers, hj]
  rw [this]
  cases formMembers a <;> rfl

/-! ### What is read from a form -/

theorem single_str {l : List (String × String)} {k : String} {j : Json} (h : single (l.map fun p => (p.1, Json.str p.2)) k = some (some j)) : ∃ s, j = .str s := by
  unfold single at h
  have hm : ∀ p ∈ (l.map fun p => (p.1, Json.str p.2)).filter (fun p => p.1 = k), ∃ s, p.2 = .str s := by
    intro p hp
    obtain ⟨q, _, rfl⟩ := List.mem_map.1 (List.mem_filter.1 hp).1
    exact ⟨q.2, rfl⟩
  revert hm h
  generalize (l.map fun p => (p.1, Json.str p.2)).filter (fun p => p.1 = k) = x
  intro h hm
  match x, h with
  | [p], h => cases h; exact hm p List.mem_cons_self

end Verif.Wire
