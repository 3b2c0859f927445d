import Verif.Core.JsonParse
import Verif.Core.JsonGrammar
/-!
# The reader follows the grammar of JSON: lemmas
-/
namespace Verif.Grammar
open Verif

/-! ### White space -/

theorem ws_iff (c : Char) : isWs c = true ↔ c = ' ' ∨ c = '\t' ∨ c = '\n' ∨ c = '\r' := by
  simp only [isWs, Bool.or_eq_true, decide_eq_true_eq]
  constructor
  · rintro (((h | h) | h) | h) <;> simp [h]
  · rintro (h | h | h | h) <;> simp [h]

theorem skipWs_split (l : List Char) : ∃ a, l = a ++ skipWs l ∧ Ws a := by
  induction l with
  | nil => exact ⟨[], rfl, fun _ h => by cases h⟩
  | cons c l ih =>
    unfold skipWs
    split
    · rename_i h
      obtain ⟨a, ha, hw⟩ := ih
      refine ⟨c :: a, by rw [List.cons_append, ← ha], ?_⟩
      intro d hd
      rcases List.mem_cons.1 hd with rfl | hd
      · exact (ws_iff _).1 h
      · exact hw d hd
    · exact ⟨[], rfl, fun _ h => by cases h⟩

theorem skipWs_ws {a : List Char} (ha : Ws a) (l : List Char) : skipWs (a ++ l) = skipWs l := by
  induction a with
  | nil => rfl
  | cons c a ih =>
    have hc : isWs c = true := (ws_iff c).2 (ha c List.mem_cons_self)
    simp only [List.cons_append, skipWs, hc, if_true]
    exact ih fun d hd => ha d (List.mem_cons_of_mem _ hd)

theorem skipWs_to {a : List Char} (ha : Ws a) {c : Char} (hc : isWs c = false) (l : List Char) : skipWs (a ++ c :: l) = c :: l := by
  rw [skipWs_ws ha, skipWs_cons hc]

theorem skipWs_nil {l : List Char} : skipWs l = [] ↔ Ws l := by
  constructor
  · intro h
    obtain ⟨a, ha, hw⟩ := skipWs_split l
    rw [h, List.append_nil] at ha
    rw [ha]; exact hw
  · intro h
    have := skipWs_ws h []
    rw [List.append_nil] at this
    rw [this]; rfl

/-! ### Strings -/

theorem hexVal_iff (c : Char) (v : Nat) : hexVal c = some v ↔ Hex c v := by
  constructor
  · intro h
    unfold hexVal at h
    have key : ∀ n : Nat, c.toNat = n → c = Char.ofNat n := fun n h => by rw [← h, Char.ofNat_toNat]
    have le : ∀ a b : Char, a ≤ b → a.toNat ≤ b.toNat := fun a b h => h
    split at h
    · rename_i hc
      have h1 := le _ _ hc.1
      have h2 := le _ _ hc.2
      have e1 : '0'.toNat = 48 := rfl
      have e2 : '9'.toNat = 57 := rfl
      cases h
      have : c.toNat = 48 ∨ c.toNat = 49 ∨ c.toNat = 50 ∨ c.toNat = 51 ∨ c.toNat = 52 ∨ c.toNat = 53 ∨ c.toNat = 54 ∨ c.toNat = 55 ∨ c.toNat = 56 ∨ c.toNat = 57 := by omega
      rcases this with h | h | h | h | h | h | h | h | h | h <;> rw [h] <;> rw [key _ h] <;> exact .inl rfl
    · split at h
      · rename_i hc
        have h1 := le _ _ hc.1
        have h2 := le _ _ hc.2
        have e1 : 'a'.toNat = 97 := rfl
        have e2 : 'f'.toNat = 102 := rfl
        cases h
        have : c.toNat = 97 ∨ c.toNat = 98 ∨ c.toNat = 99 ∨ c.toNat = 100 ∨ c.toNat = 101 ∨ c.toNat = 102 := by omega
        rcases this with h | h | h | h | h | h <;> rw [h] <;> rw [key _ h] <;> exact .inl rfl
      · split at h
        · rename_i hc
          have h1 := le _ _ hc.1
          have h2 := le _ _ hc.2
          have e1 : 'A'.toNat = 65 := rfl
          have e2 : 'F'.toNat = 70 := rfl
          cases h
          have : c.toNat = 65 ∨ c.toNat = 66 ∨ c.toNat = 67 ∨ c.toNat = 68 ∨ c.toNat = 69 ∨ c.toNat = 70 := by omega
          rcases this with h | h | h | h | h | h <;> rw [h] <;> rw [key _ h] <;> exact .inr rfl
        · cases h
  · intro h
    have hv : v < 16 := by
      rcases h with h | h <;> exact (List.getElem?_eq_some_iff.1 h).1
    have all : ∀ x : Fin 16, ("0123456789abcdef".toList[x.val]?.bind hexVal = some x.val) ∧ ("0123456789ABCDEF".toList[x.val]?.bind hexVal = some x.val) := by decide
    have := all ⟨v, hv⟩
    simp only at this
    rcases h with h | h <;> rw [h] at this
    · exact this.1
    · exact this.2

theorem hex4_iff (l : List Char) (n : Nat) (r : List Char) : hex4 l = some (n, r) ↔ ∃ h, l = h ++ r ∧ Hex4 h n := by
  constructor
  · intro h
    unfold hex4 at h
    split at h
    · rename_i a b c d r'
      simp only [bind, Option.bind_eq_some_iff, pure, Option.some.injEq, Prod.mk.injEq] at h
      obtain ⟨x, hx, y, hy, z, hz, w, hw, rfl, rfl⟩ := h
      exact ⟨[a, b, c, d], rfl, a, b, c, d, x, y, z, w, rfl, (hexVal_iff _ _).1 hx, (hexVal_iff _ _).1 hy, (hexVal_iff _ _).1 hz, (hexVal_iff _ _).1 hw, rfl⟩
    · cases h
  · rintro ⟨_, rfl, a, b, c, d, x, y, z, w, rfl, hx, hy, hz, hw, rfl⟩
    simp only [List.cons_append, List.nil_append, hex4, (hexVal_iff _ _).2 hx, (hexVal_iff _ _).2 hy, (hexVal_iff _ _).2 hz, (hexVal_iff _ _).2 hw, bind, Option.bind, pure]

theorem Hex4.lt {t : List Char} {n : Nat} (h : Hex4 t n) : n < 65536 := by
  obtain ⟨a, b, c, d, x, y, z, w, -, hx, hy, hz, hw, rfl⟩ := h
  have lt : ∀ {c : Char} {v : Nat}, Hex c v → v < 16 := by
    intro c v h
    rcases h with h | h <;> exact (List.getElem?_eq_some_iff.1 h).1
  have := lt hx
  have := lt hy
  have := lt hz
  have := lt hw
  omega

theorem toNat_ofNat {n : Nat} (h : n < 0xD800 ∨ 0xDFFF < n ∧ n < 0x110000) : (Char.ofNat n).toNat = n := by
  have hv : n.isValidChar := h
  simp only [Char.ofNat, hv, dif_pos]
  rfl

/-- A character's number is never that of half a surrogate pair. -/
theorem not_surrogate (c : Char) : ¬ (0xD800 ≤ c.toNat ∧ c.toNat ≤ 0xDFFF) := by
  have hv : c.val.toNat < 0xD800 ∨ 0xDFFF < c.val.toNat ∧ c.val.toNat < 0x110000 := c.valid
  have : c.toNat = c.val.toNat := rfl
  omega

theorem escape_sound {l r : List Char} {c : Char} (h : escape l = some (c, r)) {t s : List Char} (ht : Chars t s) :
    ∃ u, l = u ++ r ∧ Chars ('\\' :: u ++ t) (c :: s) := by
  cases l with
  | nil => simp [escape] at h
  | cons e l =>
    simp only [escape] at h
    split at h
    · rename_i he
      cases h
      refine ⟨[_], rfl, .short ?_ ht⟩
      rcases he with rfl | rfl | rfl <;> decide
    split at h
    · rename_i he; subst he; cases h; exact ⟨['b'], rfl, .short (by decide) ht⟩
    split at h
    · rename_i he; subst he; cases h; exact ⟨['f'], rfl, .short (by decide) ht⟩
    split at h
    · rename_i he; subst he; cases h; exact ⟨['n'], rfl, .short (by decide) ht⟩
    split at h
    · rename_i he; subst he; cases h; exact ⟨['r'], rfl, .short (by decide) ht⟩
    split at h
    · rename_i he; subst he; cases h; exact ⟨['t'], rfl, .short (by decide) ht⟩
    split at h
    · rename_i he
      subst he
      unfold unicodeEscape at h
      simp only [bind, Option.bind_eq_some_iff] at h
      obtain ⟨⟨n, r1⟩, h1, h2⟩ := h
      obtain ⟨hd, rfl, hn⟩ := (hex4_iff _ _ _).1 h1
      simp only at h2
      split at h2
      · rename_i hs
        unfold lowSurrogate at h2
        split at h2
        · rename_i r2
          simp only [bind, Option.bind_eq_some_iff] at h2
          obtain ⟨⟨lo, r3⟩, h3, h4⟩ := h2
          obtain ⟨hd', rfl, hn'⟩ := (hex4_iff _ _ _).1 h3
          simp only at h4
          split at h4
          · rename_i hlo
            simp only [pure, Option.some.injEq, Prod.mk.injEq] at h4
            obtain ⟨rfl, rfl⟩ := h4
            refine ⟨'u' :: hd ++ '\\' :: 'u' :: hd', by simp, ?_⟩
            have := Chars.pair (c := Char.ofNat (0x10000 + (n - 0xD800) * 1024 + (lo - 0xDC00))) hn hn' hs.1 (by omega) hlo.1 (by omega)
              (toNat_ofNat (by omega)) ht
            simpa using this
          · cases h4
        · cases h2
      · split at h2
        · cases h2
        · rename_i h3 h4
          cases h2
          refine ⟨'u' :: hd, rfl, ?_⟩
          have hlt := hn.lt
          have e : (Char.ofNat n).toNat = n := toNat_ofNat (by omega)
          have := Chars.digits (c := Char.ofNat n) (h := hd) (by rw [e]; exact hn) ht
          simpa using this
    · cases h

theorem lexStr_sound (n : Nat) (l s r : List Char) (h : lexStr n l = some (s, r)) : ∃ t, l = t ++ '"' :: r ∧ Chars t s := by
  induction n generalizing l s r with
  | zero => simp [lexStr] at h
  | succ n ih =>
    cases l with
    | nil => simp [lexStr] at h
    | cons c l =>
      simp only [lexStr] at h
      split at h
      · rename_i hc; subst hc; cases h; exact ⟨[], rfl, .nil⟩
      split at h
      · rename_i hc
        subst hc
        split at h
        · cases h
        · rename_i x r1 he
          simp only [Option.map_eq_some_iff] at h
          obtain ⟨⟨s1, r2⟩, h1, h2⟩ := h
          cases h2
          obtain ⟨t, rfl, ht⟩ := ih _ _ _ h1
          obtain ⟨u, rfl, hu⟩ := escape_sound he ht
          exact ⟨_, by simp, hu⟩
      split at h
      · cases h
      · rename_i h1 h2 h3
        simp only [Option.map_eq_some_iff] at h
        obtain ⟨⟨s1, r2⟩, h4, h5⟩ := h
        cases h5
        obtain ⟨t, rfl, ht⟩ := ih _ _ _ h4
        exact ⟨c :: t, rfl, .plain h1 h2 (by omega) ht⟩

theorem lexStr_complete {t s : List Char} (h : Chars t s) (n : Nat) (hn : t.length < n) (r : List Char) : lexStr n (t ++ '"' :: r) = some (s, r) := by
  induction h generalizing n with
  | nil =>
    cases n with
    | zero => cases hn
    | succ n => simp [lexStr]
  | plain h1 h2 h3 _ ih =>
    cases n with
    | zero => cases hn
    | succ n =>
      simp only [List.length_cons] at hn
      have h3' : ¬ _ < 32 := Nat.not_lt.2 h3
      simp only [List.cons_append, lexStr, h1, h2, h3', if_false, ih n (by omega), Option.map_some]
  | @short e c t s h1 _ ih =>
    cases n with
    | zero => cases hn
    | succ n =>
      simp only [List.length_cons] at hn
      have he : ∀ l, escape (e :: l) = some (c, l) := by
        intro l
        have hc : ∀ {k : Nat}, c.toNat = k → c = Char.ofNat k := fun h => by rw [← h, Char.ofNat_toNat]
        simp only [shorts, List.mem_cons, Prod.mk.injEq, List.not_mem_nil, or_false] at h1
        rcases h1 with ⟨rfl, h⟩ | ⟨rfl, h⟩ | ⟨rfl, h⟩ | ⟨rfl, h⟩ | ⟨rfl, h⟩ | ⟨rfl, h⟩ | ⟨rfl, h⟩ | ⟨rfl, h⟩ <;> rw [hc h] <;> rfl
      simp only [List.cons_append, lexStr, he, ih n (by omega), Option.map_some]
      rfl
  | @digits h c t s h1 _ ih =>
    cases n with
    | zero => cases hn
    | succ n =>
      simp only [List.length_cons, List.length_append, List.cons_append] at hn
      have he : escape ('u' :: (h ++ (t ++ '"' :: r))) = some (c, t ++ '"' :: r) := by
        show unicodeEscape (h ++ (t ++ '"' :: r)) = _
        have hs := not_surrogate c
        unfold unicodeEscape
        simp only [(hex4_iff _ _ _).2 ⟨h, rfl, h1⟩, bind, Option.bind]
        rw [if_neg (by omega), if_neg (by omega), Char.ofNat_toNat]
        rfl
      simp only [List.cons_append, List.append_assoc, lexStr, he, ih n (by omega), Option.map_some]
      rfl
  | @pair h h' hi lo c t s h1 h2 a1 a2 a3 a4 hc _ ih =>
    cases n with
    | zero => cases hn
    | succ n =>
      simp only [List.length_cons, List.length_append, List.cons_append] at hn
      have he : escape ('u' :: (h ++ ('\\' :: 'u' :: (h' ++ (t ++ '"' :: r))))) = some (c, t ++ '"' :: r) := by
        show unicodeEscape (h ++ ('\\' :: 'u' :: (h' ++ (t ++ '"' :: r)))) = _
        unfold unicodeEscape
        simp only [(hex4_iff _ _ _).2 ⟨h, rfl, h1⟩, bind, Option.bind]
        rw [if_pos (by omega)]
        simp only [lowSurrogate, (hex4_iff _ _ _).2 ⟨h', rfl, h2⟩, bind, Option.bind]
        rw [if_pos (by omega), ← Char.ofNat_toNat c, hc]
        rfl
      simp only [List.cons_append, List.append_assoc, lexStr, he, ih n (by omega), Option.map_some]
      rfl

/-! ### Numbers -/

theorem dig_iff (c : Char) : isDig c = true ↔ c ∈ "0123456789".toList := by
  constructor
  · intro h
    simp only [isDig, Bool.and_eq_true, decide_eq_true_eq] at h
    have h0 : hexVal c = some (c.toNat - 48) := if_pos h
    have hx := (hexVal_iff _ _).1 h0
    have hlt : c.toNat ≤ 57 := h.2
    have hge : 48 ≤ c.toNat := h.1
    have hc : c = Char.ofNat c.toNat := (Char.ofNat_toNat c).symm
    have : c.toNat = 48 ∨ c.toNat = 49 ∨ c.toNat = 50 ∨ c.toNat = 51 ∨ c.toNat = 52 ∨ c.toNat = 53 ∨ c.toNat = 54 ∨ c.toNat = 55 ∨ c.toNat = 56 ∨ c.toNat = 57 := by omega
    rcases this with h | h | h | h | h | h | h | h | h | h <;> rw [hc, h] <;> decide
  · intro h
    have : ∀ c ∈ "0123456789".toList, isDig c = true := by decide
    exact this c h

theorem number_iff (t : List Char) : Number t ↔ NumText t := by
  have hd : ∀ d, Digits d ↔ d ≠ [] ∧ ∀ c ∈ d, isDig c = true := by
    intro d; unfold Digits; simp only [dig_iff]
  constructor
  · rintro ⟨sign, int, frac, exp, rfl, h1, h2, h3, h4⟩
    refine ⟨sign, int, frac, exp, rfl, h1, ?_, ?_, ?_⟩
    · rcases h2 with h | ⟨h, h0⟩
      · exact .inl h
      · exact .inr ⟨((hd _).1 h).1, ((hd _).1 h).2, h0⟩
    · rcases h3 with h | ⟨d, h, e⟩
      · exact .inl h
      · exact .inr ⟨d, ((hd _).1 h).1, ((hd _).1 h).2, e⟩
    · rcases h4 with h | ⟨e, s, d, he, hs, h, e'⟩
      · exact .inl h
      · exact .inr ⟨e, s, d, he, hs, ((hd _).1 h).1, ((hd _).1 h).2, e'⟩
  · rintro ⟨sign, int, frac, exp, rfl, h1, h2, h3, h4⟩
    refine ⟨sign, int, frac, exp, rfl, h1, ?_, ?_, ?_⟩
    · rcases h2 with h | ⟨h, h', h0⟩
      · exact .inl h
      · exact .inr ⟨(hd _).2 ⟨h, h'⟩, h0⟩
    · rcases h3 with h | ⟨d, h, h', e⟩
      · exact .inl h
      · exact .inr ⟨d, (hd _).2 ⟨h, h'⟩, e⟩
    · rcases h4 with h | ⟨e, s, d, he, hs, h, h', e'⟩
      · exact .inl h
      · exact .inr ⟨e, s, d, he, hs, (hd _).2 ⟨h, h'⟩, e'⟩

theorem digits_sound (l : List Char) : l = (digits l).1 ++ (digits l).2 ∧ ∀ c ∈ (digits l).1, isDig c = true := by
  induction l with
  | nil => exact ⟨rfl, fun _ h => by cases h⟩
  | cons c l ih =>
    unfold digits
    split
    · rename_i h
      refine ⟨by rw [List.cons_append, ← ih.1], ?_⟩
      intro d hd
      rcases List.mem_cons.1 hd with rfl | hd
      · exact h
      · exact ih.2 d hd
    · exact ⟨rfl, fun _ h => by cases h⟩

theorem digits1_sound {l d r : List Char} (h : digits1 l = some (d, r)) : l = d ++ r ∧ d ≠ [] ∧ ∀ c ∈ d, isDig c = true := by
  have hs := digits_sound l
  unfold digits1 at h
  split at h
  · cases h
  · rename_i p hne
    have h := Option.some.inj h
    rw [h] at hs
    refine ⟨hs.1, ?_, hs.2⟩
    intro hd
    exact hne r (by rw [h, hd])

theorem lexNum_sound {l t r : List Char} (h : lexNum l = some (t, r)) : l = t ++ r ∧ NumText t := by
  have unsigned : ∀ {l t r : List Char}, lexUnsigned l = some (t, r) → ∃ int frac exp, l = t ++ r ∧ t = int ++ frac ++ exp ∧
      (int = ['0'] ∨ (int ≠ [] ∧ (∀ c ∈ int, isDig c = true) ∧ int.head? ≠ some '0')) ∧
      (frac = [] ∨ ∃ d, d ≠ [] ∧ (∀ c ∈ d, isDig c = true) ∧ frac = '.' :: d) ∧
      (exp = [] ∨ ∃ e s d, (e = 'e' ∨ e = 'E') ∧ (s = [] ∨ s = ['+'] ∨ s = ['-']) ∧ d ≠ [] ∧ (∀ c ∈ d, isDig c = true) ∧ exp = e :: s ++ d) := by
    intro l t r h
    unfold lexUnsigned at h
    simp only [bind, Option.bind_eq_some_iff, pure] at h
    obtain ⟨⟨int, l1⟩, h1, ⟨frac, l2⟩, h2, ⟨exp, l3⟩, h3, h4⟩ := h
    simp only [Option.some.injEq, Prod.mk.injEq] at h4
    obtain ⟨rfl, rfl⟩ := h4
    have s1 : l = int ++ l1 ∧ (int = ['0'] ∨ (int ≠ [] ∧ (∀ c ∈ int, isDig c = true) ∧ int.head? ≠ some '0')) := by
      unfold lexInt at h1
      split at h1
      · cases h1; exact ⟨rfl, .inl rfl⟩
      · rename_i hne
        obtain ⟨e, hd1, hd2⟩ := digits1_sound h1
        refine ⟨e, .inr ⟨hd1, hd2, ?_⟩⟩
        intro h0
        cases int with
        | nil => cases h0
        | cons c int =>
          simp only [List.head?_cons, Option.some.injEq] at h0
          subst h0
          exact hne _ e
    have s2 : l1 = frac ++ l2 ∧ (frac = [] ∨ ∃ d, d ≠ [] ∧ (∀ c ∈ d, isDig c = true) ∧ frac = '.' :: d) := by
      simp only at h2
      unfold lexFrac at h2
      split at h2
      · simp only [Option.map_eq_some_iff] at h2
        obtain ⟨⟨d, r'⟩, hd, he⟩ := h2
        cases he
        obtain ⟨e, hd1, hd2⟩ := digits1_sound hd
        exact ⟨by rw [e]; rfl, .inr ⟨d, hd1, hd2, rfl⟩⟩
      · cases h2; exact ⟨rfl, .inl rfl⟩
    have s3 : l2 = exp ++ l3 ∧ (exp = [] ∨ ∃ e s d, (e = 'e' ∨ e = 'E') ∧ (s = [] ∨ s = ['+'] ∨ s = ['-']) ∧ d ≠ [] ∧ (∀ c ∈ d, isDig c = true) ∧ exp = e :: s ++ d) := by
      simp only at h3
      unfold lexExp at h3
      split at h3
      · rename_i c l'
        split at h3
        · rename_i hc
          simp only [Option.map_eq_some_iff] at h3
          obtain ⟨⟨d, r'⟩, hd, he⟩ := h3
          simp only [Prod.mk.injEq] at he
          obtain ⟨rfl, rfl⟩ := he
          obtain ⟨e, hd1, hd2⟩ := digits1_sound hd
          have hsg : l' = (lexSign l').1 ++ (lexSign l').2 ∧ ((lexSign l').1 = [] ∨ (lexSign l').1 = ['+'] ∨ (lexSign l').1 = ['-']) := by
            unfold lexSign
            split
            · exact ⟨rfl, .inr (.inl rfl)⟩
            · exact ⟨rfl, .inr (.inr rfl)⟩
            · exact ⟨rfl, .inl rfl⟩
          refine ⟨?_, .inr ⟨c, _, d, hc, hsg.2, hd1, hd2, rfl⟩⟩
          simp only [List.cons_append, List.append_assoc]
          rw [← e, ← hsg.1]
        · cases h3; exact ⟨rfl, .inl rfl⟩
      · cases h3; exact ⟨rfl, .inl rfl⟩
    exact ⟨int, frac, exp, by rw [s1.1, s2.1, s3.1]; simp, rfl, s1.2, s2.2, s3.2⟩
  unfold lexNum at h
  split at h
  · simp only [Option.map_eq_some_iff] at h
    obtain ⟨⟨d, r'⟩, hd, he⟩ := h
    cases he
    obtain ⟨int, frac, exp, e, rfl, h1, h2, h3⟩ := unsigned hd
    exact ⟨by rw [e]; rfl, ['-'], int, frac, exp, by simp, .inr rfl, h1, h2, h3⟩
  · obtain ⟨int, frac, exp, e, rfl, h1, h2, h3⟩ := unsigned h
    exact ⟨e, [], int, frac, exp, by simp, .inl rfl, h1, h2, h3⟩

/-- Text that cannot go on a number. Specification; models no code. -/
def Stop (r : List Char) : Prop := ∀ c l, r = c :: l → isDig c = false ∧ c ≠ '.' ∧ c ≠ 'e' ∧ c ≠ 'E'

theorem lexNum_stop {t : List Char} (ht : NumText t) (r : List Char) (hr : Stop r) : lexNum (t ++ r) = some (t, r) := by
  obtain ⟨sign, int, frac, exp, rfl, hsign, hint, hfrac, hexp⟩ := ht.parts
  have hrd : ∀ c l, r = c :: l → isDig c = false := by
    intro c l h; exact (hr c l h).1
  have e1 : lexExp (exp ++ r) = some (exp, r) := by
    rcases hexp with rfl | ⟨e, s, d, he, hs, hdne, hd, rfl⟩
    · cases r with
      | nil => rfl
      | cons c r =>
        have : ¬ (c = 'e' ∨ c = 'E') := by
          have := hr c r rfl
          rintro (h | h)
          · exact this.2.2.1 h
          · exact this.2.2.2 h
        simp [lexExp, this]
    · have hs2 : lexSign (s ++ (d ++ r)) = (s, d ++ r) := by
        rcases hs with rfl | rfl | rfl
        · cases d with
          | nil => exact absurd rfl hdne
          | cons c d =>
            have hc := hd c List.mem_cons_self
            simp only [List.nil_append, List.cons_append]
            unfold lexSign
            split
            · rename_i h; cases h; exact absurd hc (by decide)
            · rename_i h; cases h; exact absurd hc (by decide)
            · rfl
        · rfl
        · rfl
      simp only [List.cons_append, List.append_assoc, lexExp, he, if_true, hs2, digits1_append d r hdne hd hrd, Option.map_some]
  have hexpd : ∀ c l, exp ++ r = c :: l → isDig c = false ∧ c ≠ '.' := by
    intro c l h
    rcases hexp with rfl | ⟨e, s, d, he, hs, hdne, hd, rfl⟩
    · exact ⟨(hr c l h).1, (hr c l h).2.1⟩
    · simp only [List.cons_append, List.cons.injEq] at h
      rw [← h.1]; rcases he with rfl | rfl <;> decide
  have e2 : lexFrac (frac ++ (exp ++ r)) = some (frac, exp ++ r) := by
    rcases hfrac with rfl | ⟨d, hdne, hd, rfl⟩
    · simp only [List.nil_append]
      unfold lexFrac
      split
      · rename_i h; exact absurd rfl (hexpd _ _ h).2
      · rfl
    · simp only [List.cons_append, lexFrac, digits1_append d _ hdne hd (fun c l h => (hexpd c l h).1), Option.map_some]
  have hfracd : ∀ c l, frac ++ (exp ++ r) = c :: l → isDig c = false := by
    intro c l h
    rcases hfrac with rfl | ⟨d, hdne, hd, rfl⟩
    · exact (hexpd c l h).1
    · simp only [List.cons_append, List.cons.injEq] at h
      rw [← h.1]; decide
  have e3 : lexInt (int ++ (frac ++ (exp ++ r))) = some (int, frac ++ (exp ++ r)) := by
    rcases hint with rfl | ⟨hne, hd, h0⟩
    · rfl
    · unfold lexInt
      split
      · rename_i h
        cases int with
        | nil => exact absurd rfl hne
        | cons c int =>
          simp only [List.cons_append, List.cons.injEq] at h
          simp [h.1] at h0
      · exact digits1_append int _ hne hd hfracd
  have e4 : lexUnsigned (int ++ (frac ++ (exp ++ r))) = some (int ++ frac ++ exp, r) := by
    simp only [lexUnsigned, e3, e2, e1, bind, Option.bind, pure]
  rcases hsign with rfl | rfl
  · simp only [List.nil_append, List.append_assoc]
    unfold lexNum
    split
    · rename_i h
      rcases hint with rfl | ⟨hne, hd, h0⟩
      · cases h
      · cases int with
        | nil => exact absurd rfl hne
        | cons c int =>
          simp only [List.cons_append, List.cons.injEq] at h
          have := hd c List.mem_cons_self
          rw [h.1] at this
          exact absurd this (by decide)
    · rw [e4]; simp
  · simp only [List.append_assoc, List.cons_append, List.nil_append, lexNum, e4, Option.map_some]

theorem Stop.cons {c : Char} {l : List Char} (h : c = ',' ∨ c = ']' ∨ c = '}') : Stop (c :: l) := by
  intro d m e
  cases e
  rcases h with rfl | rfl | rfl <;> decide

theorem Stop.ws {b r : List Char} (hb : Ws b) (hr : Stop r) : Stop (b ++ r) := by
  cases b with
  | nil => exact hr
  | cons c b =>
    intro d m e
    cases e
    rcases hb c List.mem_cons_self with rfl | rfl | rfl | rfl <;> decide

/-! ### Values -/

/-- How the text of a value begins. -/
theorem head {j : Json} {t : List Char} (h : Text (.value j) t) : ∃ c l, t = c :: l ∧ isWs c = false ∧ c ≠ ']' := by
  cases h with
  | null => exact ⟨_, _, rfl, by decide, by decide⟩
  | true => exact ⟨_, _, rfl, by decide, by decide⟩
  | false => exact ⟨_, _, rfl, by decide, by decide⟩
  | number h =>
    obtain ⟨c, l, rfl, hc⟩ := ((number_iff _).1 h).head
    refine ⟨c, l, rfl, ?_, ?_⟩
    · rcases hc with rfl | hc
      · decide
      · have : ∀ c ∈ "0123456789".toList, isWs c = false := by decide
        exact this c ((dig_iff c).1 hc)
    · rintro rfl
      rcases hc with h | h
      · exact absurd h (by decide)
      · exact absurd h (by decide)
  | string _ => exact ⟨_, _, rfl, by decide, by decide⟩
  | noItems _ => exact ⟨_, _, rfl, by decide, by decide⟩
  | array _ => exact ⟨_, _, rfl, by decide, by decide⟩
  | noMembers _ => exact ⟨_, _, rfl, by decide, by decide⟩
  | object _ => exact ⟨_, _, rfl, by decide, by decide⟩

/-- What the reader makes of the text of each part. Specification of the lemma below; models no code. -/
def Reads : Part → List Char → Prop
  | .value j, t => ∀ a n r, Ws a → 2 * t.length ≤ n → Stop r → value n (a ++ (t ++ r)) = some (j, r)
  | .items l, t => ∀ n r, 2 * t.length + 1 ≤ n → elements n (t ++ ']' :: r) = some (l, r) ∧ ∃ c m, skipWs (t ++ ']' :: r) = c :: m ∧ c ≠ ']'
  | .members l, t => ∀ n r, 2 * t.length + 1 ≤ n → members n (t ++ '}' :: r) = some (l, r) ∧ ∃ c m, skipWs (t ++ '}' :: r) = c :: m ∧ c ≠ '}'

theorem value_skip {a : List Char} (ha : Ws a) {c : Char} (hc : isWs c = false) (n : Nat) (l : List Char) : value n (a ++ c :: l) = value n (c :: l) := by
  cases n with
  | zero => simp only [value]
  | succ n => unfold value; rw [skipWs_to ha hc, skipWs_cons hc]

theorem complete {p : Part} {t : List Char} (h : Text p t) : Reads p t := by
  induction h with
  | null =>
    intro a n r ha hn _
    cases n with
    | zero => cases hn
    | succ n => rw [List.cons_append, value_skip ha (by decide)]; rfl
  | true =>
    intro a n r ha hn _
    cases n with
    | zero => cases hn
    | succ n => rw [List.cons_append, value_skip ha (by decide)]; rfl
  | false =>
    intro a n r ha hn _
    cases n with
    | zero => cases hn
    | succ n => rw [List.cons_append, value_skip ha (by decide)]; rfl
  | @number t h =>
    intro a n r ha hn hr
    have hx := (number_iff _).1 h
    have hl := lexNum_stop hx r hr
    obtain ⟨c, l, rfl, hws, -⟩ := head (Text.number h)
    obtain ⟨c', l', e, hc⟩ := hx.head
    cases e
    cases n with
    | zero => simp at hn
    | succ n =>
      rw [List.cons_append, value_skip ha hws]
      rw [List.cons_append] at hl
      have q1 : c ≠ '"' := by rintro rfl; rcases hc with h | h <;> exact absurd h (by decide)
      have q2 : c ≠ '[' := by rintro rfl; rcases hc with h | h <;> exact absurd h (by decide)
      have q3 : c ≠ '{' := by rintro rfl; rcases hc with h | h <;> exact absurd h (by decide)
      simp only [value, skipWs_cons hws, q1, q2, q3, hc, if_true, if_false, hl, Option.map_some]
  | @string t s h =>
    intro a n r ha hn hr
    cases n with
    | zero => simp at hn
    | succ n =>
      rw [List.cons_append, List.cons_append, value_skip ha (by decide)]
      have := lexStr_complete h ((t ++ ['"'] ++ r).length + 1) (by simp; omega) r
      simp only [List.append_assoc, List.cons_append, List.nil_append] at this
      simp only [value, skipWs_cons (c := '"') (by decide), if_true, List.append_assoc, List.cons_append, List.nil_append, this, Option.map_some]
  | @noItems w h =>
    intro a n r ha hn hr
    cases n with
    | zero => simp at hn
    | succ n =>
      rw [List.cons_append, List.cons_append, value_skip ha (by decide)]
      unfold value
      rw [skipWs_cons (by decide)]
      simp only [List.append_assoc, List.cons_append, List.nil_append, skipWs_to h (c := ']') (by decide)]
      rfl
  | @array l t h ih =>
    intro a n r ha hn hr
    cases n with
    | zero => simp at hn
    | succ n =>
      simp only [List.length_append, List.length_cons, List.length_nil, List.cons_append] at hn
      obtain ⟨h1, c, m, h2, h3⟩ := ih n r (by omega)
      rw [List.cons_append, List.cons_append, value_skip ha (by decide)]
      unfold value
      rw [skipWs_cons (by decide)]
      simp only [List.append_assoc, List.cons_append, List.nil_append, h2]
      rw [if_neg (by decide), if_pos trivial]
      split
      · rename_i h; cases h; exact absurd rfl h3
      · rw [h1]; rfl
  | @noMembers w h =>
    intro a n r ha hn hr
    cases n with
    | zero => simp at hn
    | succ n =>
      rw [List.cons_append, List.cons_append, value_skip ha (by decide)]
      unfold value
      rw [skipWs_cons (by decide)]
      simp only [List.append_assoc, List.cons_append, List.nil_append, skipWs_to h (c := '}') (by decide)]
      rfl
  | @object l t h ih =>
    intro a n r ha hn hr
    cases n with
    | zero => simp at hn
    | succ n =>
      simp only [List.length_append, List.length_cons, List.length_nil, List.cons_append] at hn
      obtain ⟨h1, c, m, h2, h3⟩ := ih n r (by omega)
      rw [List.cons_append, List.cons_append, value_skip ha (by decide)]
      unfold value
      rw [skipWs_cons (by decide)]
      simp only [List.append_assoc, List.cons_append, List.nil_append, h2]
      rw [if_neg (by decide), if_neg (by decide), if_pos trivial]
      split
      · rename_i h; cases h; exact absurd rfl h3
      · rw [h1]; rfl
  | @item j a t b ha h hb ih =>
    intro n r hn
    obtain ⟨c, l, hc, hws, hne⟩ := head h
    constructor
    · cases n with
      | zero => cases hn
      | succ n =>
        simp only [List.length_append] at hn
        have := ih a n (b ++ ']' :: r) ha (by omega) (.ws hb (.cons (.inr (.inl rfl))))
        simp only [List.append_assoc, elements, this, skipWs_to hb (c := ']') (by decide)]
    · refine ⟨c, l ++ (b ++ ']' :: r), ?_, hne⟩
      subst hc
      simp only [List.append_assoc, List.cons_append, skipWs_to ha hws]
  | @items j js a t b u ha h hb hu ih ih' =>
    intro n r hn
    obtain ⟨c, l, hc, hws, hne⟩ := head h
    constructor
    · cases n with
      | zero => cases hn
      | succ n =>
        simp only [List.length_append, List.length_cons] at hn
        have := ih a n (b ++ ',' :: (u ++ ']' :: r)) ha (by omega) (.ws hb (.cons (.inl rfl)))
        simp only [List.append_assoc, List.cons_append, elements, this, skipWs_to hb (c := ',') (by decide), (ih' n r (by omega)).1, Option.map_some]
    · refine ⟨c, l ++ (b ++ ',' :: (u ++ ']' :: r)), ?_, hne⟩
      subst hc
      simp only [List.append_assoc, List.cons_append, skipWs_to ha hws]
  | @member s j a k b c t d ha hk hb hc h hd ih =>
    intro n r hn
    constructor
    · cases n with
      | zero => cases hn
      | succ n =>
        simp only [List.length_append, List.length_cons] at hn
        have e1 := ih c n (d ++ '}' :: r) hc (by omega) (.ws hd (.cons (.inr (.inr rfl))))
        have e2 := lexStr_complete hk ((k ++ '"' :: (b ++ ':' :: (c ++ (t ++ (d ++ '}' :: r))))).length + 1) (by simp; omega) (b ++ ':' :: (c ++ (t ++ (d ++ '}' :: r))))
        simp only [List.append_assoc, List.cons_append, members, skipWs_to ha (c := '"') (by decide), e2, skipWs_to hb (c := ':') (by decide), e1,
          skipWs_to hd (c := '}') (by decide)]
    · refine ⟨'"', k ++ '"' :: (b ++ ':' :: (c ++ (t ++ (d ++ '}' :: r)))), ?_, by decide⟩
      simp only [List.append_assoc, List.cons_append, skipWs_to ha (c := '"') (by decide)]
  | @members s j m a k b c t d u ha hk hb hc h hd hu ih ih' =>
    intro n r hn
    constructor
    · cases n with
      | zero => cases hn
      | succ n =>
        simp only [List.length_append, List.length_cons] at hn
        have e1 := ih c n (d ++ ',' :: (u ++ '}' :: r)) hc (by omega) (.ws hd (.cons (.inl rfl)))
        have e2 := lexStr_complete hk ((k ++ '"' :: (b ++ ':' :: (c ++ (t ++ (d ++ ',' :: (u ++ '}' :: r)))))).length + 1) (by simp; omega)
          (b ++ ':' :: (c ++ (t ++ (d ++ ',' :: (u ++ '}' :: r)))))
        simp only [List.append_assoc, List.cons_append, Verif.members, skipWs_to ha (c := '"') (by decide), e2, skipWs_to hb (c := ':') (by decide), e1,
          skipWs_to hd (c := ',') (by decide), (ih' n r (by omega)).1, Option.map_some]
    · refine ⟨'"', k ++ '"' :: (b ++ ':' :: (c ++ (t ++ (d ++ ',' :: (u ++ '}' :: r))))), ?_, by decide⟩
      simp only [List.append_assoc, List.cons_append, skipWs_to ha (c := '"') (by decide)]

theorem sound (n : Nat) :
    (∀ l j r, value n l = some (j, r) → ∃ a t, l = a ++ (t ++ r) ∧ Ws a ∧ Text (.value j) t) ∧
    (∀ l js r, elements n l = some (js, r) → ∃ t, l = t ++ ']' :: r ∧ Text (.items js) t) ∧
    (∀ l m r, members n l = some (m, r) → ∃ t, l = t ++ '}' :: r ∧ Text (.members m) t) := by
  induction n with
  | zero => refine ⟨?_, ?_, ?_⟩ <;> intro l j r h <;> simp [value, elements, members] at h
  | succ n ih =>
    obtain ⟨ihv, ihe, ihm⟩ := ih
    refine ⟨?_, ?_, ?_⟩
    · intro l j r h
      obtain ⟨a, ha, hw⟩ := skipWs_split l
      unfold value at h
      split at h
      · cases h
      · rename_i c l' hl
        rw [hl] at ha
        refine ⟨a, ?_⟩
        suffices ∃ t, c :: l' = t ++ r ∧ Text (.value j) t by
          obtain ⟨t, h1, h2⟩ := this
          exact ⟨t, by rw [← h1]; exact ha, hw, h2⟩
        split at h
        · rename_i hc
          subst hc
          simp only [Option.map_eq_some_iff] at h
          obtain ⟨⟨s, r'⟩, h1, h2⟩ := h
          cases h2
          obtain ⟨t, rfl, ht⟩ := lexStr_sound _ _ _ _ h1
          exact ⟨_, by simp, .string ht⟩
        split at h
        · rename_i hc
          subst hc
          obtain ⟨b, hb, hbw⟩ := skipWs_split l'
          split at h
          · rename_i r' hr'
            cases h
            rw [hr'] at hb
            exact ⟨'[' :: b ++ [']'], by rw [hb]; simp, .noItems hbw⟩
          · simp only [Option.map_eq_some_iff] at h
            obtain ⟨⟨js, r'⟩, h1, h2⟩ := h
            cases h2
            obtain ⟨t, rfl, ht⟩ := ihe _ _ _ h1
            exact ⟨_, by simp, .array ht⟩
        split at h
        · rename_i hc
          subst hc
          obtain ⟨b, hb, hbw⟩ := skipWs_split l'
          split at h
          · rename_i r' hr'
            cases h
            rw [hr'] at hb
            exact ⟨'{' :: b ++ ['}'], by rw [hb]; simp, .noMembers hbw⟩
          · simp only [Option.map_eq_some_iff] at h
            obtain ⟨⟨js, r'⟩, h1, h2⟩ := h
            cases h2
            obtain ⟨t, rfl, ht⟩ := ihm _ _ _ h1
            exact ⟨_, by simp, .object ht⟩
        split at h
        · simp only [Option.map_eq_some_iff] at h
          obtain ⟨⟨t, r'⟩, h1, h2⟩ := h
          cases h2
          obtain ⟨e, ht⟩ := lexNum_sound h1
          exact ⟨t, e, .number ((number_iff _).2 ht)⟩
        · unfold lexLiteral at h
          split at h
          · rename_i e; cases h; exact ⟨_, e, .null⟩
          · rename_i e; cases h; exact ⟨_, e, .true⟩
          · rename_i e; cases h; exact ⟨_, e, .false⟩
          · cases h
    · intro l js r h
      unfold elements at h
      split at h
      · cases h
      · rename_i v r1 hv
        obtain ⟨a, t, rfl, ha, ht⟩ := ihv _ _ _ hv
        obtain ⟨b, hb, hbw⟩ := skipWs_split r1
        split at h
        · rename_i r2 hr2
          rw [hr2] at hb
          simp only [Option.map_eq_some_iff] at h
          obtain ⟨⟨l', r'⟩, h1, h2⟩ := h
          cases h2
          obtain ⟨u, rfl, hu⟩ := ihe _ _ _ h1
          exact ⟨_, by rw [hb]; simp, .items ha ht hbw hu⟩
        · rename_i r2 hr2
          rw [hr2] at hb
          cases h
          exact ⟨a ++ t ++ b, by rw [hb]; simp, .item ha ht hbw⟩
        · cases h
    · intro l m r h
      unfold members at h
      obtain ⟨a, ha, haw⟩ := skipWs_split l
      split at h
      · rename_i r0 hr0
        rw [hr0] at ha
        split at h
        · cases h
        · rename_i k r1 hk
          obtain ⟨kt, rfl, hkt⟩ := lexStr_sound _ _ _ _ hk
          obtain ⟨b, hb, hbw⟩ := skipWs_split r1
          split at h
          · rename_i r2 hr2
            rw [hr2] at hb
            split at h
            · cases h
            · rename_i v r3 hv
              obtain ⟨c, t, rfl, hc, ht⟩ := ihv _ _ _ hv
              obtain ⟨d, hd, hdw⟩ := skipWs_split r3
              split at h
              · rename_i r4 hr4
                rw [hr4] at hd
                simp only [Option.map_eq_some_iff] at h
                obtain ⟨⟨l', r'⟩, h1, h2⟩ := h
                cases h2
                obtain ⟨u, rfl, hu⟩ := ihm _ _ _ h1
                exact ⟨_, by rw [ha, hb, hd]; simp, .members haw hkt hbw hc ht hdw hu⟩
              · rename_i r4 hr4
                rw [hr4] at hd
                cases h
                exact ⟨_, by rw [ha, hb, hd]; simp, .member haw hkt hbw hc ht hdw⟩
              · cases h
          · cases h
      · cases h

theorem parse_iff (text : List Char) (j : Json) : parseJson text = some j ↔ Denotes text j := by
  constructor
  · intro h
    unfold parseJson at h
    split at h
    · rename_i j' r hv
      split at h
      · rename_i hr
        cases h
        obtain ⟨a, t, rfl, ha, ht⟩ := (sound _).1 _ _ _ hv
        exact ⟨a, t, r, by simp, ha, ht, skipWs_nil.1 hr⟩
      · cases h
    · cases h
  · rintro ⟨a, t, b, rfl, ha, ht, hb⟩
    have hs : Stop b := by
      have := Stop.ws hb (r := []) (fun c l h => by cases h)
      rwa [List.append_nil] at this
    have := complete ht a (2 * (a ++ t ++ b).length + 2) b ha (by simp; omega) hs
    unfold parseJson
    rw [List.append_assoc] at *
    rw [this]
    simp only [skipWs_nil.2 hb, if_true]

end Verif.Grammar
