import Verif.Core.Gen
import Verif.Issuer.Authorize
/-!
# Properties of generated strings: C40, C41
-/
namespace Verif

/-- `fastrand::usize(..n)` gives numbers below `n`. -/
def InRange (n : Nat) (draw : Nat → Nat) : Prop := ∀ i, draw i < n

theorem randomString_ok (cs : List Char) (draw : Nat → Nat) (h : InRange cs.length draw) (len i : Nat) :
    randomString cs draw len i = .ok ((List.range len).map fun j => cs.getD (draw (i + j)) 'A') := by
  induction len generalizing i with
  | zero => rfl
  | succ len ih =>
    have hi := h i
    have hc : charAt cs (draw i) = .ok (cs.getD (draw i) 'A') := by
      simp [charAt, orErr, List.getElem?_eq_getElem hi, List.getD]
    simp only [randomString, hc, ih, bind, Except.bind, pure, Except.pure, List.range_succ_eq_map, List.map_cons, List.map_map,
      Except.ok.injEq, List.cons.injEq, Nat.add_zero, true_and]
    apply List.map_congr_left
    intro j _
    simp only [Function.comp]
    rw [show i + 1 + j = i + (j + 1) by omega]

/-- Drawn characters are the same only for the same numbers, where the set has no character twice. -/
theorem getD_inj {cs : List Char} (hn : cs.Nodup) {i j : Nat} (hi : i < cs.length) (hj : j < cs.length)
    (h : cs.getD i 'A' = cs.getD j 'A') : i = j := by
  simp only [List.getD, List.getElem?_eq_getElem hi, List.getElem?_eq_getElem hj, Option.getD_some] at h
  exact (List.getElem_inj hn).1 h

theorem utf8_injective {a b : List Char} (h : utf8 a = utf8 b) : a = b := by
  have := congrArg utf8? h
  rw [utf8?_utf8, utf8?_utf8] at this
  exact Option.some.inj this

/-- Text of ASCII characters has as many bytes as characters. -/
theorem utf8_ascii_length (l : List Char) (h : ∀ c ∈ l, c.utf8Size = 1) : (utf8 l).length = l.length := by
  induction l with
  | nil => rfl
  | cons c l ih =>
    simp only [List.forall_mem_cons] at h
    have := ih h.2
    simp only [utf8, List.flatMap_cons, List.length_append, List.length_cons] at *
    rw [String.length_utf8EncodeChar, h.1, this]; omega

theorem getD_mem {cs : List Char} {i : Nat} (h : i < cs.length) : cs.getD i 'A' ∈ cs := by
  simp only [List.getD, List.getElem?_eq_getElem h, Option.getD_some]
  exact List.getElem_mem h

/-- **C40**. Every generated code, token, nonce and id is 43 characters of the URL-safe alphabet. -/
theorem C40_tokens_url_safe (draw : Nat → Nat) (h : InRange safeChars.length draw) :
    ∃ t, genToken draw = .ok t ∧ t.length = 43 ∧ ∀ c ∈ t, c.isAlphanum = true ∨ c = '-' ∨ c = '_' := by
  refine ⟨_, by unfold genToken; rw [randomString_ok _ _ h]; rfl, ?_, ?_⟩
  · rw [base64_length, utf8_ascii_length]
    · simp
    · intro c hc
      obtain ⟨j, _, rfl⟩ := List.mem_map.1 hc
      have : ∀ c ∈ safeChars, c.utf8Size = 1 := by decide
      exact this _ (getD_mem (h _))
  · intro c hc
    have := base64_alphabet _ c hc
    have hall : ∀ c ∈ base64Alphabet, c.isAlphanum = true ∨ c = '-' ∨ c = '_' := by decide
    exact hall c this

/-- **C40**. Tokens are equal only if all 32 draws are. -/
theorem C40_distinct_draws_distinct_tokens (d d' : Nat → Nat) (h : InRange safeChars.length d) (h' : InRange safeChars.length d') :
    genToken d = genToken d' ↔ ∀ i, i < 32 → d i = d' i := by
  unfold genToken
  rw [randomString_ok _ _ h, randomString_ok _ _ h']
  simp only [bind, Except.bind, pure, Except.pure, Except.ok.injEq, Nat.zero_add]
  constructor
  · intro he i hi
    have h1 := utf8_injective (base64_injective he)
    have h2 := congrArg (fun l : List Char => l[i]?) h1
    simp only [List.getElem?_map, List.getElem?_range, hi, Option.map_some, Option.some.injEq] at h2
    exact getD_inj (by decide) (h i) (h' i) h2
  · intro he
    have : ((List.range 32).map fun j => safeChars.getD (d j) 'A') = (List.range 32).map fun j => safeChars.getD (d' j) 'A' := by
      apply List.map_congr_left
      intro j hj
      rw [he j (List.mem_range.1 hj)]
    rw [this]

/-- **C40**. A transaction code is exactly six digits, and each six digits come from exactly one sequence of draws. -/
theorem C40_tx_code_six_digits (draw : Nat → Nat) (h : InRange pinChars.length draw) :
    (∃ t, genTxCode draw = .ok t ∧ t.length = 6 ∧ ∀ c ∈ t, c.isDigit = true) ∧
    ∀ t : List Char, t.length = 6 → (∀ c ∈ t, c.isDigit = true) →
      ∃ d, InRange pinChars.length d ∧ genTxCode d = .ok t ∧ ∀ d', InRange pinChars.length d' → genTxCode d' = .ok t → ∀ i, i < 6 → d' i = d i := by
  constructor
  · refine ⟨_, randomString_ok _ _ h 6 0, by simp, ?_⟩
    intro c hc
    obtain ⟨j, _, rfl⟩ := List.mem_map.1 hc
    have : ∀ c ∈ pinChars, c.isDigit = true := by decide
    exact this _ (getD_mem (h _))
  · intro t ht hd
    have hidx : ∀ c : Char, c.isDigit = true → c.toNat - 48 < pinChars.length ∧ pinChars.getD (c.toNat - 48) 'A' = c := by
      intro c hc
      simp only [Char.isDigit, ge_iff_le, Bool.and_eq_true, decide_eq_true_eq] at hc
      have h1 : 48 ≤ c.toNat := UInt32.le_iff_toNat_le.1 hc.1
      have h2 : c.toNat ≤ 57 := UInt32.le_iff_toNat_le.1 hc.2
      have : ∀ n, 48 ≤ n → n ≤ 57 → n - 48 < pinChars.length ∧ pinChars.getD (n - 48) 'A' = Char.ofNat n := by
        intro n a b
        obtain ⟨k, rfl⟩ : ∃ k, n = 48 + k := ⟨n - 48, by omega⟩
        have hk : k < 10 := by omega
        have : ∀ k : Fin 10, 48 + k.val - 48 < pinChars.length ∧ pinChars.getD (48 + k.val - 48) 'A' = Char.ofNat (48 + k.val) := by decide
        exact this ⟨k, hk⟩
      have := this c.toNat h1 h2
      rwa [Char.ofNat_toNat] at this
    let d : Nat → Nat := fun i => (t.getD i '0').toNat - 48
    have hdr : InRange pinChars.length d := by
      intro i
      by_cases hi : i < t.length
      · simp only [d, List.getD, List.getElem?_eq_getElem hi, Option.getD_some]
        exact (hidx _ (hd _ (List.getElem_mem hi))).1
      · simp only [d, List.getD, List.getElem?_eq_none (Nat.not_lt.1 hi), Option.getD_none]
        decide
    have hgen : genTxCode d = .ok t := by
      unfold genTxCode
      rw [randomString_ok _ _ hdr]
      simp only [Except.ok.injEq, Nat.zero_add]
      apply List.ext_getElem?
      intro i
      by_cases hi : i < 6
      · have hi' : i < t.length := by omega
        simp only [List.getElem?_map, List.getElem?_range, hi, Option.map_some]
        rw [List.getElem?_eq_getElem hi']
        simp only [d, List.getD, List.getElem?_eq_getElem hi', Option.getD_some, Option.some.injEq]
        have := (hidx _ (hd _ (List.getElem_mem hi'))).2
        simpa [List.getD] using this
      · rw [List.getElem?_eq_none (by simp; omega), List.getElem?_eq_none (by omega)]
    refine ⟨d, hdr, hgen, ?_⟩
    intro d' hd' hg i hi
    unfold genTxCode at hg hgen
    rw [randomString_ok _ _ hd'] at hg
    rw [randomString_ok _ _ hdr] at hgen
    have h2 := congrArg (fun l : Res (List Char) => l.toOption.bind fun l => l[i]?) (hg.trans hgen.symm)
    simp only [Except.toOption, Option.bind_some, List.getElem?_map, List.getElem?_range, hi, Option.map_some,
      Option.some.injEq, Nat.zero_add] at h2
    exact getD_inj (by decide) (hd' i) (hdr i) h2

/-- **C41**. Every generated verifier has 43 to 128 characters of the unreserved set. -/
theorem C41_verifier_length (pick : Nat → Nat → Nat) (hpick : ∀ lo hi, lo ≤ hi → lo ≤ pick lo hi ∧ pick lo hi ≤ hi) (draw : Nat → Nat)
    (h : InRange verifierChars.length draw) :
    ∃ v, codeVerifier pick draw = .ok v ∧ 43 ≤ v.length ∧ v.length ≤ 128 ∧ ∀ c ∈ v, c.isAlphanum = true ∨ c = '-' ∨ c = '.' ∨ c = '_' ∨ c = '~' := by
  have := hpick 43 128 (by omega)
  refine ⟨_, randomString_ok _ _ h _ 0, by simpa using this.1, by simpa using this.2, ?_⟩
  intro c hc
  obtain ⟨j, _, rfl⟩ := List.mem_map.1 hc
  have : ∀ c ∈ verifierChars, c.isAlphanum = true ∨ c = '-' ∨ c = '.' ∨ c = '_' ∨ c = '~' := by decide
  exact this _ (getD_mem (h _))

/-- **C41**. Every challenge passes the length check of the authorize endpoint, whatever the verifier. -/
theorem C41_challenge_accepted (sha256 : List UInt8 → List UInt8) (hsha : ∀ x, (sha256 x).length = 32) (verifier : List Char) :
    43 ≤ (String.ofList (codeChallenge sha256 verifier)).utf8ByteSize ∧ (String.ofList (codeChallenge sha256 verifier)).utf8ByteSize ≤ 128 := by
  have hsz : (String.ofList (codeChallenge sha256 verifier)).utf8ByteSize = 43 := by
    have h1 : (utf8 (codeChallenge sha256 verifier)).length = 43 := by
      rw [utf8_ascii_length]
      · rw [codeChallenge, base64_length, hsha]
      · intro c hc
        have hall : ∀ c ∈ base64Alphabet, c.utf8Size = 1 := by decide
        exact hall c (base64_alphabet _ c hc)
    have h2 : (utf8 (codeChallenge sha256 verifier)).toByteArray = (codeChallenge sha256 verifier).utf8Encode := by
      simp [utf8, List.utf8Encode]
    rw [← String.size_toByteArray, String.toByteArray_ofList, ← h2, List.size_toByteArray, h1]
  rw [hsz]; omega

example : InRange safeChars.length (fun i => i % 72) ∧ InRange pinChars.length (fun i => i % 10) ∧
    InRange verifierChars.length (fun i => i % 66) ∧ genTxCode (fun i => i % 10) = .ok "012345".toList :=
  ⟨fun i => by have : safeChars.length = 73 := by decide
               show i % _ < _
               omega,
   fun i => by have : pinChars.length = 10 := by decide
               show i % _ < _
               omega,
   fun i => by have : verifierChars.length = 66 := by decide
               show i % _ < _
               omega, rfl⟩

end Verif
