import Verif.Wire.VpText
import Verif.Wire.VcText
import Verif.Wire.CredentialProps
/-!
# C191: presentations from text
-/
namespace Verif.Wire

/-- The values a presentation holds as they came are JSON. Specification; models no code. -/
structure Vp.Numeric (v : Vp) : Prop where
  context : ∀ j, .object j ∈ v.context → j.WF
  credentials : ∀ l, v.credentials = some l → ∀ c, .object c ∈ l → c.Numeric

theorem wf_vp (T : TimeText) {v : Vp} (h : v.Numeric) : (writeVp T v).WF := by
  have hc : (writeVec (writeKind id) v.context).WF := by
    rw [writeVec, Json.WF, wfArr_iff]
    intro j hj
    obtain ⟨k, hk, rfl⟩ := List.mem_map.1 hj
    exact wf_kind fun a e => h.context a (e ▸ hk)
  have hv : OptWF (v.credentials.map (writeVec (writeKind (writeVc T)))) := by
    refine optWF_of (p := fun (l : List (Kind Vc)) => ∀ c : Vc, Kind.object c ∈ l → c.Numeric) (fun l hl => ?_) h.credentials
    rw [writeVec, Json.WF, wfArr_iff]
    intro j hj
    obtain ⟨k, hk, rfl⟩ := List.mem_map.1 hj
    exact wf_kind fun a e => wf_vc T (hl a (e ▸ hk))
  refine wf_members ?_
  simp only [List.forall_mem_cons]
  exact ⟨optWF_some hc, wf_optStr _, optWF_some (wf_quota_all wf_str _), hv, wf_optStr _, optWF_map (wf_quota_all (wf_intProof T)), fun _ h => nomatch h⟩

theorem chars_obj (m : List (String × Json)) : ∃ l, (Json.obj m).chars = '{' :: l := by
  rw [Json.chars]; exact ⟨_, rfl⟩

theorem alphabet_small : ∀ c ∈ base64Alphabet, (String.utf8EncodeChar c).length = 1 ∧ c ≠ '{' := by decide +kernel

/-- A text in base64 of something. -/
theorem base64_head {bs : List UInt8} (h : bs ≠ []) : ∃ c l, base64 bs = c :: l ∧ (String.utf8EncodeChar c).length = 1 ∧ c ≠ '{' := by
  cases hb : base64 bs with
  | nil =>
    have := base64_length bs
    rw [hb] at this
    have hp := List.length_pos_iff.2 h
    simp only [List.length_nil] at this
    omega
  | cons c l => exact ⟨c, l, rfl, alphabet_small c (base64_alphabet bs c (by rw [hb]; exact List.mem_cons_self))⟩

/-- C191: A presentation is read from its JSON text, and from that text in base64, as it was. -/
theorem C191_text_comes_back_partial (T : TimeText) (v : Vp) (h : v.Sound) (hn : v.Numeric) :
    vpFromStr T (writeVp T v).chars = .is v ∧ vpFromStr T (base64 (utf8 (writeVp T v).chars)) = .is v := by
  have hp : (parseJson (writeVp T v).chars).bind (readVp T) = some v := by
    rw [parseJson_chars _ (wf_vp T hn)]
    exact readVp_write T h
  obtain ⟨l, hl⟩ : ∃ l, (writeVp T v).chars = '{' :: l := chars_obj _
  constructor
  · rw [hl] at hp ⊢
    rw [vpFromStr, if_neg (by decide), if_neg (by simp), hp]
    rfl
  · have hne : utf8 (writeVp T v).chars ≠ [] := by
      intro h0
      have := utf8?_utf8 (writeVp T v).chars
      rw [h0, ← show utf8 [] = [] from rfl, utf8?_utf8, hl] at this
      cases this
    obtain ⟨c, l', hb, hlen, hc⟩ := base64_head hne
    have hd : ((base64Decode (base64 (utf8 (writeVp T v).chars))).bind utf8?).bind (fun t => (parseJson t).bind (readVp T)) = some v := by
      rw [base64Decode_base64, Option.bind_some, utf8?_utf8, Option.bind_some, hp]
    rw [hb] at hd ⊢
    rw [vpFromStr, if_neg (by omega), if_pos hc, hd]
    rfl

/-- C191, violated: reading panics on just those texts that are empty or begin with a character beyond ASCII. -/
theorem C191_panics_iff (T : TimeText) (s : List Char) : vpFromStr T s = .panics ↔ s = [] ∨ ∃ c l, s = c :: l ∧ 128 ≤ c.toNat := by
  have hsize : ∀ c : Char, 1 < (String.utf8EncodeChar c).length ↔ 128 ≤ c.toNat := by
    intro c
    rw [String.length_utf8EncodeChar, Char.utf8Size]
    have hv : c.toNat = c.val.toNat := rfl
    simp only [UInt32.le_iff_toNat_le, hv, UInt32.toNat_ofNatLT]
    split
    · constructor <;> omega
    · split
      · constructor <;> omega
      · split <;> constructor <;> omega
  have hof : ∀ {α : Type} (o : Option α), Reading.of o ≠ .panics := by rintro α (_ | _) h <;> cases h
  cases s with
  | nil => simp [vpFromStr]
  | cons c l =>
    rw [vpFromStr]
    constructor
    · intro h
      split at h
      · rename_i hc; exact .inr ⟨c, l, rfl, (hsize c).1 hc⟩
      · split at h <;> exact absurd h (hof _)
    · rintro (h | ⟨c', l', h, hc⟩)
      · cases h
      · cases h
        rw [if_pos ((hsize c).2 hc)]

/-- C191, violated: JSON text with white space before it is refused, whatever it says. -/
theorem C191_space_refused (T : TimeText) (c : Char) (hc : c = ' ' ∨ c = '\n' ∨ c = '\t' ∨ c = '\r') (l : List Char) : vpFromStr T (c :: l) = .refused := by
  have hv : base64Val c = none := by rcases hc with rfl | rfl | rfl | rfl <;> decide +kernel
  have hl : ¬ 1 < (String.utf8EncodeChar c).length := by rcases hc with rfl | rfl | rfl | rfl <;> decide
  have h1 : c ≠ '{' := by rcases hc with rfl | rfl | rfl | rfl <;> decide
  have hd : base64Decode (c :: l) = none := by
    rw [base64Decode, List.mapM_cons, hv]; rfl
  rw [vpFromStr, if_neg hl, if_pos h1, hd]
  rfl

/-- A presentation with a token and a credential comes back from both texts. -/
example : sampleVp.Sound ∧ sampleVp.Numeric := by
  refine ⟨sampleVp_sound, by simp [sampleVp], fun l e c hc => ?_⟩
  cases e
  simp only [List.mem_cons, reduceCtorEq, Kind.object.injEq, List.not_mem_nil, or_false, false_or] at hc
  subst hc
  refine ⟨by simp [sampleVc], ?_, ?_, ?_⟩
  · intro i e; cases e; intro m hm; cases hm; simp [NumericMap, Json.WF]
  · simp [sampleVc, QuotaAll, NumericMap, Json.WF]
    exact intText_num 42
  · intro q e; cases e

/-- A text that makes the program panic. -/
example (T : TimeText) : vpFromStr T "".toList = .panics ∧ vpFromStr T "é".toList = .panics := by
  refine ⟨(C191_panics_iff _ _).2 (.inl rfl), (C191_panics_iff _ _).2 (.inr ⟨'é', [], rfl, by decide⟩)⟩

end Verif.Wire
