import Verif.Wire.Answer
import Verif.Wire.AskQueryProps
import Verif.Wire.CredentialProps
import Verif.Verifier.Demo
/-!
# C124: The messages between a wallet and a verifier
-/
namespace Verif.Wire

/-! ### Specification -/

/-- An answer whose presentations can be put in words (`Vp.Sound`). Presentations that are signed tokens always can. -/
def Answer.Sound (a : Answer Vp) : Prop := ∀ l, a.vpToken = some l → ∀ v, .object v ∈ l → v.Sound

/-! ### Proofs -/

theorem readNested_write (n : Dif.PathNested) : readNested (writeNested n) = some n := by
  rw [readNested, writeNested, structFields_members (names := ["format", "path"]) rfl (by decide)]
  rfl

theorem readMapping_write (d : Dif.DescriptorMap) : readMapping (writeMapping d) = some d := by
  have h : required readNested (some (writeNested d.pathNested)) = some d.pathNested := readNested_write _
  rw [readMapping, writeMapping, structFields_members (names := ["id", "format", "path", "path_nested"]) rfl (by decide)]
  generalize writeNested d.pathNested = n at *
  simp only [List.map_cons, List.map_nil, reqStr, h, Option.bind_eq_bind, Option.bind_some]

theorem readSubmission_write (s : Dif.PresentationSubmission) : readSubmission (writeSubmission s) = some s := by
  have h : required (readVec readMapping) (some (writeVec writeMapping s.descriptorMap)) = some s.descriptorMap := readVec_written fun d _ => readMapping_write d
  rw [readSubmission, writeSubmission, structFields_members (names := ["id", "definition_id", "descriptor_map"]) rfl (by decide)]
  generalize writeVec writeMapping s.descriptorMap = n at *
  simp only [List.map_cons, List.map_nil, reqStr, h, Option.bind_eq_bind, Option.bind_some]

theorem writeSubmission_null (s : Dif.PresentationSubmission) : writeSubmission s ≠ .null := nofun

theorem readAnswer_write {α : Type} {r : Json → Option α} {w : α → Json} {a : Answer α}
    (h : ∀ l, a.vpToken = some l → ∀ v, .object v ∈ l → r (w v) = some v ∧ ∀ s, w v ≠ .str s) : readAnswer r (writeAnswer w a) = some a := by
  have h1 : optional (readVec (readKind r)) (a.vpToken.map (writeVec (writeKind w))) = some a.vpToken :=
    optional_written (fun l e => readVec_written fun k hk => readKind_write fun v hv => h l e v (hv ▸ hk)) (fun _ h => nomatch h)
  have h2 : optional readSubmission (a.submission.map writeSubmission) = some a.submission := optional_written (fun s _ => readSubmission_write s) writeSubmission_null
  rw [readAnswer, writeAnswer, structFields_members (names := ["vp_token", "presentation_submission", "state"]) rfl (by decide)]
  simp only [List.map_cons, List.map_nil, h1, h2, optStr, Option.bind_eq_bind, Option.bind_some]

theorem writeVp_obj (T : TimeText) (v : Vp) : ∃ m, writeVp T v = .obj m := ⟨_, rfl⟩

theorem wf_nested (n : Dif.PathNested) : (writeNested n).WF := by
  refine wf_members ?_
  simp only [List.mem_cons, List.not_mem_nil, or_false]
  rintro f (rfl | rfl) <;> exact optWF_some (wf_str _)

theorem wf_mapping (d : Dif.DescriptorMap) : (writeMapping d).WF := by
  refine wf_members ?_
  simp only [List.mem_cons, List.not_mem_nil, or_false]
  rintro f (rfl | rfl | rfl | rfl)
  iterate 3 exact optWF_some (wf_str _)
  exact optWF_some (wf_nested _)

theorem wf_submission (s : Dif.PresentationSubmission) : (writeSubmission s).WF := by
  refine wf_members ?_
  simp only [List.mem_cons, List.not_mem_nil, or_false]
  rintro f (rfl | rfl | rfl)
  iterate 2 exact optWF_some (wf_str _)
  exact optWF_some (wf_vec wf_mapping _)

theorem wf_answer {α : Type} {w : α → Json} {a : Answer α} (h : ∀ l, a.vpToken = some l → ∀ v, .object v ∈ l → (w v).WF) : (writeAnswer w a).WF := by
  refine wf_members ?_
  simp only [List.mem_cons, List.not_mem_nil, or_false]
  rintro f (rfl | rfl | rfl)
  · intro j e
    obtain ⟨l, hl, rfl⟩ := Option.map_eq_some_iff.1 e
    rw [writeVec, Json.WF, wfArr_iff]
    intro j hj
    obtain ⟨k, hk, rfl⟩ := List.mem_map.1 hj
    cases k with
    | string s => exact wf_str s
    | object v => exact h l hl v hk
  · exact optWF_map wf_submission
  · exact optWF_map wf_str

/-! ### Theorems -/

/-- C124: A signed request object is fetched as it was signed. -/
theorem C124_signed_request_round_trip (t : String) : (parseJson (writeFetched (.jwt t)).chars).bind readFetched = some (.jwt t) := by
  rw [writeFetched, parseJson_chars _ (wf_str t)]
  rfl

/-- C124 fails for request objects that are not signed: no answer of that form can be read, as the object is wrapped twice when written and unwrapped once when read. -/
theorem C124_object_form_unreadable (r : Verifier.RequestObject) : readFetched (writeFetched (.object r)) = none := by
  have h : readAsk (.obj [("request_object", .obj (writeAsk r))]) = none := by
    refine readAsk_missing (single_absent ?_)
    simp
  rw [writeFetched, readFetched, readFetchedMembers, if_pos rfl, h]
  rfl

/-- C124: An answer of another implementation that gives the object under its name is read. -/
theorem C124_named_object_read (r : Verifier.RequestObject) (hs : SoundAsk r) : readFetched (.obj [("request_object", .obj (writeAsk r))]) = some (.object r) := by
  rw [readFetched, readFetchedMembers, if_pos rfl, readAsk_write hs]
  rfl

/-- C124: An answer with any member of another name is refused, whatever else it has. -/
theorem C124_unknown_member_refused (m : List (String × Json)) (k : String) (j : Json) (h : (k, j) ∈ m) (h1 : k ≠ "request_object") (h2 : k ≠ "jwt") :
    readFetched (.obj m) = none := by
  rw [readFetched]
  generalize Holder.RequestObjectType.object defaultAsk = acc
  induction m generalizing acc with
  | nil => cases h
  | cons p l ih =>
    obtain ⟨k', j'⟩ := p
    rw [readFetchedMembers]
    rcases List.mem_cons.1 h with e | h
    · cases e; rw [if_neg h1, if_neg h2]
    · split
      · cases readAsk j' with
        | none => rfl
        | some r => exact ih h _
      · split
        · cases readStr j' with
          | none => rfl
          | some r => exact ih h _
        · rfl

/-- C124: An answer to a presentation request comes back from the wire exactly if its presentations can be put in words. -/
theorem C124_answer_comes_back_iff (T : TimeText) (a : Answer Vp) : readAnswer (readVp T) (writeAnswer (writeVp T) a) = some a ↔ a.Sound := by
  refine ⟨fun h l hl v hv => ?_, fun h => readAnswer_write fun l e v hv => ⟨readVp_write T (h l e v hv), obj_ne_str (writeVp_obj T) v⟩⟩
  rw [readAnswer, writeAnswer, structFields_members (names := ["vp_token", "presentation_submission", "state"]) rfl (by decide)] at h
  simp only [List.map_cons, List.map_nil, Option.bind_eq_bind, Option.bind_some] at h
  obtain ⟨l', hl', h⟩ := Option.bind_eq_some_iff.1 h
  iterate 2 obtain ⟨_, -, h⟩ := Option.bind_eq_some_iff.1 h
  have e : l' = a.vpToken := congrArg Answer.vpToken (Option.some.inj h)
  rw [e] at hl'
  have := mapM_back (optional_back hl' l hl) _ hv
  exact (C119_presentation_comes_back_iff T v).1 (readKind_inner this)

/-- C124: An answer made of signed presentations is read as it was sent, as text. -/
theorem C124_signed_answer_round_trip (T : TimeText) (tokens : List String) (s : Option Dif.PresentationSubmission) (state : Option String) :
    (parseJson (writeAnswer (writeVp T) { vpToken := some (tokens.map .string), submission := s, state }).chars).bind (readAnswer (readVp T)) =
      some { vpToken := some (tokens.map .string), submission := s, state } := by
  rw [parseJson_chars _ (wf_answer ?_)]
  · refine (C124_answer_comes_back_iff T _).2 ?_
    rintro l ⟨⟩ v hv
    obtain ⟨t, -, e⟩ := List.mem_map.1 hv
    cases e
  · rintro l ⟨⟩ v hv
    obtain ⟨t, -, e⟩ := List.mem_map.1 hv
    cases e

/-- C124: The verifier's reply to an answer is read as it was sent, as text. -/
theorem C124_reply_round_trip (r : Verifier.ResponseResponse) : (parseJson (writeRedirect r).chars).bind readRedirect = some r := by
  have hn : ∀ o : Option String, optional readStr (some (nullable .str o)) = some o := by rintro (_ | o) <;> rfl
  have hw : ∀ o : Option String, OptWF (some (nullable .str o)) := by
    rintro (_ | o)
    · exact optWF_some (by simp [nullable, Json.WF])
    · exact optWF_some (wf_str _)
  rw [parseJson_chars]
  · rw [Option.bind_some, readRedirect, writeRedirect, structFields_members (names := ["redirect_uri", "response_code"]) rfl (by decide)]
    simp only [List.map_cons, List.map_nil, hn, Option.bind_eq_bind, Option.bind_some]
  · refine wf_members ?_
    simp only [List.mem_cons, List.not_mem_nil, or_false]
    rintro f (rfl | rfl) <;> exact hw _

/-! ### Instances -/

example : SoundAsk (badAsk "p" "$.type") := readAsk_sound (j := .obj (writeAsk (badAsk "p" "$.type"))) (by decide +kernel)

example : readFetched (.obj [("request_object", .obj (writeAsk (badAsk "p" "$.type"))), ("nonce", .str "n")]) = none :=
  C124_unknown_member_refused _ "nonce" (.str "n") (.tail _ (.head _)) (by decide) (by decide)

/-- An answer with a presentation that is not signed. -/
example : (Answer.mk (some [.object { credentials := some [.string "vc.jwt"], holder := some "did:alice" }]) (some Verifier.Demo.submission) (some "tt")).Sound := by
  rintro l ⟨⟩ v hv
  simp only [List.mem_singleton, Kind.object.injEq] at hv
  subst hv
  exact ⟨nofun, by rintro l ⟨⟩ c hc; simp at hc, nofun⟩

end Verif.Wire
