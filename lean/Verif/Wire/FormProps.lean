import Verif.Wire.FormLemmas
import Verif.Holder.Summary
import Verif.Holder.FlowProps
/-!
# C146, C147: what gets through in a form
-/
namespace Verif.Wire
open Holder (HEnv HWorld HStep)

/-! ### C146 Token requests -/

/-- The members of a grant are texts. -/
theorem grant_flat (g : Issuer.TokenGrantType) : ∀ p ∈ writeGrantType g, Flat p.2 ∧ p.2 ≠ .null := by
  cases g with
  | authorizationCode c u v => cases u <;> cases v <;> simp [writeGrantType, members, Flat]
  | preAuthorizedCode c t => cases t <;> simp [writeGrantType, members, Flat]

theorem assertion_flat (a : Option String) : ∀ p ∈ writeAssertion a, Flat p.2 ∧ p.2 ≠ .null := by
  cases a <;> simp [writeAssertion, Flat]

theorem filter_texts {m : List (String × Json)} (h : ∀ p ∈ m, Flat p.2 ∧ p.2 ≠ .null) : (m.filter fun p => present p.2) = m := by
  refine List.filter_eq_self.2 fun p hp => ?_
  have := (h p hp).2
  cases hj : p.2 <;> simp_all [present]

/-- Reading the form of a request without details, as it is on the wire. -/
theorem token_form {r : TokenRequest} (h : r.authorizationDetails = none) (lossy : List UInt8 → List Char) :
    ∃ body, writeForm (writeTokenRequest r) = some body ∧ readForm lossy readTokenRequest body = some r := by
  obtain ⟨i, c, g, a, s⟩ := r
  cases h
  have hflat : ∀ p ∈ members [("credential_issuer", nonEmpty i), ("client_id", some (nullable .str c))] ++ (writeGrantType g ++
      (members [("authorization_details", (none : Option (List AuthorizationDetail)).map (writeVec writeDetail))] ++ writeAssertion s)), Flat p.2 := by
    intro p hp
    simp only [List.mem_append] at hp
    rcases hp with hp | hp | hp | hp
    · revert hp
      unfold nonEmpty
      by_cases hi : i = "" <;> cases c <;> simp [members, nullable, hi] <;> rintro (rfl | rfl) <;> simp [Flat]
    · exact (grant_flat g p hp).1
    · simp [members] at hp
    · exact (assertion_flat s p hp).1
  obtain ⟨l, hl, e⟩ := formMembers_flat hflat
  refine ⟨formPairs l, by rw [writeTokenRequest, writeForm, hl]; rfl, ?_⟩
  rw [readForm, parseForm_pairs, formJson, e]
  have e2 : (members [("credential_issuer", nonEmpty i), ("client_id", some (nullable .str c))] ++ (writeGrantType g ++
      (members [("authorization_details", (none : Option (List AuthorizationDetail)).map (writeVec writeDetail))] ++ writeAssertion s))).filter
        (fun p => present p.2) =
      members [("credential_issuer", nonEmpty i), ("client_id", c.map .str)] ++ (writeGrantType g ++ (members [("authorization_details", none)] ++ writeAssertion s)) := by
    rw [List.filter_append, List.filter_append, List.filter_append, filter_texts (grant_flat g), filter_texts (assertion_flat s)]
    congr 1
    unfold nonEmpty
    by_cases hi : i = "" <;> cases c <;> simp [members, nullable, hi, present]
  rw [e2]
  have hf := flatFields_mixed (fs := [("credential_issuer", nonEmpty i), ("client_id", c.map .str)])
    (gs := [("authorization_details", none)]) (names := ["credential_issuer", "client_id", "authorization_details"])
    rfl (by decide) (a := writeGrantType g) (b := writeAssertion s)
    (fun p hp => by
      have := writeGrantType_keys _ p hp
      revert this
      generalize p.1 = k
      simp only [grantNames, List.mem_cons, List.not_mem_nil, or_false]
      rintro (rfl | rfl | rfl | rfl | rfl | rfl) <;> decide)
    (fun p hp => by
      have := writeAssertion_keys _ p hp
      revert this
      generalize p.1 = k
      simp only [List.mem_cons, List.not_mem_nil, or_false]
      rintro (rfl | rfl) <;> decide)
  rw [readTokenRequest, hf]
  simp only [List.map_cons, List.map_nil, List.cons_append, List.nil_append, nonEmpty_read, optStr, readGrantType_write, readAssertion_write, Option.bind_eq_bind,
    Option.bind_some]
  rfl

/-- **C146** A token request that selects nothing is sent as a form, to the token endpoint of the issuer it names and nowhere else, and the example issuer reads
from the form the request that was sent. Missing: requests that select credentials (`C146_selection_not_sent`). -/
theorem C146_token_request_arrives_partial (lossy : List UInt8 → List Char) (r : Issuer.TokenRequest) (h : r.authorizationDetails = none) :
    ∃ body, tokenForm r = some body ∧ tokenFormSeen lossy body = some r ∧
      ∀ wr t e log recent, (byForms wr t e).oracle log recent (.token r) = t.token log recent (r.credentialIssuer ++ "/token") body := by
  obtain ⟨i, c, g, a⟩ := r
  cases h
  obtain ⟨body, h1, h2⟩ := token_form (r := tokenRequestOf ⟨i, c, g, none⟩) rfl lossy
  have h1 : tokenForm ⟨i, c, g, none⟩ = some body := h1
  refine ⟨body, h1, by rw [tokenFormSeen, h2]; rfl, fun wr t e log recent => ?_⟩
  show (tokenForm ⟨i, c, g, none⟩).bind _ = _
  rw [h1]
  rfl

theorem formValue_parts {j : Json} (h : ∀ s, j ≠ .str s) (h1 : j ≠ .null) (h2 : ∀ b, j ≠ .bool b) (h3 : ∀ t, j ≠ .num t) : formValue j = none := by
  cases j <;> simp_all [formValue]

/-- **C146** A token request that selects credentials is not sent at all, whatever it selects. -/
theorem C146_selection_not_sent (r : Issuer.TokenRequest) (ds : List Verif.AuthorizationDetail) (h : r.authorizationDetails = some ds) : tokenForm r = none := by
  have hm : formMembers (members [("credential_issuer", nonEmpty r.credentialIssuer), ("client_id", some (nullable .str r.clientId))] ++ (writeGrantType r.grantType ++
      (members [("authorization_details", (r.authorizationDetails.map (·.map detailOf)).map (writeVec writeDetail))] ++ writeAssertion none))) = none := by
    refine formMembers_part (k := "authorization_details") (j := writeVec writeDetail (ds.map detailOf)) ?_ rfl
    rw [h]
    simp [members]
  exact congrArg (Option.map formPairs) hm

/-- **C146** Whatever form comes to the example issuer's token endpoint, the request read from it selects nothing. -/
theorem C146_selection_not_read (lossy : List UInt8 → List Char) (body : List UInt8) (q : Issuer.TokenRequest) (h : tokenFormSeen lossy body = some q) :
    q.authorizationDetails = none := by
  obtain ⟨r, hr, rfl⟩ := Option.map_eq_some_iff.1 h
  unfold readForm formJson readTokenRequest at hr
  obtain ⟨⟨l, rest⟩, hf, hr⟩ := Option.bind_eq_some_iff.1 hr
  obtain ⟨l', hl, he⟩ := Option.map_eq_some_iff.1 hf
  simp only [Prod.mk.injEq] at he
  obtain ⟨rfl, he⟩ := he
  clear hf he
  match l', hl, hr with
  | [i, c, a], hl, hr =>
    simp only at hr
    iterate 3 obtain ⟨_, -, hr⟩ := Option.bind_eq_some_iff.1 hr
    obtain ⟨ds, hd, hr⟩ := Option.bind_eq_some_iff.1 hr
    cases hr
    have ha : single ((parseForm lossy body).map fun p => (p.1, Json.str p.2)) "authorization_details" = some a := by
      simp only [List.mapM_cons, List.mapM_nil, Option.bind_eq_bind, Option.pure_def] at hl
      obtain ⟨_, _, hl⟩ := Option.bind_eq_some_iff.1 hl
      obtain ⟨_, hl, e⟩ := Option.bind_eq_some_iff.1 hl
      obtain ⟨_, _, hl⟩ := Option.bind_eq_some_iff.1 hl
      obtain ⟨_, hl, e'⟩ := Option.bind_eq_some_iff.1 hl
      obtain ⟨_, h3, hl⟩ := Option.bind_eq_some_iff.1 hl
      cases hl; cases e'; cases e
      exact h3
    cases a with
    | none => cases hd; rfl
    | some j =>
      obtain ⟨s, rfl⟩ := single_str ha
      cases hd

/-- **C146** So the example wallet gets no token for a flow in which the user selected credentials, whoever answers it. -/
theorem C146_no_token_for_selection (wr : Verif.Vp → Json) (t : Takers) (e : HEnv) (w : HWorld) (s : HStep) (k : String) (i : Holder.Issuance)
    (ds : List Verif.AuthorizationDetail) (hq : s.req = .token k) (hk : w.store k = some (.issuance i)) (hi : i.accepted = some ds) (r : Holder.Resp) :
    (Holder.step (byForms wr t e) w s).1 ≠ .ok r := by
  intro h
  rw [(Holder.step_eq _ w s).1, hq] at h
  obtain ⟨⟨x, w2⟩, hrun⟩ : ∃ y, (Holder.token k).run (byForms wr t e) (Holder.before w s) = y := ⟨_, rfl⟩
  have hx : x = .ok r := (congrArg Prod.fst hrun).symm.trans h
  subst hx
  obtain ⟨evs, ws, hE, _, h1⟩ := Holder.token_did hrun
  rcases h1 with ⟨hf, _⟩ | ⟨i', p, hi', _, _, q, hq', ⟨hf, _⟩ | ⟨tk, a, hev, _, _⟩⟩
  · exact absurd rfl hf.ne_ok
  · exact absurd rfl hf.ne_ok
  · have : i' = i := by
      have hi'' : w.store k = some (.issuance i') := hi'
      rw [hk] at hi''; cases hi''; rfl
    subst this
    have := hE.answers [] _ [] hev
    have hn : (byForms wr t e).oracle (Holder.before w s).log ((Holder.before w s).recent ++ []) (.token q) = none := by
      show (tokenForm q).bind _ = none
      rw [C146_selection_not_sent q ds (by rw [hq']; exact hi)]; rfl
    rw [hn] at this
    cases this

/-- **C146** Nor for one it authorizes for credentials the user selected. -/
theorem C146_no_token_for_authorized_selection (wr : Verif.Vp → Json) (t : Takers) (e : HEnv) (w : HWorld) (s : HStep) (q : Holder.AuthorizeRequest)
    (ds : List Verif.AuthorizationDetail) (hq : s.req = .authorize q) (hd : q.authorizationDetails = some ds) (r : Holder.Resp) :
    (Holder.step (byForms wr t e) w s).1 ≠ .ok r := by
  intro h
  rw [(Holder.step_eq _ w s).1, hq] at h
  obtain ⟨⟨x, w2⟩, hrun⟩ : ∃ y, (Holder.authorize s.provider q).run (byForms wr t e) (Holder.before w s) = y := ⟨_, rfl⟩
  have hx : x = .ok r := (congrArg Prod.fst hrun).symm.trans h
  subst hx
  obtain ⟨evs, ws, hE, h1⟩ := Holder.authorize_did hrun
  rcases h1 with ⟨hf, _⟩ | ⟨i', p, n, _, _, _, q', _, ⟨hf, _⟩ | ⟨a, ⟨o, hf, _⟩ | ⟨tk, m, hev, _, _⟩⟩⟩
  · exact absurd rfl hf.ne_ok
  · exact absurd rfl hf.ne_ok
  · exact absurd rfl hf.ne_ok
  · have := hE.answers (p ++ [⟨.authorization q', some a⟩]) _ [] (by rw [hev, List.append_assoc]; rfl)
    have hn : ∀ log recent, (byForms wr t e).oracle log recent
        (.token (Holder.codeTokenRequest (Holder.authorizing s.provider ((byForms wr t e).rng n) i' q) q a)) = none := by
      intro log recent
      show (tokenForm _).bind _ = none
      rw [C146_selection_not_sent _ ds hd]; rfl
    rw [hn] at this
    cases this

/-! ### C147 Presentations -/

/-- **C147** Of an answer to a presentation request, the state gets through in a form. Missing: the presentations and the submission (`C147_presentations_not_sent`). -/
theorem C147_state_arrives_partial (lossy : List UInt8 → List Char) (wr : Verif.Vp → Json) (rd : Json → Option Verif.Vp) (r : Verifier.ResponseRequest)
    (hv : r.vpToken = none) (hs : r.submission = none) : ∃ body, answerForm wr r = some body ∧ answerFormSeen lossy rd body = some r := by
  obtain ⟨v, s, st⟩ := r
  cases hv; cases hs
  cases st with
  | none => exact ⟨[], rfl, rfl⟩
  | some st =>
    refine ⟨formPairs [("state", st)], rfl, ?_⟩
    rw [answerFormSeen, readForm, parseForm_pairs]
    rfl

/-- **C147** An answer that has presentations or a submission is not sent at all. -/
theorem C147_presentations_not_sent (wr : Verif.Vp → Json) (r : Verifier.ResponseRequest) (h : r.vpToken.isSome = true ∨ r.submission.isSome = true) :
    answerForm wr r = none := by
  obtain ⟨v, s, st⟩ := r
  have : formMembers (members [("vp_token", v.map (writeVec (writeKind wr))), ("presentation_submission", s.map writeSubmission), ("state", st.map .str)]) = none := by
    rcases h with h | h
    · obtain ⟨l, hl⟩ := Option.isSome_iff_exists.1 h
      cases hl
      exact formMembers_part (k := "vp_token") (j := writeVec (writeKind wr) l) (by simp [members]) rfl
    · obtain ⟨l, hl⟩ := Option.isSome_iff_exists.1 h
      cases hl
      exact formMembers_part (k := "presentation_submission") (j := writeSubmission l) (by simp [members]) rfl
  exact congrArg (Option.map formPairs) this

/-- **C147** Whatever form comes to the example verifier, what is read from it has no presentations and no submission. -/
theorem C147_presentations_not_read (lossy : List UInt8 → List Char) (rd : Json → Option Verif.Vp) (body : List UInt8) (q : Verifier.ResponseRequest)
    (h : answerFormSeen lossy rd body = some q) : q.vpToken = none ∧ q.submission = none := by
  obtain ⟨r, hr, rfl⟩ := Option.map_eq_some_iff.1 h
  unfold readForm formJson readAnswer at hr
  obtain ⟨l, hl, hr⟩ := Option.bind_eq_some_iff.1 hr
  match l, hl, hr with
  | [v, p, s], hl, hr =>
    simp only at hr
    obtain ⟨v', hv, hr⟩ := Option.bind_eq_some_iff.1 hr
    obtain ⟨p', hp, hr⟩ := Option.bind_eq_some_iff.1 hr
    obtain ⟨s', hs, hr⟩ := Option.bind_eq_some_iff.1 hr
    cases hr
    have hall : single ((parseForm lossy body).map fun p => (p.1, Json.str p.2)) "vp_token" = some v ∧
        single ((parseForm lossy body).map fun p => (p.1, Json.str p.2)) "presentation_submission" = some p := by
      simp only [structFields, List.mapM_cons, List.mapM_nil, Option.bind_eq_bind, Option.pure_def] at hl
      obtain ⟨_, h1, hl⟩ := Option.bind_eq_some_iff.1 hl
      obtain ⟨_, hl, e⟩ := Option.bind_eq_some_iff.1 hl
      obtain ⟨_, h2, hl⟩ := Option.bind_eq_some_iff.1 hl
      obtain ⟨_, hl, e'⟩ := Option.bind_eq_some_iff.1 hl
      obtain ⟨_, h3, hl⟩ := Option.bind_eq_some_iff.1 hl
      cases hl; cases e'; cases e
      exact ⟨h1, h2⟩
    constructor
    · cases v with
      | none => cases hv; rfl
      | some j => obtain ⟨t, rfl⟩ := single_str hall.1; cases hv
    · cases p with
      | none => cases hp; rfl
      | some j => obtain ⟨t, rfl⟩ := single_str hall.2; cases hp

/-- **C147** So the example verifier accepts nothing, whoever sends it and whatever it had asked for. -/
theorem C147_verifier_accepts_nothing (lossy : List UInt8 → List Char) (rd : Json → Option Verif.Vp) (P : Verifier.Provider) (e : Env) (w : World Verifier.VState)
    (body : List UInt8) (r : Verifier.ResponseResponse) : servePost lossy rd P e w body ≠ some (.ok r) := by
  intro h
  obtain ⟨q, hq, hr⟩ := Option.map_eq_some_iff.1 h
  obtain ⟨k, s, _, _, ts, _, _, _, _, hv, _⟩ := Verifier.C52_accepted_answers P q e w r hr
  rw [(C147_presentations_not_read lossy rd body q hq).1] at hv
  cases hv

/-- **C147** And the example wallet presents nothing, to whoever may be there to take it. -/
theorem C147_wallet_presents_nothing (wr : Verif.Vp → Json) (t : Takers) (e : HEnv) (w : HWorld) (s : HStep) (k : String) (hq : s.req = .present k) (r : Holder.Resp) :
    (Holder.step (byForms wr t e) w s).1 ≠ .ok r := by
  intro h
  rw [(Holder.step_eq _ w s).1, hq] at h
  obtain ⟨⟨x, w2⟩, hrun⟩ : ∃ y, (Holder.present s.provider k).run (byForms wr t e) (Holder.before w s) = y := ⟨_, rfl⟩
  have hx : x = .ok r := (congrArg Prod.fst hrun).symm.trans h
  subst hx
  obtain ⟨evs, hE, h1⟩ := Holder.present_did hrun
  rcases h1 with ⟨hf, _⟩ | ⟨p, pd, vp, jwt, n, u, sub, _, _, _, _, _, _, o, hev, ⟨_, hf⟩ | ⟨a, ho, _⟩⟩
  · exact absurd rfl hf.ne_ok
  · exact absurd rfl hf.ne_ok
  · have := hE.answers [] _ [] hev
    have hn : ∀ log recent uri, (byForms wr t e).oracle log recent (.present uri ⟨some [.string jwt], some sub, p.request.state⟩) = none := by
      intro log recent uri
      show uri.bind _ = none
      rw [C147_presentations_not_sent wr _ (.inl rfl)]
      cases uri <;> rfl
    rw [hn, ho] at this
    cases this

end Verif.Wire
