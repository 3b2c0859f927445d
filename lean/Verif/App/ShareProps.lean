import Verif.App.ScreenProps
import Verif.Holder.PresentProps
import Verif.Dif.Props
/-!
# What leaves the wallet (C163, C164)
-/
namespace Verif.App
open Holder (Credential HEnv HWorld Req Resp PStatus Event Call Entry Issuance Presentation HVal Inv HProg InOrder IsRequest IsAuthorized)

variable {a : Around} {s : App} {t : Nat}

/-- A credential has what an input descriptor asks for: every field that is not optional is met (see C48); the fields of an optional one can be evaluated. -/
def Has (a : Around) (d : Dif.Constraints) (c : Credential) : Prop :=
  ∀ fields, d.fields = some fields → ∃ j, a.toJson c.vc = some j ∧
    ∀ f ∈ fields, f.Met a.dif j ∨ (f.optional = some true ∧ ¬ f.Crashes a.dif j)

theorem has_iff (a : Around) (d : Dif.Constraints) (c : Credential) : d.satisfied a.dif (a.toJson c.vc) = .ok true ↔ Has a d c := by
  obtain ⟨fields, l⟩ := d
  unfold Has
  cases fields with
  | none => simp [Dif.Constraints.satisfied]
  | some fields =>
    cases hj : a.toJson c.vc with
    | none => simp [Dif.Constraints.satisfied]
    | some j =>
      rw [Dif.C48_constraints]
      simp

theorem mem_choose {k : Dif.Constraints} {l r : List Credential} (h : choose a k l = some r) (c : Credential) : c ∈ r ↔ c ∈ l ∧ Has a k c := by
  induction l generalizing r with
  | nil => cases h; simp
  | cons x l ih =>
    have hx := has_iff a k x
    have side : ¬ Has a k x → ∀ {m}, choose a k l = some m → (c ∈ m ↔ c ∈ x :: l ∧ Has a k c) := by
      intro hn m hm
      rw [ih hm, List.mem_cons]
      constructor
      · rintro ⟨h1, h2⟩; exact ⟨.inr h1, h2⟩
      · rintro ⟨rfl | h1, h2⟩
        · exact absurd h2 hn
        · exact ⟨h1, h2⟩
    unfold choose at h
    split at h
    · cases h
    · rename_i e _ he
      exact side (fun h => by rw [← hx, he] at h; cases h) h
    · rename_i b hb
      cases b with
      | false => exact side (fun h => by rw [← hx, hb] at h; cases h) h
      | true =>
        obtain ⟨m, hm, rfl⟩ := Option.map_eq_some_iff.mp h
        have := hx.mp hb
        rw [List.mem_cons, ih hm, List.mem_cons]
        constructor
        · rintro (rfl | ⟨h1, h2⟩)
          · exact ⟨.inl rfl, this⟩
          · exact ⟨.inr h1, h2⟩
        · rintro ⟨rfl | h1, h2⟩
          · exact .inl rfl
          · exact .inr ⟨h1, h2⟩

theorem mem_find {f : Files} {k : Dif.Constraints} {r : List Credential} (h : f.find a (some k) = some r) (c : Credential) :
    c ∈ r ↔ (∃ id, (id, Slot.credential c) ∈ f.store) ∧ Has a k c := by
  unfold Files.find at h
  obtain ⟨l, hl, h⟩ := Option.bind_eq_some_iff.mp h
  rw [mem_choose h, mem_readAll hl]

/-- Whenever credentials are looked for, those found have what was asked for. -/
theorem made_found (h : Sound a s) {r : Req} (hr : Used r) {k : Dif.Constraints} {cs : List Credential} (he : ⟨.find k, some cs⟩ ∈ made a s t r) :
    (∃ u, r = .request u) ∧ ∀ c, c ∈ cs ↔ (∃ id, (id, Slot.credential c) ∈ s.files.store) ∧ Has a k c := by
  have hm := makes h hr _ he
  obtain ⟨⟨x, w⟩, hrun⟩ : ∃ y, (Holder.serve a.provider r).run (connected a s.files) { s.world with now := s.world.now + t, recent := [] } = y := ⟨_, rfl⟩
  have hmade : made a s t r = w.recent := by unfold made; rw [hrun]
  cases r with
  | request u =>
    refine ⟨⟨u, rfl⟩, ?_⟩
    obtain ⟨evs, ws, hE, ho, _⟩ := Holder.request_did hrun
    have hrec : w.recent = evs := hE.recent
    rw [hmade, hrec] at he
    obtain ⟨pre, post, hsplit⟩ := List.append_of_mem he
    have hans : some cs = (connected a s.files).oracle s.world.log pre (.find k) := hE.answers pre _ post hsplit
    have hnil : savedIn pre = [] := savedIn_nil fun ev hev c hc => by
      rcases ho ev (by rw [hsplit]; exact List.mem_append_left _ hev) with ⟨_, h⟩ | ⟨_, h⟩ <;> rw [hc] at h <;> cases h
    have hfiles : s.files.after a pre = s.files := by rw [after_saves, hnil]; rfl
    have hans : some cs = (s.files.after a pre).find a (some k) := hans
    rw [hfiles] at hans
    exact mem_find hans.symm
  | offer q => rcases hm with ⟨u, hu⟩ | ⟨u, hu⟩ <;> cases hu
  | token q => obtain ⟨u, hu⟩ := hm; cases hu
  | credentials q => rcases hm with ⟨u, hu⟩ | ⟨u, hu⟩ <;> cases hu
  | save q => obtain ⟨u, hu⟩ := hm; cases hu
  | present q => obtain ⟨u, q, hu⟩ := hm; cases hu
  | _ => cases hm

/-! ### All histories -/

/-- The credentials in a presentation that was sent out, in answer to a request. -/
def Sent (a : Around) (q : Verifier.RequestObject) (creds : List Credential) (rr : Verifier.ResponseRequest) : Prop :=
  ∃ jwt claims, rr.vpToken = some [.string jwt] ∧ a.provider.jose.encodeVp a.provider.kid claims = some jwt ∧
    claims.vp.credentials.getD [] = creds.map (fun c => Kind.string c.issued) ∧ claims.aud = q.clientId ∧ claims.nonce = q.nonce

/-- What calls so far did: those found had what was asked for, and those sent were found. -/
def Kept (a : Around) (L : List Entry) : Prop :=
  ∀ pre en post, L = pre ++ en :: post →
    (∀ (k : Dif.Constraints) (cs : List Credential), ⟨.find k, some cs⟩ ∈ en.events → ∀ c ∈ cs, Has a k c) ∧
    ∀ uri rr o, ⟨.present uri rr, o⟩ ∈ en.events →
      ∃ k q creds, en.req = .present k ∧ InOrder [IsRequest k q creds, IsAuthorized k] pre ∧ Sent a q creds rr ∧
        ∃ sub, rr.submission = some sub ∧ ∀ m ∈ sub.descriptorMap, m.pathNested.path = "$.verifiableCredential[0]"

theorem kept_lib (h : Sound a s) (hk : Kept a s.world.log) {r : Req} (hr : Used r) : Kept a (lib a s t r).2.world.log := by
  obtain ⟨x, hx, _⟩ := lib_log a s t r
  intro pre en post hsplit
  rw [hx] at hsplit
  rcases List.eq_nil_or_concat post with rfl | ⟨post', last, rfl⟩
  · obtain ⟨rfl, he⟩ := List.append_inj' hsplit rfl
    cases he
    refine ⟨fun k cs hm c hc => (((made_found h hr hm).2 c).mp hc).2, ?_⟩
    intro uri rr o hp
    have hp : ⟨.present uri rr, o⟩ ∈ made a s t r := hp
    have hmk := makes h hr _ hp
    obtain ⟨⟨y, w⟩, hrun⟩ : ∃ y, (Holder.serve a.provider r).run (connected a s.files) { s.world with now := s.world.now + t, recent := [] } = y := ⟨_, rfl⟩
    have hmade : made a s t r = w.recent := by unfold made; rw [hrun]
    cases r with
    | present id =>
      obtain ⟨evs, hE, h1⟩ := Holder.present_did hrun
      have hrec : w.recent = evs := hE.recent
      rw [hmade, hrec] at hp
      rcases h1 with ⟨_, rfl⟩ | ⟨p, pd, vp, jwt, n, u, sub, hs, hst, hpd, hsub, hvp, hjwt, o', rfl, _⟩
      · simp at hp
      · have hv : Holder.PresInv s.world.log id p := h.val _ _ hs
        have hph := hv.phase
        rw [hst] at hph
        rw [List.mem_singleton] at hp
        cases hp
        obtain ⟨v1, v2, _⟩ := Holder.vpDraft_ok hvp
        refine ⟨id, p.request, p.credentials, rfl, hph, ⟨jwt, _, rfl, Holder.create_ok hjwt, v1, rfl, rfl⟩, sub, rfl, ?_⟩
        intro m hm
        rw [hsub] at hm
        obtain ⟨d, _, rfl⟩ := List.mem_map.mp hm
        rfl
    | offer q => rcases hmk with ⟨u, hu⟩ | ⟨u, hu⟩ <;> cases hu
    | token q => obtain ⟨u, hu⟩ := hmk; cases hu
    | credentials q => rcases hmk with ⟨u, hu⟩ | ⟨u, hu⟩ <;> cases hu
    | save q => obtain ⟨u, hu⟩ := hmk; cases hu
    | request q => rcases hmk with ⟨u, hu⟩ | ⟨u, hu⟩ <;> cases hu
    | _ => cases hmk
  · have : s.world.log = pre ++ en :: post' := by
      have h2 := hsplit.trans (show pre ++ en :: post'.concat last = (pre ++ en :: post') ++ [last] by simp)
      exact (List.append_inj' h2 rfl).1
    exact hk pre en post' this

theorem kept_does (hf : a.env.Fresh) {s s' : App} (h : Sound a s) (he : Kept a s.world.log) (hs : Does a s s') : Kept a s'.world.log := by
  induction hs with
  | refl => exact he
  | lib hs t r hr ih => exact kept_lib (sound_does hf h hs) ih hr
  | edit _ hw _ ih => rw [hw]; exact ih

theorem kept_serve (hf : a.env.Fresh) (h : Sound a s) (he : Kept a s.world.log) (c : Cmd) : Kept a (serve a s t c).2.world.log := by
  induction c with
  | delete id =>
    show Kept a (delete a s id).2.world.log
    rw [delete_world]; exact he
  | restart => exact he
  | autosave => exact he
  | crash n c ih => exact ih
  | _ => exact kept_does hf h he (serve_does a s t trivial)

theorem kept_after (hf : a.env.Fresh) (h : Sound a s) (he : Kept a s.world.log) (l : List (Nat × Cmd)) : Kept a (after a s l).world.log := by
  induction l generalizing s with
  | nil => exact he
  | cons x l ih => exact ih (sound_serve hf h x.1 x.2) (kept_serve hf h he x.2)

theorem kept_opened (now : Int) (file : Dict Slot) : Kept a (opened now file).world.log := by
  intro pre en post h
  cases pre <;> cases h

/-! ### C163 -/

/-- **C163** The credentials found for a request are those in the store that have what the first input descriptor asks for: all of them, and no others. -/
theorem C163_found_exactly (hf : a.env.Fresh) (now : Int) (file : Dict Slot) (l : List (Nat × Cmd)) {s : App} (hs : s = after a (opened now file) l) {u : String}
    {v : View} (h : (serve a s t (.request u)).1 = .view v) :
    ∃ en id q creds pd d ds pre, (serve a s t (.request u)).2.world.log = s.world.log ++ [en] ∧ en.result = .ok (.request id .requested creds) ∧
      Holder.Obtained a.provider u q pre ∧ q.presentationDefinition = .object pd ∧ pd.inputDescriptors = d :: ds ∧
      ∀ c, c ∈ creds ↔ (∃ k, (k, Slot.credential c) ∈ s.files.store) ∧ Has a d.constraints c := by
  have h0 : Sound a s := by rw [hs]; exact sound_after hf (sound_opened a now file) l
  obtain ⟨r, hok, hfin, he⟩ := andThen_view (x := lib a s t (.request u)) h
  obtain ⟨⟨x, w⟩, hrun⟩ : ∃ y, (Holder.serve a.provider (.request u)).run (connected a s.files) { s.world with now := s.world.now + t, recent := [] } = y := ⟨_, rfl⟩
  have hmade : made a s t (.request u) = w.recent := by unfold made; rw [hrun]
  obtain ⟨evs, ws, hE, _, hdid⟩ := Holder.request_did hrun
  have hrec : w.recent = evs := hE.recent
  have hx := lib_ok hok
  rw [hrun] at hx
  have hx : x = .ok r := hx
  rcases hdid with ⟨⟨e, h, _⟩, _⟩ | ⟨q, pre, f, cs, hob, hbf, hevs, _, hends⟩
  · rw [hx] at h; cases h
  rw [hx] at hends
  obtain ⟨y, hy, hyo⟩ := lib_log a s t (.request u)
  cases hends
  obtain ⟨pd, d, ds, hpd, hds, rfl⟩ : ∃ pd d ds, q.presentationDefinition = .object pd ∧ pd.inputDescriptors = d :: ds ∧ f = d.constraints := by
    unfold Holder.buildFilter at hbf
    split at hbf
    · cases hbf
    · rename_i pd hpd
      split at hbf
      · cases hbf
      · rename_i d ds hds
        cases hbf
        exact ⟨pd, d, ds, hpd, hds, rfl⟩
  refine ⟨⟨a.provider, s.world.now + t, .request u, y, made a s t (.request u)⟩, _, q, cs, pd, d, ds, pre, ?_, hyo _ hok, hob, hpd, hds, ?_⟩
  · show (andThen _ _).2.world.log = _
    rw [he]
    show (finish _).2.world.log = _
    rw [finish_state]
    exact hy
  · exact (made_found (k := d.constraints) (cs := cs) h0 (r := .request u) (t := t) trivial (by rw [hmade, hrec, hevs]; simp)).2

/-- **C163** Whatever leaves the example wallet in a presentation was asked for: in every history, crashes included, every credential in a presentation that is
sent has what the first input descriptor of the request asks for, and the request had been authorized. -/
theorem C163_sent_was_asked_partial (hf : a.env.Fresh) (now : Int) (file : Dict Slot) (l : List (Nat × Cmd)) {pre post : List Entry} {en : Entry}
    (h : (after a (opened now file) l).world.log = pre ++ en :: post) {uri : Option String} {rr : Verifier.ResponseRequest}
    {o : Option Verifier.ResponseResponse} (hp : ⟨.present uri rr, o⟩ ∈ en.events) :
    ∃ k q creds pd d ds, en.req = .present k ∧ InOrder [IsRequest k q creds, IsAuthorized k] pre ∧ Sent a q creds rr ∧
      q.presentationDefinition = .object pd ∧ pd.inputDescriptors = d :: ds ∧ ∀ c ∈ creds, Has a d.constraints c := by
  have hK := kept_after hf (sound_opened a now file) (kept_opened now file) l
  obtain ⟨k, q, creds, h1, h2, h3, _⟩ := (hK pre en post h).2 uri rr o hp
  obtain ⟨p1, x, p2, hx, hreq, _⟩ := id h2
  obtain ⟨url, ev, pd, d, ds, _, _, hpd, hds, hev, _⟩ := hreq
  refine ⟨k, q, creds, pd, d, ds, h1, h2, h3, hpd, hds, fun c hc => ?_⟩
  refine (hK p1 x (p2 ++ en :: post) (by rw [h, hx]; simp)).1 d.constraints creds ?_ c hc
  rw [hev]; simp

/-- **C163** More is sent than the submission speaks of: whenever several credentials were found, all of them are sent, and the submission leads to the first
one only. -/
theorem C163_violated_sent_unnamed (hf : a.env.Fresh) (now : Int) (file : Dict Slot) (l : List (Nat × Cmd)) {pre post : List Entry} {en : Entry}
    (h : (after a (opened now file) l).world.log = pre ++ en :: post) {uri : Option String} {rr : Verifier.ResponseRequest}
    {o : Option Verifier.ResponseResponse} (hp : ⟨.present uri rr, o⟩ ∈ en.events) :
    ∃ k q creds sub, en.req = .present k ∧ InOrder [IsRequest k q creds] pre ∧ Sent a q creds rr ∧ rr.submission = some sub ∧
      ∀ m ∈ sub.descriptorMap, m.pathNested.path = "$.verifiableCredential[0]" := by
  have hK := kept_after hf (sound_opened a now file) (kept_opened now file) l
  obtain ⟨k, q, creds, h1, h2, h3, sub, h4, h5⟩ := (hK pre en post h).2 uri rr o hp
  obtain ⟨p1, x, p2, hx, hreq, _⟩ := h2
  exact ⟨k, q, creds, sub, h1, ⟨p1, x, p2, hx, hreq, trivial⟩, h3, h4, h5⟩

/-! ### C164 -/

/-- **C164** Credentials go out as they came from the issuer, whole, also if the request says that what is sent must be limited to the fields it lists. -/
theorem C164_violated_sent_whole (hf : a.env.Fresh) (now : Int) (file : Dict Slot) (l : List (Nat × Cmd)) {pre post : List Entry} {en : Entry}
    (h : (after a (opened now file) l).world.log = pre ++ en :: post) {uri : Option String} {rr : Verifier.ResponseRequest}
    {o : Option Verifier.ResponseResponse} (hp : ⟨.present uri rr, o⟩ ∈ en.events) :
    ∃ k q creds, InOrder [IsRequest k q creds] pre ∧ ∃ jwt claims, rr.vpToken = some [.string jwt] ∧
      a.provider.jose.encodeVp a.provider.kid claims = some jwt ∧ claims.vp.credentials.getD [] = creds.map (fun c => Kind.string c.issued) := by
  obtain ⟨k, q, creds, sub, _, h2, ⟨jwt, claims, h3, h4, h5, _⟩, _⟩ := C163_violated_sent_unnamed hf now file l h hp
  exact ⟨k, q, creds, h2, jwt, claims, h3, h4, h5⟩

/-- **C164** Whether disclosure has to be limited makes no difference to which credentials are found: a wallet that cannot limit it should find none. -/
theorem C164_violated_same_found (a : Around) (f : Files) (k : Dif.Constraints) (x : Option String) :
    f.find a (some { k with limitDisclosure := x }) = f.find a (some k) := by
  have : ∀ l, choose a { k with limitDisclosure := x } l = choose a k l := by
    intro l
    induction l with
    | nil => rfl
    | cons c l ih =>
      unfold choose
      rw [ih, show Dif.Constraints.satisfied a.dif { k with limitDisclosure := x } (a.toJson c.vc) = k.satisfied a.dif (a.toJson c.vc) from rfl]
  show (readAll f.store).bind _ = (readAll f.store).bind _
  congr 1
  funext l
  exact this l

end Verif.App
