import Verif.Server.Overlap
import Verif.Server.LoginProps
import Verif.Issuer.OverlapProps
/-!
# C174: the example issuer when requests overlap or are broken off
-/
namespace Verif.Server
open Issuer (RequestObject AuthorizationRequest Req Resp Provider)

variable {csrf : Nat → String} {rng : Nat → Nat → String} {q : Nat → Arrival}

namespace Web

theorem exec_inv {I : Web → Prop} (hs : ∀ w ev, I w → I (step csrf rng q w ev)) {w : Web} (h : I w) (s : List Event) : I (exec csrf rng q w s) := by
  induction s generalizing w with
  | nil => exact h
  | cons ev s ih => exact ih (hs w ev h)

/-- What an action of request `i` does. -/
theorem step_run (w : Web) (i : Nat) (f : Fault) :
    (w.desk i = .arrived ∧ step csrf rng q w (.run i f) =
      { w with logins := leave w.logins (q i).http (arrive w.logins w.pushes (q i).http)
               desk := setAt w.desk i (arrive w.logins w.pushes (q i).http) }) ∨
    (∃ r, w.desk i = .saving r ∧ step csrf rng q w (.run i f) =
      { w with logins := w.logins.insert (csrf i) r, desk := setAt w.desk i (.answered (.form (csrf i))) }) ∨
    (∃ r, w.desk i = .savingPush r ∧ step csrf rng q w (.run i f) =
      { w with pushes := w.pushes.insert (csrf i) r, desk := setAt w.desk i (.answered (.form (csrf i))) }) ∨
    (∃ r, w.desk i = .entering r ∧ step csrf rng q w (.run i f) =
      { w with logins := w.logins.insert (userOf (q i).http) r, desk := setAt w.desk i (.answered (sentBack r (q i).http)) }) ∨
    (w.desk i = .inside ∧ ∃ x, w.pool.prog i = .ret x ∧ step csrf rng q w (.run i f) =
      { w with desk := setAt w.desk i (.answered (finish (q i).http x)) }) ∨
    (w.desk i = .inside ∧ step csrf rng q w (.run i f) = { w with pool := w.pool.step rng (.run i f) }) ∨
    (∃ r, w.desk i = .answered r ∧ step csrf rng q w (.run i f) = w) := by
  cases hd : w.desk i with
  | arrived => exact .inl ⟨rfl, by simp [step, hd]⟩
  | saving r => exact .inr (.inl ⟨r, rfl, by simp [step, hd]⟩)
  | savingPush r => exact .inr (.inr (.inl ⟨r, rfl, by simp [step, hd]⟩))
  | entering r => exact .inr (.inr (.inr (.inl ⟨r, rfl, by simp [step, hd]⟩)))
  | inside =>
    cases hp : w.pool.prog i with
    | ret x => exact .inr (.inr (.inr (.inr (.inl ⟨rfl, x, rfl, by simp [step, hd, hp]⟩))))
    | _ => exact .inr (.inr (.inr (.inr (.inr (.inl ⟨rfl, by simp [step, hd, hp]⟩)))))
  | answered r => exact .inr (.inr (.inr (.inr (.inr (.inr ⟨r, rfl, by simp [step, hd]⟩)))))

/-- An answer stays. -/
theorem Gets.step {w : Web} {i : Nat} {r : Reply} (h : w.Gets i r) (ev : Event) : (step csrf rng q w ev).Gets i r := by
  cases ev with
  | tick ns => exact h
  | run j f =>
    unfold Gets at h ⊢
    by_cases e : i = j
    · subst e; simp [Web.step, h]
    · rcases step_run (csrf := csrf) (rng := rng) (q := q) w j f with ⟨_, hs⟩ | ⟨_, _, hs⟩ | ⟨_, _, hs⟩ | ⟨_, _, hs⟩ | ⟨_, _, _, hs⟩ | ⟨_, hs⟩ | ⟨_, _, hs⟩ <;>
        rw [hs] <;> simp [setAt_other _ _ e, h]

theorem Gets.exec {w : Web} {i : Nat} {r : Reply} (h : w.Gets i r) (s : List Event) : (exec csrf rng q w s).Gets i r :=
  exec_inv (I := fun w => w.Gets i r) (fun _ ev h => h.step ev) h s

end Web

/-- What the first statements of a handler lead to. -/
theorem arrive_cases (logins pushes : Dict RequestObject) (h : Http) :
    (∃ host r, h = .auth host (.object r) ∧ r.subjectId ∉ Dict.keys logins ∧ arrive logins pushes h = .saving r) ∨
    (∃ host r, h = .auth host (.object r) ∧ r.subjectId ∈ Dict.keys logins ∧ r.redirectUri ≠ none ∧ arrive logins pushes h = .inside) ∨
    (∃ host r, h = .par host r ∧ arrive logins pushes h = .savingPush r) ∨
    ((∃ host r, h = .par host r) ∧ arrive logins pushes h = .inside) ∨
    (∃ host t r, h = .login host "normal_user" "password" t ∧ logins.get? t = some r ∧ arrive logins pushes h = .entering r) ∨
    (∃ host b req, h = .api host b req ∧ addressed host b req ≠ none ∧ arrive logins pushes h = .inside) ∨
    ∃ x, arrive logins pushes h = .answered x ∧ (x = .panic ∨ x = .notFound ∨ ∃ y, x = .unauthorized y) := by
  cases h with
  | auth host req =>
    cases req with
    | uri u => exact .inr (.inr (.inr (.inr (.inr (.inr ⟨_, rfl, .inl rfl⟩)))))
    | object r =>
      simp only [arrive]
      split
      · exact .inr (.inr (.inr (.inr (.inr (.inr ⟨_, rfl, .inr (.inr ⟨_, rfl⟩)⟩)))))
      split
      · rename_i hh
        refine .inl ⟨host, r, rfl, fun hk => ?_, rfl⟩
        rw [Dict.has_iff.2 hk] at hh; cases hh
      rename_i hh
      split
      · exact .inr (.inr (.inr (.inr (.inr (.inr ⟨_, rfl, .inr (.inr ⟨_, rfl⟩)⟩)))))
      · rename_i hu
        exact .inr (.inl ⟨host, r, rfl, Dict.has_iff.1 (by simpa using hh), hu, rfl⟩)
  | par host r =>
    simp only [arrive]
    split
    · exact .inr (.inr (.inr (.inr (.inr (.inr ⟨_, rfl, .inr (.inr ⟨_, rfl⟩)⟩)))))
    split
    · exact .inr (.inr (.inl ⟨host, r, rfl, rfl⟩))
    · exact .inr (.inr (.inr (.inl ⟨⟨host, r, rfl⟩, rfl⟩)))
  | login host u p t =>
    simp only [arrive]
    split
    · exact .inr (.inr (.inr (.inr (.inr (.inr ⟨_, rfl, .inr (.inr ⟨_, rfl⟩)⟩)))))
    split
    · exact .inr (.inr (.inr (.inr (.inr (.inr ⟨_, rfl, .inr (.inr ⟨_, rfl⟩)⟩)))))
    rename_i hu hp
    simp only [ne_eq, Classical.not_not] at hu hp
    subst hu hp
    cases hg : logins.get? t with
    | none => exact .inr (.inr (.inr (.inr (.inr (.inr ⟨_, rfl, .inr (.inr ⟨_, rfl⟩)⟩)))))
    | some r => exact .inr (.inr (.inr (.inr (.inl ⟨host, t, r, rfl, hg, rfl⟩))))
  | api host b req =>
    simp only [arrive]
    cases hg : addressed host b req with
    | none => exact .inr (.inr (.inr (.inr (.inr (.inr ⟨_, rfl, .inr (.inl rfl)⟩)))))
    | some x => exact .inr (.inr (.inr (.inr (.inr (.inl ⟨host, b, req, rfl, by simp [hg], rfl⟩)))))

/-! ### The invariant of every schedule -/

/-- Somebody's login has got through, with name, password and the token of a form that was shown for the request it leads back to.
Specification; models no code. -/
def LoginAnswered (q : Nat → Arrival) (w : Web) : Prop :=
  ∃ j host t r, (q j).http = .login host "normal_user" "password" t ∧ w.Gets j (.toAuth host r) ∧
    ∃ k host', (q k).http = .auth host' (.object r) ∧ w.Gets k (.form t)

/-- A login form with this token has been shown. Specification; models no code. -/
def FormShown (w : Web) (t : String) : Prop := ∃ j, w.Gets j (.form t)

/-- The name of somebody who has logged in, or the token of a login form that was shown for this request. -/
def Entry (csrf : Nat → String) (q : Nat → Arrival) (w : Web) (k : String) (r : RequestObject) : Prop :=
  (k = "normal_user" ∧ LoginAnswered q w) ∨ ∃ j host, k = csrf j ∧ (q j).http = .auth host (.object r) ∧ w.Gets j (.form k)

/-- The same without the request. -/
def Known (q : Nat → Arrival) (w : Web) (k : String) : Prop := (k = "normal_user" ∧ LoginAnswered q w) ∨ FormShown w k

theorem Entry.known {w : Web} {k : String} {r : RequestObject} (h : Entry csrf q w k r) : Known q w k := by
  rcases h with h | ⟨j, _, _, _, h⟩
  · exact .inl h
  · exact .inr ⟨j, h⟩

/-- What is known of a request at its desk. -/
def DeskOk (csrf : Nat → String) (q : Nat → Arrival) (w : Web) (i : Nat) : Desk → Prop
  | .arrived => True
  | .saving r => ∃ host, (q i).http = .auth host (.object r)
  | .savingPush _ => True
  | .entering r => ∃ host t, (q i).http = .login host "normal_user" "password" t ∧ Entry csrf q w t r
  | .inside => ∀ host r, (q i).http = .auth host (.object r) → r.redirectUri ≠ none ∧ Known q w r.subjectId
  | .answered (.form t) => t = csrf i
  | .answered (.toAuth h r) => ∃ t, (q i).http = .login h "normal_user" "password" t ∧ Entry csrf q w t r
  | .answered (.code uri _) => ∃ host r, (q i).http = .auth host (.object r) ∧ r.redirectUri = some uri ∧ Known q w r.subjectId
  | .answered _ => True

/-- Answers given before are given after. -/
def Later (w w' : Web) : Prop := ∀ i r, w.Gets i r → w'.Gets i r

theorem LoginAnswered.later {w w' : Web} (hl : Later w w') (h : LoginAnswered q w) : LoginAnswered q w' := by
  obtain ⟨j, host, t, r, h1, h2, k, host', h3, h4⟩ := h
  exact ⟨j, host, t, r, h1, hl _ _ h2, k, host', h3, hl _ _ h4⟩

theorem Entry.later {w w' : Web} (hl : Later w w') {k : String} {r : RequestObject} (h : Entry csrf q w k r) : Entry csrf q w' k r := by
  rcases h with ⟨h1, h2⟩ | ⟨j, host, h1, h2, h3⟩
  · exact .inl ⟨h1, h2.later hl⟩
  · exact .inr ⟨j, host, h1, h2, hl _ _ h3⟩

theorem Known.later {w w' : Web} (hl : Later w w') {k : String} (h : Known q w k) : Known q w' k := by
  rcases h with ⟨h1, h2⟩ | ⟨j, h3⟩
  · exact .inl ⟨h1, h2.later hl⟩
  · exact .inr ⟨j, hl _ _ h3⟩

theorem DeskOk.later {w w' : Web} (hl : Later w w') {i : Nat} {d : Desk} (h : DeskOk csrf q w i d) : DeskOk csrf q w' i d := by
  cases d with
  | arrived => trivial
  | saving r => exact h
  | savingPush r => trivial
  | entering r =>
    obtain ⟨host, t, h1, h2⟩ := h
    exact ⟨host, t, h1, h2.later hl⟩
  | inside => exact fun host r hh => ⟨(h host r hh).1, (h host r hh).2.later hl⟩
  | answered x =>
    cases x with
    | form t => exact h
    | toAuth hst r =>
      obtain ⟨t, h1, h2⟩ := h
      exact ⟨t, h1, h2.later hl⟩
    | code uri c =>
      obtain ⟨host, r, h1, h2, h3⟩ := h
      exact ⟨host, r, h1, h2, h3.later hl⟩
    | _ => trivial

/-- Request `i` is a login with token `t` that has taken the request out of the map or has got through. -/
def Took (q : Nat → Arrival) (w : Web) (i : Nat) (t : String) : Prop :=
  ∃ host r, (q i).http = .login host "normal_user" "password" t ∧ (w.desk i = .entering r ∨ w.Gets i (.toAuth host r))

/-- Where the tokens of login forms are. -/
structure Tidy (csrf : Nat → String) (q : Nat → Arrival) (w : Web) : Prop where
  logins : ∀ k r, w.logins.get? k = some r → Entry csrf q w k r
  desk : ∀ i, DeskOk csrf q w i (w.desk i)
  once : ∀ i t, t ≠ "normal_user" → Took q w i t → w.logins.get? t = none ∧ ∀ i', Took q w i' t → i' = i

/-- The tokens of login forms never repeat, and none is a user's name. (`CsrfToken::new_random` of the oauth2 crate: 16 random bytes.)
Specification; models no code. -/
structure FreshForms (csrf : Nat → String) : Prop where
  inj : ∀ i j, csrf i = csrf j → i = j
  user : ∀ i, csrf i ≠ "normal_user"

theorem get?_taken (m : Dict RequestObject) (t k : String) :
    Dict.get? (m.filter fun x => x.1 != t) k = if k = t then none else m.get? k := by
  induction m with
  | nil => simp [Dict.get?]
  | cons x m ih =>
    obtain ⟨kx, vx⟩ := x
    by_cases h : kx = t
    · subst h
      simp only [List.filter, bne_self_eq_false, ih]
      by_cases hk : k = kx
      · simp [hk]
      · simp [hk, Dict.get?, Ne.symm hk]
    · have : (kx != t) = true := by simpa using h
      simp only [List.filter, this, Dict.get?, ih]
      by_cases hk : kx = k
      · subst hk; simp [h]
      · simp [hk]

/-- The token of a login that is through was shown in a form for an authorization request. -/
theorem Took.shown {w : Web} (hw : Tidy csrf q w) {i : Nat} {t : String} (ht : t ≠ "normal_user") (h : Took q w i t) :
    ∃ j, t = csrf j ∧ w.Gets j (.form t) := by
  obtain ⟨host, r, h1, h2⟩ := h
  have : ∃ r', Entry csrf q w t r' := by
    have hd := hw.desk i
    rcases h2 with h2 | h2
    · rw [h2] at hd
      obtain ⟨_, t', h3, h4⟩ := hd
      rw [h1] at h3; cases h3
      exact ⟨r, h4⟩
    · unfold Web.Gets at h2
      rw [h2] at hd
      obtain ⟨t', h3, h4⟩ := hd
      rw [h1] at h3; cases h3
      exact ⟨r, h4⟩
  obtain ⟨r', h' | ⟨j, host', h3, _, h4⟩⟩ := this
  · exact absurd h'.1 ht
  · exact ⟨j, h3, h4⟩

/-- Nothing changes for who took which token when another desk, or this one in a way that has nothing to do with logins, moves on. -/
theorem took_setAt {w w' : Web} {i : Nat} {d : Desk} (hd : w'.desk = setAt w.desk i d) (h1 : ∀ r, d ≠ .entering r) (h2 : ∀ h r, d ≠ .answered (.toAuth h r))
    {i' : Nat} {t : String} (h : Took q w' i' t) : Took q w i' t := by
  obtain ⟨host, r, h3, h4⟩ := h
  refine ⟨host, r, h3, ?_⟩
  unfold Web.Gets at h4 ⊢
  rw [hd] at h4
  by_cases e : i' = i
  · subst e
    rw [setAt_same] at h4
    rcases h4 with h4 | h4
    · exact absurd h4 (h1 r)
    · exact absurd h4 (h2 _ r)
  · rwa [setAt_other _ _ e] at h4

theorem desk_setAt {w w' : Web} (hw : Tidy csrf q w) (hl : Later w w') {i : Nat} {d : Desk} (hd : w'.desk = setAt w.desk i d)
    (h : DeskOk csrf q w' i d) (j : Nat) : DeskOk csrf q w' j (w'.desk j) := by
  rw [hd]
  by_cases e : j = i
  · subst e; rw [setAt_same]; exact h
  · rw [setAt_other _ _ e]; exact (hw.desk j).later hl

/-- The reply of an endpoint is a code only for an authorization request; it never is a form or leads back. -/
theorem finish_ok {w : Web} {i : Nat} {x : Res Resp} (h : DeskOk csrf q w i .inside) : DeskOk csrf q w i (.answered (finish (q i).http x)) := by
  have hr : ∀ x, DeskOk csrf q w i (.answered (Server.reply x)) := by
    intro x
    unfold Server.reply
    split <;> trivial
  cases hh : (q i).http with
  | auth host req =>
    cases req with
    | uri u => exact hr x
    | object r =>
      obtain ⟨h1, h2⟩ := h host r hh
      simp only [finish]
      unfold authReply
      split
      · obtain ⟨uri, hu⟩ := Option.ne_none_iff_exists'.1 h1
        rw [hu]
        exact ⟨host, r, hh, hu, h2⟩
      all_goals trivial
  | _ => exact hr x

theorem finish_not (h : Http) (x : Res Resp) : ∀ hst r, finish h x ≠ .toAuth hst r := by
  intro hst r
  have hr : Server.reply x ≠ .toAuth hst r := by
    unfold Server.reply
    split <;> exact fun h => nomatch h
  cases h with
  | auth host req =>
    cases req with
    | uri u => exact hr
    | object r =>
      simp only [finish]
      unfold authReply
      split <;> exact fun h => nomatch h
  | _ => exact hr

theorem Tidy.step (hf : FreshForms csrf) {w : Web} (hw : Tidy csrf q w) (ev : Event) : Tidy csrf q (w.step csrf rng q ev) := by
  cases ev with
  | tick ns => exact ⟨hw.logins, hw.desk, hw.once⟩
  | run i f =>
    have hl : Later w (w.step csrf rng q (.run i f)) := fun _ _ h => h.step _
    have hdi := hw.desk i
    rcases Web.step_run (csrf := csrf) (rng := rng) (q := q) w i f with
      ⟨hd, hs⟩ | ⟨r, hd, hs⟩ | ⟨r, hd, hs⟩ | ⟨r, hd, hs⟩ | ⟨hd, x, _, hs⟩ | ⟨hd, hs⟩ | ⟨r, hd, hs⟩
    · -- the first statements
      have hds : (w.step csrf rng q (.run i f)).desk = setAt w.desk i (arrive w.logins w.pushes (q i).http) := by rw [hs]
      have hlo : (w.step csrf rng q (.run i f)).logins = leave w.logins (q i).http (arrive w.logins w.pushes (q i).http) := by rw [hs]
      -- everything but a login
      have plain : ∀ d, arrive w.logins w.pushes (q i).http = d → (∀ r, d ≠ .entering r) → (∀ h r, d ≠ .answered (.toAuth h r)) →
          DeskOk csrf q (w.step csrf rng q (.run i f)) i d → Tidy csrf q (w.step csrf rng q (.run i f)) := by
        intro d he h1 h2 h3
        rw [he] at hds hlo
        have hlo' : (w.step csrf rng q (.run i f)).logins = w.logins := by
          rw [hlo]; unfold leave
          cases d with
          | entering r => exact absurd rfl (h1 r)
          | _ => rfl
        refine ⟨fun k r hk => (hw.logins k r (by rw [← hlo']; exact hk)).later hl, desk_setAt hw hl hds h3, fun j t ht hj => ?_⟩
        obtain ⟨h4, h5⟩ := hw.once j t ht (took_setAt hds h1 h2 hj)
        exact ⟨by rw [hlo']; exact h4, fun i' hi' => h5 i' (took_setAt hds h1 h2 hi')⟩
      rcases arrive_cases w.logins w.pushes (q i).http with
        ⟨host, r, hh, _, ha⟩ | ⟨host, r, hh, hk, hu, ha⟩ | ⟨host, r, hh, ha⟩ | ⟨⟨host, r, hh⟩, ha⟩ | ⟨host, t, r, hh, hg, ha⟩ | ⟨host, b, req, hh, _, ha⟩ | ⟨x, ha, hx⟩
      · exact plain _ ha (fun _ h => nomatch h) (fun _ _ h => nomatch h) ⟨host, hh⟩
      · refine plain _ ha (fun _ h => nomatch h) (fun _ _ h => nomatch h) ?_
        intro host' r' hh'
        rw [hh] at hh'; cases hh'
        obtain ⟨y, hy⟩ := Option.isSome_iff_exists.1 (Dict.has_iff.2 hk)
        exact ⟨hu, ((hw.logins _ y hy).later hl).known⟩
      · exact plain _ ha (fun _ h => nomatch h) (fun _ _ h => nomatch h) trivial
      · refine plain _ ha (fun _ h => nomatch h) (fun _ _ h => nomatch h) ?_
        intro host' r' hh'
        rw [hh] at hh'; cases hh'
      · -- a login takes its request out
        rw [ha] at hds hlo
        rw [hh] at hlo
        have hlo' : (w.step csrf rng q (.run i f)).logins = w.logins.filter fun x => x.1 != t := hlo
        have he : Entry csrf q (w.step csrf rng q (.run i f)) t r := (hw.logins t r hg).later hl
        refine ⟨fun k r' hk => ?_, desk_setAt hw hl hds ⟨host, t, hh, he⟩, fun j t' ht' hj => ?_⟩
        · rw [hlo', get?_taken] at hk
          split at hk
          · cases hk
          · exact (hw.logins k r' hk).later hl
        · -- who took it
          have old : ∀ j t', j ≠ i → Took q (w.step csrf rng q (.run i f)) j t' → Took q w j t' := by
            rintro j t' e ⟨host', r', h1, h2⟩
            unfold Web.Gets at h2
            rw [hds, setAt_other _ _ e] at h2
            exact ⟨host', r', h1, h2⟩
          have mine : ∀ t', Took q (w.step csrf rng q (.run i f)) i t' → t' = t := by
            rintro t' ⟨host', r', h1, _⟩
            rw [hh] at h1; cases h1; rfl
          have none_else : ∀ j, ¬ (t ≠ "normal_user" ∧ Took q w j t) := by
            rintro j ⟨ht, hj⟩
            have := (hw.once j t ht hj).1
            rw [hg] at this; cases this
          rw [hlo', get?_taken]
          by_cases e : j = i
          · subst e
            have := mine t' hj; subst this
            refine ⟨by simp, fun i' hi' => ?_⟩
            by_cases e' : i' = j
            · exact e'
            · exact absurd ⟨ht', old _ _ e' hi'⟩ (none_else _)
          · have hj' := old _ _ e hj
            obtain ⟨h4, h5⟩ := hw.once j t' ht' hj'
            refine ⟨by split <;> simp_all, fun i' hi' => ?_⟩
            by_cases e' : i' = i
            · subst e'
              have := mine t' hi'; subst this
              exact absurd ⟨ht', hj'⟩ (none_else _)
            · exact h5 i' (old _ _ e' hi')
      · refine plain _ ha (fun _ h => nomatch h) (fun _ _ h => nomatch h) ?_
        intro host' r' hh'
        rw [hh] at hh'; cases hh'
      · refine plain _ ha (fun _ h => nomatch h) (fun h r he => ?_) ?_
        · rcases hx with rfl | rfl | ⟨y, rfl⟩ <;> cases he
        · rcases hx with rfl | rfl | ⟨y, rfl⟩ <;> trivial
    · -- saving the request under the form's token
      rw [hd] at hdi
      obtain ⟨host, hh⟩ := hdi
      have hds : (w.step csrf rng q (.run i f)).desk = setAt w.desk i (.answered (.form (csrf i))) := by rw [hs]
      have hlo : (w.step csrf rng q (.run i f)).logins = w.logins.insert (csrf i) r := by rw [hs]
      have hg : (w.step csrf rng q (.run i f)).Gets i (.form (csrf i)) := by unfold Web.Gets; rw [hds, setAt_same]
      have old : ∀ {j t}, Took q (w.step csrf rng q (.run i f)) j t → Took q w j t :=
        took_setAt hds (fun _ h => nomatch h) (fun _ _ h => nomatch h)
      refine ⟨fun k r' hk => ?_, desk_setAt hw hl hds rfl, fun j t ht hj => ?_⟩
      · rw [hlo, Dict.get?_insert] at hk
        split at hk
        · rename_i e
          cases hk; subst e
          exact .inr ⟨i, host, rfl, hh, hg⟩
        · exact (hw.logins k r' hk).later hl
      · obtain ⟨h4, h5⟩ := hw.once j t ht (old hj)
        refine ⟨?_, fun i' hi' => h5 i' (old hi')⟩
        rw [hlo, Dict.get?_insert]
        split
        · rename_i e
          obtain ⟨j', e', hj'⟩ := (old hj).shown hw ht
          have := hf.inj _ _ (e.symm.trans e')
          subst this
          unfold Web.Gets at hj'
          rw [hd] at hj'; cases hj'
        · exact h4
    · -- saving a pushed request
      have hds : (w.step csrf rng q (.run i f)).desk = setAt w.desk i (.answered (.form (csrf i))) := by rw [hs]
      have hlo : (w.step csrf rng q (.run i f)).logins = w.logins := by rw [hs]
      have old : ∀ {j t}, Took q (w.step csrf rng q (.run i f)) j t → Took q w j t :=
        took_setAt hds (fun _ h => nomatch h) (fun _ _ h => nomatch h)
      refine ⟨fun k r' hk => (hw.logins k r' (by rw [← hlo]; exact hk)).later hl, desk_setAt hw hl hds rfl, fun j t ht hj => ?_⟩
      obtain ⟨h4, h5⟩ := hw.once j t ht (old hj)
      exact ⟨by rw [hlo]; exact h4, fun i' hi' => h5 i' (old hi')⟩
    · -- entering the user
      rw [hd] at hdi
      obtain ⟨host, t0, hh, he⟩ := hdi
      have hds : (w.step csrf rng q (.run i f)).desk = setAt w.desk i (.answered (.toAuth host r)) := by rw [hs, hh]; rfl
      have hlo : (w.step csrf rng q (.run i f)).logins = w.logins.insert "normal_user" r := by rw [hs, hh]; rfl
      have hg : (w.step csrf rng q (.run i f)).Gets i (.toAuth host r) := by unfold Web.Gets; rw [hds, setAt_same]
      have old : ∀ {j t}, Took q (w.step csrf rng q (.run i f)) j t → Took q w j t := by
        rintro j t ⟨host', r', h1, h2⟩
        refine ⟨host', r', h1, ?_⟩
        unfold Web.Gets at h2 ⊢
        rw [hds] at h2
        by_cases e : j = i
        · subst e
          rw [setAt_same] at h2
          rcases h2 with h2 | h2
          · cases h2
          · cases h2; exact .inl hd
        · rwa [setAt_other _ _ e] at h2
      refine ⟨fun k r' hk => ?_, desk_setAt hw hl hds ⟨t0, hh, he.later hl⟩, fun j t ht hj => ?_⟩
      · rw [hlo, Dict.get?_insert] at hk
        split at hk
        · rename_i e
          rcases he.later hl with ⟨_, hr⟩ | ⟨j, host', _, h2, h3⟩
          · exact .inl ⟨e, hr⟩
          · exact .inl ⟨e, i, host, t0, r, hh, hg, j, host', h2, h3⟩
        · exact (hw.logins k r' hk).later hl
      · obtain ⟨h4, h5⟩ := hw.once j t ht (old hj)
        exact ⟨by rw [hlo, Dict.get?_insert, if_neg ht]; exact h4, fun i' hi' => h5 i' (old hi')⟩
    · -- the endpoint has answered
      rw [hd] at hdi
      have hds : (w.step csrf rng q (.run i f)).desk = setAt w.desk i (.answered (finish (q i).http x)) := by rw [hs]
      have hlo : (w.step csrf rng q (.run i f)).logins = w.logins := by rw [hs]
      have old : ∀ {j t}, Took q (w.step csrf rng q (.run i f)) j t → Took q w j t :=
        took_setAt hds (fun _ h => nomatch h) (fun h' r h => finish_not _ _ h' r (Desk.answered.inj h))
      refine ⟨fun k r' hk => (hw.logins k r' (by rw [← hlo]; exact hk)).later hl, desk_setAt hw hl hds (finish_ok (hdi.later hl)), fun j t ht hj => ?_⟩
      obtain ⟨h4, h5⟩ := hw.once j t ht (old hj)
      exact ⟨by rw [hlo]; exact h4, fun i' hi' => h5 i' (old hi')⟩
    · rw [hs]; exact ⟨hw.logins, hw.desk, hw.once⟩
    · rw [hs]; exact hw

theorem tidy (hf : FreshForms csrf) (t0 : Int) (s : List Event) : Tidy csrf q ((open_ t0 q).exec csrf rng q s) :=
  Web.exec_inv (fun _ ev h => h.step hf ev)
    ⟨fun _ _ h => (nomatch h), fun _ => trivial, fun _ _ _ ⟨_, _, _, h⟩ => by rcases h with h | h <;> cases h⟩ s

/-! ### C174: codes and logins -/

/-- **C174** However requests overlap and wherever they are broken off, a code is given only in answer to an authorization request, at the address it names,
and only if the person it names has logged in with a form that was shown, or (the flaw of C138) the name is itself the token of a form that was shown. -/
theorem C174_code_needs_login_partial (hf : FreshForms csrf) {t0 : Int} {s : List Event} {i : Nat} {uri c : String}
    (h : ((open_ t0 q).exec csrf rng q s).Gets i (.code uri c)) :
    ∃ host r, (q i).http = .auth host (.object r) ∧ r.redirectUri = some uri ∧
      ((r.subjectId = "normal_user" ∧ LoginAnswered q ((open_ t0 q).exec csrf rng q s)) ∨ FormShown ((open_ t0 q).exec csrf rng q s) r.subjectId) := by
  have := (tidy (rng := rng) (q := q) hf t0 s).desk i
  unfold Web.Gets at h
  rw [h] at this
  exact this

/-- **C174** However logins overlap, the token of a form gets at most one of them through. (Partial: the user's name passes for a token, see C145.) -/
theorem C174_token_used_once_partial (hf : FreshForms csrf) {t0 : Int} {s : List Event} {i j : Nat} {host host' u u' p p' t h h' : String} {r r' : RequestObject}
    (hi : (q i).http = .login host u p t) (hj : (q j).http = .login host' u' p' t) (ht : t ≠ "normal_user")
    (h1 : ((open_ t0 q).exec csrf rng q s).Gets i (.toAuth h r)) (h2 : ((open_ t0 q).exec csrf rng q s).Gets j (.toAuth h' r')) : i = j := by
  have hw := tidy (rng := rng) (q := q) hf t0 s
  have took : ∀ {i : Nat} {host u p h : String} {r : RequestObject}, (q i).http = .login host u p t →
      ((open_ t0 q).exec csrf rng q s).Gets i (.toAuth h r) → Took q ((open_ t0 q).exec csrf rng q s) i t := by
    intro i host u p h r hi h1
    have := hw.desk i
    have h1' := h1
    unfold Web.Gets at h1'
    rw [h1'] at this
    obtain ⟨t', h3, _⟩ := this
    rw [hi] at h3; cases h3
    exact ⟨_, r, hi, .inr h1⟩
  exact (hw.once j t ht (took hj h2)).2 i (took hi h1)

/-- **C174** However requests overlap, a login gets through only with the user's name and password, and with a form that was shown for an authorization
request or, once such a login has got through, with the user's name as token; and with a form it leads back to the request the form was shown for. -/
theorem C174_login_leads_to_its_request (hf : FreshForms csrf) {t0 : Int} {s : List Event} {i : Nat} {host u p t h : String} {r : RequestObject}
    (hi : (q i).http = .login host u p t) (h1 : ((open_ t0 q).exec csrf rng q s).Gets i (.toAuth h r)) :
    u = "normal_user" ∧ p = "password" ∧ h = host ∧
      ((t = "normal_user" ∧ LoginAnswered q ((open_ t0 q).exec csrf rng q s)) ∨
        (t ≠ "normal_user" ∧ (∃ j host', (q j).http = .auth host' (.object r) ∧ ((open_ t0 q).exec csrf rng q s).Gets j (.form t)) ∧
          ∀ j, ((open_ t0 q).exec csrf rng q s).Gets j (.form t) → ∃ host', (q j).http = .auth host' (.object r))) := by
  have hw := tidy (rng := rng) (q := q) hf t0 s
  have hd := hw.desk i
  unfold Web.Gets at h1
  rw [h1] at hd
  obtain ⟨t', h3, he⟩ := hd
  rw [hi] at h3; cases h3
  refine ⟨rfl, rfl, rfl, ?_⟩
  rcases he with he | ⟨j, host', e, h2, h3⟩
  · exact .inl he
  · refine .inr ⟨by rw [e]; exact hf.user j, ⟨j, host', h2, h3⟩, fun j' hj' => ?_⟩
    have h4 := hw.desk j'
    unfold Web.Gets at hj'
    rw [hj'] at h4
    have : j' = j := hf.inj _ _ ((show t = csrf j' from h4).symm.trans e)
    subst this
    exact ⟨host', h2⟩

/-! ### C174: what holds of the endpoints holds here -/

theorem Web.pool_step (w : Web) (ev : Event) :
    (w.step csrf rng q ev).pool = w.pool ∨ (w.step csrf rng q ev).pool = w.pool.step rng ev := by
  cases ev with
  | tick ns => exact .inr rfl
  | run i f =>
    rcases Web.step_run (csrf := csrf) (rng := rng) (q := q) w i f with
      ⟨_, hs⟩ | ⟨_, _, hs⟩ | ⟨_, _, hs⟩ | ⟨_, _, hs⟩ | ⟨_, _, _, hs⟩ | ⟨_, hs⟩ | ⟨_, _, hs⟩ <;> rw [hs] <;> first | exact .inl rfl | exact .inr rfl

theorem Web.pool_exec (w : Web) (s : List Event) : ∃ s', s'.Sublist s ∧ (w.exec csrf rng q s).pool = w.pool.exec rng s' := by
  induction s generalizing w with
  | nil => exact ⟨[], .slnil, rfl⟩
  | cons ev s ih =>
    obtain ⟨s', h1, h2⟩ := ih (w.step csrf rng q ev)
    rcases Web.pool_step (csrf := csrf) (rng := rng) (q := q) w ev with h | h
    · exact ⟨s', h1.cons _, by rw [Web.exec, h2, h]⟩
    · exact ⟨ev :: s', h1.cons_cons _, by rw [Web.exec, h2, h]; rfl⟩

/-- A reply with status 200 is the answer of the endpoint that was called. -/
def FromEndpoint (w : Web) : Prop := ∀ i r, w.Gets i (.ok r) → w.pool.Answered i (.ok r)

theorem finish_ok_iff {h : Http} {x : Res Resp} {r : Resp} (e : finish h x = .ok r) : x = .ok r := by
  have hr : Server.reply x = .ok r → x = .ok r := by
    intro e
    unfold Server.reply at e
    split at e <;> cases e
    rfl
  cases h with
  | auth host req =>
    cases req with
    | uri u => exact hr e
    | object o =>
      simp only [finish] at e
      unfold authReply at e
      split at e <;> cases e
      rfl
  | _ => exact hr e

theorem FromEndpoint.step {w : Web} (h : FromEndpoint w) (ev : Event) : FromEndpoint (w.step csrf rng q ev) := by
  intro i r hg
  have keep : w.Gets i (.ok r) → (w.step csrf rng q ev).pool.Answered i (.ok r) := by
    intro hg
    rcases Web.pool_step (csrf := csrf) (rng := rng) (q := q) w ev with e | e <;> rw [e]
    · exact h i r hg
    · exact Pool.answered_exec (h i r hg) [ev]
  cases ev with
  | tick ns => exact keep hg
  | run j f =>
    by_cases e : i = j
    · subst e
      unfold Web.Gets at hg
      rcases Web.step_run (csrf := csrf) (rng := rng) (q := q) w i f with
        ⟨hd, hs⟩ | ⟨o, hd, hs⟩ | ⟨o, hd, hs⟩ | ⟨o, hd, hs⟩ | ⟨hd, x, hx, hs⟩ | ⟨hd, hs⟩ | ⟨o, hd, hs⟩ <;> rw [hs] at hg ⊢ <;> try dsimp only at hg ⊢
      · rw [setAt_same] at hg
        rcases arrive_cases w.logins w.pushes (q i).http with
          ⟨_, _, _, _, ha⟩ | ⟨_, _, _, _, _, ha⟩ | ⟨_, _, _, ha⟩ | ⟨_, ha⟩ | ⟨_, _, _, _, _, ha⟩ | ⟨_, _, _, _, _, ha⟩ | ⟨x, ha, hx⟩ <;> rw [ha] at hg <;> try cases hg
        rcases hx with hx | hx | ⟨y, hx⟩ <;> cases hx
      · rw [setAt_same] at hg; cases hg
      · rw [setAt_same] at hg; cases hg
      · rw [setAt_same] at hg
        unfold sentBack at hg
        split at hg <;> cases hg
      · rw [setAt_same] at hg
        injection hg with hg
        have := finish_ok_iff hg
        subst this
        exact hx
      · exact absurd (hd.symm.trans hg) (fun h => nomatch h)
      · exact h i r hg
    · refine keep ?_
      unfold Web.Gets at hg ⊢
      rcases Web.step_run (csrf := csrf) (rng := rng) (q := q) w j f with
        ⟨_, hs⟩ | ⟨_, _, hs⟩ | ⟨_, _, hs⟩ | ⟨_, _, hs⟩ | ⟨_, _, _, hs⟩ | ⟨_, hs⟩ | ⟨_, _, hs⟩ <;> rw [hs] at hg <;>
        first | exact hg | (dsimp only at hg; rw [setAt_other _ _ e] at hg; exact hg)

/-- **C174** What the endpoints do under a schedule of web requests, they do under a schedule of calls to the library, to which C86 to C89 apply: the same
store, and every reply with status 200 is the answer of the call. -/
theorem C174_endpoints_as_called (t0 : Int) (s : List Event) :
    ∃ s', s'.Sublist s ∧ ((open_ t0 q).exec csrf rng q s).pool = (Issuer.pool t0 (calls q)).exec rng s' ∧
      ∀ i r, ((open_ t0 q).exec csrf rng q s).Gets i (.ok r) → ((Issuer.pool t0 (calls q)).exec rng s').Answered i (.ok r) := by
  obtain ⟨s', h1, h2⟩ := Web.pool_exec (csrf := csrf) (rng := rng) (q := q) (open_ t0 q) s
  refine ⟨s', h1, h2, fun i r hg => ?_⟩
  have : FromEndpoint ((open_ t0 q).exec csrf rng q s) := Web.exec_inv (fun _ ev h => h.step ev) (fun _ _ h => nomatch h) s
  have := this i r hg
  rw [h2] at this
  exact this

/-- **C174** Of token requests for one code, at whatever hosts, none that comes after another has been answered with a token gets one, whatever is requested
besides and whatever is broken off. -/
theorem C174_code_redeemed_once (hf : Issuer.FreshTokens rng) {t0 : Int} {i j : Nat} {host b host' b' : String} {req req' : Issuer.TokenRequest}
    (hi : (q i).http = .api host b (.token req)) (hj : (q j).http = .api host' b' (.token req')) (hc : req'.grantType.code = req.grantType.code)
    {s s' : List Event} {x y : Resp} (hdone : ((open_ t0 q).exec csrf rng q s).Gets i (.ok x)) (hidle : Pool.Idle j s) :
    ¬ ((open_ t0 q).exec csrf rng q (s ++ s')).Gets j (.ok y) := by
  intro hy
  obtain ⟨s1, h1, h2⟩ := Web.pool_exec (csrf := csrf) (rng := rng) (q := q) (open_ t0 q) s
  obtain ⟨s2, _, h4⟩ := Web.pool_exec (csrf := csrf) (rng := rng) (q := q) ((open_ t0 q).exec csrf rng q s) s'
  have hx := (Web.exec_inv (I := FromEndpoint) (csrf := csrf) (rng := rng) (q := q) (fun _ ev h => h.step ev) (w := open_ t0 q) (fun _ _ h => nomatch h) s) i x hdone
  have hy := (Web.exec_inv (I := FromEndpoint) (csrf := csrf) (rng := rng) (q := q) (fun _ ev h => h.step ev) (w := open_ t0 q) (fun _ _ h => nomatch h) (s ++ s')) j y hy
  rw [Web.exec_append, h4, h2, ← Pool.exec_append] at hy
  rw [h2] at hx
  refine Issuer.C86_codes_refused_after_answer_partial (rng := rng) hf (calls := calls q) (t0 := t0) (i := i) (j := j) (req := { req with credentialIssuer := "http://" ++ host })
    (req' := { req' with credentialIssuer := "http://" ++ host' }) ?_ ?_ hc hx (fun f hm => hidle f (h1.mem hm)) hy
  · simp [calls, hi, passedOn, addressed]
  · simp [calls, hj, passedOn, addressed]

/-! ### C174: nobody waits for anybody -/

/-- Acts of one request, with these outcomes of its accesses to the store. Specification; models no code. -/
def actsOf (i : Nat) (fault : Nat → Fault) (n : Nat) : List Event := (List.range n).map fun k => .run i (fault k)

theorem actsOf_succ (i : Nat) (fault : Nat → Fault) (n : Nat) : actsOf i fault (n + 1) = .run i (fault 0) :: actsOf i (fun k => fault (k + 1)) n := by
  simp [actsOf, List.range_succ_eq_map, Function.comp_def]

theorem first_act {w : Web} {i : Nat} {fault : Nat → Fault}
    (h : ∃ n r, ((w.step csrf rng q (.run i (fault 0))).exec csrf rng q (actsOf i (fun k => fault (k + 1)) n)).Gets i r) :
    ∃ n r, (w.exec csrf rng q (actsOf i fault n)).Gets i r := by
  obtain ⟨n, r, h⟩ := h
  exact ⟨n + 1, r, by rw [actsOf_succ, Web.exec]; exact h⟩

theorem inside_ends (i : Nat) (p : Prog Issuer.State Resp) (w : Web) (hd : w.desk i = .inside) (hp : w.pool.prog i = p) (fault : Nat → Fault) :
    ∃ n r, (w.exec csrf rng q (actsOf i fault n)).Gets i r := by
  induction p generalizing w fault with
  | ret x =>
    refine ⟨1, finish (q i).http x, ?_⟩
    simp [actsOf, Web.exec, Web.step, hd, hp, Web.Gets]
  | get k c ih =>
    exact first_act (ih (Prog.getRes (fault 0) (w.pool.store k)) (w.step csrf rng q (.run i (fault 0))) (by simp [Web.step, hd, hp]) (by simp [Web.step, hd, hp, Pool.step]) _)
  | put k v c ih =>
    exact first_act (ih (decide (fault 0 = .ok)) (w.step csrf rng q (.run i (fault 0))) (by simp [Web.step, hd, hp]) (by simp [Web.step, hd, hp, Pool.step]) _)
  | purge k c ih =>
    exact first_act (ih (decide (fault 0 = .ok)) (w.step csrf rng q (.run i (fault 0))) (by simp [Web.step, hd, hp]) (by simp [Web.step, hd, hp, Pool.step]) _)
  | draw c ih =>
    exact first_act (ih (rng i (w.pool.drawn i)) (w.step csrf rng q (.run i (fault 0))) (by simp [Web.step, hd, hp]) (by simp [Web.step, hd, hp, Pool.step]) _)
  | now c ih =>
    exact first_act (ih (w.pool.now) (w.step csrf rng q (.run i (fault 0))) (by simp [Web.step, hd, hp]) (by simp [Web.step, hd, hp, Pool.step]) _)

/-- **C174** No request waits for another: whatever others are doing or have left undone, and however its accesses to the store turn out, a request is
answered after finitely many acts of its own. -/
theorem C174_nobody_blocks (w : Web) (i : Nat) (fault : Nat → Fault) : ∃ n r, (w.exec csrf rng q (actsOf i fault n)).Gets i r := by
  have served : ∀ (w : Web) (fault : Nat → Fault), w.desk i ≠ .arrived → ∃ n r, (w.exec csrf rng q (actsOf i fault n)).Gets i r := by
    intro w fault hd
    cases hw : w.desk i with
    | arrived => exact absurd hw hd
    | saving r => exact ⟨1, .form (csrf i), by simp [actsOf, Web.exec, Web.step, hw, Web.Gets]⟩
    | savingPush r => exact ⟨1, .form (csrf i), by simp [actsOf, Web.exec, Web.step, hw, Web.Gets]⟩
    | entering r => exact ⟨1, sentBack r (q i).http, by simp [actsOf, Web.exec, Web.step, hw, Web.Gets]⟩
    | inside => exact inside_ends i _ w hw rfl fault
    | answered r => exact ⟨0, r, hw⟩
  by_cases hd : w.desk i = .arrived
  · refine first_act (served _ _ ?_)
    have : (w.step csrf rng q (.run i (fault 0))).desk i = arrive w.logins w.pushes (q i).http := by simp [Web.step, hd]
    rw [this]
    rcases arrive_cases w.logins w.pushes (q i).http with
      ⟨_, _, _, _, ha⟩ | ⟨_, _, _, _, _, ha⟩ | ⟨_, _, _, ha⟩ | ⟨_, ha⟩ | ⟨_, _, _, _, _, ha⟩ | ⟨_, _, _, _, _, ha⟩ | ⟨x, ha, _⟩ <;> rw [ha] <;> exact fun h => nomatch h
  · exact served w fault hd

/-! ### C174: requests that are broken off -/

/-- **C174 is false** of logins that are broken off: once a login has taken the request out of the map, and has not yet put it back, its form is lost. If it
goes no further, no login with this form ever gets through, however often it is sent in again. -/
theorem C174_violated_form_lost (hf : FreshForms csrf) {t0 : Int} {s s' : List Event} {i : Nat} {host t : String} {f : Fault} {r : RequestObject}
    (hi : (q i).http = .login host "normal_user" "password" t) (ht : t ≠ "normal_user")
    (harr : ((open_ t0 q).exec csrf rng q s).desk i = .arrived) (hheld : ((open_ t0 q).exec csrf rng q s).logins.get? t = some r) (hidle : Pool.Idle i s')
    {j : Nat} {host' u p : String} (hj : (q j).http = .login host' u p t) (h : String) (r' : RequestObject) :
    ¬ ((open_ t0 q).exec csrf rng q (s ++ .run i f :: s')).Gets j (.toAuth h r') := by
  intro hg
  have hstep : (((open_ t0 q).exec csrf rng q s).step csrf rng q (.run i f)).desk i = .entering r := by
    simp [Web.step, harr, hi, arrive, hheld]
  have hdesk : ∀ (l : List Event) (w : Web), Pool.Idle i l → (w.exec csrf rng q l).desk i = w.desk i := by
    intro l
    induction l with
    | nil => exact fun _ _ => rfl
    | cons ev l ih =>
      intro w hid
      rw [Web.exec, ih _ fun f hm => hid f (.tail _ hm)]
      cases ev with
      | tick ns => rfl
      | run k g =>
        have e : i ≠ k := fun e => hid g (by subst e; exact .head _)
        rcases Web.step_run (csrf := csrf) (rng := rng) (q := q) w k g with
          ⟨_, hs⟩ | ⟨_, _, hs⟩ | ⟨_, _, hs⟩ | ⟨_, _, hs⟩ | ⟨_, _, _, hs⟩ | ⟨_, hs⟩ | ⟨_, _, hs⟩ <;> rw [hs] <;> first | rfl | exact setAt_other _ _ e
  have hend : ((open_ t0 q).exec csrf rng q (s ++ .run i f :: s')).desk i = .entering r := by
    rw [Web.exec_append, Web.exec, hdesk _ _ hidle, hstep]
  have hw := tidy (rng := rng) (q := q) hf t0 (s ++ .run i f :: s')
  have hjd := hw.desk j
  have hg' := hg
  unfold Web.Gets at hg'
  rw [hg'] at hjd
  obtain ⟨t', h3, _⟩ := hjd
  rw [hj] at h3; cases h3
  have := (hw.once i t ht ⟨host, r, hi, .inl hend⟩).2 j ⟨_, r', hj, .inr hg⟩
  subst this
  unfold Web.Gets at hg
  rw [hend] at hg; cases hg

/-- **C174 is false** of people who have logged in: a login with the user's name for a token (which passes, see C145) that is broken off logs the user out. An
authorization request for them is answered with a login form. -/
theorem C174_violated_user_put_out (w : Web) {i j : Nat} {host host' : String} {r : RequestObject} (f f' f'' : Fault)
    (hi : (q i).http = .login host "normal_user" "password" "normal_user") (harr : w.desk i = .arrived) (hin : "normal_user" ∈ Dict.keys w.logins)
    (hj : (q j).http = .auth host' (.object r)) (hr : r.subjectId = "normal_user") (harr' : w.desk j = .arrived) :
    (w.exec csrf rng q [.run i f, .run j f', .run j f'']).Gets j (.form (csrf j)) := by
  have e : j ≠ i := fun e => by subst e; rw [hi] at hj; cases hj
  obtain ⟨y, hy⟩ := Option.isSome_iff_exists.1 (Dict.has_iff.2 hin)
  have h1 : w.step csrf rng q (.run i f) =
      { w with logins := w.logins.filter (fun x => x.1 != "normal_user"), desk := setAt w.desk i (.entering y) } := by
    simp [Web.step, harr, hi, arrive, hy, leave]
  have hno : Dict.has (w.logins.filter fun x => x.1 != "normal_user") "normal_user" = false := by
    simp [Dict.has, get?_taken]
  have h2 : (w.step csrf rng q (.run i f)).step csrf rng q (.run j f') =
      { w with logins := w.logins.filter (fun x => x.1 != "normal_user"), desk := setAt (setAt w.desk i (.entering y)) j (.saving r) } := by
    rw [h1]
    simp [Web.step, setAt_other _ _ e, harr', hj, arrive, hr, hno, leave]
  simp only [Web.exec, h2]
  simp [Web.step, Web.Gets]

/-! ### A request that is served alone -/

/-- In an endpoint, or just out of it. -/
structure Working (q : Nat → Arrival) (i : Nat) (w : Web) : Prop where
  at_ : w.desk i = .inside ∨ ∃ x, w.pool.prog i = .ret x ∧ w.Gets i (finish (q i).http x)

theorem working_exec (i : Nat) (l : List Event) (hl : ∀ ev ∈ l, ∃ f, ev = Event.run i f) (w : Web) (hw : Working q i w) :
    Working q i (w.exec csrf rng q l) ∧ (w.exec csrf rng q l).pool = w.pool.exec rng l ∧ (w.exec csrf rng q l).logins = w.logins ∧
      (w.exec csrf rng q l).pushes = w.pushes := by
  induction l generalizing w with
  | nil => exact ⟨hw, rfl, rfl, rfl⟩
  | cons ev l ih =>
    obtain ⟨f, rfl⟩ := hl _ (.head _)
    have ih := ih (fun ev h => hl ev (.tail _ h))
    rcases hw.at_ with hd | ⟨x, hx, hd⟩
    · by_cases hp : ∃ x, w.pool.prog i = .ret x
      · obtain ⟨x, hx⟩ := hp
        have hs : w.step csrf rng q (.run i f) = { w with desk := setAt w.desk i (.answered (finish (q i).http x)) } := by simp [Web.step, hd, hx]
        have hps : w.pool.step rng (.run i f) = w.pool := by simp [Pool.step, hx]
        rw [Web.exec, Pool.exec, hps, hs]
        exact ih { w with desk := setAt w.desk i (.answered (finish (q i).http x)) } ⟨.inr ⟨x, hx, setAt_same ..⟩⟩
      · have hs : w.step csrf rng q (.run i f) = { w with pool := w.pool.step rng (.run i f) } := by
          cases hx : w.pool.prog i with
          | ret x => exact absurd ⟨x, hx⟩ hp
          | _ => simp [Web.step, hd, hx]
        rw [Web.exec, Pool.exec, hs]
        exact ih { w with pool := w.pool.step rng (.run i f) } ⟨.inl hd⟩
    · have hs : w.step csrf rng q (.run i f) = w := by
        unfold Web.Gets at hd
        simp [Web.step, hd]
      have hps : w.pool.step rng (.run i f) = w.pool := by simp [Pool.step, hx]
      rw [Web.exec, Pool.exec, hps, hs]
      exact ih w hw

/-- The server of `Verif/Server/Model.lean` in the state of this one. Specification; models no code. -/
structure SameState (a : Around) (csrf : Nat → String) (rng : Nat → Nat → String) (i : Nat) (w : Web) (s : Site) : Prop where
  logins : w.logins = s.logins
  pushes : w.pushes = s.pushes
  store : w.pool.store = s.issuer.store
  now : w.pool.now = s.issuer.now
  form : csrf i = a.csrf s.forms
  tokens : ∀ n, rng i (w.pool.drawn i + n) = a.env.rng (s.issuer.drawn + n)

theorem alone_inside {a : Around} {i : Nat} {w : Web} {s : Site} (hs : SameState a csrf rng i w s) {req : Req}
    (hp : w.pool.prog i = Issuer.call (q i).provider req) (f : Fault)
    (harr : w.step csrf rng q (.run i f) = { w with desk := setAt w.desk i .inside }) :
    ∃ l, (∀ ev ∈ l, ∃ f, ev = Event.run i f) ∧
      (w.exec csrf rng q l).Gets i (finish (q i).http (Issuer.step a.env s.issuer { provider := (q i).provider, wait := 0, req }).1) ∧
      (w.exec csrf rng q l).logins = s.logins ∧ (w.exec csrf rng q l).pushes = s.pushes ∧
      (w.exec csrf rng q l).pool.store = (Issuer.step a.env s.issuer { provider := (q i).provider, wait := 0, req }).2.store ∧
      (w.exec csrf rng q l).pool.now = (Issuer.step a.env s.issuer { provider := (q i).provider, wait := 0, req }).2.now := by
  obtain ⟨l, h1, h2, h3, h4⟩ := Pool.solo a.env rng i (Issuer.call (q i).provider req) w.pool (Issuer.World.wait s.issuer 0) hp hs.store
    (by simp [Issuer.World.wait, hs.now]) hs.tokens
  obtain ⟨g1, g2, g3, g4⟩ := working_exec (csrf := csrf) (rng := rng) (q := q) i l h1 { w with desk := setAt w.desk i .inside } ⟨.inl (setAt_same ..)⟩
  refine ⟨.run i f :: (l ++ [.run i .ok]), ?_, ?_⟩
  · intro ev hev
    rcases List.mem_cons.1 hev with rfl | hev
    · exact ⟨f, rfl⟩
    rcases List.mem_append.1 hev with hev | hev
    · exact h1 ev hev
    · exact ⟨.ok, List.mem_singleton.1 hev⟩
  rw [Web.exec, harr, Web.exec_append]
  generalize Web.exec csrf rng q { w with desk := setAt w.desk i .inside } l = w' at g1 g2 g3 g4
  rw [← g2] at h2 h3 h4
  show (w'.step csrf rng q (.run i .ok)).Gets i _ ∧ _
  have hans : w'.pool.prog i = .ret (Issuer.step a.env s.issuer { provider := (q i).provider, wait := 0, req }).1 := h2
  rcases g1.at_ with hd | ⟨x, hx, hd⟩
  · have : w'.step csrf rng q (.run i .ok) = { w' with desk := setAt w'.desk i (.answered (finish (q i).http
        (Issuer.step a.env s.issuer { provider := (q i).provider, wait := 0, req }).1)) } := by
      simp only [Web.step, hd, hans]
    show (w'.step csrf rng q (.run i .ok)).Gets i _ ∧ (w'.step csrf rng q (.run i .ok)).logins = _ ∧ (w'.step csrf rng q (.run i .ok)).pushes = _ ∧
      (w'.step csrf rng q (.run i .ok)).pool.store = _ ∧ (w'.step csrf rng q (.run i .ok)).pool.now = _
    rw [this]
    exact ⟨setAt_same .., g3.trans hs.logins, g4.trans hs.pushes, h3, h4⟩
  · have : w'.step csrf rng q (.run i .ok) = w' := by
      unfold Web.Gets at hd
      simp [Web.step, hd]
    show (w'.step csrf rng q (.run i .ok)).Gets i _ ∧ (w'.step csrf rng q (.run i .ok)).logins = _ ∧ (w'.step csrf rng q (.run i .ok)).pushes = _ ∧
      (w'.step csrf rng q (.run i .ok)).pool.store = _ ∧ (w'.step csrf rng q (.run i .ok)).pool.now = _
    rw [this]
    rw [hans] at hx
    injection hx with hx
    exact ⟨by rw [hx]; exact hd, g3.trans hs.logins, g4.trans hs.pushes, h3, h4⟩

set_option linter.unusedSimpArgs false in
/-- **C174** A request that nobody interrupts is served as in `Verif/Server/Model.lean`, whatever the state of the server. -/
theorem C174_alone_as_in_turn {a : Around} {i : Nat} {w : Web} {s : Site} (hs : SameState a csrf rng i w s) (hd : w.desk i = .arrived)
    (hp : w.pool.prog i = Issuer.call (calls q i).provider (calls q i).req) :
    ∃ l, (∀ ev ∈ l, ∃ f, ev = Event.run i f) ∧
      (w.exec csrf rng q l).Gets i (serve a (q i).provider 0 s (q i).http).1 ∧
      (w.exec csrf rng q l).logins = (serve a (q i).provider 0 s (q i).http).2.logins ∧
      (w.exec csrf rng q l).pushes = (serve a (q i).provider 0 s (q i).http).2.pushes ∧
      (w.exec csrf rng q l).pool.store = (serve a (q i).provider 0 s (q i).http).2.issuer.store ∧
      (w.exec csrf rng q l).pool.now = (serve a (q i).provider 0 s (q i).http).2.issuer.now := by
  have acts : ∀ n, ∀ ev ∈ List.replicate n (Event.run i .ok), ∃ f, ev = Event.run i f := fun n ev h => ⟨.ok, (List.mem_replicate.1 h).2⟩
  have e1 := hs.logins
  have e2 := hs.pushes
  have e3 := hs.store
  have e4 := hs.now
  have e5 := hs.form
  cases hh : (q i).http with
  | auth host req =>
    cases req with
    | uri u => exact ⟨_, acts 1, by simp [Web.exec, Web.step, hd, hh, arrive, leave, serve, auth, Web.Gets, e1, e2, e3, e4, e5]⟩
    | object r =>
      by_cases h1 : r.subjectId = ""
      · exact ⟨_, acts 1, by simp [Web.exec, Web.step, hd, hh, arrive, leave, serve, auth, Web.Gets, h1, e1, e2, e3, e4, e5]⟩
      by_cases h2 : s.logins.has r.subjectId = false
      · exact ⟨_, acts 2, by simp [Web.exec, Web.step, hd, hh, arrive, leave, serve, auth, Web.Gets, h1, h2, e1, e2, e3, e4, e5]⟩
      cases h3 : r.redirectUri with
      | none => exact ⟨_, acts 1, by simp [Web.exec, Web.step, hd, hh, arrive, leave, serve, auth, Web.Gets, h1, h2, h3, e1, e2, e3, e4, e5]⟩
      | some uri =>
        obtain ⟨l, g1, g2, g3, g4, g5, g6⟩ := alone_inside (q := q) (f := .ok) (hs := hs) (req := .authorize (.object r))
          (by rw [hp]; simp [calls, hh, passedOn]) (by simp [Web.step, hd, hh, arrive, leave, h1, h2, h3, e1])
        refine ⟨l, g1, ?_, ?_, ?_, ?_, ?_⟩ <;> simp only [serve, auth, h1, h2, h3, if_false]
        · simpa [hh, finish, h3] using g2
        all_goals assumption
  | par host r =>
    by_cases h1 : r.subjectId = ""
    · exact ⟨_, acts 1, by simp [Web.exec, Web.step, hd, hh, arrive, leave, serve, par, Web.Gets, h1, e1, e2, e3, e4, e5]⟩
    by_cases h2 : s.pushes.has r.subjectId = false
    · exact ⟨_, acts 2, by simp [Web.exec, Web.step, hd, hh, arrive, leave, serve, par, Web.Gets, h1, h2, e1, e2, e3, e4, e5]⟩
    obtain ⟨l, g1, g2, g3, g4, g5, g6⟩ := alone_inside (q := q) (f := .ok) (hs := hs) (req := .par { r with credentialIssuer := "http://" ++ host })
      (by rw [hp]; simp [calls, hh, passedOn]) (by simp [Web.step, hd, hh, arrive, leave, h1, h2, e2])
    refine ⟨l, g1, ?_, ?_, ?_, ?_, ?_⟩ <;> simp only [serve, par, h1, h2, if_false]
    · simpa [hh, finish] using g2
    all_goals assumption
  | login host u p t =>
    by_cases h1 : u = "normal_user"
    · by_cases h2 : p = "password"
      · cases h3 : s.logins.get? t with
        | none => exact ⟨_, acts 1, by simp [Web.exec, Web.step, hd, hh, arrive, leave, serve, login, Web.Gets, h1, h2, h3, e1, e2, e3, e4, e5]⟩
        | some r => exact ⟨_, acts 2, by simp [Web.exec, Web.step, hd, hh, arrive, leave, serve, login, userOf, sentBack, Web.Gets, h1, h2, h3, e1, e2, e3, e4, e5]⟩
      · exact ⟨_, acts 1, by simp [Web.exec, Web.step, hd, hh, arrive, leave, serve, login, Web.Gets, h1, h2, e1, e2, e3, e4, e5]⟩
    · exact ⟨_, acts 1, by simp [Web.exec, Web.step, hd, hh, arrive, leave, serve, login, Web.Gets, h1, e1, e2, e3, e4, e5]⟩
  | api host b req =>
    cases h1 : addressed host b req with
    | none => exact ⟨_, acts 1, by simp [Web.exec, Web.step, hd, hh, arrive, leave, serve, Web.Gets, h1, e1, e2, e3, e4, e5]⟩
    | some req' =>
      obtain ⟨l, g1, g2, g3, g4, g5, g6⟩ := alone_inside (q := q) (f := .ok) (hs := hs) (req := req')
        (by rw [hp]; simp [calls, hh, passedOn, h1]) (by simp [Web.step, hd, hh, arrive, leave, h1])
      refine ⟨l, g1, ?_, ?_, ?_, ?_, ?_⟩ <;> simp only [serve, h1]
      · simpa [hh, finish] using g2
      all_goals assumption

end Verif.Server
