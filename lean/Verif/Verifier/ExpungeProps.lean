import Verif.Expunge
import Verif.Verifier.Demo
/-!
# A state store may throw away what has expired: C204, of the verifier
-/
namespace Verif.Verifier
open Prog

/-! ## Specification -/

/-- A step of a history, and which entries the store has thrown away by then, if they have expired. Specification; models no code. -/
structure Visit where
  step : Step
  gone : String → Bool

/-- What the verifier answers, call by call, over a store that keeps everything. Specification; models no code. -/
def answers (e : Env) (w : World VState) : List Step → List (Res Resp)
  | [] => []
  | s :: rest => (step e w s).1 :: answers e (step e w s).2 rest

/-- Serving one step over a store that has thrown away entries that had expired, as of the time of the call. Specification; models no code. -/
def visit (e : Env) (w : World VState) (v : Visit) : Res Resp × World VState :=
  (call v.step.provider v.step.req).run e (expunge VState.expiresAt 0 v.gone { w with now := w.now + v.step.wait })

/-- What the verifier answers, call by call, over such a store. Specification; models no code. -/
def answersExpunging (e : Env) (w : World VState) : List Visit → List (Res Resp)
  | [] => []
  | v :: rest => (visit e w v).1 :: answersExpunging e (visit e w v).2 rest

/-! ## Proofs -/

/-- A program that reads nothing from the store and draws nothing, and writes at most by removing `k`. Machinery of the proofs; models no code. -/
def Removes {α : Type} (k : String) : VProg α → Prop
  | .ret _ => True
  | .now c => ∀ t, Removes k (c t)
  | .purge k' c => k' = k ∧ ∀ b, Removes k (c b)
  | _ => False

theorem Removes.bind {α β : Type} {k : String} {p : VProg α} {f : α → VProg β} (h : Removes k p) (hf : ∀ a, Removes k (f a)) : Removes k (p >>= f) := by
  show Removes k (p.bind f)
  induction p with
  | ret r =>
    cases r with
    | ok a => exact hf a
    | error x => trivial
  | now c ih => exact fun t => ih t (h t)
  | purge k' c ih => exact ⟨h.1, fun b => ih b (h.2 b)⟩
  | get | put | draw => exact h.elim

/-- Such a program answers the same over every store without faults, and leaves other entries alone. -/
theorem Removes.run {α : Type} {k : String} {e : Env} (hf : ∀ n, e.fault n = .ok) {p : VProg α} (h : Removes k p) {w w' : World VState} (hn : w'.now = w.now) :
    (p.run e w').1 = (p.run e w).1 ∧ (p.run e w).2.now = w.now ∧ (p.run e w).2.drawn = w.drawn ∧
      ((p.run e w).2.store = w.store ∧ (p.run e w').2.store = w'.store ∨ (p.run e w).2.store = upd w.store k none ∧ (p.run e w').2.store = upd w'.store k none) := by
  induction p generalizing w w' with
  | ret r => exact ⟨rfl, rfl, rfl, .inl ⟨rfl, rfl⟩⟩
  | now c ih => simp only [Prog.run, hn]; exact ih _ (h _) hn
  | purge k' c ih =>
    obtain ⟨rfl, h⟩ := h
    simp only [Prog.run, hf, writeRes]
    obtain ⟨h1, h2, h3, h4⟩ := ih true (h true) (w := { w with store := upd w.store k' none, ops := w.ops + 1 }) (w' := { w' with store := upd w'.store k' none, ops := w'.ops + 1 }) hn
    have twice : ∀ s : String → Option VState, upd (upd s k' none) k' none = upd s k' none := by
      intro s; funext k; simp only [upd]; split <;> rfl
    refine ⟨h1, h2, h3, .inr ?_⟩
    rcases h4 with ⟨a, b⟩ | ⟨a, b⟩
    · exact ⟨a, b⟩
    · exact ⟨a.trans (twice _), b.trans (twice _)⟩
  | get | put | draw => exact h.elim

/-- The entries of the right store are entries of the left one. Machinery of the proofs; models no code. -/
structure Beside (w w' : World VState) : Prop where
  now : w'.now = w.now
  drawn : w'.drawn = w.drawn
  store : ∀ k, w'.store k = w.store k ∨ w'.store k = none

theorem Beside.written {s s' : String → Option VState} (h : ∀ k, s' k = s k ∨ s' k = none) (k : String) (o : Option VState) :
    ∀ k', upd s' k o k' = upd s k o k' ∨ upd s' k o k' = none := by
  intro k'
  by_cases e : k' = k
  · subst e; exact .inl (by simp)
  · simpa [e] using h k'

/-- A program that reads one entry. -/
theorem Beside.reads {α : Type} {e : Env} (hf : ∀ n, e.fault n = .ok) {w w' : World VState} (h : Beside w w') {k : String} {x : Err} {f : VState → VProg α}
    (hfr : ∀ v, Removes k (f v)) : let p := getE k x >>= f
    Beside (p.run e w).2 (p.run e w').2 ∧ ∀ r, (p.run e w').1 = .ok r → (p.run e w).1 = .ok r := by
  show Beside (Prog.run e (.get k _) w).2 (Prog.run e (.get k _) w').2 ∧ ∀ r, (Prog.run e (.get k _) w').1 = .ok r → (Prog.run e (.get k _) w).1 = .ok r
  simp only [Prog.run, hf, getRes]
  rcases h.store k with hk | hk
  · rw [hk]
    cases w.store k with
    | none => exact ⟨⟨h.now, h.drawn, h.store⟩, fun r hr => by cases hr⟩
    | some v =>
      obtain ⟨h1, h2, h3, h4⟩ := (hfr v).run (w := { w with ops := w.ops + 1 }) (w' := { w' with ops := w'.ops + 1 }) hf h.now
      obtain ⟨_, h2', h3', _⟩ := (hfr v).run (w := { w' with ops := w'.ops + 1 }) (w' := { w' with ops := w'.ops + 1 }) hf rfl
      refine ⟨⟨h2'.trans (h.now.trans h2.symm), h3'.trans (h.drawn.trans h3.symm), fun k' => ?_⟩, fun r hr => h1.symm.trans hr⟩
      show ((f v).run e _).2.store k' = ((f v).run e _).2.store k' ∨ ((f v).run e _).2.store k' = none
      rcases h4 with ⟨a, b⟩ | ⟨a, b⟩
      · rw [a, b]; exact h.store k'
      · rw [a, b]; exact Beside.written h.store k none k'
  · rw [hk]
    refine ⟨?_, fun r hr => by cases hr⟩
    cases hs : w.store k with
    | none => exact ⟨h.now, h.drawn, h.store⟩
    | some v =>
      obtain ⟨_, h2, h3, h4⟩ := (hfr v).run (w := { w with ops := w.ops + 1 }) (w' := { w with ops := w.ops + 1 }) hf rfl
      refine ⟨h.now.trans h2.symm, h.drawn.trans h3.symm, fun k' => ?_⟩
      show w'.store k' = ((f v).run e _).2.store k' ∨ w'.store k' = none
      rcases h4 with ⟨a, _⟩ | ⟨a, _⟩
      · rw [a]; exact h.store k'
      · rw [a]
        by_cases e : k' = k
        · subst e; exact .inr hk
        · rw [upd_other _ _ e]; exact h.store k'

theorem verify_removes {k : String} {P : Provider} {ro : RequestObject} {req : ResponseRequest} : Removes k (Response.verify P ro req) := by
  refine Removes.bind trivial fun p => ?_
  generalize p.2.2 = is
  induction is with
  | nil => trivial
  | cons i is ih => exact Removes.bind (fun _ => trivial) fun _ => Removes.bind trivial fun _ => ih

theorem bind_assoc' {α β γ : Type} (p : VProg α) (f : α → VProg β) (g : β → VProg γ) : ((p >>= f) >>= g) = (p >>= fun a => f a >>= g) := by
  show (p.bind f).bind g = p.bind fun a => (f a).bind g
  induction p with
  | ret r => cases r <;> rfl
  | get k c ih => simp only [Prog.bind, ih]
  | put k v c ih => simp only [Prog.bind, ih]
  | purge k c ih => simp only [Prog.bind, ih]
  | draw c ih => simp only [Prog.bind, ih]
  | now c ih => simp only [Prog.bind, ih]

/-- A program that reads nothing from the store. Machinery of the proofs; models no code. -/
def Blind {α : Type} : VProg α → Prop
  | .ret _ => True
  | .get _ _ => False
  | .put _ _ c => ∀ b, Blind (c b)
  | .purge _ c => ∀ b, Blind (c b)
  | .draw c => ∀ s, Blind (c s)
  | .now c => ∀ t, Blind (c t)

theorem Beside.blind {α : Type} {e : Env} (hf : ∀ n, e.fault n = .ok) {p : VProg α} (hp : Blind p) {w w' : World VState} (h : Beside w w') :
    Beside (p.run e w).2 (p.run e w').2 ∧ ∀ r, (p.run e w').1 = .ok r → (p.run e w).1 = .ok r := by
  induction p generalizing w w' with
  | ret r => exact ⟨h, fun _ h => h⟩
  | get => exact hp.elim
  | put k v c ih => simp only [Prog.run, hf, writeRes]; exact ih _ (hp _) ⟨h.now, h.drawn, Beside.written h.store _ _⟩
  | purge k c ih => simp only [Prog.run, hf, writeRes]; exact ih _ (hp _) ⟨h.now, h.drawn, Beside.written h.store _ _⟩
  | draw c ih => simp only [Prog.run, h.drawn]; exact ih _ (hp _) ⟨h.now, rfl, h.store⟩
  | now c ih => simp only [Prog.run, h.now]; exact ih _ (hp _) h

theorem Beside.call {e : Env} (hf : ∀ n, e.fault n = .ok) {P : Provider} (req : Req) {w w' : World VState} (h : Beside w w') :
    Beside ((call P req).run e w).2 ((call P req).run e w').2 ∧ ∀ r, ((call P req).run e w').1 = .ok r → ((call P req).run e w).1 = .ok r := by
  cases req with
  | createRequest r =>
    refine Beside.blind hf ?_ h
    show Blind (Prog.bind (createRequest P r) _)
    unfold createRequest
    cases require (!r.inputDescriptors.isEmpty) (.invalidRequest "no credentials specified") with
    | error x => trivial
    | ok u =>
      intro uuid tok
      cases orErr (P.verifier r.clientId) (.invalidRequest "invalid client_id") with
      | error x => trivial
      | ok md => intro nonce now b; cases b <;> trivial
  | requestObject r =>
    show Beside (Prog.run e (requestObject P r >>= _) w).2 (Prog.run e (requestObject P r >>= _) w').2 ∧
      ∀ x, (Prog.run e (requestObject P r >>= _) w').1 = .ok x → (Prog.run e (requestObject P r >>= _) w).1 = .ok x
    unfold requestObject
    rw [bind_assoc']
    exact Beside.reads hf h fun v => Removes.bind (Removes.bind trivial fun _ => Removes.bind trivial fun _ => trivial) fun _ => trivial
  | response r =>
    show Beside (Prog.run e (response P r >>= _) w).2 (Prog.run e (response P r >>= _) w').2 ∧
      ∀ x, (Prog.run e (response P r >>= _) w').1 = .ok x → (Prog.run e (response P r >>= _) w).1 = .ok x
    unfold response
    cases r.state with
    | none => exact ⟨h, fun x hx => by cases hx⟩
    | some k =>
      show Beside (Prog.run e ((getE k _ >>= _) >>= _) w).2 (Prog.run e ((getE k _ >>= _) >>= _) w').2 ∧
        ∀ x, (Prog.run e ((getE k _ >>= _) >>= _) w').1 = .ok x → (Prog.run e ((getE k _ >>= _) >>= _) w).1 = .ok x
      rw [bind_assoc']
      exact Beside.reads hf h fun v => Removes.bind (Removes.bind verify_removes fun _ =>
        Removes.bind (show Removes k (Prog.purge k _) from ⟨rfl, fun b => by cases b <;> trivial⟩) fun _ => trivial) fun _ => trivial
  | metadata c =>
    refine Beside.blind hf ?_ h
    show Blind (Prog.bind (metadata P c) _)
    unfold metadata
    cases orErr (P.verifier c) (.serverError "issue getting metadata") <;> trivial

theorem Beside.answers {e : Env} (hf : ∀ n, e.fault n = .ok) (vs : List Visit) {w w' : World VState} (h : Beside w w') (i : Nat) (r : Resp)
    (hr : (answersExpunging e w' vs)[i]? = some (.ok r)) : (Verifier.answers e w (vs.map (·.step)))[i]? = some (.ok r) := by
  induction vs generalizing w w' i with
  | nil => cases hr
  | cons u us ih =>
    have hb : Beside { w with now := w.now + u.step.wait } (expunge VState.expiresAt 0 u.gone { w' with now := w'.now + u.step.wait }) := by
      refine ⟨congrArg (· + (u.step.wait : Int)) h.now, h.drawn, fun k => ?_⟩
      show (if u.gone k then (w'.store k).filter _ else w'.store k) = w.store k ∨ (if u.gone k then (w'.store k).filter _ else w'.store k) = none
      rcases h.store k with hk | hk
      · rw [hk]
        cases u.gone k with
        | false => exact .inl rfl
        | true =>
          cases w.store k with
          | none => exact .inl rfl
          | some v =>
            simp only [if_true, Option.filter]
            split
            · exact .inl rfl
            · exact .inr rfl
      · rw [hk]
        cases u.gone k <;> exact .inr rfl
    obtain ⟨h1, h2⟩ := hb.call hf (P := u.step.provider) u.step.req
    cases i with
    | zero => exact congrArg some (h2 r (Option.some.inj hr))
    | succ i => exact ih h1 i hr

/-! ## C204 -/

/-- **C204** (partial), of the verifier: over a store that throws away what has expired, the verifier accepts nothing that it would not accept over one that keeps
everything. Take any history of calls and any choice of expired entries that are gone before each. Every call that succeeds gives the same answer over both stores. -/
theorem C204_verifier_accepts_no_more_partial {e : Env} (hf : ∀ n, e.fault n = .ok) (t0 : Int) (vs : List Visit) (i : Nat) (r : Resp)
    (hr : (answersExpunging e (start t0) vs)[i]? = some (.ok r)) : (answers e (start t0) (vs.map (·.step)))[i]? = some (.ok r) :=
  Beside.answers hf vs ⟨rfl, rfl, fun _ => .inl rfl⟩ i r hr

/-- **C204** (partial), of the verifier: over a store that throws away at once what has expired, a request for presentation is answered, or fetched, only within five minutes. -/
theorem C204_verifier_in_time_partial {e : Env} {w : World VState} {s : Step} {r : Resp} (h : (visit e w ⟨s, fun _ => true⟩).1 = .ok r) {k : String}
    (hk : (∃ q, s.req = .response q ∧ q.state = some k) ∨ ∃ q, s.req = .requestObject q ∧ q.id = k) :
    ∃ st, w.store k = some st ∧ w.now + s.wait < st.expiresAt := by
  have key : ∀ {α : Type} {x : Err} {f : VState → VProg α} {a : α},
      ((getE k x >>= f).run e (expunge VState.expiresAt 0 (fun _ => true) { w with now := w.now + s.wait })).1 = .ok a →
      ∃ st, w.store k = some st ∧ w.now + s.wait < st.expiresAt := by
    intro α x f a h
    cases hs : w.store k with
    | none =>
      have h : (Prog.run e (.get k _) (expunge VState.expiresAt 0 (fun _ => true) { w with now := w.now + s.wait })).1 = .ok a := h
      simp only [Prog.run, expunge, if_true, hs, Option.filter] at h
      cases he : e.fault w.ops <;> rw [he] at h <;> cases h
    | some st =>
      refine ⟨st, rfl, ?_⟩
      by_cases ht : w.now + s.wait < st.expiresAt
      · exact ht
      · have h : (Prog.run e (.get k _) (expunge VState.expiresAt 0 (fun _ => true) { w with now := w.now + s.wait })).1 = .ok a := h
        have hle : st.expiresAt + 0 ≤ w.now + s.wait := by omega
        simp only [Prog.run, expunge, if_true, hs, Option.filter, hle, decide_true, Bool.not_true] at h
        cases he : e.fault w.ops <;> rw [he] at h <;> cases h
  unfold visit at h
  rcases hk with ⟨q, hq, hqs⟩ | ⟨q, hq, rfl⟩
  · rw [hq] at h
    have h : (Prog.run e (response s.provider q >>= _) _).1 = .ok r := h
    unfold response at h
    rw [hqs] at h
    have h : (Prog.run e ((getE k _ >>= _) >>= _) _).1 = .ok r := h
    rw [bind_assoc'] at h
    exact key h
  · rw [hq] at h
    have h : (Prog.run e (requestObject s.provider q >>= _) _).1 = .ok r := h
    unfold requestObject at h
    rw [bind_assoc'] at h
    exact key h

namespace ExpungeDemo
open Demo

/-- A request for presentation is made, and answered after the given time. Example; models no code. -/
def visits (ns : Nat) : List Visit :=
  [⟨{ provider, req := .createRequest (createReq .crossDevice) }, fun _ => true⟩, ⟨{ provider, wait := ns, req := .response (resp (.string "vp.jwt")) }, fun _ => true⟩]

/-- Whether an answer is a success. Example; models no code. -/
def oks (l : List (Res Resp)) : List Bool := l.map fun a => match a with | .ok _ => true | .error _ => false

/-- **C204** applies: an answer in time is accepted over both stores. -/
example : oks (answersExpunging env (start 0) (visits 1000000000)) = [true, true] := by decide +kernel

/-- **C204** applies, in time. -/
example : ∃ st, w1.store "tt" = some st ∧ w1.now + 1 < st.expiresAt :=
  C204_verifier_in_time_partial (e := env) (w := w1) (s := { provider, wait := 1, req := .response (resp (.string "vp.jwt")) }) (r := .response accepted) rfl
    (.inl ⟨_, rfl, rfl⟩)

/-- **C204 is false** of the verifier: whether an answer is accepted that comes a day after the request depends on whether the store has thrown the request away, as the
expiry is not checked. -/
theorem C204_violated_presentation : oks (answers env (start 0) ((visits 86400000000000).map (·.step))) = [true, true] ∧
    oks (answersExpunging env (start 0) (visits 86400000000000)) = [true, false] := by decide +kernel

end ExpungeDemo
end Verif.Verifier
