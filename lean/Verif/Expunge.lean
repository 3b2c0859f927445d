import Verif.Base
/-!
# Stores that throw away what has expired

`StateStore::put` is given the time from which on the data "can be expunged from the state store" (/repo/crates/openid/src/provider.rs 14-18). Every call of it in the
issuer and the verifier gives the `expires_at` of the state that is stored (/repo/vercre-issuer/src/par.rs 78, authorize.rs 408, token.rs 222, create_offer.rs 194 and 214,
credential.rs 221, 231, 332 and 426; /repo/vercre-verifier/src/create_request.rs 162).
-/
namespace Verif

/-- A store that has thrown away those of the entries in `gone` whose expiry is at least `late` nanoseconds ago. The contract of `StateStore::put`,
/repo/crates/openid/src/provider.rs 14-18, allows this at any time, with `late = 0`. -/
def expunge {V : Type} (expiry : V → Int) (late : Int) (gone : String → Bool) (w : World V) : World V :=
  { w with store := fun k => if gone k then (w.store k).filter (fun v => !decide (expiry v + late ≤ w.now)) else w.store k }

/-- Every entry of the left store that has not expired for `late` is in the right one as it is; the others may be missing there. Machinery of the proofs; models no code. -/
def Thinned {V : Type} (expiry : V → Int) (late now : Int) (s s' : String → Option V) : Prop :=
  ∀ k, s' k = s k ∨ (s' k = none ∧ ∃ v, s k = some v ∧ expiry v + late ≤ now)

namespace Prog
variable {V α β : Type}

/-- The program fails at time `t`, draws nothing and leaves everything but `k` alone. Machinery of the proofs; models no code. -/
def Doomed (t : Int) (k : String) : Prog V α → Prop
  | ret (.ok _) => False
  | ret (.error _) => True
  | now c => Doomed t k (c t)
  | purge k' c => k' = k ∧ Doomed t k (c true)
  | _ => False

/-- At time `t` it makes no difference but for the kind of error when entries that satisfy `G` are missing. Machinery of the proofs; models no code. -/
def Tolerant (t : Int) (I G : V → Prop) : Prog V α → Prop
  | ret _ => True
  | get k c => (∀ o, (∀ v, o = some v → I v) → Tolerant t I G (c o)) ∧ (∃ e, c none = ret (.error e)) ∧ ∀ v, I v → G v → Doomed t k (c (some v))
  | put _ v c => I v ∧ Tolerant t I G (c true)
  | purge _ c => Tolerant t I G (c true)
  | draw c => ∀ s, Tolerant t I G (c s)
  | now c => Tolerant t I G (c t)

variable {t : Int} {I G : V → Prop} {k : String}

theorem Doomed.bind {p : Prog V α} {f : α → Prog V β} (h : Doomed t k p) : Doomed t k (p >>= f) := by
  show Doomed t k (p.bind f)
  induction p with
  | ret r =>
    cases r with
    | ok a => exact h.elim
    | error x => trivial
  | now c ih => exact ih t h
  | purge k' c ih => exact ⟨h.1, ih true h.2⟩
  | get | put | draw => exact h.elim

theorem Tolerant.bind {p : Prog V α} {f : α → Prog V β} (h : Tolerant t I G p) (hf : ∀ a, Tolerant t I G (f a)) : Tolerant t I G (p >>= f) := by
  show Tolerant t I G (p.bind f)
  induction p with
  | ret r =>
    cases r with
    | ok a => exact hf a
    | error x => trivial
  | get k c ih =>
    refine ⟨fun o ho => ih o (h.1 o ho), ?_, fun v hi hg => (h.2.2 v hi hg).bind⟩
    obtain ⟨e, he⟩ := h.2.1
    exact ⟨e, by show (c none).bind f = _; rw [he]; rfl⟩
  | put k v c ih => exact ⟨h.1, ih true h.2⟩
  | purge k c ih => exact ih true h
  | draw c ih => exact fun s => ih s (h s)
  | now c ih => exact ih t h

theorem Tolerant.lift (r : Res α) : Tolerant t I G (Prog.lift r) := trivial

theorem Tolerant.pure (a : α) : Tolerant t I G (Pure.pure a : Prog V α) := trivial

theorem Tolerant.drawE : Tolerant t I G (Prog.drawE : Prog V String) := fun _ => trivial

theorem Tolerant.nowE : Tolerant t I G (Prog.nowE : Prog V Int) := trivial

theorem Tolerant.putE {v : V} {e : Err} (h : I v) : Tolerant t I G (Prog.putE k v e) := ⟨h, trivial⟩

theorem Tolerant.purgeE {e : Err} : Tolerant t I G (Prog.purgeE k e : Prog V Unit) := trivial

/-- What reads an entry and goes on. -/
theorem Tolerant.got {e : Err} {f : V → Prog V β} (h : ∀ v, I v → Tolerant t I G (f v)) (hd : ∀ v, I v → G v → Doomed t k (f v)) :
    Tolerant t I G (Prog.getE k e >>= f) := by
  refine ⟨fun o ho => ?_, ⟨e, rfl⟩, fun v hi hg => hd v hi hg⟩
  cases o with
  | none => trivial
  | some v => exact h v (ho v rfl)

theorem Doomed.lifted {e : Err} {r : Res α} {f : α → Prog V β} (h : r = .error e) : Doomed t k (Prog.lift r >>= f) := by
  subst h; trivial

theorem Doomed.timed {f : Int → Prog V β} (h : Doomed t k (f t)) : Doomed t k (Prog.nowE >>= f) := h

theorem Doomed.purged {e : Err} {f : Unit → Prog V β} (h : Doomed t k (f ())) : Doomed t k (Prog.purgeE k e >>= f) := ⟨rfl, h⟩

theorem Doomed.ok {f : α → Prog V β} {r : Res α} (h : ∀ a, r = .ok a → Doomed t k (f a)) : Doomed t k (Prog.lift r >>= f) := by
  cases r with
  | ok a => exact h a rfl
  | error e => trivial

/-- A doomed program fails, and leaves a thinned store thinned. -/
theorem Doomed.run {e : Env} (hf : ∀ n, e.fault n = .ok) {expiry : V → Int} {late : Int} {p : Prog V α} {w : World V} {s' : String → Option V} (hk : s' k = none)
    (hr : Thinned expiry late w.now w.store s') (hI : ∀ k v, w.store k = some v → I v) (h : Doomed w.now k p) :
    ∃ x, (p.run e w).1 = .error x ∧ (p.run e w).2.drawn = w.drawn ∧ (p.run e w).2.now = w.now ∧ Thinned expiry late w.now (p.run e w).2.store s' ∧
      ∀ k v, (p.run e w).2.store k = some v → I v := by
  induction p generalizing w with
  | ret r =>
    cases r with
    | ok a => exact h.elim
    | error x => exact ⟨x, rfl, rfl, rfl, hr, hI⟩
  | now c ih => exact ih w.now hr hI h
  | purge k' c ih =>
    obtain ⟨rfl, h⟩ := h
    simp only [Prog.run, hf, decide_true, writeRes]
    refine ih true (w := { w with store := upd w.store k' none, ops := w.ops + 1 }) ?_ ?_ h
    · intro k
      by_cases e : k = k'
      · subst e; exact .inl (by simp [hk])
      · simpa [e] using hr k
    · intro k v hv
      by_cases e : k = k'
      · subst e; simp at hv
      · exact hI k v ((upd_other _ _ e).symm.trans hv)
  | get | put | draw => exact h.elim

/-- **The simulation**: over a store from which entries are missing that have expired for long, a tolerant program answers the same, or fails both times. -/
theorem Tolerant.run {e : Env} (hf : ∀ n, e.fault n = .ok) {expiry : V → Int} {late : Int} {p : Prog V α} {w w' : World V} (hn : w'.now = w.now)
    (hdr : w'.drawn = w.drawn) (hr : Thinned expiry late w.now w.store w'.store) (hI : ∀ k v, w.store k = some v → I v)
    (h : Tolerant w.now I (fun v => expiry v + late ≤ w.now) p) :
    ((p.run e w').1 = (p.run e w).1 ∨ ∃ x x', (p.run e w).1 = .error x ∧ (p.run e w').1 = .error x') ∧ (p.run e w).2.now = w.now ∧ (p.run e w').2.now = w.now ∧
      (p.run e w').2.drawn = (p.run e w).2.drawn ∧ Thinned expiry late w.now (p.run e w).2.store (p.run e w').2.store ∧ ∀ k v, (p.run e w).2.store k = some v → I v := by
  have written : ∀ {s s' : String → Option V} (k : String) (o : Option V), Thinned expiry late w.now s s' → Thinned expiry late w.now (upd s k o) (upd s' k o) := by
    intro s s' k o h k'
    by_cases e : k' = k
    · subst e; exact .inl (by simp)
    · simpa [e] using h k'
  have kept : ∀ {s : String → Option V} (k : String) (o : Option V), (∀ k v, s k = some v → I v) → (∀ v, o = some v → I v) → ∀ k' v, upd s k o k' = some v → I v := by
    intro s k o h ho k' v hv
    by_cases e : k' = k
    · subst e; rw [upd_same] at hv; exact ho v hv
    · rw [upd_other _ _ e] at hv; exact h k' v hv
  induction p generalizing w w' with
  | ret r => exact ⟨.inl rfl, rfl, hn, hdr, hr, hI⟩
  | get k c ih =>
    simp only [Prog.run, hf, getRes]
    rcases hr k with hk | ⟨hk, v, hv, hg⟩
    · rw [hk]
      exact ih (w.store k) (w := { w with ops := w.ops + 1 }) (w' := { w' with ops := w'.ops + 1 }) hn hdr hr hI (h.1 _ fun v hv => hI k v hv) written
    · obtain ⟨x', hx'⟩ := h.2.1
      have hd := h.2.2 v (hI k v hv) hg
      rw [hk, hx', hv]
      obtain ⟨x, h1, h2, h3, h4, h5⟩ := Doomed.run (w := { w with ops := w.ops + 1 }) hf hk hr hI hd
      exact ⟨.inr ⟨x, x', h1, rfl⟩, h3, hn, hdr.trans h2.symm, h4, h5⟩
  | put k v c ih =>
    simp only [Prog.run, hf, writeRes]
    exact ih true (w := { w with store := upd w.store k (some v), ops := w.ops + 1 }) (w' := { w' with store := upd w'.store k (some v), ops := w'.ops + 1 }) hn hdr
      (written k _ hr) (kept k _ hI fun v' e => by cases e; exact h.1) h.2 written
  | purge k c ih =>
    simp only [Prog.run, hf, writeRes]
    exact ih true (w := { w with store := upd w.store k none, ops := w.ops + 1 }) (w' := { w' with store := upd w'.store k none, ops := w'.ops + 1 }) hn hdr
      (written k _ hr) (kept k _ hI fun v' e => nomatch e) h written
  | draw c ih =>
    simp only [Prog.run]
    rw [hdr]
    exact ih _ (w := { w with drawn := w.drawn + 1 }) (w' := { w' with drawn := w.drawn + 1 }) hn rfl hr hI (h _) written
  | now c ih =>
    simp only [Prog.run, hn]
    exact ih _ hn hdr hr hI h written

end Prog

theorem Thinned.mono {V : Type} {expiry : V → Int} {late t t' : Int} {s s' : String → Option V} (h : Thinned expiry late t s s') (ht : t ≤ t') :
    Thinned expiry late t' s s' := by
  intro k
  rcases h k with h | ⟨h, v, hv, hg⟩
  · exact .inl h
  · exact .inr ⟨h, v, hv, Int.le_trans hg ht⟩

theorem Thinned.expunge {V : Type} {expiry : V → Int} {late : Int} {w : World V} {s : String → Option V} {gone : String → Bool}
    (h : Thinned expiry late w.now s w.store) : Thinned expiry late w.now s (expunge expiry late gone w).store := by
  intro k
  show (if gone k then (w.store k).filter _ else w.store k) = s k ∨ (if gone k then (w.store k).filter _ else w.store k) = none ∧ _
  rcases h k with h | ⟨h, v, hv, hg⟩
  · by_cases hgk : gone k = true
    · simp only [hgk, if_true, h]
      cases hs : s k with
      | none => exact .inl rfl
      | some v =>
        by_cases hg : expiry v + late ≤ w.now
        · exact .inr ⟨by simp [hg], v, rfl, hg⟩
        · exact .inl (by simp [hg])
    · simp only [hgk]
      exact .inl h
  · exact .inr ⟨by simp [h], v, hv, hg⟩

end Verif
