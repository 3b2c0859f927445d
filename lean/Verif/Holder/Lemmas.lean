import Verif.Holder.Presentation
/-!
# What running a wallet program does: calls made, writes done, nothing else
-/
namespace Verif.Holder
open Verif HProg

/-- A write to the state store that took effect. -/
abbrev Write := String × Option HVal

/-- The store after some writes. -/
def applyWrites (s : String → Option HVal) (ws : List Write) : String → Option HVal := ws.foldl (fun s w => upd s w.1 w.2) s

/-- Between two worlds, exactly these calls were made, answered by the environment, and exactly these writes took effect. -/
structure Eff (e : HEnv) (w w' : HWorld) (evs : List Event) (ws : List Write) : Prop where
  now : w'.now = w.now
  log : w'.log = w.log
  recent : w'.recent = w.recent ++ evs
  store : w'.store = applyWrites w.store ws
  drawn : w.drawn ≤ w'.drawn
  answers : ∀ pre ev post, evs = pre ++ ev :: post → ev.reply = e.oracle w.log (w.recent ++ pre) ev.call

theorem Eff.refl (e : HEnv) (w : HWorld) : Eff e w w [] [] :=
  ⟨rfl, rfl, by simp, rfl, Nat.le_refl _, by intro pre ev post h; simp at h⟩

theorem Eff.trans {e : HEnv} {w w1 w2 : HWorld} {v1 v2 : List Event} {u1 u2 : List Write} (h1 : Eff e w w1 v1 u1) (h2 : Eff e w1 w2 v2 u2) :
    Eff e w w2 (v1 ++ v2) (u1 ++ u2) := by
  refine ⟨h2.now.trans h1.now, h2.log.trans h1.log, by rw [h2.recent, h1.recent]; simp, ?_, Nat.le_trans h1.drawn h2.drawn, ?_⟩
  · rw [h2.store, h1.store]; simp [applyWrites]
  · intro pre ev post h
    rcases List.append_eq_append_iff.mp h with ⟨a, ha, hb⟩ | ⟨a, ha, hb⟩
    · have := h2.answers a ev post hb
      rw [this, h1.log, h1.recent, ha]; simp
    · cases a with
      | nil =>
        simp only [List.append_nil, List.nil_append] at ha hb
        have := h2.answers [] ev post hb.symm
        rw [this, h1.log, h1.recent, ha]; simp
      | cons x a =>
        simp only [List.cons_append, List.cons.injEq] at hb
        obtain ⟨rfl, hb⟩ := hb
        exact h1.answers pre ev a ha

section
variable {α β : Type} {e : HEnv} {w w' : HWorld}

theorem run_bind (e : HEnv) (p : HProg α) (f : α → HProg β) (w : HWorld) :
    (p >>= f).run e w = match p.run e w with | (.ok a, w1) => (f a).run e w1 | (.error x, w1) => (.error x, w1) := by
  show (HProg.bind p f).run e w = _
  induction p generalizing w with
  | ret r => cases r <;> rfl
  | get k c ih => exact ih _ _
  | put k v c ih => exact ih _ _
  | purge k c ih => exact ih _ _
  | draw c ih => exact ih _ _
  | now c ih => exact ih _ _
  | call c k ih => exact ih _ _

theorem bind_inv {p : HProg α} {f : α → HProg β} {r : HRes β} (h : (p >>= f).run e w = (r, w')) :
    (∃ x, p.run e w = (.error x, w') ∧ r = .error x) ∨ ∃ a w1, p.run e w = (.ok a, w1) ∧ (f a).run e w1 = (r, w') := by
  rw [run_bind] at h
  obtain ⟨⟨q, w1⟩, hq⟩ : ∃ q, p.run e w = q := ⟨_, rfl⟩
  rw [hq] at h
  cases q with
  | ok a => exact .inr ⟨a, w1, hq, h⟩
  | error x =>
    simp only [Prod.mk.injEq] at h
    obtain ⟨rfl, rfl⟩ := h
    exact .inl ⟨x, hq, rfl⟩

theorem pure_inv {a : α} {r : HRes α} (h : (pure a : HProg α).run e w = (r, w')) : r = .ok a ∧ w' = w := by
  have : (Except.ok a, w) = (r, w') := h
  simp only [Prod.mk.injEq] at this
  exact ⟨this.1.symm, this.2.symm⟩

theorem lift_inv {x r : HRes α} (h : (lift x : HProg α).run e w = (r, w')) : r = x ∧ w' = w := by
  have : (x, w) = (r, w') := h
  simp only [Prod.mk.injEq] at this
  exact ⟨this.1.symm, this.2.symm⟩

theorem refuse_inv {s : String} {r : HRes α} (h : (refuse s : HProg α).run e w = (r, w')) : r = .error (.refused s) ∧ w' = w := by
  have : (Except.error (HErr.refused s), w) = (r, w') := h
  simp only [Prod.mk.injEq] at this
  exact ⟨this.1.symm, this.2.symm⟩

theorem getRes_some {f : Fault} {o : Option HVal} {v : HVal} (h : Prog.getRes f o = some v) : o = some v := by
  cases f <;> simp_all [Prog.getRes]

theorem getIssuance_inv {k : String} {r : HRes Issuance} (h : (getIssuance k).run e w = (r, w')) :
    Eff e w w' [] [] ∧ w'.drawn = w.drawn ∧ (r = .error .load ∨ ∃ i, w.store k = some (.issuance i) ∧ r = .ok i) := by
  have hE : Eff e w { w with ops := w.ops + 1 } [] [] := ⟨rfl, rfl, by simp, rfl, Nat.le_refl _, by intro pre ev post h; simp at h⟩
  simp only [getIssuance, run] at h
  split at h
  · rename_i i hi
    simp only [run, Prod.mk.injEq] at h
    obtain ⟨rfl, rfl⟩ := h
    exact ⟨hE, rfl, .inr ⟨i, getRes_some hi, rfl⟩⟩
  · simp only [run, Prod.mk.injEq] at h
    obtain ⟨rfl, rfl⟩ := h
    exact ⟨hE, rfl, .inl rfl⟩

theorem getPresentation_inv {k : String} {r : HRes Presentation} (h : (getPresentation k).run e w = (r, w')) :
    Eff e w w' [] [] ∧ w'.drawn = w.drawn ∧ (r = .error .load ∨ ∃ p, w.store k = some (.presentation p) ∧ r = .ok p) := by
  have hE : Eff e w { w with ops := w.ops + 1 } [] [] := ⟨rfl, rfl, by simp, rfl, Nat.le_refl _, by intro pre ev post h; simp at h⟩
  simp only [getPresentation, run] at h
  split at h
  · rename_i i hi
    simp only [run, Prod.mk.injEq] at h
    obtain ⟨rfl, rfl⟩ := h
    exact ⟨hE, rfl, .inr ⟨i, getRes_some hi, rfl⟩⟩
  · simp only [run, Prod.mk.injEq] at h
    obtain ⟨rfl, rfl⟩ := h
    exact ⟨hE, rfl, .inl rfl⟩

theorem drawE_inv {r : HRes String} (h : drawE.run e w = (r, w')) :
    Eff e w w' [] [] ∧ w'.drawn = w.drawn + 1 ∧ r = .ok (e.rng w.drawn) := by
  simp only [drawE, run, Prod.mk.injEq] at h
  obtain ⟨rfl, rfl⟩ := h
  exact ⟨⟨rfl, rfl, by simp, rfl, Nat.le_succ _, by intro pre ev post h; simp at h⟩, rfl, rfl⟩

theorem nowE_inv {r : HRes Int} (h : nowE.run e w = (r, w')) : w' = w ∧ r = .ok w.now := by
  simp only [nowE, run, Prod.mk.injEq] at h
  exact ⟨h.2.symm, h.1.symm⟩

theorem callO_inv {c : Call} {r : HRes (Option c.Reply)} (h : (callO c).run e w = (r, w')) :
    ∃ o, Eff e w w' [⟨c, o⟩] [] ∧ w'.drawn = w.drawn ∧ r = .ok o := by
  simp only [callO, run, Prod.mk.injEq] at h
  obtain ⟨rfl, rfl⟩ := h
  refine ⟨_, ⟨rfl, rfl, rfl, rfl, Nat.le_refl _, ?_⟩, rfl, rfl⟩
  intro pre ev post h
  cases pre with
  | nil => simp only [List.nil_append, List.cons.injEq] at h; obtain ⟨rfl, -⟩ := h; simp
  | cons x pre => simp at h

theorem callE_inv {c : Call} {r : HRes c.Reply} (h : (callE c).run e w = (r, w')) :
    ∃ o, Eff e w w' [⟨c, o⟩] [] ∧ w'.drawn = w.drawn ∧ ((o = none ∧ r = .error .provider) ∨ ∃ a, o = some a ∧ r = .ok a) := by
  obtain ⟨o, ho⟩ : ∃ o, e.oracle w.log w.recent c = o := ⟨_, rfl⟩
  simp only [callE, run, Prod.mk.injEq, ho] at h
  obtain ⟨rfl, rfl⟩ := h
  refine ⟨o, ⟨rfl, rfl, rfl, rfl, Nat.le_refl _, ?_⟩, rfl, ?_⟩
  · intro pre ev post h
    cases pre with
    | nil => simp only [List.nil_append, List.cons.injEq] at h; obtain ⟨rfl, -⟩ := h; simp [ho]
    | cons x pre => simp at h
  · cases o with
    | none => exact .inl ⟨rfl, rfl⟩
    | some a => exact .inr ⟨a, rfl, rfl⟩

/-- How a write can end: done; reported as failed without effect; reported as failed but done. -/
inductive Wrote (e : HEnv) (x : Write) : HRes Unit → List Write → Prop
  | done : Wrote e x (.ok ()) [x]
  | lost : Wrote e x (.error .store) []
  | late (h : ∃ n, e.fault n = .failAfter) : Wrote e x (.error .store) [x]

theorem writeRes_cases (e : HEnv) (w : HWorld) (k : String) (v : Option HVal) :
    ∃ ws, Wrote e (k, v) (if e.fault w.ops == .ok then .ok () else .error .store) ws ∧
      Eff e w { w with store := Prog.writeRes (e.fault w.ops) w.store k v, ops := w.ops + 1 } [] ws := by
  cases h : e.fault w.ops with
  | ok => exact ⟨_, .done, rfl, rfl, by simp, rfl, Nat.le_refl _, by intro pre ev post h; simp at h⟩
  | failBefore => exact ⟨_, .lost, rfl, rfl, by simp, rfl, Nat.le_refl _, by intro pre ev post h; simp at h⟩
  | failAfter => exact ⟨_, .late ⟨_, h⟩, rfl, rfl, by simp, rfl, Nat.le_refl _, by intro pre ev post h; simp at h⟩

theorem putE_inv {k : String} {v : HVal} {r : HRes Unit} (h : (putE k v).run e w = (r, w')) :
    ∃ ws, Eff e w w' [] ws ∧ w'.drawn = w.drawn ∧ Wrote e (k, some v) r ws := by
  simp only [putE, run, Prod.mk.injEq] at h
  obtain ⟨rfl, rfl⟩ := h
  obtain ⟨ws, h1, h2⟩ := writeRes_cases e w k (some v)
  exact ⟨ws, h2, rfl, h1⟩

theorem purgeE_inv {k : String} {r : HRes Unit} (h : (purgeE k).run e w = (r, w')) :
    ∃ ws, Eff e w w' [] ws ∧ w'.drawn = w.drawn ∧ Wrote e (k, none) r ws := by
  simp only [purgeE, run, Prod.mk.injEq] at h
  obtain ⟨rfl, rfl⟩ := h
  obtain ⟨ws, h1, h2⟩ := writeRes_cases e w k none
  exact ⟨ws, h2, rfl, h1⟩

/-- A last write followed by the answer. -/
inductive Ends (e : HEnv) (x : Write) (a : α) : HRes α → List Write → Prop
  | done : Ends e x a (.ok a) [x]
  | lost : Ends e x a (.error .store) []
  | late (h : ∃ n, e.fault n = .failAfter) : Ends e x a (.error .store) [x]

theorem write_pure_inv {p : HProg Unit} {x : Write} {a : α} {r : HRes α}
    (hp : ∀ {r w w'}, p.run e w = (r, w') → ∃ ws, Eff e w w' [] ws ∧ w'.drawn = w.drawn ∧ Wrote e x r ws)
    (h : (p >>= fun _ => (pure a : HProg α)).run e w = (r, w')) :
    ∃ ws, Eff e w w' [] ws ∧ w'.drawn = w.drawn ∧ Ends e x a r ws := by
  rcases bind_inv h with ⟨y, h1, rfl⟩ | ⟨_, w1, h1, h2⟩
  · obtain ⟨ws, h3, h4, h5⟩ := hp h1
    refine ⟨ws, h3, h4, ?_⟩
    generalize hq : (Except.error y : HRes Unit) = q at h5
    cases h5 <;> cases hq
    · exact .lost
    · rename_i hl; exact .late hl
  · obtain ⟨rfl, rfl⟩ := pure_inv h2
    obtain ⟨ws, h3, h4, h5⟩ := hp h1
    refine ⟨ws, h3, h4, ?_⟩
    generalize hq : (Except.ok _ : HRes Unit) = q at h5
    cases h5 <;> cases hq
    exact .done

end

theorem check_ok {c : Bool} {why : String} {u : Unit} (h : .ok u = check c why) : c = true := by
  cases c <;> simp_all [check]

theorem check_err {c : Bool} {why : String} {x : HErr} (h : .error x = check c why) : c = false ∧ x = .refused why := by
  cases c <;> simp_all [check]

theorem need_ok {α : Type} {o : Option α} {why : String} {a : α} (h : .ok a = need o why) : o = some a := by
  cases o <;> simp_all [need]

theorem need_err {α : Type} {o : Option α} {why : String} {x : HErr} (h : .error x = need o why) : o = none ∧ x = .refused why := by
  cases o <;> simp_all [need]

end Verif.Holder
