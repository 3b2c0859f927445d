import Verif.Holder.Presentation
/-!
# What a wallet program asks and stores, given what it takes in
-/
namespace Verif.Holder
open Verif

section
variable {α β : Type}

/-- If all values taken from the store are `Good` and all answers are `Right`, then all values stored are `Good`, all calls are `Fit`, and the result satisfies `Q`. -/
def Asks (Good : HVal → Prop) (Fit : Call → Prop) (Right : (c : Call) → c.Reply → Prop) : HProg α → (α → Prop) → Prop
  | .ret (.ok a), Q => Q a
  | .ret (.error _), _ => True
  | .get _ c, Q => ∀ o, (∀ v, o = some v → Good v) → Asks Good Fit Right (c o) Q
  | .put _ v c, Q => Good v ∧ ∀ b, Asks Good Fit Right (c b) Q
  | .purge _ c, Q => ∀ b, Asks Good Fit Right (c b) Q
  | .draw c, Q => ∀ s, Asks Good Fit Right (c s) Q
  | .now c, Q => ∀ t, Asks Good Fit Right (c t) Q
  | .call c k, Q => Fit c ∧ ∀ o, (∀ r, o = some r → Right c r) → Asks Good Fit Right (k o) Q

variable {Good : HVal → Prop} {Fit : Call → Prop} {Right : (c : Call) → c.Reply → Prop}

theorem Asks.bind {p : HProg α} {f : α → HProg β} {Q : α → Prop} {Q' : β → Prop} (h : Asks Good Fit Right p Q) (hf : ∀ a, Q a → Asks Good Fit Right (f a) Q') :
    Asks Good Fit Right (p >>= f) Q' := by
  show Asks Good Fit Right (HProg.bind p f) Q'
  induction p with
  | ret r =>
    cases r with
    | ok a => exact hf a h
    | error e => trivial
  | get k c ih => exact fun o ho => ih o (h o ho)
  | put k v c ih => exact ⟨h.1, fun b => ih b (h.2 b)⟩
  | purge k c ih => exact fun o => ih o (h o)
  | draw c ih => exact fun o => ih o (h o)
  | now c ih => exact fun o => ih o (h o)
  | call c k ih => exact ⟨h.1, fun o ho => ih o (h.2 o ho)⟩

theorem Asks.pure {a : α} {Q : α → Prop} (h : Q a) : Asks Good Fit Right (Pure.pure a : HProg α) Q := h

theorem Asks.lift {r : HRes α} {Q : α → Prop} (h : ∀ a, r = .ok a → Q a) : Asks Good Fit Right (HProg.lift r) Q := by
  cases r with
  | ok a => exact h a rfl
  | error e => trivial

theorem Asks.lift' {r : HRes α} : Asks Good Fit Right (HProg.lift r) fun _ => True := Asks.lift fun _ _ => trivial

theorem Asks.getIssuance {k : String} {Q : Issuance → Prop} (h : ∀ i, Good (.issuance i) → Q i) : Asks Good Fit Right (HProg.getIssuance k) Q := by
  intro o ho
  match o with
  | none => trivial
  | some (.issuance i) => exact h i (ho _ rfl)
  | some (.presentation p) => trivial

theorem Asks.getPresentation {k : String} {Q : Presentation → Prop} (h : ∀ i, Good (.presentation i) → Q i) : Asks Good Fit Right (HProg.getPresentation k) Q := by
  intro o ho
  match o with
  | none => trivial
  | some (.issuance i) => trivial
  | some (.presentation p) => exact h p (ho _ rfl)

theorem Asks.putE {k : String} {v : HVal} (h : Good v) : Asks Good Fit Right (HProg.putE k v) fun _ => True := by
  refine ⟨h, fun b => ?_⟩
  cases b <;> trivial

theorem Asks.purgeE {k : String} : Asks Good Fit Right (HProg.purgeE k) fun _ => True := by
  intro b
  cases b <;> trivial

theorem Asks.drawE : Asks Good Fit Right HProg.drawE fun _ => True := fun _ => trivial

theorem Asks.nowE : Asks Good Fit Right HProg.nowE fun _ => True := fun _ => trivial

theorem Asks.callE {c : Call} (h : Fit c) : Asks Good Fit Right (HProg.callE c) (Right c) := by
  refine ⟨h, fun o ho => ?_⟩
  cases o with
  | none => trivial
  | some r => exact ho r rfl

theorem Asks.callO {c : Call} (h : Fit c) : Asks Good Fit Right (HProg.callO c) fun o => ∀ r, o = some r → Right c r := ⟨h, fun _ ho => ho⟩

/-- Two things that hold of a program. -/
theorem Asks.and {Good' : HVal → Prop} {Fit' : Call → Prop} {Right' : (c : Call) → c.Reply → Prop} {p : HProg α} {Q Q' : α → Prop} (h : Asks Good Fit Right p Q)
    (h' : Asks Good' Fit' Right' p Q') :
    Asks (fun v => Good v ∧ Good' v) (fun c => Fit c ∧ Fit' c) (fun c r => Right c r ∧ Right' c r) p fun a => Q a ∧ Q' a := by
  induction p with
  | ret r =>
    cases r with
    | ok a => exact ⟨h, h'⟩
    | error e => trivial
  | get k c ih => exact fun o ho => ih o (h o fun v hv => (ho v hv).1) (h' o fun v hv => (ho v hv).2)
  | put k v c ih => exact ⟨⟨h.1, h'.1⟩, fun b => ih b (h.2 b) (h'.2 b)⟩
  | purge k c ih => exact fun o => ih o (h o) (h' o)
  | draw c ih => exact fun o => ih o (h o) (h' o)
  | now c ih => exact fun o => ih o (h o) (h' o)
  | call c k ih => exact ⟨⟨h.1, h'.1⟩, fun o ho => ih o (h.2 o fun r hr => (ho r hr).1) (h'.2 o fun r hr => (ho r hr).2)⟩

/-- What a program finds in a store, and what is in it after a write. -/
theorem good_store {s : String → Option HVal} (hs : ∀ k v, s k = some v → Good v) {o : Option HVal} (ho : ∀ v, o = some v → Good v) (f : Fault) (k : String) :
    ∀ k' v, Prog.writeRes f s k o k' = some v → Good v := by
  intro k' v h
  rcases Prog.writeRes_eq (f := f) (s := s) (k := k) (k' := k') (v := o) with e | ⟨-, e⟩
  · exact hs k' v (e ▸ h)
  · exact ho v (e ▸ h)

/-- Two surroundings that answer the same to every fit call made after fit calls: the same happens. -/
theorem run_same {e e' : HEnv} (hr : e'.rng = e.rng) (hf : e'.fault = e.fault) {All : List Entry → List Event → Prop}
    (hall : ∀ log recent c o, All log recent → Fit c → All log (recent ++ [⟨c, o⟩]))
    (ho : ∀ log recent c, All log recent → Fit c → e'.oracle log recent c = e.oracle log recent c ∧ ∀ r, e.oracle log recent c = some r → Right c r)
    {p : HProg α} {Q : α → Prop} (h : Asks Good Fit Right p Q) {w : HWorld} (hs : ∀ k v, w.store k = some v → Good v) (hw : All w.log w.recent) :
    p.run e' w = p.run e w ∧ (∀ k v, (p.run e w).2.store k = some v → Good v) ∧ All (p.run e w).2.log (p.run e w).2.recent := by
  induction p generalizing w with
  | ret r => exact ⟨rfl, hs, hw⟩
  | get k c ih =>
    simp only [HProg.run, hf]
    exact ih _ (h _ fun v hv => hs k v (Prog.getRes_some hv)) hs hw
  | put k v c ih =>
    simp only [HProg.run, hf]
    exact ih _ (h.2 _) (good_store hs (by rintro _ ⟨⟩; exact h.1) _ _) hw
  | purge k c ih =>
    simp only [HProg.run, hf]
    exact ih _ (h _) (good_store (o := none) hs (fun _ h => nomatch h) _ _) hw
  | draw c ih =>
    simp only [HProg.run, hr]
    exact ih _ (h _) hs hw
  | now c ih => exact ih _ (h _) hs hw
  | call c k ih =>
    obtain ⟨h1, h2⟩ := ho w.log w.recent c hw h.1
    simp only [HProg.run, h1]
    exact ih _ (h.2 _ h2) hs (hall _ _ _ _ hw h.1)

theorem okBind {m : HRes α} {f : α → HRes β} {b : β} (h : (m >>= f) = .ok b) : ∃ a, m = .ok a ∧ f a = .ok b := by
  cases m with
  | ok a => exact ⟨a, rfl, h⟩
  | error e => cases h

end

end Verif.Holder
