import Verif.Base
/-!
# Calls that are broken off

`Prog.run` runs a call to its end. A server may stop before that; what the call has written by then stays.
-/
namespace Verif

/-! ### Specification -/

/-- The world in which a call is broken off after `n` of its effects (or has ended before): the store, the clock and the random source as they are then.
Machinery of the model; the store is that of /repo/crates/openid/src/provider.rs 13-25. -/
def Prog.cut {V α : Type} (e : Env) : Nat → Prog V α → World V → World V
  | 0, _, w => w
  | _ + 1, .ret _, w => w
  | n + 1, .get k c, w => cut e n (c (getRes (e.fault w.ops) (w.store k))) { w with ops := w.ops + 1 }
  | n + 1, .put k v c, w => cut e n (c (decide (e.fault w.ops = .ok))) { w with store := writeRes (e.fault w.ops) w.store k (some v), ops := w.ops + 1 }
  | n + 1, .purge k c, w => cut e n (c (decide (e.fault w.ops = .ok))) { w with store := writeRes (e.fault w.ops) w.store k none, ops := w.ops + 1 }
  | n + 1, .draw c, w => cut e n (c (e.rng w.drawn)) { w with drawn := w.drawn + 1 }
  | n + 1, .now c, w => cut e n (c w.now) w

/-! ### Helpers -/

namespace Prog
variable {V α β : Type}

/-- A call that is given time to end ends as it does when it is run: what is broken off late is not broken off. -/
theorem cut_late (e : Env) (p : Prog V α) (w : World V) : ∃ N, ∀ n, N ≤ n → cut e n p w = (p.run e w).2 := by
  induction p generalizing w with
  | ret r => exact ⟨0, fun n _ => by cases n <;> rfl⟩
  | get k c ih | put k v c ih | purge k c ih | draw c ih | now c ih =>
    obtain ⟨N, h⟩ := ih _ _
    refine ⟨N + 1, fun n hn => ?_⟩
    cases n with
    | zero => omega
    | succ n => exact h n (by omega)

/-- `I` holds wherever the call is broken off, and `Q` of its successful result.
Machinery of the proof; the store is that of /repo/crates/openid/src/provider.rs 13-25. -/
def Along (e : Env) (I : World V → Prop) : Prog V α → World V → (α → World V → Prop) → Prop
  | ret (.ok a), w, Q => I w ∧ Q a w
  | ret (.error _), w, _ => I w
  | get k c, w, Q => I w ∧ Along e I (c (getRes (e.fault w.ops) (w.store k))) { w with ops := w.ops + 1 } Q
  | put k v c, w, Q => I w ∧ Along e I (c (decide (e.fault w.ops = .ok))) { w with store := writeRes (e.fault w.ops) w.store k (some v), ops := w.ops + 1 } Q
  | purge k c, w, Q => I w ∧ Along e I (c (decide (e.fault w.ops = .ok))) { w with store := writeRes (e.fault w.ops) w.store k none, ops := w.ops + 1 } Q
  | draw c, w, Q => I w ∧ Along e I (c (e.rng w.drawn)) { w with drawn := w.drawn + 1 } Q
  | now c, w, Q => I w ∧ Along e I (c w.now) w Q

variable {e : Env} {I : World V → Prop}

theorem Along.cut {p : Prog V α} {w : World V} {Q : α → World V → Prop} (h : Along e I p w Q) (n : Nat) : I (Prog.cut e n p w) := by
  induction p generalizing w n with
  | ret r =>
    cases n <;> cases r <;> first | exact h.1 | exact h
  | get k c ih | put k v c ih | purge k c ih | draw c ih | now c ih =>
    cases n with
    | zero => exact h.1
    | succ n => exact ih _ h.2 n

theorem Along.bind {p : Prog V α} {f : α → Prog V β} {w : World V} {Q : α → World V → Prop} {Q' : β → World V → Prop} (h : Along e I p w Q)
    (hf : ∀ a w, Q a w → Along e I (f a) w Q') : Along e I (p >>= f) w Q' := by
  show Along e I (p.bind f) w Q'
  induction p generalizing w with
  | ret r =>
    cases r with
    | ok a => exact hf a w h.2
    | error x => exact h
  | get k c ih | put k v c ih | purge k c ih | draw c ih | now c ih => exact ⟨h.1, ih _ h.2⟩

theorem Along.weaken {p : Prog V α} {w : World V} {Q Q' : α → World V → Prop} (h : Along e I p w Q) (hq : ∀ a w, Q a w → Q' a w) : Along e I p w Q' := by
  induction p generalizing w with
  | ret r =>
    cases r with
    | ok a => exact ⟨h.1, hq _ _ h.2⟩
    | error x => exact h
  | get k c ih | put k v c ih | purge k c ih | draw c ih | now c ih => exact ⟨h.1, ih _ h.2⟩

theorem Along.lift {r : Res α} {w : World V} {Q : α → World V → Prop} (hI : I w) (h : ∀ a, r = .ok a → Q a w) : Along e I (Prog.lift r) w Q := by
  cases r with
  | ok a => exact ⟨hI, h a rfl⟩
  | error x => exact hI

theorem Along.pure {a : α} {w : World V} {Q : α → World V → Prop} (hI : I w) (h : Q a w) : Along e I (Pure.pure a : Prog V α) w Q := ⟨hI, h⟩

theorem Along.nowE {w : World V} {Q : Int → World V → Prop} (hI : I w) (h : Q w.now w) : Along e I (Prog.nowE : Prog V Int) w Q := ⟨hI, hI, h⟩

theorem Along.drawE {w : World V} {Q : String → World V → Prop} (hI : I w) (hI' : I { w with drawn := w.drawn + 1 })
    (h : Q (e.rng w.drawn) { w with drawn := w.drawn + 1 }) : Along e I (Prog.drawE : Prog V String) w Q := ⟨hI, hI', h⟩

theorem Along.getE {k : String} {x : Err} {w : World V} {Q : V → World V → Prop} (hI : I w) (hI' : I { w with ops := w.ops + 1 })
    (h : ∀ v, w.store k = some v → Q v { w with ops := w.ops + 1 }) : Along e I (Prog.getE k x) w Q := by
  refine ⟨hI, ?_⟩
  unfold getRes
  cases e.fault w.ops with
  | ok =>
    cases hs : w.store k with
    | none => exact hI'
    | some v => exact ⟨hI', h v hs⟩
  | _ => exact hI'

theorem Along.putE {k : String} {v : V} {x : Err} {w : World V} {Q : Unit → World V → Prop} (hI : I w)
    (hI' : ∀ st, (st = w.store ∨ st = upd w.store k (some v)) → I { w with store := st, ops := w.ops + 1 })
    (h : Q () { w with store := upd w.store k (some v), ops := w.ops + 1 }) : Along e I (Prog.putE k v x) w Q := by
  refine ⟨hI, ?_⟩
  cases hf : e.fault w.ops with
  | ok => exact ⟨by simpa [writeRes] using hI' _ (.inr rfl), by simpa [writeRes] using h⟩
  | failBefore => exact hI' _ (.inl rfl)
  | failAfter => exact hI' _ (.inr rfl)

theorem Along.purgeE {k : String} {x : Err} {w : World V} {Q : Unit → World V → Prop} (hI : I w)
    (hI' : ∀ st, (st = w.store ∨ st = upd w.store k none) → I { w with store := st, ops := w.ops + 1 })
    (h : Q () { w with store := upd w.store k none, ops := w.ops + 1 }) : Along e I (Prog.purgeE k x) w Q := by
  refine ⟨hI, ?_⟩
  cases hf : e.fault w.ops with
  | ok => exact ⟨by simpa [writeRes] using hI' _ (.inr rfl), by simpa [writeRes] using h⟩
  | failBefore => exact hI' _ (.inl rfl)
  | failAfter => exact hI' _ (.inr rfl)

end Prog

end Verif
