import Verif.Sched
/-!
# Programs over a store that keeps text

`StateStore` (/repo/crates/openid/src/provider.rs 13-25) hands values to a store as `impl Serialize` and takes them back as `DeserializeOwned`: what is kept is what the
writer of the value made of it, and reading may fail. The models of the endpoints work on a store that keeps the values themselves. Here the same programs
are run on a store of what was written; if all that a program stores can be read back, there is no difference.
-/
namespace Verif
open Prog
variable {V T α ρ : Type}

/-- A program that keeps its values as `enc` writes them and takes them back as `dec` reads them (`none`: the reader's error, which `StateStore::get` returns). -/
def Prog.viaText (enc : V → T) (dec : T → Option V) : Prog V α → Prog T α
  | ret r => ret r
  | get k c => get k fun o => (c (o.bind dec)).viaText enc dec
  | put k v c => put k (enc v) fun b => (c b).viaText enc dec
  | purge k c => purge k fun b => (c b).viaText enc dec
  | draw c => draw fun s => (c s).viaText enc dec
  | now c => now fun t => (c t).viaText enc dec

/-- A store with every value written. Machinery of the model; the store is that of /repo/crates/test-utils/src/store/state.rs 22-40. -/
def encStore (enc : V → T) (s : String → Option V) : String → Option T := fun k => (s k).map enc

/-- A world with every stored value written. Machinery of the model; the store is that of /repo/crates/test-utils/src/store/state.rs 22-40. -/
def World.encode (enc : V → T) (w : World V) : World T := { w with store := encStore enc w.store }

/-- A pool of calls over a store with every value written. Machinery of the model; the store is that of /repo/crates/test-utils/src/store/state.rs 22-40. -/
def Pool.encode (enc : V → T) (dec : T → Option V) (p : Pool V ρ) : Pool T ρ :=
  { store := encStore enc p.store, now := p.now, prog := fun i => (p.prog i).viaText enc dec, drawn := p.drawn
    wrote := fun i => (p.wrote i).map fun x => (x.1, enc x.2) }

/-- All values a program stores can be read back, provided those it takes can.
Machinery of the model; the store is that of /repo/crates/test-utils/src/store/state.rs 22-40. -/
def Prog.Keeps (Good : V → Prop) (p : Prog V α) : Prop :=
  Guar (fun _ v => Good v) (fun _ o => ∀ v, o = some v → Good v) (fun _ => True) p (fun _ => True)

theorem encStore_write (enc : V → T) (f : Fault) (s : String → Option V) (k : String) (v : Option V) :
    encStore enc (writeRes f s k v) = writeRes f (encStore enc s) k (v.map enc) := by
  funext k'
  cases f <;> simp only [writeRes, encStore, upd] <;> split <;> rfl

theorem getRes_encode {enc : V → T} {dec : T → Option V} {Good : V → Prop} (hd : ∀ v, Good v → dec (enc v) = some v) {s : String → Option V}
    (hs : ∀ k v, s k = some v → Good v) (f : Fault) (k : String) : (getRes f (encStore enc s k)).bind dec = getRes f (s k) := by
  cases f with
  | ok =>
    simp only [getRes, encStore]
    cases h : s k with
    | none => rfl
    | some v => exact hd v (hs k v h)
  | failBefore => rfl
  | failAfter => rfl

theorem good_write {Good : V → Prop} {s : String → Option V} (hs : ∀ k v, s k = some v → Good v) {o : Option V} (ho : ∀ v, o = some v → Good v)
    (f : Fault) (k : String) : ∀ k' v, writeRes f s k o k' = some v → Good v := by
  intro k' v h
  rcases writeRes_eq (f := f) (s := s) (k := k) (k' := k') (v := o) with e | ⟨-, e⟩
  · exact hs k' v (e ▸ h)
  · exact ho v (e ▸ h)

/-- One call: the same answer, and the store holds what the ideal store holds, written. -/
theorem run_viaText {enc : V → T} {dec : T → Option V} {Good : V → Prop} (hd : ∀ v, Good v → dec (enc v) = some v) (e : Env) (p : Prog V α) (hp : p.Keeps Good)
    (w : World V) (hw : ∀ k v, w.store k = some v → Good v) :
    (p.viaText enc dec).run e (w.encode enc) = ((p.run e w).1, (p.run e w).2.encode enc) ∧ ∀ k v, (p.run e w).2.store k = some v → Good v := by
  induction p generalizing w with
  | ret r => exact ⟨rfl, hw⟩
  | get k c ih =>
    simp only [Prog.viaText, Prog.run]
    have h1 : (getRes (e.fault w.ops) ((w.encode enc).store k)).bind dec = getRes (e.fault w.ops) (w.store k) := getRes_encode hd hw _ _
    rw [show (w.encode enc).ops = w.ops from rfl, h1]
    exact ih _ (hp _ fun v hv => hw k v (getRes_some hv)) { w with ops := w.ops + 1 } hw
  | put k v c ih =>
    simp only [Prog.viaText, Prog.run]
    have := ih (decide (e.fault w.ops = .ok)) (hp.2 _) { w with store := writeRes (e.fault w.ops) w.store k (some v), ops := w.ops + 1 }
      (good_write hw hp.1 _ _)
    simp only [World.encode, encStore_write] at this ⊢
    exact this
  | purge k c ih =>
    simp only [Prog.viaText, Prog.run]
    have := ih (decide (e.fault w.ops = .ok)) (hp.2 _) { w with store := writeRes (e.fault w.ops) w.store k none, ops := w.ops + 1 }
      (good_write hw (o := none) (fun _ h => nomatch h) _ _)
    simp only [World.encode, encStore_write] at this ⊢
    exact this
  | draw c ih => exact ih _ (hp _ trivial) { w with drawn := w.drawn + 1 } hw
  | now c ih => exact ih _ (hp _) w hw

/-- Overlapping calls: every event does the same. -/
theorem exec_viaText {enc : V → T} {dec : T → Option V} {Good : V → Prop} (hd : ∀ v, Good v → dec (enc v) = some v) (rng : Nat → Nat → String)
    (p : Pool V ρ) (hp : ∀ i, (p.prog i).Keeps Good) (hw : ∀ k v, p.store k = some v → Good v) (s : List Event) :
    (p.encode enc dec).exec rng s = (p.exec rng s).encode enc dec := by
  induction s generalizing p with
  | nil => rfl
  | cons ev s ih =>
    have key : (p.encode enc dec).step rng ev = (p.step rng ev).encode enc dec ∧ (∀ i, ((p.step rng ev).prog i).Keeps Good) ∧
        ∀ k v, (p.step rng ev).store k = some v → Good v := by
      cases ev with
      | tick ns => exact ⟨rfl, hp, hw⟩
      | run i f =>
        have hset : ∀ (q : Prog V ρ), (fun j => (setAt p.prog i q j).viaText enc dec) = setAt (fun j => (p.prog j).viaText enc dec) i (q.viaText enc dec) := by
          intro q
          funext j
          simp only [setAt]
          split <;> rfl
        have hkeep : ∀ (q : Prog V ρ), q.Keeps Good → ∀ j, (setAt p.prog i q j).Keeps Good := by
          intro q hq j
          simp only [setAt]
          split
          · exact hq
          · exact hp j
        have hpi := hp i
        simp only [Pool.step, Pool.encode]
        cases hq : p.prog i with
        | ret r => simp only [Prog.viaText]; exact ⟨trivial, hp, hw⟩
        | get k c =>
          rw [hq] at hpi
          simp only [Prog.viaText, hset, getRes_encode hd hw]
          exact ⟨trivial, hkeep _ (hpi _ fun v hv => hw k v (getRes_some hv)), hw⟩
        | put k v c =>
          rw [hq] at hpi
          simp only [Prog.viaText, hset, encStore_write]
          refine ⟨?_, hkeep _ (hpi.2 _), good_write hw hpi.1 _ _⟩
          have : (fun j => (setAt p.wrote i ((k, v) :: p.wrote i) j).map fun x => (x.1, enc x.2)) =
              setAt (fun j => (p.wrote j).map fun x => (x.1, enc x.2)) i ((k, enc v) :: (p.wrote i).map fun x => (x.1, enc x.2)) := by
            funext j
            simp only [setAt]
            split <;> rfl
          rw [this]
          rfl
        | purge k c =>
          rw [hq] at hpi
          simp only [Prog.viaText, hset, encStore_write]
          exact ⟨rfl, hkeep _ (hpi.2 _), good_write hw (o := none) (fun _ h => nomatch h) _ _⟩
        | draw c =>
          rw [hq] at hpi
          simp only [Prog.viaText, hset]
          exact ⟨trivial, hkeep _ (hpi _ trivial), hw⟩
        | now c =>
          rw [hq] at hpi
          simp only [Prog.viaText, hset]
          exact ⟨trivial, hkeep _ (hpi _), hw⟩
    simp only [Pool.exec]
    rw [key.1]
    exact ih _ key.2.1 key.2.2

end Verif
