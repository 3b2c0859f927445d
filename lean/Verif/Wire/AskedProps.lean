import Verif.Wire.AskedLemmas
import Verif.Wire.StoreProps
import Verif.Verifier.Overlap
import Verif.Verifier.Demo
/-!
# C122: the verifier over a store that keeps text
-/
namespace Verif.Wire
open Verifier (VState Metadata)

/-! ### Specification -/

/-- The answers to a history of requests to the verifier, and the world it leaves. -/
def vServe (e : Env) (w : World VState) : List Verifier.Step → List (Res Verifier.Resp) × World VState
  | [] => ([], w)
  | s :: rest =>
    let r := (Verifier.call s.provider s.req).run e { w with now := w.now + s.wait }
    let q := vServe e r.2 rest
    (r.1 :: q.1, q.2)

/-- The same, with a store that keeps the JSON text of what it is given and hands back what is read of it. -/
def vServeText (T : TimeText) (e : Env) (w : World (List Char)) : List Verifier.Step → List (Res Verifier.Resp) × World (List Char)
  | [] => ([], w)
  | s :: rest =>
    let r := ((Verifier.call s.provider s.req).viaText (vStateText T) (textVState T)).run e { w with now := w.now + s.wait }
    let q := vServeText T e r.2 rest
    (r.1 :: q.1, q.2)

/-- Any number of calls, none of which has started, over an empty store of text. -/
def vTextPool (T : TimeText) (t0 : Int) (calls : Nat → Verifier.Call) : Pool (List Char) Verifier.Resp :=
  Pool.start t0 fun i => (Verifier.call (calls i).provider (calls i).req).viaText (vStateText T) (textVState T)

/-- What Rust's types allow: a `HashMap` has each key once, and the times of a client's registration are `i64`. -/
structure RustTyped (P : Verifier.Provider) (r : Verifier.Req) : Prop where
  metadata : ∀ c m, P.verifier c = some m →
    (∀ n, m.oauth.clientIdIssuedAt = some n → -2 ^ 63 ≤ n ∧ n < 2 ^ 63) ∧ (∀ n, m.oauth.clientSecretExpiresAt = some n → -2 ^ 63 ≤ n ∧ n < 2 ^ 63)
  formats : ∀ c, r = .createRequest c → ∀ i ∈ c.inputDescriptors, ∀ m, i.format = some m → (m.map Prod.fst).Nodup

/-! ### Proofs -/

theorem rustTyped_keeps {P : Verifier.Provider} {r : Verifier.Req} (h : RustTyped P r) : (Verifier.call P r).Keeps fun s => SoundAsk s.requestObject := by
  refine vcall_keeps h.metadata ?_
  cases r with
  | createRequest c => exact h.formats c rfl
  | _ => trivial

theorem vServeText_sound (T : TimeText) (e : Env) {steps : List Verifier.Step} (hr : ∀ s ∈ steps, RustTyped s.provider s.req) (w : World VState)
    (hw : ∀ k v, w.store k = some v → SoundAsk v.requestObject) :
    vServeText T e (w.encode (vStateText T)) steps = ((vServe e w steps).1, (vServe e w steps).2.encode (vStateText T)) ∧
    ∀ k v, (vServe e w steps).2.store k = some v → SoundAsk v.requestObject := by
  induction steps generalizing w with
  | nil => exact ⟨rfl, hw⟩
  | cons s rest ih =>
    obtain ⟨h1, h2⟩ := run_viaText (fun v => textVState_write T) e (Verifier.call s.provider s.req) (rustTyped_keeps (hr s (.head _)))
      { w with now := w.now + s.wait } hw
    have h1' : ((Verifier.call s.provider s.req).viaText (vStateText T) (textVState T)).run e
      { w.encode (vStateText T) with now := (w.encode (vStateText T)).now + s.wait } = _ := h1
    obtain ⟨h3, h4⟩ := ih (fun s hs => hr s (.tail _ hs)) _ h2
    refine ⟨?_, h4⟩
    simp only [vServeText, vServe, h1', h3]

theorem vstart_empty {t0 : Int} (k : String) (v : VState) (h : (Verifier.start t0).store k = some v) : SoundAsk v.requestObject := nomatch (h : none = some v)

/-! ### Theorems -/

/-- C122: A state comes back from its text exactly if Rust's types allow it. -/
theorem C122_state_comes_back_iff (T : TimeText) (s : VState) : textVState T (vStateText T s) = some s ↔ SoundAsk s.requestObject := by
  refine ⟨fun h => ?_, textVState_write T⟩
  obtain ⟨j, -, h⟩ := Option.bind_eq_some_iff.1 h
  exact readVState_sound T h

/-- C122: For every history of requests, whatever faults the store has, the answers are the same and the store holds the text of the same states. -/
theorem C122_same_answers (T : TimeText) (e : Env) (t0 : Int) (steps : List Verifier.Step) (h : ∀ s ∈ steps, RustTyped s.provider s.req) :
    (vServeText T e (startText t0) steps).1 = (vServe e (Verifier.start t0) steps).1 ∧
    ∀ k, (vServeText T e (startText t0) steps).2.store k = ((vServe e (Verifier.start t0) steps).2.store k).map (vStateText T) := by
  have := (vServeText_sound T e h (Verifier.start t0) vstart_empty).1
  rw [show (Verifier.start t0).encode (vStateText T) = startText t0 from rfl] at this
  rw [this]
  exact ⟨rfl, fun _ => rfl⟩

/-- C122: All that the verifier ever stores can be read back. -/
theorem C122_stored_states_readable (T : TimeText) (e : Env) (t0 : Int) (steps : List Verifier.Step) (h : ∀ s ∈ steps, RustTyped s.provider s.req) (k : String)
    (t : List Char) (hk : (vServeText T e (startText t0) steps).2.store k = some t) :
    ∃ s, textVState T t = some s ∧ vStateText T s = t ∧ (vServe e (Verifier.start t0) steps).2.store k = some s := by
  rw [(C122_same_answers T e t0 steps h).2 k] at hk
  obtain ⟨s, hs, rfl⟩ := Option.map_eq_some_iff.1 hk
  exact ⟨s, textVState_write T ((vServeText_sound T e h (Verifier.start t0) vstart_empty).2 k s hs), rfl, hs⟩

/-- C122: However calls overlap, with faults and crashes anywhere, each is answered the same and the store holds the text of the same states. -/
theorem C122_same_under_any_schedule (T : TimeText) (rng : Nat → Nat → String) (t0 : Int) (calls : Nat → Verifier.Call)
    (h : ∀ i, RustTyped (calls i).provider (calls i).req) (s : List Event) :
    (∀ i r, ((vTextPool T t0 calls).exec rng s).Answered i r ↔ ((Verifier.pool t0 calls).exec rng s).Answered i r) ∧
    ∀ k, ((vTextPool T t0 calls).exec rng s).store k = (((Verifier.pool t0 calls).exec rng s).store k).map (vStateText T) := by
  have := exec_viaText (fun v => textVState_write T) rng (Verifier.pool t0 calls) (fun i => rustTyped_keeps (h i)) (vstart_empty (t0 := t0)) s
  rw [show (Verifier.pool t0 calls).encode (vStateText T) (textVState T) = vTextPool T t0 calls from rfl] at this
  rw [this]
  exact ⟨fun i r => viaText_ret, fun _ => rfl⟩

/-- C122: A condition on a claim is kept whole or not at all: a filter is read only from an object whose members are its type and exactly one condition. -/
theorem C122_one_condition_per_filter (m : List (String × Json)) (f : Dif.Filter) (h : readFilter (.obj m) = some f) :
    m.Perm (("type", .str f.type_) :: writeFilterValue f.value) := by
  unfold readFilter at h
  obtain ⟨⟨l, rest⟩, hl, h⟩ := Option.bind_eq_some_iff.1 h
  match l, rest, h with
  | [t], [(k, v)], h =>
    simp only at h
    obtain ⟨t', ht, h⟩ := Option.bind_eq_some_iff.1 h
    obtain ⟨v', hv, h⟩ := Option.bind_eq_some_iff.1 h
    have hv' : v = .str v' := by
      cases v <;> simp [readStr] at hv
      rw [hv]
    have ht' : t = some (.str t') := by
      cases t with
      | none => cases ht
      | some t => cases t <;> simp [required, readStr] at ht; rw [ht]
    subst hv' ht'
    have hp : m.Perm [("type", .str t'), (k, .str v')] := by
      simp only [flatFields, List.mapM_cons, List.mapM_nil, Option.map_eq_some_iff, Option.bind_eq_bind, Option.bind_eq_some_iff, Option.pure_def, Option.some.injEq] at hl
      obtain ⟨l, ⟨x, hx, _, rfl, rfl⟩, hl⟩ := hl
      simp only [Prod.mk.injEq, List.cons.injEq, and_true] at hl
      obtain ⟨rfl, hr⟩ := hl
      have h2 := List.filter_append_perm (fun p : String × Json => decide (p.1 = "type")) m
      have h1 : m.filter (fun p => decide (p.1 = "type")) = [("type", .str t')] := by
        unfold single at hx
        split at hx
        · cases hx
        · rename_i p hp
          rw [hp]
          have hk : p.1 = "type" := by
            have := List.mem_filter.1 (hp ▸ List.mem_singleton_self p)
            simpa using this.2
          obtain ⟨pk, pv⟩ := p
          simp only [Option.some.injEq] at hx hk
          rw [hx, hk]
        · cases hx
      rw [h1, show (m.filter fun p => !decide (p.1 = "type")) = [(k, .str v')] from by rw [← hr]; congr 1; funext p; simp] at h2
      exact h2.symm
    split at h
    · rename_i e; subst e; cases h; exact hp
    · split at h
      · rename_i e; subst e; cases h; exact hp
      · split at h
        · rename_i e; subst e; cases h; exact hp
        · cases h

/-! ### Instances -/

/-- A request is created, fetched and answered. -/
def vDemoSteps : List Verifier.Step :=
  [{ provider := Verifier.Demo.provider, req := .createRequest (Verifier.Demo.createReq .crossDevice) },
   { provider := Verifier.Demo.provider, req := .requestObject { clientId := "http://v.example", id := "tt" } },
   { provider := Verifier.Demo.provider, req := .createRequest (Verifier.Demo.createReq .sameDevice) }]

theorem vdemo_typed : ∀ s ∈ vDemoSteps, RustTyped s.provider s.req := by
  have hm : ∀ c m, Verifier.Demo.provider.verifier c = some m →
      (∀ n, m.oauth.clientIdIssuedAt = some n → -2 ^ 63 ≤ n ∧ n < 2 ^ 63) ∧ (∀ n, m.oauth.clientSecretExpiresAt = some n → -2 ^ 63 ≤ n ∧ n < 2 ^ 63) := by
    intro c m h
    simp only [Verifier.Demo.provider] at h
    split at h
    · cases h; exact ⟨nofun, nofun⟩
    · cases h
  intro s hs
  simp only [vDemoSteps, List.mem_cons, List.not_mem_nil, or_false] at hs
  rcases hs with rfl | rfl | rfl
  · refine ⟨hm, ?_⟩
    rintro c ⟨⟩ i hi m hf
    simp only [Verifier.Demo.createReq, List.mem_singleton] at hi
    subst hi
    cases hf
  · exact ⟨hm, nofun⟩
  · refine ⟨hm, ?_⟩
    rintro c ⟨⟩ i hi m hf
    simp only [Verifier.Demo.createReq, List.mem_singleton] at hi
    subst hi
    cases hf

/-- Whether a call succeeded. -/
def vIsOk {α : Type} : Res α → Bool
  | .ok _ => true
  | .error _ => false

example : (vServe Verifier.Demo.env (Verifier.start 0) vDemoSteps).1.map vIsOk = [true, true, true] := by decide +kernel

example : (vServeText demoTime Verifier.Demo.env (startText 0) vDemoSteps).1.map vIsOk = [true, true, true] := by
  rw [(C122_same_answers demoTime Verifier.Demo.env 0 vDemoSteps vdemo_typed).1]
  decide +kernel

example : ∃ t, (vServeText demoTime Verifier.Demo.env (startText 0) vDemoSteps).2.store "tt" = some t := by
  have h : ((vServe Verifier.Demo.env (Verifier.start 0) vDemoSteps).2.store "tt").isSome = true := by decide +kernel
  obtain ⟨s, hs⟩ := Option.isSome_iff_exists.1 h
  exact ⟨_, by rw [(C122_same_answers demoTime Verifier.Demo.env 0 vDemoSteps vdemo_typed).2, hs]; rfl⟩

example : readFilter (.obj [("const", .str "7"), ("type", .str "number")]) = some ⟨"number", .const "7"⟩ := by
  simp [readFilter, flatFields, single, required, readStr]

example : readFilter (.obj [("type", .str "string"), ("pattern", .str "a"), ("const", .str "b")]) = none := by
  simp [readFilter, flatFields, single]

end Verif.Wire
