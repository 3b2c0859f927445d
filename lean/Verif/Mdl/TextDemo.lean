import Verif.Mdl.TextProps
import Verif.Holder.Demo
/-!
# A concrete mDL, byte for byte
-/
namespace Verif.Mdl.Demo

/-- Numbers are small integers or else one half; keys are COSE keys (RFC 9053 §7.2). -/
def W (t : TagVec) : World where
  num s := if s = "7" then .int 7 else .float [0x38, 0x00]
  key k := .map [(.int 1, .int 1), (.int (-1), .int 6), (.int (-2), .bytes k)]
  time _ := "2024-11-15T00:00:00Z"
  sha256 x := x
  tagVec := t

/-- Draws that collide once. -/
def draws : Rng where
  int32 n := if n < 2 then -1 else ((n % 2147483648 : Nat) : Int)
  salt n := List.replicate n 1

theorem sound (t : TagVec) : Sound (W t) draws where
  num s := by
    simp only [W]
    split
    · exact fits_int (by decide)
    · exact .inl rfl
  key k := ⟨fits_int (by decide), fits_int (by decide), fits_int (by decide), fits_int (by decide), fits_int (by decide), trivial, trivial⟩
  int32 n := by
    simp only [draws]
    split <;> omega

def mdlData : Dict Json := [("org.iso.18013.5.1", .obj [("given_name", .str "A"), ("age", .num "7")]), ("org.iso.18013.5.1.aamva", .obj [("sex", .num "0.5")])]

/-- The number of bytes of the document that was made. -/
def made (W : World) : Option (Res IssuerSigned) → Option Nat
  | some (.ok d) => some (docCbor W d).encode.length
  | _ => none

theorem of_made {W : World} {b : Build} {fuel : Nat} {R : Rng} {signer : Signer} {now : Nat → Int} {data : Dict Json}
    (h : (made W (document b fuel W.codec R signer now data)).any (fun n => decide (n < 2 ^ 63)) = true) :
    ∃ out, toCredential b fuel W.codec R signer now data = some (.ok out) ∧ out.toList.length < 2 ^ 64 := by
  unfold toCredential
  cases hd : document b fuel W.codec R signer now data with
  | none => rw [hd] at h; cases h
  | some x =>
    rw [hd] at h
    cases x with
    | error e => cases h
    | ok d =>
      refine ⟨_, rfl, ?_⟩
      simp only [made, Option.any_some, decide_eq_true_eq] at h
      show (String.ofList (Verif.base64 (docCbor W d).encode)).toList.length < 2 ^ 64
      rw [String.toList_ofList, base64_length]
      omega

set_option maxRecDepth 100000 in
/-- The hypotheses of C158 – C161 together, for both readings of `Tag24::to_vec`. -/
theorem issued (t : TagVec) : ∃ out, toCredential .debug 5 (W t).codec draws signer (fun n => n) mdlData = some (.ok out) ∧ out.toList.length < 2 ^ 64 := by
  apply of_made
  cases t <;> decide +kernel

example : (Dict.keys mdlData).Nodup ∧ ∃ f fs, Dict.get? mdlData "org.iso.18013.5.1" = some (.obj (f :: fs)) := ⟨by decide, _, _, rfl⟩

example : (∀ n m, draws.salt n = draws.salt m → n = m) ∧ ∀ x y, (W .inner).sha256 x = (W .inner).sha256 y → x = y :=
  ⟨fun n m h => by simpa [draws] using congrArg List.length h, fun _ _ h => h⟩

/-! ### A wallet that is answered with an mDL -/

/-- The issuer answers credential requests with this text. -/
def env (out : String) : Holder.HEnv where
  rng := Holder.Demo.rng
  fault _ := .ok
  oracle log recent
    | .credential _ => some { response := .credential (.string out), cNonce := none }
    | c => Holder.Demo.oracle ["emp-1"] log recent c

/-- This wallet's JWT decoder refuses what is not a JWT. -/
def provider : Holder.Provider := { Holder.Demo.provider with jose := { Holder.Demo.provider.jose with decodeVc := fun _ => none } }

/-- The flow is begun by the wallet. -/
def begin_ : Holder.HStep := Holder.Demo.doWallet none (some [{ credential := .configurationId "Employee" none }])

def collect : Holder.HStep := { Holder.Demo.doCredentials with provider := provider }

set_option maxRecDepth 20000 in
theorem brought (out : String) :
    ((Holder.serve collect.provider collect.req).run (env out) (Holder.before (Holder.exec (env out) (Holder.start 0) [begin_]) collect)).2.recent.flatMap Holder.Event.tokens = [out] :=
  rfl

/-- The hypotheses of C162 together. -/
example : ∃ out w en, toCredential .debug 5 (W .whole).codec draws signer (fun n => n) mdlData = some (.ok out) ∧ (env out).Fresh ∧ Holder.Reachable (env out) w ∧ en ∈ w.log ∧
    Dotted en.provider.jose ∧ out ∈ en.events.flatMap Holder.Event.tokens := by
  obtain ⟨out, h, -⟩ := issued .whole
  have hl := Holder.step_log (env out) (Holder.exec (env out) (Holder.start 0) [begin_]) collect
  generalize hen : (Holder.Entry.mk collect.provider _ _ _ _) = en at hl
  refine ⟨out, (Holder.step (env out) (Holder.exec (env out) (Holder.start 0) [begin_]) collect).2, en, h, Holder.Demo.rng_inj,
    Holder.Reachable.step ⟨0, [begin_], rfl⟩ collect, ?_, ?_, ?_⟩
  · rw [hl]
    exact List.mem_append_right _ (List.mem_singleton.2 rfl)
  · rw [← hen]
    intro t c hc; cases hc
  · rw [← hen, brought]; exact List.mem_singleton.2 rfl

end Verif.Mdl.Demo
