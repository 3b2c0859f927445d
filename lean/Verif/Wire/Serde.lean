import Verif.Core.JsonParse
/-!
# Reading JSON as `serde` does

The external crates `serde` and `serde_json` are modelled as far as the derived readers of vercre use them: a derived reader of a struct takes an object
whose members may come in any order, ignores members it does not know, refuses a member that comes twice, and also takes an array of all members in order.
`none` is an error.
-/
namespace Verif.Wire

/-- The value of a member, if it is there; an error if it is there more than once ("duplicate field").
What the derives of `serde` do in /repo/crates/openid/src/issuer.rs and elsewhere. -/
def single (m : List (String × Json)) (k : String) : Option (Option Json) :=
  match m.filter fun p => p.1 = k with
  | [] => some none
  | [p] => some (some p.2)
  | _ => none

/-- The members of a derived struct (without `flatten`): from an object, or from an array of all of them in order.
What the derives of `serde` do in /repo/crates/openid/src/issuer.rs and elsewhere. -/
def structFields (names : List String) : Json → Option (List (Option Json))
  | .obj m => names.mapM (single m)
  | .arr l => if l.length = names.length then some (l.map some) else none
  | _ => none

/-- A `String`. What the derives of `serde` do in /repo/crates/openid/src/issuer.rs and elsewhere. -/
def readStr : Json → Option String
  | .str s => some s
  | _ => none

/-- A `bool`. What the derives of `serde` do in /repo/crates/openid/src/issuer.rs and elsewhere. -/
def readBool : Json → Option Bool
  | .bool b => some b
  | _ => none

/-- A `Vec`. What the derives of `serde` do in /repo/crates/openid/src/issuer.rs and elsewhere. -/
def readVec {α : Type} (r : Json → Option α) : Json → Option (List α)
  | .arr l => l.mapM r
  | _ => none

/-- A member that must be there. What the derives of `serde` do in /repo/crates/openid/src/issuer.rs and elsewhere. -/
def required {α : Type} (r : Json → Option α) : Option Json → Option α
  | none => none
  | some j => r j

/-- A member of type `Option`: absent or `null` is `None`. What the derives of `serde` do in /repo/crates/openid/src/issuer.rs and elsewhere. -/
def optional {α : Type} (r : Json → Option α) : Option Json → Option (Option α)
  | none => some none
  | some .null => some none
  | some j => (r j).map some

/-- A member with a default for when it is absent. What the derives of `serde` do in /repo/crates/openid/src/issuer.rs and elsewhere. -/
def defaulted {α : Type} (d : α) (r : Json → Option α) : Option Json → Option α
  | none => some d
  | some j => r j

/-- An enum of variants without content: the name of the variant, or an object that maps it to `null`.
What the derives of `serde` do in /repo/crates/openid/src/issuer.rs and elsewhere. -/
def readUnit {α : Type} (names : String → Option α) : Json → Option α
  | .str s => names s
  | .obj [(s, .null)] => names s
  | _ => none

/-- A member that is left out if it is `None` (`skip_serializing_if`). What the derives of `serde` do in /repo/crates/openid/src/issuer.rs and elsewhere. -/
def opt {α : Type} (k : String) (w : α → Json) : Option α → List (String × Json)
  | none => []
  | some a => [(k, w a)]

/-- A `Vec`. What the derives of `serde` do in /repo/crates/openid/src/issuer.rs and elsewhere. -/
def writeVec {α : Type} (w : α → Json) (l : List α) : Json := .arr (l.map w)

/-! ### Lemmas -/

theorem mapM_written {α : Type} {r : Json → Option α} {w : α → Json} {l : List α} (h : ∀ a ∈ l, r (w a) = some a) : (l.map w).mapM r = some l := by
  induction l with
  | nil => rfl
  | cons a l ih =>
    simp only [List.map_cons, List.mapM_cons, h a (.head _), ih fun a ha => h a (.tail _ ha)]
    rfl

theorem readVec_written {α : Type} {r : Json → Option α} {w : α → Json} {l : List α} (h : ∀ a ∈ l, r (w a) = some a) : readVec r (writeVec w l) = some l :=
  mapM_written h

theorem mapM_all {α : Type} {r : Json → Option α} {p : α → Prop} (hr : ∀ j a, r j = some a → p a) {js : List Json} {l : List α}
    (h : js.mapM r = some l) : ∀ a ∈ l, p a := by
  induction js generalizing l with
  | nil => cases h; exact nofun
  | cons j js ih =>
    rw [List.mapM_cons] at h
    cases hj : r j with
    | none => rw [hj] at h; cases h
    | some a =>
      cases hs : js.mapM r with
      | none => rw [hj, hs] at h; cases h
      | some l' =>
        rw [hj, hs] at h
        cases h
        intro b hb
        rcases List.mem_cons.1 hb with rfl | hb
        · exact hr _ _ hj
        · exact ih hs b hb

theorem readVec_all {α : Type} {r : Json → Option α} {p : α → Prop} (hr : ∀ j a, r j = some a → p a) {j : Json} {l : List α}
    (h : readVec r j = some l) : ∀ a ∈ l, p a := by
  cases j <;> first | cases h | skip
  exact mapM_all hr h

theorem single_append (a b : List (String × Json)) (k : String) (h : ∀ p ∈ a, p.1 ≠ k) : single (a ++ b) k = single b k := by
  unfold single
  rw [List.filter_append, List.filter_eq_nil_iff.2 (fun p hp => by simpa using h p hp), List.nil_append]

theorem single_absent {m : List (String × Json)} {k : String} (h : ∀ p ∈ m, p.1 ≠ k) : single m k = some none := by
  unfold single
  rw [List.filter_eq_nil_iff.2 (fun p hp => by simpa using h p hp)]

theorem single_head {m : List (String × Json)} {k : String} {j : Json} (h : ∀ p ∈ m, p.1 ≠ k) : single ((k, j) :: m) k = some (some j) := by
  unfold single
  rw [List.filter_cons, if_pos (by simp), List.filter_eq_nil_iff.2 (fun p hp => by simpa using h p hp)]

theorem single_skip {m : List (String × Json)} {k k' : String} {j : Json} (h : k' ≠ k) : single ((k', j) :: m) k = single m k := by
  unfold single
  rw [List.filter_cons, if_neg (by simpa using h)]

theorem opt_keys {α : Type} {k : String} {w : α → Json} {o : Option α} : ∀ p ∈ opt k w o, p.1 = k := by
  cases o with
  | none => exact nofun
  | some a => intro p hp; simp only [opt, List.mem_singleton] at hp; rw [hp]

theorem single_opt {α : Type} {k : String} {w : α → Json} {o : Option α} {m : List (String × Json)} (h : ∀ p ∈ m, p.1 ≠ k) :
    single (opt k w o ++ m) k = some (o.map w) := by
  cases o with
  | none => exact single_absent h
  | some a => exact single_head h

theorem optional_written {α : Type} {r : Json → Option α} {w : α → Json} {o : Option α} (h : ∀ a, o = some a → r (w a) = some a)
    (hn : ∀ a, w a ≠ .null) : optional r (o.map w) = some o := by
  cases o with
  | none => rfl
  | some a =>
    have := hn a
    simp only [Option.map_some, optional]
    cases hw : w a <;> first | exact absurd hw this | skip
    all_goals rw [← hw, h a rfl]; rfl

end Verif.Wire
