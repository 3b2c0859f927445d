import Verif.Wire.IssuerMeta
import Verif.Wire.Answer
import Verif.Wire.MessageLemmas
/-!
# Objects written by others

Other implementations write the members of a message in their own order, and members beside that vercre does not know.
-/
namespace Verif.Wire

/-! ### Specification -/

/-- What an object has under a name: nothing, or a single value. Specification; models no code. -/
def Says (m : List (String × Json)) (k : String) (o : Option Json) : Prop := (m.filter fun p => p.1 = k) = o.toList.map fun j => (k, j)

/-- An object has these members, each once, and lacks those without a value. The order of its members, and the members of other names, are left open.
Specification; models no code. -/
def Has (m : List (String × Json)) (fs : List (String × Option Json)) : Prop := ∀ f ∈ fs, Says m f.1 f.2

/-- What a member of text says. Specification; models no code. -/
def txt (o : Option String) : Option Json := o.map .str

/-- What a member with a list of texts says. Specification; models no code. -/
def txts (o : Option (List String)) : Option Json := o.map fun l => .arr (l.map .str)

/-- What a member with a number says. Specification; models no code. -/
def int (o : Option Int) : Option Json := o.map fun n => .num n.repr

/-- What a member with a truth value says. Specification; models no code. -/
def truth (o : Option Bool) : Option Json := o.map .bool

/-- What a member with a list of names says. Specification; models no code. -/
def names {α : Type} (name : α → String) (o : Option (List α)) : Option Json := o.map fun l => .arr (l.map fun a => .str (name a))

/-- The names of grants in OAuth 2.0 and OpenID4VCI. Specification; models no code. -/
def grantSpec : GrantType → String
  | .authorizationCode => "authorization_code"
  | .preAuthorizedCode => "urn:ietf:params:oauth:grant-type:pre-authorized_code"

/-! ### Lemmas -/

theorem Says.single {m : List (String × Json)} {k : String} {o : Option Json} (h : Says m k o) : single m k = some o := by
  unfold Wire.single
  rw [show (m.filter fun p => decide (p.1 = k)) = _ from h]
  cases o <;> rfl

theorem Has.get {m : List (String × Json)} {fs : List (String × Option Json)} (h : Has m fs) {k : String} {o : Option Json} (hk : (k, o) ∈ fs) : Wire.single m k = some o :=
  (h _ hk).single

theorem Has.sub {m : List (String × Json)} {fs gs : List (String × Option Json)} (h : Has m fs) (hs : ∀ f ∈ gs, f ∈ fs) : Has m gs := fun f hf => h f (hs f hf)

theorem Has.take {m : List (String × Json)} {fs : List (String × Option Json)} (h : Has m fs) (n : Nat) : Has m (fs.take n) := h.sub fun _ => List.mem_of_mem_take

theorem Has.drop {m : List (String × Json)} {fs : List (String × Option Json)} (h : Has m fs) (n : Nat) : Has m (fs.drop n) := h.sub fun _ => List.mem_of_mem_drop

theorem Has.fields {m : List (String × Json)} {fs : List (String × Option Json)} (h : Has m fs) : (fs.map Prod.fst).mapM (Wire.single m) = some (fs.map Prod.snd) := by
  induction fs with
  | nil => rfl
  | cons f fs ih =>
    rw [List.map_cons, List.mapM_cons, h.get (List.mem_cons_self ..), ih fun g hg => h g (List.mem_cons_of_mem _ hg)]
    rfl

theorem Has.struct {m : List (String × Json)} {fs : List (String × Option Json)} (h : Has m fs) {names : List String} (e : fs.map Prod.fst = names) :
    structFields names (.obj m) = some (fs.map Prod.snd) := by
  subst e
  exact h.fields

theorem Has.flat {m : List (String × Json)} {fs : List (String × Option Json)} (h : Has m fs) {names : List String} (e : fs.map Prod.fst = names) :
    flatFields names (.obj m) = some (fs.map Prod.snd, m.filter fun p => ¬ p.1 ∈ names) := by
  subst e
  rw [flatFields, h.fields]
  rfl

theorem Has.rest {m : List (String × Json)} {fs : List (String × Option Json)} (h : Has m fs) {q : String × Json → Bool} (hq : ∀ f ∈ fs, ∀ j, q (f.1, j) = true) :
    Has (m.filter q) fs := by
  intro f hf
  unfold Says
  rw [← h f hf, List.filter_filter]
  refine List.filter_congr fun p _ => ?_
  by_cases e : p.1 = f.1
  · have := hq f hf p.2
    rw [← e] at this
    simp only [e, decide_true, Bool.true_and]
    exact this
  · simp [e]

theorem Has.restOf {m : List (String × Json)} {fs : List (String × Option Json)} (h : Has m fs) {names : List String} (hn : ∀ f ∈ fs, f.1 ∉ names) :
    Has (m.filter fun p => ¬ p.1 ∈ names) fs :=
  h.rest fun f hf j => by simpa using hn f hf

/-- The first member named after a variant is the only one. -/
theorem Has.find {m : List (String × Json)} {fs : List (String × Option Json)} (h : Has m fs) {k : String} {j : Json} {q : String × Json → Bool}
    (hk : (k, some j) ∈ fs) (hq : ∀ p, q p = true → p.1 = k ∨ (p.1, none) ∈ fs) (hkq : q (k, j) = true) : m.find? q = some (k, j) := by
  have hf : m.filter q = [(k, j)] := by
    rw [show [(k, j)] = m.filter fun p => decide (p.1 = k) from (h _ hk).symm]
    refine List.filter_congr fun p hp => ?_
    by_cases e : p.1 = k
    · have hm : p ∈ m.filter fun p => decide (p.1 = k) := List.mem_filter.2 ⟨hp, by simpa using e⟩
      rw [show (m.filter fun p => decide (p.1 = k)) = [(k, j)] from h _ hk] at hm
      rw [List.mem_singleton.1 hm, hkq]
      simp
    · rw [show decide (p.1 = k) = false by simpa using e]
      refine Bool.eq_false_iff.2 fun hc => ?_
      rcases hq p hc with h1 | h1
      · exact e h1
      · have hn : (m.filter fun p' => decide (p'.1 = p.1)) = [] := h _ h1
        exact absurd (List.mem_filter.2 ⟨hp, by simp⟩ : p ∈ m.filter fun p' => decide (p'.1 = p.1)) (by rw [hn]; exact List.not_mem_nil)
  rw [← List.head?_filter, hf]
  rfl

theorem Has.find_none {m : List (String × Json)} {fs : List (String × Option Json)} (h : Has m fs) {q : String × Json → Bool}
    (hq : ∀ p, q p = true → (p.1, none) ∈ fs) : m.find? q = none := by
  rw [List.find?_eq_none]
  intro p hp hc
  have hn : (m.filter fun p' => decide (p'.1 = p.1)) = [] := h _ (hq p hc)
  exact absurd (List.mem_filter.2 ⟨hp, by simp⟩ : p ∈ m.filter fun p' => decide (p'.1 = p.1)) (by rw [hn]; exact List.not_mem_nil)

/-- What was found under a name. -/
theorem found {m : List (String × Json)} {ns : List String} {l : List (Option Json)} (h : ns.mapM (single m) = some l) (i : Nat) {k : String} (hi : ns[i]? = some k)
    {o : Option Json} (hs : Says m k o) : l[i]? = some o := by
  induction ns generalizing l i with
  | nil => cases hi
  | cons n ns ih =>
    rw [List.mapM_cons] at h
    obtain ⟨a, ha, h⟩ := Option.bind_eq_some_iff.1 h
    obtain ⟨l', hl', h⟩ := Option.bind_eq_some_iff.1 h
    cases h
    cases i with
    | zero =>
      cases hi
      rw [hs.single] at ha
      cases ha
      rfl
    | succ i => exact ih hl' i hi

theorem readVec_refused {α : Type} {r : Json → Option α} {js : List Json} {j : Json} (hj : j ∈ js) (h : r j = none) : readVec r (.arr js) = none := by
  show js.mapM r = none
  induction js with
  | nil => cases hj
  | cons a js ih =>
    rw [List.mapM_cons]
    rcases List.mem_cons.1 hj with rfl | hj
    · rw [h]; rfl
    · rw [ih hj]; cases r a <;> rfl

theorem optional_refused {α : Type} {r : Json → Option α} {j : Json} (h : r j = none) (hn : j ≠ .null) : optional r (some j) = none := by
  cases j with
  | null => exact absurd rfl hn
  | _ => simp only [optional, h, Option.map_none]

theorem optional_txt (o : Option String) : optional readStr (txt o) = some o := by cases o <;> rfl

theorem defaulted_txt (o : Option String) : defaulted "" readStr (txt o) = some (o.getD "") := by cases o <;> rfl

theorem readVec_txts (l : List String) : readVec readStr (.arr (l.map .str)) = some l := mapM_written fun _ _ => rfl

theorem optional_txts (o : Option (List String)) : optional (readVec readStr) (txts o) = some o := by
  cases o with
  | none => rfl
  | some l => exact congrArg (Option.map some) (readVec_txts l)

theorem required_txts (l : List String) : required (readVec readStr) (txts (some l)) = some l := readVec_txts l

theorem optional_int {o : Option Int} (h : SoundI64 o) : optional readI64 (int o) = some o := by
  cases o with
  | none => rfl
  | some n => exact congrArg (Option.map some) (readI64_write (h n rfl))

theorem required_int {n : Int} (h : SoundI64 (some n)) : required readI64 (int (some n)) = some n := readI64_write (h n rfl)

theorem optional_truth (o : Option Bool) : optional readBool (truth o) = some o := by cases o <;> rfl

theorem optional_names {α : Type} {read : Json → Option α} {name : α → String} (h : ∀ a, read (.str (name a)) = some a) (o : Option (List α)) :
    optional (readVec read) (names name o) = some o := by
  cases o with
  | none => rfl
  | some l => exact congrArg (Option.map some) (mapM_written (w := fun a => .str (name a)) fun a _ => h a)

theorem required_names {α : Type} {read : Json → Option α} {name : α → String} (h : ∀ a, read (.str (name a)) = some a) (l : List α) :
    required (readVec read) (names name (some l)) = some l := mapM_written (w := fun a => .str (name a)) fun a _ => h a

theorem readGrantSpec (g : GrantType) : readUnit grantOf (.str (grantSpec g)) = some g := by cases g <;> rfl

end Verif.Wire
