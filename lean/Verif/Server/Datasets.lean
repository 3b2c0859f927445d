import Verif.Core.Data
/-!
# The data store of the example issuer

/repo/crates/test-utils/src/store/issuance.rs 109-172: the store that holds, for each person, the claims that can be issued to them. The example issuer
(/repo/examples/issuer/src/provider.rs 16, 27, 53-64) and the tests' issuer work over it.
-/
namespace Verif.Server.Datasets

/-- `Credential`, issuance.rs 109-114. `C` stands for the claims (`Map<String, Value>`). -/
structure Entry (C : Type) where
  configurationId : String
  claims : C
  pending : Bool

/-- `DatasetStore`, issuance.rs 116-119. A `std::sync::Mutex` whose holder panics is poisoned: taking it fails ever after. `none` is the poisoned store. -/
abbrev Store (C : Type) := Option (Dict (Dict (Entry C)))

/-- What a function of the store ends with. /repo/crates/test-utils/src/store/issuance.rs 121-172. -/
inductive Out (α : Type) where
  | ok (a : α)
  | error (why : String)
  | panic
  deriving DecidableEq

/-- `self.datasets.lock().expect(..).get(subject_id).unwrap().clone()`, issuance.rs 136-137 and 158-159: the lock is held (as a temporary of the
statement) when the `unwrap` panics. -/
def look {C : Type} (s : Store C) (subject : String) : Out (Dict (Entry C)) × Store C :=
  match s with
  | none => (.panic, none)
  | some m =>
    match m.get? subject with
    | none => (.panic, none)
    | some d => (.ok d, some m)

/-- `DatasetStore::authorize`, issuance.rs 132-153. -/
def authorize {C : Type} (s : Store C) (subject configurationId : String) : Out (List String) × Store C :=
  match look s subject with
  | (.ok d, s) =>
    let identifiers := Dict.keys (d.filter fun x => x.2.configurationId == configurationId)
    if identifiers.isEmpty then (.error "no matching dataset for subject/credential", s) else (.ok identifiers, s)
  | (.error e, s) => (.error e, s)
  | (.panic, s) => (.panic, s)

/-- The first half of `DatasetStore::dataset`, issuance.rs 155-160: what it holds between its two locks. Here the lock has been released when the `unwrap`
of line 160 panics. -/
def fetch {C : Type} (s : Store C) (subject identifier : String) : Out (Dict (Entry C) × Entry C) × Store C :=
  match look s subject with
  | (.ok d, s) =>
    match d.get? identifier with
    | none => (.panic, s)
    | some c => (.ok (d, c), s)
  | (.error e, s) => (.error e, s)
  | (.panic, s) => (.panic, s)

/-- The second half, issuance.rs 162-171: the person's data as fetched are written back, the credential being marked as no longer pending. -/
def writeBack {C : Type} (s : Store C) (subject identifier : String) (d : Dict (Entry C)) (c : Entry C) : Out (C × Bool) × Store C :=
  match s with
  | none => (.panic, none)
  | some m => (.ok (c.claims, c.pending), some (m.insert subject (d.insert identifier { c with pending := false })))

/-- `DatasetStore::dataset`, issuance.rs 155-172, undisturbed. -/
def dataset {C : Type} (s : Store C) (subject identifier : String) : Out (C × Bool) × Store C :=
  match fetch s subject identifier with
  | (.ok (d, c), s) => writeBack s subject identifier d c
  | (.error e, s) => (.error e, s)
  | (.panic, s) => (.panic, s)

/-- A call of the store. /repo/crates/test-utils/src/store/issuance.rs 121-172. -/
inductive Ask where
  | authorize (subject configurationId : String)
  | dataset (subject identifier : String)
  deriving DecidableEq

/-- Whom a call is about. /repo/crates/test-utils/src/store/issuance.rs 121-172. -/
def Ask.subject : Ask → String
  | .authorize s _ => s
  | .dataset s _ => s

/-- What a call gives. /repo/crates/test-utils/src/store/issuance.rs 121-172. -/
inductive Answer (C : Type) where
  | authorize (o : Out (List String))
  | dataset (o : Out (C × Bool))

/-- A call of the store. /repo/crates/test-utils/src/store/issuance.rs 121-172. -/
def ask {C : Type} (s : Store C) : Ask → Answer C × Store C
  | .authorize subject c => (.authorize (authorize s subject c).1, (authorize s subject c).2)
  | .dataset subject i => (.dataset (dataset s subject i).1, (dataset s subject i).2)

/-- The store after some calls. /repo/crates/test-utils/src/store/issuance.rs 121-172. -/
def after {C : Type} (s : Store C) : List Ask → Store C
  | [] => s
  | a :: l => after (ask s a).2 l

/-! ### Specification -/

/-- The person's entry of this identifier. /repo/crates/test-utils/src/store/issuance.rs 121-172. -/
def entry {C : Type} (s : Store C) (subject identifier : String) : Option (Entry C) :=
  s.bind fun m => (m.get? subject).bind fun d => d.get? identifier

/-- The call ended in a panic. Specification; models no code. -/
def Answer.Panics {C : Type} : Answer C → Prop
  | .authorize o => o = .panic
  | .dataset o => o = .panic

/-- The store knows this person. Specification; models no code. -/
def Known {C : Type} (s : Store C) (subject : String) : Prop := ∃ m d, s = some m ∧ m.get? subject = some d

/-- Each identifier is there once per person (a person's entries are a `HashMap`). Specification; models no code. -/
def Tidy {C : Type} (s : Store C) : Prop := ∀ m p d, s = some m → m.get? p = some d → Dict.Nodup d

/-! ### Lemmas -/

theorem Known.look {C : Type} {s : Store C} {p : String} (h : Known s p) : ∃ m d, s = some m ∧ m.get? p = some d ∧ look s p = (.ok d, s) := by
  obtain ⟨m, d, rfl, h2⟩ := h
  exact ⟨m, d, rfl, h2, by simp only [Datasets.look, h2]⟩

theorem authorize_of_known {C : Type} {s : Store C} {p c : String} (h : Known s p) : (authorize s p c).2 = s ∧ (authorize s p c).1 ≠ .panic := by
  obtain ⟨m, d, _, _, h3⟩ := h.look
  simp only [authorize, h3]
  split <;> exact ⟨rfl, fun h => nomatch h⟩

theorem dataset_of_known {C : Type} {s : Store C} {p i : String} (h : Known s p) :
    (entry s p i = none ∧ dataset s p i = (.panic, s)) ∨
    ∃ m d c, s = some m ∧ m.get? p = some d ∧ d.get? i = some c ∧
      dataset s p i = (.ok (c.claims, c.pending), some (m.insert p (d.insert i { c with pending := false }))) := by
  obtain ⟨m, d, rfl, h2, h3⟩ := h.look
  cases h4 : d.get? i with
  | none =>
    refine .inl ⟨?_, ?_⟩
    · simp [entry, h2, h4]
    · simp only [dataset, fetch, h3, h4]
  | some c =>
    exact .inr ⟨m, d, c, rfl, h2, h4, by simp only [dataset, fetch, h3, h4, writeBack]⟩

theorem poisoned {C : Type} (q : Ask) : (ask (none : Store C) q).1.Panics ∧ (ask (none : Store C) q).2 = none := by
  cases q <;> exact ⟨rfl, rfl⟩

theorem after_poisoned {C : Type} (l : List Ask) : after (none : Store C) l = none := by
  induction l with
  | nil => rfl
  | cons q l ih => rw [after, (poisoned q).2, ih]

theorem ask_unknown {C : Type} {s : Store C} {q : Ask} (h : ¬ Known s q.subject) : (ask s q).1.Panics ∧ (ask s q).2 = none := by
  have hl : look s q.subject = (.panic, none) := by
    cases s with
    | none => rfl
    | some m =>
      cases h2 : m.get? q.subject with
      | none => simp only [look, h2]
      | some d => exact absurd ⟨m, d, rfl, h2⟩ h
  cases q with
  | authorize p c =>
    have hl : look s p = (.panic, none) := hl
    simp only [ask, authorize, hl]
    exact ⟨rfl, trivial⟩
  | dataset p i =>
    have hl : look s p = (.panic, none) := hl
    simp only [ask, dataset, fetch, hl]
    exact ⟨rfl, trivial⟩

/-- A call about a known person changes neither who is known nor anything but the `pending` of the entry asked for. -/
theorem ask_known {C : Type} {s : Store C} {q : Ask} (h : Known s q.subject) :
    (∀ p, Known s p → Known (ask s q).2 p) ∧ (Tidy s → Tidy (ask s q).2) ∧
    ∀ p i, entry (ask s q).2 p i = (entry s p i).map fun c => if Ask.dataset p i = q then { c with pending := false } else c := by
  cases q with
  | authorize p c =>
    have e : (ask s (.authorize p c)).2 = s := (authorize_of_known (c := c) h).1
    rw [e]
    exact ⟨fun _ h => h, fun h => h, fun p i => by simp⟩
  | dataset p i =>
    rcases dataset_of_known (i := i) (p := p) h with ⟨h1, h2⟩ | ⟨m, d, c, rfl, h2, h3, h4⟩
    · have e : (ask s (.dataset p i)).2 = s := by simp only [ask, h2]
      rw [e]
      refine ⟨fun _ h => h, fun h => h, fun p' i' => ?_⟩
      by_cases hq : Ask.dataset p' i' = .dataset p i
      · cases hq
        rw [h1]; rfl
      · simp [hq]
    · have e : (ask (some m) (.dataset p i)).2 = some (m.insert p (d.insert i { c with pending := false })) := by simp only [ask, h4]
      rw [e]
      refine ⟨fun p' ⟨m', d', e1, e2⟩ => ?_, fun ht m' p' d' e1 e2 => ?_, fun p' i' => ?_⟩
      · cases e1
        by_cases hp : p' = p
        · exact ⟨_, d.insert i { c with pending := false }, rfl, by rw [Dict.get?_insert, if_pos hp]⟩
        · exact ⟨_, d', rfl, by rw [Dict.get?_insert, if_neg hp, e2]⟩
      · cases e1
        rw [Dict.get?_insert] at e2
        split at e2
        · cases e2
          exact Dict.nodup_insert (ht m p d rfl h2) _ _
        · exact ht m p' d' rfl e2
      · simp only [entry, Option.bind_some, Dict.get?_insert]
        by_cases hp : p' = p
        · subst hp
          rw [if_pos rfl, h2]
          simp only [Option.bind_some, Dict.get?_insert]
          by_cases hi : i' = i
          · subst hi
            simp [h3]
          · simp only [if_neg hi]
            cases d.get? i' with
            | none => rfl
            | some x => simp [hi]
        · rw [if_neg hp]
          cases (m.get? p').bind fun d => d.get? i' with
          | none => rfl
          | some x => simp [hp]

theorem after_known {C : Type} {s : Store C} {l : List Ask} (h : ∀ q ∈ l, Known s q.subject) :
    (∀ p, Known s p → Known (after s l) p) ∧ (Tidy s → Tidy (after s l)) ∧
    ∀ p i, entry (after s l) p i = (entry s p i).map fun c => { c with pending := c.pending && !decide (Ask.dataset p i ∈ l) } := by
  induction l generalizing s with
  | nil => exact ⟨fun _ h => h, fun h => h, fun p i => by simp [after]⟩
  | cons q l ih =>
    obtain ⟨h1, h1', h2⟩ := ask_known (h q (.head _))
    obtain ⟨h3, h3', h4⟩ := ih (s := (ask s q).2) fun x hx => h1 _ (h x (.tail _ hx))
    refine ⟨fun p hp => h3 _ (h1 _ hp), fun ht => h3' (h1' ht), fun p i => ?_⟩
    rw [after, h4, h2]
    cases entry s p i with
    | none => rfl
    | some c =>
      by_cases hq : Ask.dataset p i = q
      · subst hq
        simp
      · simp [hq]

/-! ### C143 -/

/-- **C143 is false**: one question about a person the store does not know, and every question ever after ends in a panic, whomever it is about. -/
theorem C143_unknown_subject_ends_it {C : Type} {s : Store C} {q : Ask} (h : ¬ Known s q.subject) (l : List Ask) (q' : Ask) :
    (ask s q).1.Panics ∧ (ask (after s (q :: l)) q').1.Panics := by
  refine ⟨(ask_unknown h).1, ?_⟩
  rw [after, (ask_unknown h).2, after_poisoned]
  exact (poisoned q').1

/-- **C143**, the part that holds: as long as all questions are about known people, the identifiers a person is authorized for are exactly those of their
entries with the configuration, they can be asked for at any later time, and the claims given are those the store was set up with. -/
theorem C143_known_subjects_served_partial {C : Type} {s : Store C} {l later : List Ask} {p c : String} {ids : List String} (ht : Tidy s)
    (hp : Known s p) (h : ∀ q ∈ l ++ later, Known s q.subject) (ha : (authorize (after s l) p c).1 = .ok ids) (i : String) :
    (i ∈ ids ↔ ∃ x, entry s p i = some x ∧ x.configurationId = c) ∧
    (i ∈ ids → ∃ x pending, entry s p i = some x ∧ (dataset (after s (l ++ later)) p i).1 = .ok (x.claims, pending)) := by
  obtain ⟨k1, k1', k2⟩ := after_known fun q hq => h q (List.mem_append_left _ hq)
  obtain ⟨k3, _, k4⟩ := after_known h
  obtain ⟨m, d, e1, e2, e3⟩ := (k1 p hp).look
  simp only [authorize, e3] at ha
  split at ha
  · cases ha
  cases ha
  have hiff : i ∈ Dict.keys (d.filter fun x => x.2.configurationId == c) ↔ ∃ x, entry s p i = some x ∧ x.configurationId = c := by
    have hent := k2 p i
    have hd : entry (after s l) p i = d.get? i := by simp [entry, e1, e2]
    rw [hd] at hent
    constructor
    · intro hi
      obtain ⟨y, hy, rfl⟩ := List.mem_map.1 hi
      obtain ⟨hy1, hy2⟩ := List.mem_filter.1 hy
      rw [Dict.get?_of_mem (k1' ht m p d e1 e2) (v := y.2) hy1] at hent
      cases hx : entry s p y.1 with
      | none => rw [hx] at hent; cases hent
      | some x =>
        rw [hx] at hent
        injection hent with hent
        rw [hent] at hy2
        exact ⟨x, rfl, by simpa using hy2⟩
    · rintro ⟨x, hx, hc⟩
      rw [hx] at hent
      exact List.mem_map.2 ⟨(i, _), List.mem_filter.2 ⟨Dict.mem_of_get? hent, by simpa using hc⟩, rfl⟩
  refine ⟨hiff, fun hi => ?_⟩
  obtain ⟨x, hx, hc⟩ := hiff.1 hi
  have hfin := k4 p i
  rw [hx] at hfin
  rcases dataset_of_known (i := i) (k3 p hp) with ⟨g1, _⟩ | ⟨m', d', c', g1, g2, g3, g4⟩
  · rw [g1] at hfin; cases hfin
  · have : entry (after s (l ++ later)) p i = some c' := by simp [entry, g1, g2, g3]
    rw [this] at hfin
    injection hfin with hfin
    exact ⟨x, c'.pending, hx, by rw [g4, hfin]⟩

/-! ### C144 -/

/-- **C144**, the part that holds: one call at a time, a pending credential is reported as pending to the first who asks for it, and as available to
everybody after that; asking for others makes no difference. -/
theorem C144_available_after_first_asking_partial {C : Type} {s : Store C} {l : List Ask} {p i : String} {x : Entry C}
    (h : ∀ q ∈ l, Known s q.subject) (hx : entry s p i = some x) :
    (dataset (after s l) p i).1 = .ok (x.claims, x.pending && !decide (Ask.dataset p i ∈ l)) := by
  have hp : Known s p := by
    cases s with
    | none => cases hx
    | some m =>
      cases h2 : m.get? p with
      | none => simp [entry, h2] at hx
      | some d => exact ⟨m, d, rfl, h2⟩
  obtain ⟨k1, _, k2⟩ := after_known h
  have hfin := k2 p i
  rw [hx] at hfin
  rcases dataset_of_known (i := i) (k1 p hp) with ⟨g1, _⟩ | ⟨m', d', c', g1, g2, g3, g4⟩
  · rw [g1] at hfin; cases hfin
  · rw [g4]
    have : entry (after s l) p i = some c' := by simp [entry, g1, g2, g3]
    rw [this] at hfin
    cases hfin
    rfl

/-- **C144 is false** when calls overlap: a call about another credential of the same person, begun before and ended after, makes the credential pending
again. (`fetch` of the one, the whole call of the other, `writeBack` of the one.) -/
theorem C144_pending_again {C : Type} {s : Store C} {p i j : String} {x y : Entry C} (hij : i ≠ j) (hx : entry s p i = some x)
    (hy : entry s p j = some y) (hpend : x.pending = true) :
    ∃ d, fetch s p j = (.ok (d, y), s) ∧ (dataset s p i).1 = .ok (x.claims, true) ∧
      (writeBack (dataset s p i).2 p j d y).1 = .ok (y.claims, y.pending) ∧
      (dataset (writeBack (dataset s p i).2 p j d y).2 p i).1 = .ok (x.claims, true) := by
  cases s with
  | none => cases hx
  | some m =>
    cases h2 : m.get? p with
    | none => simp [entry, h2] at hx
    | some d =>
      have h3 : d.get? i = some x := by simpa [entry, h2] using hx
      have h4 : d.get? j = some y := by simpa [entry, h2] using hy
      have e1 : dataset (some m) p i = (.ok (x.claims, x.pending), some (m.insert p (d.insert i { x with pending := false }))) := by
        simp only [dataset, fetch, look, h2, h3, writeBack]
      refine ⟨d, by simp only [fetch, look, h2, h4], by rw [e1, hpend], by rw [e1]; rfl, ?_⟩
      rw [e1]
      simp only [writeBack, dataset, fetch, look, Dict.get?_insert, if_true, if_neg hij, h3, hpend]

end Verif.Server.Datasets
