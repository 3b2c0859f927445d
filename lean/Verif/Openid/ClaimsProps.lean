import Verif.Openid.Claims
import Verif.Issuer.Spec
import Verif.Issuer.Demo
/-!
# Properties of claim verification and format lookup: C35, C36, C37
-/
namespace Verif

/-! ### Specification: claims by path

A claim tree maps names to claims; a path is a non-empty list of names. `HasAt` reads a map as its list of entries, `FindAt` by looking
names up; in real maps, where each name occurs once, both mean the same. -/

/-- The tree has claim `c` at path `p`. -/
inductive HasAt : Dict Claim → List String → Claim → Prop
  | here (m : Dict Claim) (k : String) (c : Claim) : (k, c) ∈ m → HasAt m [k] c
  | nested (m m' : Dict Claim) (k : String) (p : List String) (c : Claim) : (k, .set m') ∈ m → HasAt m' p c → HasAt m (k :: p) c

/-- Looking path `p` up in the tree finds claim `c`. -/
inductive FindAt : Dict Claim → List String → Claim → Prop
  | here (m : Dict Claim) (k : String) (c : Claim) : m.get? k = some c → FindAt m [k] c
  | nested (m m' : Dict Claim) (k : String) (p : List String) (c : Claim) : m.get? k = some (.set m') → FindAt m' p c →
      FindAt m (k :: p) c

/-- A request meets the mandatory claims of a configuration: every mandatory claim, at any depth, is requested, and what is
configured as a set of nested claims is, if requested, requested as a set. -/
structure MeetsMandatory (req sup : Dict Claim) : Prop where
  mandatory : ∀ p d, HasAt sup p (.entry d) → d.mandatory = some true → ∃ c, FindAt req p c
  nested : ∀ p m, HasAt sup p (.set m) → ∀ c, FindAt req p c → ∃ m', c = .set m'

/-- A request names only supported claims, and nested claims only where nested claims are supported. -/
structure OnlySupported (req sup : Dict Claim) : Prop where
  exists_ : ∀ p c, HasAt req p c → ∃ c', FindAt sup p c'
  nested : ∀ p m, HasAt req p (.set m) → ∃ m', FindAt sup p (.set m')

/-! ### Helpers -/

theorem HasAt.ne_nil {m : Dict Claim} {p : List String} {c : Claim} (h : HasAt m p c) : p ≠ [] := by cases h <;> simp

theorem FindAt.ne_nil {m : Dict Claim} {p : List String} {c : Claim} (h : FindAt m p c) : p ≠ [] := by cases h <;> simp

theorem not_findAt_nil {p : List String} {c : Claim} : ¬ FindAt [] p c := by rintro (⟨_, _, _, h⟩ | ⟨_, _, _, _, _, h, _⟩) <;> cases h

theorem meets_nil (req : Dict Claim) : MeetsMandatory req [] :=
  ⟨fun p d h => (by cases h <;> contradiction), fun p d h => (by cases h <;> contradiction)⟩

/-- One supported claim against what is requested under its name. -/
def MeetsOne (o : Option Claim) : Claim → Prop
  | .entry d => d.mandatory = some true → o.isSome
  | .set sup =>
    match o with
    | none => MeetsMandatory [] sup
    | some (.set r) => MeetsMandatory r sup
    | some (.entry _) => False

theorem meets_cons {req : Dict Claim} {k : String} {c : Claim} {rest : Dict Claim} :
    MeetsMandatory req ((k, c) :: rest) ↔ MeetsOne (req.get? k) c ∧ MeetsMandatory req rest := by
  constructor
  · intro h
    refine ⟨?_, ?_, ?_⟩
    · cases c with
      | entry d =>
        intro hm
        obtain ⟨c, hc⟩ := h.mandatory [k] d (.here _ _ _ (.head _)) hm
        cases hc with
        | here _ _ _ h => simp [h]
        | nested _ _ _ _ _ _ h => exact absurd rfl h.ne_nil
      | set sup =>
        simp only [MeetsOne]
        split
        · rename_i hn
          refine ⟨?_, ?_⟩
          · intro p d hp hm
            obtain ⟨c, hc⟩ := h.mandatory (k :: p) d (.nested _ _ _ _ _ (.head _) hp) hm
            cases hc with
            | here _ _ _ h => exact absurd rfl hp.ne_nil
            | nested _ _ _ _ _ h _ => rw [hn] at h; cases h
          · intro p m _ c hc; exact absurd hc not_findAt_nil
        · rename_i r hr
          refine ⟨?_, ?_⟩
          · intro p d hp hm
            obtain ⟨c, hc⟩ := h.mandatory (k :: p) d (.nested _ _ _ _ _ (.head _) hp) hm
            cases hc with
            | here _ _ _ h => exact absurd rfl hp.ne_nil
            | nested _ _ _ _ _ h h' => rw [hr] at h; cases h; exact ⟨c, h'⟩
          · intro p m hp c hc
            exact h.nested (k :: p) m (.nested _ _ _ _ _ (.head _) hp) c (.nested _ _ _ _ _ hr hc)
        · rename_i d hd
          obtain ⟨m', hm'⟩ := h.nested [k] sup (.here _ _ _ (.head _)) _ (.here _ _ _ hd)
          cases hm'
    · intro p d hp
      refine h.mandatory p d ?_
      cases hp with
      | here _ _ _ h => exact .here _ _ _ (.tail _ h)
      | nested _ _ _ _ _ h h' => exact .nested _ _ _ _ _ (.tail _ h) h'
    · intro p m hp
      refine h.nested p m ?_
      cases hp with
      | here _ _ _ h => exact .here _ _ _ (.tail _ h)
      | nested _ _ _ _ _ h h' => exact .nested _ _ _ _ _ (.tail _ h) h'
  · rintro ⟨h1, h2⟩
    refine ⟨?_, ?_⟩
    · intro p d hp hm
      cases hp with
      | here _ k' _ h =>
        rcases List.mem_cons.1 h with h | h
        · cases h
          have := h1 hm
          cases hg : req.get? k with
          | none => rw [hg] at this; cases this
          | some c => exact ⟨c, .here _ _ _ hg⟩
        · exact h2.mandatory _ d (.here _ _ _ h) hm
      | nested _ m' k' p' _ h h' =>
        rcases List.mem_cons.1 h with h | h
        · cases h
          simp only [MeetsOne] at h1
          split at h1
          · obtain ⟨c, hc⟩ := h1.mandatory p' d h' hm
            exact absurd hc not_findAt_nil
          · rename_i r hr
            obtain ⟨c, hc⟩ := h1.mandatory p' d h' hm
            exact ⟨c, .nested _ _ _ _ _ hr hc⟩
          · exact absurd h1 id
        · exact h2.mandatory _ d (.nested _ _ _ _ _ h h') hm
    · intro p m hp c hc
      cases hp with
      | here _ k' _ h =>
        rcases List.mem_cons.1 h with h | h
        · cases h
          cases hc with
          | here _ _ _ hg =>
            rw [hg] at h1
            cases c with
            | entry d => exact absurd h1 id
            | set m' => exact ⟨m', rfl⟩
          | nested _ _ _ _ _ _ h => exact absurd rfl h.ne_nil
        · exact h2.nested _ m (.here _ _ _ h) c hc
      | nested _ m' k' p' _ h h' =>
        rcases List.mem_cons.1 h with h | h
        · cases h
          cases hc with
          | here _ _ _ hg => exact absurd rfl h'.ne_nil
          | nested _ r _ _ _ hg hc =>
            rw [hg] at h1
            exact MeetsMandatory.nested h1 p' m h' c hc
        · exact h2.nested _ m (.nested _ _ _ _ _ h h') c hc

mutual
theorem claimsRequired_iff (req : Dict Claim) : (sup : List (String × Claim)) → (claimsRequired req sup = true ↔ MeetsMandatory req sup)
  | [] => by simp [claimsRequired, meets_nil]
  | (k, c) :: rest => by
    rw [claimsRequired, Bool.and_eq_true, meets_cons, claimRequired_iff _ c, claimsRequired_iff req rest]
theorem claimRequired_iff (o : Option Claim) : (c : Claim) → (claimRequired o c = true ↔ MeetsOne o c)
  | .entry d => by
    rcases d with ⟨_ | _ | _⟩ <;> simp [claimRequired, MeetsOne]
  | .set sup => by
    cases o with
    | none => simp only [claimRequired, MeetsOne]; exact claimsRequired_iff [] sup
    | some c =>
      cases c with
      | entry d => simp [claimRequired, MeetsOne]
      | set r => simp only [claimRequired, MeetsOne]; exact claimsRequired_iff r sup
end

/-- One requested claim against the supported claim of its name. -/
def OneSupported : Claim → Claim → Prop
  | .set req, .set sup => OnlySupported req sup
  | .set _, .entry _ => False
  | .entry _, _ => True

theorem onlySupported_cons {sup : Dict Claim} {k : String} {c : Claim} {rest : Dict Claim} :
    OnlySupported ((k, c) :: rest) sup ↔ (∃ s, sup.get? k = some s ∧ OneSupported c s) ∧ OnlySupported rest sup := by
  have tail : ∀ {p c'}, HasAt rest p c' → HasAt ((k, c) :: rest) p c' := by
    intro p c' hp
    cases hp with
    | here _ _ _ h => exact .here _ _ _ (.tail _ h)
    | nested _ _ _ _ _ h h' => exact .nested _ _ _ _ _ (.tail _ h) h'
  constructor
  · intro h
    refine ⟨?_, fun p c hp => h.exists_ p c (tail hp), fun p m hp => h.nested p m (tail hp)⟩
    obtain ⟨s, hs⟩ := h.exists_ [k] c (.here _ _ _ (.head _))
    have hs' : sup.get? k = some s := by
      cases hs with
      | here _ _ _ h => exact h
      | nested _ _ _ _ _ _ h => exact absurd rfl h.ne_nil
    refine ⟨s, hs', ?_⟩
    cases c with
    | entry d => trivial
    | set r =>
      obtain ⟨m', hm'⟩ := h.nested [k] r (.here _ _ _ (.head _))
      have : sup.get? k = some (.set m') := by
        cases hm' with
        | here _ _ _ h => exact h
        | nested _ _ _ _ _ _ h => exact absurd rfl h.ne_nil
      rw [hs'] at this
      cases this
      refine ⟨?_, ?_⟩
      · intro p c hp
        obtain ⟨c', hc'⟩ := h.exists_ (k :: p) c (.nested _ _ _ _ _ (.head _) hp)
        cases hc' with
        | here _ _ _ h => exact absurd rfl hp.ne_nil
        | nested _ _ _ _ _ h h' => rw [hs'] at h; cases h; exact ⟨_, h'⟩
      · intro p c hp
        obtain ⟨c', hc'⟩ := h.nested (k :: p) c (.nested _ _ _ _ _ (.head _) hp)
        cases hc' with
        | here _ _ _ h => exact absurd rfl hp.ne_nil
        | nested _ _ _ _ _ h h' => rw [hs'] at h; cases h; exact ⟨_, h'⟩
  · rintro ⟨⟨s, hs, h1⟩, h2⟩
    refine ⟨?_, ?_⟩
    · intro p c' hp
      cases hp with
      | here _ _ _ h =>
        rcases List.mem_cons.1 h with h | h
        · cases h; exact ⟨s, .here _ _ _ hs⟩
        · exact h2.exists_ _ _ (.here _ _ _ h)
      | nested _ m _ p' _ h h' =>
        rcases List.mem_cons.1 h with h | h
        · cases h
          cases s with
          | entry d => exact absurd h1 id
          | set m' =>
            obtain ⟨c2, hc2⟩ := OnlySupported.exists_ h1 p' c' h'
            exact ⟨c2, .nested _ _ _ _ _ hs hc2⟩
        · exact h2.exists_ _ _ (.nested _ _ _ _ _ h h')
    · intro p c' hp
      cases hp with
      | here _ _ _ h =>
        rcases List.mem_cons.1 h with h | h
        · cases h
          cases s with
          | entry d => exact absurd h1 id
          | set m' => exact ⟨m', .here _ _ _ hs⟩
        · exact h2.nested _ _ (.here _ _ _ h)
      | nested _ m _ p' _ h h' =>
        rcases List.mem_cons.1 h with h | h
        · cases h
          cases s with
          | entry d => exact absurd h1 id
          | set m' =>
            obtain ⟨c2, hc2⟩ := OnlySupported.nested h1 p' c' h'
            exact ⟨c2, .nested _ _ _ _ _ hs hc2⟩
        · exact h2.nested _ _ (.nested _ _ _ _ _ h h')

mutual
theorem claimsSupported_iff : (req : List (String × Claim)) → (sup : Dict Claim) →
    (claimsSupported req sup = true ↔ OnlySupported req sup)
  | [], sup => by
    simp only [claimsSupported, true_iff]
    exact ⟨fun p d h => (by cases h <;> contradiction), fun p d h => (by cases h <;> contradiction)⟩
  | (k, c) :: rest, sup => by
    rw [claimsSupported, Bool.and_eq_true, onlySupported_cons, claimsSupported_iff rest sup]
    cases h : Dict.get? sup k with
    | none => simp
    | some s => simp [claimSupported_iff c s]
theorem claimSupported_iff : (c s : Claim) → (claimSupported c s = true ↔ OneSupported c s)
  | .set req, .set sup => by simp only [claimSupported, OneSupported]; exact claimsSupported_iff req sup
  | .set _, .entry _ => by simp [claimSupported, OneSupported]
  | .entry _, _ => by simp [claimSupported, OneSupported]
end

/-! ### Properties -/

/-- **C35**. `verify_claims` accepts requested claims exactly when the configuration lists no claims, or every mandatory claim it lists,
at any depth, is requested, and sets of nested claims are requested as sets. -/
theorem C35_mandatory_claims (cfg : CredentialConfiguration) (req : Dict Claim) :
    cfg.verifyClaims req = true ↔ ∀ sup, cfg.format.claims = some sup → MeetsMandatory req sup := by
  unfold CredentialConfiguration.verifyClaims
  cases cfg.format.claims with
  | none => simp
  | some sup => simp [claimsRequired_iff]

/-- Mandatory claims two levels down: the claim tree of a driving licence, a request that leaves the mandatory one out, and one that has
it. -/
def Demo.nestedConfig : CredentialConfiguration where
  format := .isoMdl "org.iso.18013.5.1.mDL" (some [("org.iso.18013.5.1",
    .set [("name", .set [("given", .entry {}), ("family", .entry { mandatory := some true })]), ("age", .entry {})])])

example : Demo.nestedConfig.verifyClaims [("org.iso.18013.5.1", .set [("name", .set [("given", .entry {})])])] = false ∧
    Demo.nestedConfig.verifyClaims [("org.iso.18013.5.1", .set [("name", .set [("family", .entry {})])])] = true ∧
    Demo.nestedConfig.verifyClaims [("org.iso.18013.5.1", .entry {})] = false ∧
    Demo.nestedConfig.verifyClaims [] = false := by decide

/-- **C36**, the check itself: `claims_supported` accepts exactly the requests that name only supported claims. What is missing is its
use: the code ignores its result (see the negation). -/
theorem C36_supported_check_partial (req sup : Dict Claim) : claimsSupported req sup = true ↔ OnlySupported req sup :=
  claimsSupported_iff req sup

/-- **C36 is false**, in general: to any accepted request any claims may be added and it is still accepted, whether the configuration
supports them or not, as long as they are not names of configured sets. -/
theorem C36_unsupported_claims_accepted (cfg : CredentialConfiguration) (req : Dict Claim) (hok : cfg.verifyClaims req = true)
    (name : String) (c : Claim) (hnew : ∀ sup m, cfg.format.claims = some sup → (name, .set m) ∉ sup) :
    cfg.verifyClaims (req ++ [(name, c)]) = true := by
  rw [C35_mandatory_claims] at hok ⊢
  intro sup hsup
  have h := hok sup hsup
  have hget : ∀ k x, req.get? k = some x → Dict.get? (req ++ [(name, c)]) k = some x := by
    intro k x hk
    induction req with
    | nil => cases hk
    | cons y req ih =>
      obtain ⟨ky, vy⟩ := y
      simp only [List.cons_append, Dict.get?] at hk ⊢
      split
      · simp_all
      · rename_i hne
        rw [if_neg hne] at hk
        clear ih h hok
        revert hk
        induction req with
        | nil => intro hk; cases hk
        | cons z req ih =>
          obtain ⟨kz, vz⟩ := z
          simp only [List.cons_append, Dict.get?]
          split
          · exact id
          · exact ih
  have hget' : ∀ k x, Dict.get? (req ++ [(name, c)]) k = some x → req.get? k = some x ∨ k = name := by
    intro k x
    clear h hget hok
    induction req with
    | nil =>
      simp only [List.nil_append, Dict.get?]
      split
      · rename_i h; exact fun _ => .inr h.symm
      · intro h; cases h
    | cons y req ih =>
      obtain ⟨ky, vy⟩ := y
      simp only [List.cons_append, Dict.get?]
      split
      · exact .inl
      · exact ih
  refine ⟨?_, ?_⟩
  · intro p d hp hm
    obtain ⟨x, hx⟩ := h.mandatory p d hp hm
    cases hx with
    | here _ k _ hk => exact ⟨x, .here _ _ _ (hget k x hk)⟩
    | nested _ m' k p' _ hk hx => exact ⟨x, .nested _ _ _ _ _ (hget k _ hk) hx⟩
  · intro p m hp x hx
    cases hx with
    | here _ k _ hk =>
      rcases hget' k x hk with hk | rfl
      · exact h.nested _ m hp x (.here _ _ _ hk)
      · cases hp with
        | here _ _ _ hm => exact absurd hm (hnew sup m hsup)
        | nested _ _ _ _ _ _ hp => exact absurd rfl hp.ne_nil
    | nested _ m' k p' _ hk hx =>
      rcases hget' k _ hk with hk | rfl
      · exact h.nested _ m hp x (.nested _ _ _ _ _ hk hx)
      · cases hp with
        | here _ _ _ hm => exact absurd rfl hx.ne_nil
        | nested _ _ _ _ _ hm hp => exact absurd hm (hnew sup _ hsup)

/-- An instance: the demo configuration supports `email` and `family_name` only; a request for `salary` is accepted. -/
theorem C36_unsupported_claim_example :
    Issuer.Demo.employee.verifyClaims [("email", .entry {}), ("salary", .entry {})] = true ∧
    ¬ OnlySupported [("email", .entry {}), ("salary", .entry {})]
      [("email", .entry { mandatory := some true }), ("family_name", .entry {})] := by
  refine ⟨by decide, fun h => ?_⟩
  have := (claimsSupported_iff _ _).2 h
  revert this
  decide

/-- **C37**. Looking a configuration up by format gives an id whose configuration is of that format and type, and fails only when there
is none. As the issuer's configurations are an arbitrary list here, this holds for every iteration order of the map. -/
theorem C37_format_lookup (iss : Issuer) (f : Format) :
    (∀ id, iss.configurationId f = some id → ∃ cfg, (id, cfg) ∈ iss.configs ∧
      Issuer.SameCredential (.format cfg.format) (.format f)) ∧
    (iss.configurationId f = none ↔ ∀ id cfg, (id, cfg) ∈ iss.configs →
      ¬ Issuer.SameCredential (.format cfg.format) (.format f)) := by
  have heq : ∀ cfg : CredentialConfiguration, cfg.format.eqv f = true ↔ Issuer.SameCredential (.format cfg.format) (.format f) :=
    fun cfg => Issuer.sameCredential_iff (.format cfg.format) (.format f)
  constructor
  · intro id h
    simp only [Issuer.configurationId, Option.map_eq_some_iff] at h
    obtain ⟨⟨id', cfg⟩, h1, rfl⟩ := h
    exact ⟨cfg, List.mem_of_find?_eq_some h1, (heq cfg).1 (by simpa using List.find?_some h1)⟩
  · simp only [Issuer.configurationId, Option.map_eq_none_iff, List.find?_eq_none, Prod.forall]
    constructor
    · intro h id cfg hm hs; exact h id cfg hm ((heq cfg).2 hs)
    · intro h id cfg hm hs; exact h id cfg hm ((heq cfg).1 hs)

/-- **C37**, iteration order: if only one configuration is of that format and type, every order of the map gives its id. -/
theorem C37_order_irrelevant (iss iss' : Issuer) (f : Format) (hperm : iss'.configs.Perm iss.configs) {id : String}
    {cfg : CredentialConfiguration} (hmem : (id, cfg) ∈ iss.configs) (hf : Issuer.SameCredential (.format cfg.format) (.format f))
    (huniq : ∀ id' cfg', (id', cfg') ∈ iss.configs → Issuer.SameCredential (.format cfg'.format) (.format f) → id' = id) :
    iss'.configurationId f = some id := by
  cases h : iss'.configurationId f with
  | none => exact absurd hf ((C37_format_lookup iss' f).2.1 h id cfg (hperm.mem_iff.2 hmem))
  | some id' =>
    obtain ⟨cfg', h1, h2⟩ := (C37_format_lookup iss' f).1 id' h
    rw [huniq id' cfg' (hperm.mem_iff.1 h1) h2]

example : Issuer.Demo.issuer.configurationId (.jwtVcJson { type_ := some ["VerifiableCredential", "DeveloperCredential"] }) =
      some "Developer" ∧
    Issuer.Demo.issuer.configurationId (.jwtVcJson { type_ := some ["VerifiableCredential"] }) = none := by decide

end Verif
