import Verif.Issuer.AuthorizeProps
import Verif.Issuer.StepLemmas
/-!
# C135: which of the scope values asked for count
-/
namespace Verif.Issuer
open Prog

/-! ### Specification -/

/-- A scope value: some text without white space. -/
def ScopeValue (a : String) : Prop := a.toList ≠ [] ∧ ∀ c ∈ a.toList, c.isWhitespace = false

/-- A request at the authorization endpoint with the scope `scope`. -/
def asksScope (P : Provider) (wait : Nat) (r : RequestObject) (scope : String) : Step :=
  { provider := P, wait, req := .authorize (.object { r with scope := some scope }) }

/-! ### Lemmas -/

theorem splitWsAux_word (a : List Char) (ha : ∀ c ∈ a, c.isWhitespace = false) (rest : List Char) (cur : List Char) :
    splitWsAux (a ++ rest) cur = splitWsAux rest (a.reverse ++ cur) := by
  induction a generalizing cur with
  | nil => rfl
  | cons c a ih =>
    rw [List.cons_append, splitWsAux, if_neg (by simp [ha c (.head _)]), ih (fun x hx => ha x (.tail _ hx))]
    simp

theorem splitWs_word {a : String} (ha : ScopeValue a) : splitWs a = [a] := by
  have h := splitWsAux_word a.toList ha.2 [] []
  simp only [List.append_nil] at h
  rw [splitWs, h, splitWsAux, if_neg (by simp [ha.1])]
  simp

theorem splitWs_word_space {a : String} (ha : ScopeValue a) (rest : String) : splitWs (a ++ " " ++ rest) = a :: splitWs rest := by
  have h := splitWsAux_word a.toList ha.2 (' ' :: rest.toList) []
  simp only [List.append_nil] at h
  have h2 : (a ++ " " ++ rest).toList = a.toList ++ ' ' :: rest.toList := by simp
  rw [splitWs, h2, h, splitWsAux, if_pos (by decide), if_neg (by simp [ha.1])]
  simp [splitWs]

theorem verifyScope_head {iss : Issuer} {ds : Dict AuthorizationDetail} {sc sc' : String} (h : (splitWs sc).head? = (splitWs sc').head?) :
    Authorize.verifyScope iss ds sc = Authorize.verifyScope iss ds sc' := by
  unfold Authorize.verifyScope
  cases h1 : splitWs sc with
  | nil => cases h2 : splitWs sc' with
    | nil => rfl
    | cons a l => rw [h1, h2] at h; cases h
  | cons b k => cases h2 : splitWs sc' with
    | nil => rw [h1, h2] at h; cases h
    | cons a l => rw [h1, h2] at h; cases h; rfl

/-! ### C135 -/

/-- **C135 is false**: of the scope values in a request only the first counts. Requests with the same first value get the same answer and leave the
same state behind, whatever else they ask for, supported or not. -/
theorem C135_only_first_value_counts {sc sc' : String} (h : (splitWs sc).head? = (splitWs sc').head?) (P : Provider) (wait : Nat) (r : RequestObject)
    (e : Env) (w : World State) : step e w (asksScope P wait r sc) = step e w (asksScope P wait r sc') := by
  have hv : ∀ iss client server, Authorize.verifyPost iss client server { r with scope := some sc } =
      Authorize.verifyPost iss client server { r with scope := some sc' } := by
    intro iss client server
    simp only [Authorize.verifyPost, Authorize.verifyScopeOpt, verifyScope_head h]
    rfl
  have hc : authorize P (.object { r with scope := some sc }) = authorize P (.object { r with scope := some sc' }) := by
    have hf : ∀ iss, Authorize.verify P iss false { r with scope := some sc } = Authorize.verify P iss false { r with scope := some sc' } := by
      intro iss
      simp only [Authorize.verify, hv]
      rfl
    have hf' : (fun iss => (Authorize.verify P iss false { r with scope := some sc }).bind fun v => Authorize.process P { r with scope := some sc } v.1 v.2) =
        fun iss => (Authorize.verify P iss false { r with scope := some sc' }).bind fun v => Authorize.process P { r with scope := some sc' } v.1 v.2 := by
      funext iss
      rw [hf]
      rfl
    show (Prog.lift _).bind _ = (Prog.lift _).bind _
    exact congrArg (fun k => (lift (orErr (P.issuer r.credentialIssuer) (.invalidRequest "invalid `credential_issuer`"))).bind k) hf'
  simp only [step, asksScope, call, hc]

/-- **C135 is false**: whatever follows the first scope value is neither honoured nor refused. -/
theorem C135_further_values_ignored {a : String} (ha : ScopeValue a) (rest : String) (P : Provider) (wait : Nat) (r : RequestObject) (e : Env)
    (w : World State) : step e w (asksScope P wait r (a ++ " " ++ rest)) = step e w (asksScope P wait r a) :=
  C135_only_first_value_counts (by rw [splitWs_word ha, splitWs_word_space ha]; rfl) P wait r e w

/-- **C135**, the part that holds: an authorization that is granted covers every configuration with the first scope value asked for. -/
theorem C135_first_value_honoured_partial {P : Provider} {request : AuthorizationRequest} {e : Env}
    {w w' : World State} {resp : AuthorizationResponse} (h : (authorize P request).run e w = (.ok resp, w')) :
    ∃ r iss items, request.DenotesIn w r ∧ P.issuer r.credentialIssuer = some iss ∧
      (r.issuerState ≠ some resp.code → ∃ st a, w'.store resp.code = some st ∧ st.stage = .authorized a ∧ a.items = items) ∧
      ∀ a rest id cfg, r.scope = some a ∨ r.scope = some (a ++ " " ++ rest) → ScopeValue a → (id, cfg) ∈ iss.configs → cfg.scope = some a →
        ∃ it ∈ items, it.configId = id := by
  obtain ⟨r, iss, client, server, ds, ss, items, h1, h2, h3, h4, h5, h6, h7, h8, h9, h10, h11, h12, _⟩ := authorize_ok h
  obtain ⟨hne, hperm, hit⟩ := Authorize.authorizeItems_spec h10
  refine ⟨r, iss, items, h1, h2, ?_, ?_⟩
  · intro hk
    refine ⟨Authorize.stored r items w.now, _, ?_, rfl, rfl⟩
    rw [h12, h11]
    cases hk' : r.issuerState with
    | none => simp
    | some k =>
      rw [hk', h11] at hk
      have : e.rng w.drawn ≠ k := fun h => hk (by rw [h])
      simp [this]
  · intro a rest id cfg hsc ha hcfg hs
    have hw : ∃ sc, r.scope = some sc ∧ ∃ l, splitWs sc = a :: l := by
      rcases hsc with hsc | hsc
      · exact ⟨_, hsc, _, splitWs_word ha⟩
      · exact ⟨_, hsc, _, splitWs_word_space ha rest⟩
    obtain ⟨sc, hsc, l, hl⟩ := hw
    rw [hsc] at h8
    simp only [Authorize.verifyScopeOpt, Authorize.verifyScope, hl] at h8
    split at h8
    · cases h8
    · cases h8
      have : id ∈ items.map (fun it => it.configId) := by
        refine hperm.mem_iff.2 (List.mem_append.2 ?_)
        by_cases hd : ds.has id = true
        · left
          exact Dict.has_iff.1 hd
        · right
          refine List.mem_map.2 ⟨(id, a), List.mem_map.2 ⟨(id, cfg), List.mem_filter.2 ⟨hcfg, ?_⟩, rfl⟩, rfl⟩
          simp [hs, hd]
      obtain ⟨it, hi, rfl⟩ := List.mem_map.1 this
      exact ⟨it, hi, rfl⟩

/-! ### Examples -/

namespace ScopeDemo

/-- The sample issuer, the developer credential with a scope too. -/
def provider : Provider := { Demo.provider with
  issuer := fun i => if i = "http://vercre.io" then
    some { Demo.issuer with configs := [("Employee", Demo.employee), ("Developer", { Demo.developer with scope := some "DeveloperCredential" })] } else none }

/-- The credentials authorized in a state. -/
def ids (s : Option State) : List String :=
  match s with
  | some { stage := .authorized a, .. } => a.items.map fun it => it.configId
  | _ => []

/-- A request by scope. -/
def asks (scope : String) : Step := asksScope provider 0 { Demo.authReq with authorizationDetails := none } scope

/-- C135: both scopes are supported on their own. Asked for together only the first is authorized, and no error says so. -/
example : ids ((step Demo.env (start 0) (asks "EmployeeIDCredential")).2.store (Demo.rng 0)) = ["Employee"] ∧
    ids ((step Demo.env (start 0) (asks "DeveloperCredential")).2.store (Demo.rng 0)) = ["Developer"] ∧
    ids ((step Demo.env (start 0) (asks ("EmployeeIDCredential" ++ " " ++ "DeveloperCredential"))).2.store (Demo.rng 0)) = ["Employee"] ∧
    Demo.isOk (step Demo.env (start 0) (asks ("EmployeeIDCredential" ++ " " ++ "NoSuchCredential"))).1 = true ∧
    Demo.isOk (step Demo.env (start 0) (asks "NoSuchCredential")).1 = false := by decide

/-- C135, the general theorem applies to that request. -/
example : step Demo.env (start 0) (asks ("EmployeeIDCredential" ++ " " ++ "DeveloperCredential")) = step Demo.env (start 0) (asks "EmployeeIDCredential") :=
  C135_further_values_ignored ⟨by decide, by decide⟩ ..

/-- C135, the part that holds, applies to it. -/
example : ∃ resp w', (authorize provider (.object { Demo.authReq with authorizationDetails := none, scope := some "EmployeeIDCredential" })).run
    Demo.env (start 0) = (.ok resp, w') := ⟨_, _, rfl⟩

end ScopeDemo

end Verif.Issuer
