import Verif.Wire.CreateRequest
import Verif.Wire.AskedLemmas
import Verif.Wire.CredentialProps
import Verif.Wire.MessageProps
import Verif.Wire.Foreign
import Verif.Server.VerifierProps
import Verif.Verifier.Demo
/-!
# C189: asking the verifier for a request, over text
-/
namespace Verif.Wire
open Prog
open Verifier (CreateRequestRequest CreateRequestResponse DeviceFlow VState)

/-! ### Specification -/

/-- The names of the two ways to pass a request on. Specification; models no code. -/
def flowSpec : DeviceFlow → String
  | .crossDevice => "CrossDevice"
  | .sameDevice => "SameDevice"

/-! ### Proofs -/

theorem readDeviceFlow_write (f : DeviceFlow) : readUnit flowOf (.str (flowName f)) = some f := by cases f <;> rfl

theorem readCreateRequest_write {r : CreateRequestRequest} (scheme : String) (h : ∀ i ∈ r.inputDescriptors, SoundFormats i.format) :
    readCreateRequest (writeCreateRequest scheme r) = some r := by
  have h1 : ∀ s, defaulted "" readStr (some (.str s)) = some s := fun _ => rfl
  have h2 : defaulted [] (readVec readDescriptor) (some (writeVec writeDescriptor r.inputDescriptors)) = some r.inputDescriptors :=
    readVec_written fun i hi => readDescriptor_write (h i hi)
  have h3 : defaulted .crossDevice (readUnit flowOf) (some (.str (flowName r.deviceFlow))) = some r.deviceFlow := readDeviceFlow_write _
  rw [readCreateRequest, writeCreateRequest, structDefault_members (names := createRequestNames) rfl (by decide)]
  simp only [List.map_cons, List.map_nil, h1, h2, h3, Option.bind_eq_bind, Option.bind_some, Option.pure_def]

theorem readCreateRequest_sound {j : Json} {r : CreateRequestRequest} (h : readCreateRequest j = some r) : ∀ i ∈ r.inputDescriptors, SoundFormats i.format := by
  unfold readCreateRequest at h
  obtain ⟨l, -, h⟩ := Option.bind_eq_some_iff.1 h
  match l, h with
  | [c, p, ds, f, sc], h =>
    simp only at h
    iterate 2 obtain ⟨_, -, h⟩ := Option.bind_eq_some_iff.1 h
    obtain ⟨is, hi, h⟩ := Option.bind_eq_some_iff.1 h
    iterate 2 obtain ⟨_, -, h⟩ := Option.bind_eq_some_iff.1 h
    cases h
    rcases defaulted_cases hi with rfl | ⟨j, hj⟩
    · exact fun _ h => absurd h List.not_mem_nil
    · exact readVec_all (fun j d => readDescriptor_sound) hj

theorem wf_createRequest (scheme : String) (r : CreateRequestRequest) : (writeCreateRequest scheme r).WF := by
  refine wf_members ?_
  simp only [List.forall_mem_cons]
  exact ⟨optWF_some (wf_str _), optWF_some (wf_str _), optWF_some (wf_vec wf_descriptor _), optWF_some (wf_str _), optWF_some (wf_str _), nofun⟩

theorem readCreated_write {r : CreateRequestResponse} (h : ∀ o, r.requestObject = some o → SoundAsk o) : readCreated (writeCreated r) = some r := by
  have h1 : optional readAsk (r.requestObject.map fun o => .obj (writeAsk o)) = some r.requestObject := by
    cases hr : r.requestObject with
    | none => rfl
    | some o =>
      have := readAsk_write (h o hr)
      simp only [Option.map_some, optional, this]
  rw [readCreated, writeCreated]
  generalize (r.requestObject.map fun o => Json.obj (writeAsk o)) = l at *
  rw [structFields_members (names := ["request_object", "request_uri"]) rfl (by decide)]
  simp only [List.map_cons, List.map_nil, h1, optStr, Option.bind_eq_bind, Option.bind_some, Option.pure_def]

theorem readCreated_sound {j : Json} {r : CreateRequestResponse} (h : readCreated j = some r) : ∀ o, r.requestObject = some o → SoundAsk o := by
  unfold readCreated at h
  obtain ⟨l, -, h⟩ := Option.bind_eq_some_iff.1 h
  match l, h with
  | [o, u], h =>
    simp only at h
    obtain ⟨o', ho, h⟩ := Option.bind_eq_some_iff.1 h
    obtain ⟨_, -, h⟩ := Option.bind_eq_some_iff.1 h
    cases h
    rintro o rfl
    obtain ⟨j, hj⟩ := optional_some ho
    exact readAsk_sound hj

theorem wf_created (r : CreateRequestResponse) : (writeCreated r).WF := by
  refine wf_members ?_
  simp only [List.forall_mem_cons]
  exact ⟨optWF_map fun o => wf_members (wf_ask o), wf_optStr _, nofun⟩

/-! ### C189 -/

/-- C189: What is to be asked for is read as it was sent, exactly if each format map has each key once (as a `HashMap` has). -/
theorem C189_request_understood (scheme : String) (r : CreateRequestRequest) :
    overText (writeCreateRequest scheme) readCreateRequest r = some r ↔ ∀ i ∈ r.inputDescriptors, ∀ m, i.format = some m → (m.map Prod.fst).Nodup := by
  rw [overText_eq (wf_createRequest scheme r)]
  exact ⟨readCreateRequest_sound, readCreateRequest_write scheme⟩

/-- C189: What comes back, the request itself or where it is, is read as it was sent. -/
theorem C189_answer_understood (r : CreateRequestResponse) :
    overText writeCreated readCreated r = some r ↔
      ∀ o, r.requestObject = some o →
        (∀ d, o.presentationDefinition = .object d →
          (∀ m, d.format = some m → (m.map Prod.fst).Nodup) ∧ ∀ i ∈ d.inputDescriptors, ∀ m, i.format = some m → (m.map Prod.fst).Nodup) ∧
        (∀ n, o.clientMetadata.oauth.clientIdIssuedAt = some n → -2 ^ 63 ≤ n ∧ n < 2 ^ 63) ∧
        ∀ n, o.clientMetadata.oauth.clientSecretExpiresAt = some n → -2 ^ 63 ≤ n ∧ n < 2 ^ 63 := by
  rw [overText_eq (wf_created r)]
  exact ⟨readCreated_sound, readCreated_write⟩

/-- C189: A front end may leave out whatever it likes, and add members of its own: what is left out is empty, and the flow is across devices. -/
theorem C189_left_out {m : List (String × Json)} {client purpose scheme : Option String} {flow : Option DeviceFlow} {ds : Option (List Dif.InputDescriptor)}
    (hd : ∀ l, ds = some l → ∀ i ∈ l, ∀ m, i.format = some m → (m.map Prod.fst).Nodup)
    (h : Has m [("client_id", txt client), ("purpose", txt purpose), ("input_descriptors", ds.map fun l => .arr (l.map writeDescriptor)),
      ("device_flow", txt (flow.map flowSpec)), ("client_id_scheme", txt scheme)]) :
    readCreateRequest (.obj m) = some { clientId := client.getD "", purpose := purpose.getD "", inputDescriptors := ds.getD [], deviceFlow := flow.getD .crossDevice } := by
  have h1 : defaulted [] (readVec readDescriptor) (ds.map fun l => .arr (l.map writeDescriptor)) = some (ds.getD []) := by
    cases ds with
    | none => rfl
    | some l => exact mapM_written fun i hi => readDescriptor_write (hd l rfl i hi)
  have h2 : defaulted .crossDevice (readUnit flowOf) (txt (flow.map flowSpec)) = some (flow.getD .crossDevice) := by
    cases flow with
    | none => rfl
    | some f => cases f <;> rfl
  rw [readCreateRequest, show structDefault createRequestNames (.obj m) = _ from h.struct (names := createRequestNames) rfl]
  simp only [List.map_cons, List.map_nil, h1, h2, defaulted_txt, Option.bind_eq_bind, Option.bind_some, Option.pure_def]

/-- C189: A flow by any other name is refused: not taken for one of the two. -/
theorem C189_unknown_flow {m : List (String × Json)} {s : String} (h : Has m [("device_flow", some (.str s))]) (hs : ∀ f, s ≠ flowSpec f) :
    readCreateRequest (.obj m) = none := by
  have hf : flowOf s = none := by
    unfold flowOf
    split
    · exact absurd rfl (hs .crossDevice)
    · exact absurd rfl (hs .sameDevice)
    · rfl
  rw [readCreateRequest, structDefault, createRequestNames]
  simp only [List.mapM_cons, List.mapM_nil, h.get (List.mem_singleton_self _)]
  cases single m "client_id" <;> cases single m "purpose" <;> cases single m "input_descriptors" <;> cases single m "client_id_scheme" <;> try rfl
  rename_i c p ds sc
  simp only [Option.bind_eq_bind, Option.bind_some, Option.pure_def]
  cases defaulted "" readStr c <;> cases defaulted "" readStr p <;> cases defaulted [] (readVec readDescriptor) ds <;> try rfl
  simp only [Option.bind_some, defaulted, readUnit, hf, Option.bind_none]

theorem soundAsk_object {r : CreateRequestRequest} (h : ∀ i ∈ r.inputDescriptors, SoundFormats i.format) {md : Verifier.Metadata} (hm : SoundMetadata md) (u k n : String) :
    SoundAsk (Verifier.CreateRequest.object r u k n md) := by
  have hd : SoundAsked (Verifier.CreateRequest.definition u r) := by
    refine ⟨?_, h⟩
    rintro m hm
    cases hm
    exact List.pairwise_singleton _ _
  unfold Verifier.CreateRequest.object
  cases r.deviceFlow <;> refine ⟨?_, hm⟩ <;> rintro d hd' <;> cases hd' <;> exact hd

/-- C189: From text to text at the example verifier. Whatever text a front end sends, if a request is made of it, then the front end can read the answer, and it is the very request that is kept,
or the address at which to fetch it; and what is kept asks for what the text asks for. -/
theorem C189_served {a : Server.VAround} {P : Verifier.Provider} {wait : Nat} {w : World VState} {host : String} {t : List Char} {body : CreateRequestRequest}
    {r : CreateRequestResponse}
    (hP : ∀ c m, P.verifier c = some m →
      (∀ n, m.oauth.clientIdIssuedAt = some n → -2 ^ 63 ≤ n ∧ n < 2 ^ 63) ∧ ∀ n, m.oauth.clientSecretExpiresAt = some n → -2 ^ 63 ≤ n ∧ n < 2 ^ 63)
    (ht : (parseJson t).bind readCreateRequest = some body) (h : (Server.vserve a P wait w (.create host body)).1 = .ok (.createRequest r)) :
    ∃ id o, Server.Keeps (Server.vserve a P wait w (.create host body)).2 id o ∧ Server.AsksFor host body id o ∧
      (parseJson (writeCreated r).chars).bind readCreated =
        some (match body.deviceFlow with
          | .sameDevice => { requestObject := some o, requestUri := none }
          | .crossDevice => { requestObject := none, requestUri := some ("http://" ++ host ++ "/request/" ++ id) }) := by
  obtain ⟨id, o, h1, h2, h3, h4⟩ := Server.C165_asks_as_host h
  refine ⟨id, o, h1, h2, ?_⟩
  obtain ⟨j, -, hj⟩ := Option.bind_eq_some_iff.1 ht
  have hs := readCreateRequest_sound hj
  obtain ⟨_, md, hmd, _, o', ho', hr, _⟩ := Verifier.createRequest_ok.1 (Server.made h)
  have hsound : SoundAsk o' := by
    rw [ho']
    exact soundAsk_object (r := { body with clientId := "http://" ++ host }) hs (hP _ _ hmd) _ _ _
  have hread : overText writeCreated readCreated r = some r := by
    rw [overText_eq (wf_created r)]
    refine readCreated_write fun x hx => ?_
    rw [hr] at hx
    unfold Verifier.CreateRequest.reply at hx
    split at hx <;> cases hx
    exact hsound
  rw [show (parseJson (writeCreated r).chars).bind readCreated = some r from hread]
  cases hf : body.deviceFlow with
  | sameDevice => obtain ⟨h5, h6⟩ := h4 hf; cases r; cases h5; cases h6; rfl
  | crossDevice => obtain ⟨h5, h6⟩ := h3 hf; cases r; cases h5; cases h6; rfl

/-! ### Cases -/

namespace CreateRequestDemo

example : overText (writeCreateRequest "redirect_uri") readCreateRequest (Verifier.Demo.createReq .sameDevice) = some (Verifier.Demo.createReq .sameDevice) :=
  (C189_request_understood _ _).2 (by
    intro i hi m hm
    simp only [Verifier.Demo.createReq, List.mem_singleton] at hi
    subst hi
    cases hm)

/-- A body that only says what is wanted, and has a member the verifier does not know. -/
example : readCreateRequest (.obj [("purpose", .str "age"), ("colour", .str "red"), ("input_descriptors", .arr [])]) =
    some { clientId := "", purpose := "age", inputDescriptors := [], deviceFlow := .crossDevice } :=
  C189_left_out (client := none) (purpose := some "age") (scheme := none) (flow := none) (ds := some []) (by intro l hl i hi; cases hl; cases hi)
    (by intro f hf; simp only [List.mem_cons, List.not_mem_nil, or_false] at hf; rcases hf with rfl | rfl | rfl | rfl | rfl <;> rfl)

example : readCreateRequest (.obj [("device_flow", .str "same-device")]) = none :=
  C189_unknown_flow (s := "same-device") (by intro f hf; simp only [List.mem_singleton] at hf; subst hf; rfl) (by intro f; cases f <;> decide)

example : overText writeCreated readCreated { requestUri := some "http://v.example/request/abc" } = some { requestUri := some "http://v.example/request/abc" } :=
  (C189_answer_understood _).2 (by intro o ho; cases ho)

/-- The text of a request for the same device is served, and the front end reads back the request that is kept. -/
example : ∃ r id o, (Server.vserve { env := Verifier.Demo.env, lossy := fun _ => [], vp := fun _ => none } Verifier.Demo.provider 0 (Verifier.start 0)
      (.create "v.example" (Verifier.Demo.createReq .sameDevice))).1 = .ok (.createRequest r) ∧
    Server.AsksFor "v.example" (Verifier.Demo.createReq .sameDevice) id o ∧
    (parseJson (writeCreated r).chars).bind readCreated = some { requestObject := some o, requestUri := none } := by
  have hf : ∀ i ∈ (Verifier.Demo.createReq .sameDevice).inputDescriptors, ∀ m, i.format = some m → (m.map Prod.fst).Nodup := by
    intro i hi m hm
    simp only [Verifier.Demo.createReq, List.mem_singleton] at hi
    subst hi
    cases hm
  have hP : ∀ c m, Verifier.Demo.provider.verifier c = some m →
      (∀ n, m.oauth.clientIdIssuedAt = some n → -2 ^ 63 ≤ n ∧ n < 2 ^ 63) ∧ ∀ n, m.oauth.clientSecretExpiresAt = some n → -2 ^ 63 ≤ n ∧ n < 2 ^ 63 := by
    intro c m h
    simp only [Verifier.Demo.provider] at h
    split at h <;> cases h
    exact ⟨nofun, nofun⟩
  obtain ⟨id, o, -, h1, h2⟩ := C189_served (a := { env := Verifier.Demo.env, lossy := fun _ => [], vp := fun _ => none }) (wait := 0) (w := Verifier.start 0)
    (host := "v.example") hP ((C189_request_understood "" _).2 hf) rfl
  exact ⟨_, id, o, rfl, h1, h2⟩

end CreateRequestDemo

end Verif.Wire
