import Verif.Server.Verifier
import Verif.Verifier.Props
import Verif.Wire.FormProps
/-!
# C165, C166: the example verifier and its hosts
-/
namespace Verif.Server
open Verifier (VState CreateRequestRequest CreateRequestResponse DeviceFlow)
open Prog

/-! ### Specification -/

/-- A request object that asks, in the name of a host, for what somebody wanted to be asked for; its answers go back to that host, with the state `id`. -/
structure AsksFor (host : String) (body : CreateRequestRequest) (id : String) (o : Verifier.RequestObject) : Prop where
  name : o.clientId = "http://" ++ host ++ (match body.deviceFlow with | .crossDevice => "/post" | .sameDevice => "/callback")
  back : o.responseUri = (match body.deviceFlow with | .crossDevice => some ("http://" ++ host ++ "/post") | .sameDevice => none)
  state : o.state = some id
  wanted : ∃ d, o.presentationDefinition = .object d ∧ d.inputDescriptors = body.inputDescriptors ∧ d.purpose = some body.purpose

/-- The request object kept under a key. -/
def Keeps (w : World VState) (id : String) (o : Verifier.RequestObject) : Prop := ∃ s, w.store id = some s ∧ s.requestObject = o

/-! ### Lemmas -/

theorem asksFor_object (host : String) (body : CreateRequestRequest) (u id n : String) (md : Verifier.Metadata) :
    AsksFor host body id (Verifier.CreateRequest.object { body with clientId := "http://" ++ host } u id n md) := by
  unfold Verifier.CreateRequest.object
  cases h : body.deviceFlow <;> exact ⟨by simp [h], by simp [h], rfl, _, rfl, rfl, rfl⟩

/-- What a call writes. -/
theorem call_writes {R : String → VState → Prop} {D : String → Prop} {P : Verifier.Provider} {req : Verifier.Req} :
    Guar R (fun k v => ∀ x, v = some x → ∃ r u n md, req = .createRequest r ∧ x.requestObject = Verifier.CreateRequest.object r u k n md) D
      (Verifier.call P req) (fun _ => True) := by
  cases req with
  | createRequest r =>
    refine Guar.bind (Q := fun _ => True) ?_ fun _ _ => Guar.pure trivial
    unfold Verifier.createRequest
    refine Guar.bind (Q := fun _ => True) (Guar.lift fun _ _ => trivial) fun _ _ => ?_
    refine Guar.bind (Q := fun _ => True) (Guar.drawE fun _ _ => trivial) fun u _ => ?_
    refine Guar.bind (Q := fun _ => True) (Guar.drawE fun _ _ => trivial) fun k _ => ?_
    refine Guar.bind (Q := fun _ => True) (Guar.lift fun _ _ => trivial) fun md _ => ?_
    refine Guar.bind (Q := fun _ => True) (Guar.drawE fun _ _ => trivial) fun n _ => ?_
    refine Guar.bind (Q := fun _ => True) (Guar.nowE fun _ => trivial) fun _ _ => ?_
    exact Guar.bind (Q := fun _ => True) (Guar.putE (fun x h => ⟨r, u, n, md, rfl, by cases h; rfl⟩) trivial) fun _ _ => Guar.pure trivial
  | requestObject r =>
    refine Guar.bind (Q := fun _ => True) ?_ fun _ _ => Guar.pure trivial
    unfold Verifier.requestObject
    refine Guar.bind (Q := fun _ => True) (Guar.getE fun _ _ => trivial) fun _ _ => ?_
    refine Guar.bind (Q := fun _ => True) (Guar.lift fun _ _ => trivial) fun _ _ => ?_
    refine Guar.bind (Q := fun _ => True) (Guar.lift fun _ _ => trivial) fun _ _ => ?_
    exact Guar.lift fun _ _ => trivial
  | response r =>
    refine Guar.bind (Q := fun _ => True) ?_ fun _ _ => Guar.pure trivial
    unfold Verifier.response
    refine Guar.bind (Q := fun _ => True) (Guar.lift fun _ _ => trivial) fun k _ => ?_
    refine Guar.bind (Q := fun _ => True) (Guar.getE fun _ _ => trivial) fun _ _ => ?_
    refine Guar.bind (Q := fun _ => True) Verifier.verify_guar fun _ _ => ?_
    exact Guar.bind (Q := fun _ => True) (Guar.purgeE (fun x h => nomatch h) trivial) fun _ _ => Guar.pure trivial
  | metadata c => exact Guar.bind (Q := fun _ => True) (Guar.lift fun _ _ => trivial) fun _ _ => Guar.pure trivial

theorem step_writes {e : Env} {w : World VState} {s : Verifier.Step} {k : String} {v : VState} (h : (Verifier.step e w s).2.store k = some v) :
    w.store k = some v ∨ ∃ r u n md, s.req = .createRequest r ∧ v.requestObject = Verifier.CreateRequest.object r u k n md := by
  have hg := call_writes (R := fun k v => w.store k = some v ∨ ∃ r u n md, s.req = .createRequest r ∧ v.requestObject = Verifier.CreateRequest.object r u k n md)
    (D := fun _ => True) (P := s.provider) (req := s.req)
  exact (hg.run (e := e) (w := { w with now := w.now + s.wait }) (fun k v h => .inl h) (fun k v h => .inr (h v rfl)) (fun n _ _ => trivial)).1 k v h

/-- An answer without presentations changes nothing. -/
theorem no_answer {e : Env} {w : World VState} {P : Verifier.Provider} {wait : Nat} {q : Verifier.ResponseRequest} (h : q.vpToken = none) :
    (Verifier.step e w { provider := P, wait, req := .response q }).2.store = w.store ∧
      (Verifier.step e w { provider := P, wait, req := .response q }).2.drawn = w.drawn := by
  have hc : ∀ now ro, Verifier.Response.check P now ro q ≠ .ok () := by
    intro now ro hc
    obtain ⟨ts, _, _, _, _, ht, _⟩ := Verifier.check_ok.1 hc
    rw [h] at ht; cases ht
  generalize hw0 : ({ w with now := w.now + wait } : World VState) = w0
  have e1 : w0.store = w.store ∧ w0.drawn = w.drawn := by rw [← hw0]; exact ⟨rfl, rfl⟩
  rw [← e1.1, ← e1.2]
  have : Verifier.step e w { provider := P, wait, req := .response q } = (do let x ← Verifier.response P q; pure (.response x) : Verifier.VProg Verifier.Resp).run e w0 := by
    rw [← hw0]; rfl
  rw [this]
  cases hx : (Verifier.response P q).run e w0 with
  | mk x w' =>
    cases x with
    | ok r =>
      obtain ⟨_, _, k, s, _, _, h3, _⟩ := Verifier.response_ok.1 hx
      exact absurd h3 (hc _ _)
    | error x =>
      have hb : (do let x ← Verifier.response P q; pure (.response x) : Verifier.VProg Verifier.Resp).run e w0 = (.error x, w') := run_bind_err.2 (.inl hx)
      rw [hb]
      obtain ⟨h1 | ⟨_, _, _, _, _, _, h3, _⟩, h2⟩ := Verifier.response_err hx
      · exact ⟨h1, h2⟩
      · exact absurd h3 (hc _ _)

theorem vresponse_keeps (a : VAround) (P : Verifier.Provider) (wait : Nat) (w : World VState) (form : List UInt8) :
    (vresponse a P wait w form).2.store = w.store ∧ (vresponse a P wait w form).2.drawn = w.drawn := by
  unfold vresponse
  split
  · exact ⟨rfl, rfl⟩
  · rename_i q hq
    exact no_answer (Wire.C147_presentations_not_read a.lossy a.vp form q hq).1

/-- What is kept after a visit was kept before, or the visit made it. -/
theorem vserve_keeps {a : VAround} {w : World VState} {v : VVisit} {id : String} {o : Verifier.RequestObject}
    (h : Keeps (vserve a v.provider v.wait w v.http).2 id o) :
    Keeps w id o ∨ ∃ host body, v.http = .create host body ∧ AsksFor host body id o := by
  obtain ⟨s, hs, rfl⟩ := h
  cases hv : v.http with
  | create host body =>
    rw [hv] at hs
    rcases step_writes hs with h1 | ⟨r, u, n, md, hr, h2⟩
    · exact .inl ⟨s, h1, rfl⟩
    · cases hr
      exact .inr ⟨host, body, rfl, by rw [h2]; exact asksFor_object ..⟩
  | fetch host i =>
    rw [hv] at hs
    rcases step_writes hs with h1 | ⟨r, u, n, md, hr, h2⟩
    · exact .inl ⟨s, h1, rfl⟩
    · cases hr
  | callback host q =>
    rw [hv] at hs
    exact .inl ⟨s, by rw [← (vresponse_keeps a v.provider v.wait w q).1]; exact hs, rfl⟩
  | post host q =>
    rw [hv] at hs
    exact .inl ⟨s, by rw [← (vresponse_keeps a v.provider v.wait w q).1]; exact hs, rfl⟩

theorem vafter_append (a : VAround) (w : World VState) (l m : List VVisit) : vafter a w (l ++ m) = vafter a (vafter a w l) m := by
  induction l generalizing w with
  | nil => rfl
  | cons v l ih => exact ih _

theorem vafter_keeps {a : VAround} {w : World VState} {l : List VVisit} {id : String} {o : Verifier.RequestObject} (h : Keeps (vafter a w l) id o) :
    Keeps w id o ∨ ∃ v ∈ l, ∃ host body, v.http = .create host body ∧ AsksFor host body id o := by
  induction l generalizing w with
  | nil => exact .inl h
  | cons v l ih =>
    rcases ih h with h | ⟨x, hx, h⟩
    · rcases vserve_keeps h with h | h
      · exact .inl h
      · exact .inr ⟨v, List.mem_cons_self, h⟩
    · exact .inr ⟨x, List.mem_cons_of_mem _ hx, h⟩

theorem append_right {a b c : String} (h : a ++ c = b ++ c) : a = b := by
  have h := congrArg String.toList h
  simp only [String.toList_append] at h
  exact String.toList_inj.1 (List.append_cancel_right h)

theorem append_left {a b c : String} (h : a ++ b = a ++ c) : b = c := by
  have h := congrArg String.toList h
  simp only [String.toList_append] at h
  exact String.toList_inj.1 (List.append_cancel_left h)

/-- The two addresses of hosts differ, whatever the hosts. -/
theorem post_ne_callback (a b : String) : a ++ "/post" ≠ b ++ "/callback" := by
  intro h
  have h := congrArg (fun s => s.toList.getLast?) h
  simp only [String.toList_append, List.getLast?_append, show "/post".toList.getLast? = some 't' by decide,
    show "/callback".toList.getLast? = some 'k' by decide, Option.some_or] at h
  cases h

/-- When something is fetched. -/
theorem fetched {a : VAround} {P : Verifier.Provider} {wait : Nat} {w : World VState} {host id jwt : String}
    (h : (vserve a P wait w (.fetch host id)).1 = .ok (.requestObject jwt)) :
    ∃ k o, Keeps w id o ∧ o.clientId = "http://" ++ host ++ "/post" ∧ P.signer ("http://" ++ host) = some k ∧ P.encodeRequest k o = some jwt := by
  have hx : (Verifier.step a.env w { provider := P, wait, req := .requestObject { clientId := "http://" ++ host, id } }).1 = .ok (.requestObject jwt) := by
    have h : vreply (Verifier.step a.env w { provider := P, wait, req := .requestObject { clientId := "http://" ++ host, id } }).1 = .ok (.requestObject jwt) := h
    revert h
    cases (Verifier.step a.env w { provider := P, wait, req := .requestObject { clientId := "http://" ++ host, id } }).1 with
    | ok r => intro h; cases h; rfl
    | error e => cases e <;> intro h <;> cases h
  obtain ⟨x, w', h1, h2⟩ := run_bind_ok.1 (Verifier.pair_eq hx)
  cases (run_pure_ok.1 h2).1
  obtain ⟨_, _, s, k, h3, h4, h5, h6⟩ := Verifier.requestObject_ok.1 h1
  exact ⟨k, _, ⟨s, h3, rfl⟩, h4, h5, h6⟩

/-- When a request is made. -/
theorem made {a : VAround} {P : Verifier.Provider} {wait : Nat} {w : World VState} {host : String} {body : CreateRequestRequest} {r : CreateRequestResponse}
    (h : (vserve a P wait w (.create host body)).1 = .ok (.createRequest r)) :
    (Verifier.createRequest P { body with clientId := "http://" ++ host }).run a.env { w with now := w.now + wait } =
      (.ok r, (vserve a P wait w (.create host body)).2) := by
  have hx : (Verifier.step a.env w { provider := P, wait, req := .createRequest { body with clientId := "http://" ++ host } }).1 = .ok (.createRequest r) := by
    have h : vreply (Verifier.step a.env w { provider := P, wait, req := .createRequest { body with clientId := "http://" ++ host } }).1 = .ok (.createRequest r) := h
    revert h
    cases (Verifier.step a.env w { provider := P, wait, req := .createRequest { body with clientId := "http://" ++ host } }).1 with
    | ok r => intro h; cases h; rfl
    | error e => cases e <;> intro h <;> cases h
  obtain ⟨x, w', h1, h2⟩ := run_bind_ok.1 (Verifier.pair_eq hx)
  obtain ⟨h2, h3⟩ := run_pure_ok.1 h2
  cases h2
  rw [h1, ← h3]
  rfl

/-! ### C165 -/

/-- **C165** A request is made in the name of the host at which it is asked for: the address given out, the client that asks and the address for answers are all at that host. -/
theorem C165_asks_as_host {a : VAround} {P : Verifier.Provider} {wait : Nat} {w : World VState} {host : String} {body : CreateRequestRequest} {r : CreateRequestResponse}
    (h : (vserve a P wait w (.create host body)).1 = .ok (.createRequest r)) :
    ∃ id o, Keeps (vserve a P wait w (.create host body)).2 id o ∧ AsksFor host body id o ∧
      (body.deviceFlow = .crossDevice → r.requestUri = some ("http://" ++ host ++ "/request/" ++ id) ∧ r.requestObject = none) ∧
      (body.deviceFlow = .sameDevice → r.requestUri = none ∧ r.requestObject = some o) := by
  obtain ⟨_, md, _, _, o, rfl, rfl, hw⟩ := Verifier.createRequest_ok.1 (made h)
  refine ⟨a.env.rng (w.drawn + 1), _, ⟨_, by rw [hw]; exact if_pos rfl, rfl⟩, asksFor_object .., ?_, ?_⟩
  · intro hf; simp [Verifier.CreateRequest.reply, hf]
  · intro hf; simp [Verifier.CreateRequest.reply, hf]

/-- **C165** Whatever client the body names: it makes no difference. -/
theorem C165_body_does_not_name (a : VAround) (P : Verifier.Provider) (wait : Nat) (w : World VState) (host c : String) (body : CreateRequestRequest) :
    vserve a P wait w (.create host { body with clientId := c }) = vserve a P wait w (.create host body) := rfl

/-- **C165** Nothing is asked in the name of a host that is not registered; with the store of the example, of any but `localhost:8080`. -/
theorem C165_registered_only {a : VAround} {P : Verifier.Provider} {wait : Nat} {w : World VState} {host : String} {body : CreateRequestRequest}
    {r : CreateRequestResponse} (h : (vserve a P wait w (.create host body)).1 = .ok (.createRequest r)) :
    (∃ md, P.verifier ("http://" ++ host) = some md) ∧ (P.verifier = verifierStore → host = "localhost:8080") := by
  obtain ⟨_, md, hm, _⟩ := Verifier.createRequest_ok.1 (made h)
  refine ⟨⟨md, hm⟩, fun hs => ?_⟩
  rw [hs] at hm
  have hm : (if "http://" ++ host = onlyVerifier.oauth.clientId then some onlyVerifier else none) = some md := hm
  by_cases e : "http://" ++ host = onlyVerifier.oauth.clientId
  · exact append_left (a := "http://") (by rw [e]; rfl)
  · rw [if_neg e] at hm; cases hm

/-- **C165** A request can be fetched at the host it was made at only: what is fetched at a host was asked for there, for another device, in some earlier visit, and leads back to
that host. -/
theorem C165_fetched_where_made {a : VAround} {t0 : Int} {l : List VVisit} {v : VVisit} {host id jwt : String} (hv : v.http = .fetch host id)
    (h : vanswer a (vafter a (Verifier.start t0) l) v = .ok (.requestObject jwt)) :
    ∃ k o, v.provider.encodeRequest k o = some jwt ∧
      ∃ x ∈ l, ∃ body, x.http = .create host body ∧ body.deviceFlow = .crossDevice ∧ AsksFor host body id o := by
  rw [vanswer, hv] at h
  obtain ⟨k, o, h1, h2, _, h3⟩ := fetched h
  rcases vafter_keeps h1 with ⟨s, hs, _⟩ | ⟨x, hx, host', body, hb, ha⟩
  · cases hs
  · have hn := ha.name
    rw [h2] at hn
    cases hf : body.deviceFlow with
    | crossDevice =>
      rw [hf] at hn
      cases append_left (append_right hn)
      exact ⟨k, o, h3, x, hx, body, hb, hf, ha⟩
    | sameDevice =>
      rw [hf] at hn
      exact absurd hn (post_ne_callback _ _)

/-! ### C166 -/

/-- A kept request stays, whatever the visits. -/
theorem vafter_stays {a : VAround} (he : ∀ i j, a.env.rng i = a.env.rng j → i = j) {w : World VState} {id : String} {i : Nat} (hi : i < w.drawn) (hk : id = a.env.rng i)
    (l : List VVisit) : (vafter a w l).store id = w.store id := by
  induction l generalizing w with
  | nil => rfl
  | cons v l ih =>
    have key : (vserve a v.provider v.wait w v.http).2.store id = w.store id ∧ w.drawn ≤ (vserve a v.provider v.wait w v.http).2.drawn := by
      have hstep : ∀ req, (∀ r, req ≠ .response r) →
          (vcall a v.provider v.wait w req).2.store id = w.store id ∧ w.drawn ≤ (vcall a v.provider v.wait w req).2.drawn := by
        intro req hreq
        refine ⟨Verifier.step_keeps a.env w { provider := v.provider, wait := v.wait, req } id (fun r h => absurd h (hreq r)) ?_, Verifier.step_drawn_le ..⟩
        rintro ⟨j, hj, _, hid⟩
        have := he i j (hk.symm.trans hid)
        omega
      cases v.http with
      | create host body => exact hstep _ (fun r h => nomatch h)
      | fetch host i => exact hstep _ (fun r h => nomatch h)
      | callback host q => exact ⟨congrFun (vresponse_keeps a v.provider v.wait w q).1 id, Nat.le_of_eq (vresponse_keeps a v.provider v.wait w q).2.symm⟩
      | post host q => exact ⟨congrFun (vresponse_keeps a v.provider v.wait w q).1 id, Nat.le_of_eq (vresponse_keeps a v.provider v.wait w q).2.symm⟩
    exact (ih (Nat.lt_of_lt_of_le hi key.2)).trans key.1

/-- **C166** A request for another device can be fetched, signed, at the address that was given out, as often as one likes, whatever else happened since. There is no end to it (which is the other
half of the property, and fails): the visits in between may take any time, and may bring any answers. -/
theorem C166_fetched_ever_after_partial {a : VAround} (he : ∀ i j, a.env.rng i = a.env.rng j → i = j) {w : World VState} {v : VVisit} {host : String}
    {body : CreateRequestRequest} (hv : v.http = .create host body) (hf : body.deviceFlow = .crossDevice) {r : CreateRequestResponse}
    (h : vanswer a w v = .ok (.createRequest r)) :
    ∃ id o, r.requestUri = some ("http://" ++ host ++ "/request/" ++ id) ∧ AsksFor host body id o ∧
      ∀ (l : List VVisit) (P : Verifier.Provider) (wait : Nat) (k jwt : String), P.signer ("http://" ++ host) = some k → P.encodeRequest k o = some jwt →
        a.env.fault (vafter a w (v :: l)).ops = .ok →
        (vserve a P wait (vafter a w (v :: l)) (.fetch host id)).1 = .ok (.requestObject jwt) := by
  have hw1 : vafter a w [v] = (vserve a v.provider v.wait w (.create host body)).2 := by rw [vafter, vafter, hv]
  rw [vanswer, hv] at h
  obtain ⟨_, md, _, _, o, ho, hr, hw⟩ := Verifier.createRequest_ok.1 (made h)
  have ha := asksFor_object host body (a.env.rng w.drawn) (a.env.rng (w.drawn + 1)) (a.env.rng (w.drawn + 2)) md
  refine ⟨a.env.rng (w.drawn + 1), o, by rw [hr]; simp [Verifier.CreateRequest.reply, hf], by rw [ho]; exact ha, ?_⟩
  intro l P wait k jwt hk hj hft
  have hst : (vafter a w (v :: l)).store (a.env.rng (w.drawn + 1)) = some { expiresAt := w.now + v.wait + Verifier.requestDur, requestObject := o } := by
    rw [show v :: l = [v] ++ l from rfl, vafter_append, hw1,
      vafter_stays he (i := w.drawn + 1) (by rw [hw]; exact Nat.lt_succ_self (w.drawn + 2) |> Nat.lt_of_le_of_lt (Nat.le_succ _)) rfl, hw]
    exact if_pos rfl
  have hn : o.clientId = "http://" ++ host ++ "/post" := by
    rw [ho]
    exact ha.name.trans (by rw [hf])
  have hrun := (Verifier.requestObject_ok (P := P) (req := { clientId := "http://" ++ host, id := a.env.rng (w.drawn + 1) }) (e := a.env)
    (w := { vafter a w (v :: l) with now := (vafter a w (v :: l)).now + wait }) (jwt := jwt)).2 ⟨hft, rfl, _, k, hst, hn, hk, hj⟩
  show vreply (Verifier.step a.env _ { provider := P, wait, req := .requestObject { clientId := "http://" ++ host, id := a.env.rng (w.drawn + 1) } }).1 = _
  have : (Verifier.step a.env (vafter a w (v :: l)) { provider := P, wait, req := .requestObject { clientId := "http://" ++ host, id := a.env.rng (w.drawn + 1) } }).1 =
      .ok (.requestObject jwt) := congrArg Prod.fst ((run_bind_ok (f := fun x => (pure (.requestObject x) : Verifier.VProg Verifier.Resp))).2 ⟨jwt, _, hrun, run_pure_ok.2 ⟨rfl, rfl⟩⟩)
  rw [this]
  rfl

end Verif.Server
