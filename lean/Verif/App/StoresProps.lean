import Verif.App.StoresLemmas
import Verif.App.CollectProps
import Verif.Server.Stores
import Verif.Issuer.TokenProps
/-!
# The example wallet in front of the example issuer: C173
-/
namespace Verif.App
open Holder (HVal Call Event Entry Asks)

/-- The example issuer, with the clients and the metadata it comes with, may answer `req` with `r`: in some state, at some time, whatever host the request is
sent to. -/
def Answered (req : Issuer.Req) (r : Issuer.Resp) : Prop :=
  ∃ (sa : Server.Around) (P : Issuer.Provider) (wait : Nat) (site : Server.Site) (host bearer : String),
    (Server.serve sa (Server.Stores.provider P) wait site (.api host bearer req)).1 = .ok r

theorem reply_ok {x : Res Issuer.Resp} {r : Issuer.Resp} (h : Server.reply x = .ok r) : x = .ok r := by
  cases x with
  | ok y => cases h; rfl
  | error e => cases e <;> cases h

/-- The example issuer does not know the example wallet. -/
theorem unknown {q : Issuer.TokenRequest} (hq : q.clientId = some "wallet") {r : Issuer.Resp} : ¬ Answered (.token q) r := by
  rintro ⟨sa, P, wait, site, host, bearer, h⟩
  have h := reply_ok h
  rw [Issuer.step_token rfl] at h
  obtain ⟨x, hx, rfl⟩ := Issuer.map_ok.1 h
  obtain ⟨cid, c, _, _, _, h1, h2, _⟩ := Issuer.C07_token_client_registered (Issuer.pair_of_fst hx)
  have h1 : q.clientId = some cid := h1
  rw [hq] at h1
  cases h1
  have h2 : Server.Stores.clients.get? "wallet" = some c := h2
  rw [show Server.Stores.clients.get? "wallet" = none by decide] at h2
  cases h2

theorem metadata_answered {u : String} {md : Verif.Issuer} (h : Answered (.metadata u) (.metadata md)) : md.credentialIssuer = "http://vercre.io" := by
  obtain ⟨sa, P, wait, site, host, bearer, h⟩ := h
  have h := reply_ok h
  simp only [Issuer.step, Issuer.call, Issuer.run_map_pure] at h
  obtain ⟨x, hx, hr⟩ := Issuer.map_ok.1 h
  cases hr
  have h : Server.Stores.issuers.get? ("http://" ++ host) = some md := by
    simp only [Issuer.metadata] at hx
    exact orErr_ok.1 hx
  have h := Dict.mem_of_get? h
  simp only [Server.Stores.issuers, List.mem_cons, List.not_mem_nil, or_false, Prod.mk.injEq] at h
  rcases h with ⟨_, rfl⟩ | ⟨_, rfl⟩ <;> rfl

/-- **C173 is false**: whatever the user and others do, each time the example wallet asks for a token, the example issuer refuses. -/
theorem C173_violated_refused (a : Around) (now : Int) (file : Dict Slot) (l : List (Nat × Cmd)) {en : Entry} (hen : en ∈ (after a (opened now file) l).world.log)
    {ev : Event} (hev : ev ∈ en.events) {q : Issuer.TokenRequest} (hq : ev.call = .token q) (r : Issuer.Resp) : ¬ Answered (.token q) r := by
  have h := stable_after (Good := Home fun _ => True) (Fit := Homing fun _ => True) (Right := Called fun _ => True) (a := a)
    ⟨fun r hr => ⟨_, homing a.provider hr⟩, fun _ _ _ c r _ _ => by cases c <;> trivial⟩ (stable_opened now file) l
  have := h.fit en hen ev hev
  rw [hq] at this
  exact unknown this.1

/-- and so, where tokens come from it, nothing ever gets into the wallet's store. -/
theorem C173_violated_nothing_collected {a : Around}
    (ht : ∀ log recent q r, a.env.oracle log recent (.token q) = some r → Answered (.token q) (.token r)) (now : Int) (file : Dict Slot) (l : List (Nat × Cmd)) :
    ∀ x ∈ (after a (opened now file) l).files.store, x ∈ file := by
  have h : Rules (fun v => Home (fun _ => True) v ∧ Bare v) (fun c => Homing (fun _ => True) c ∧ Idle c)
      (fun c r => Called (fun _ => True) c r ∧ NoToken c r) a := by
    refine ⟨fun r hr => ?_, fun f log recent c r hc hr => ?_⟩
    · exact ⟨_, Asks.and (homing (U := fun _ => True) a.provider hr) (idle a.provider hr)⟩
    · cases c with
      | token q => exact absurd (ht log recent q r hr) (unknown hc.1.1)
      | _ => exact ⟨trivial, trivial⟩
  exact (only_after h (fun c hc => hc.2) (stable_opened now file) ⟨fun _ h => h, fun _ h => h, (fun _ h => nomatch h)⟩ l).store

/-- **C173 is false** for a second reason: where metadata come from the example issuer, be it at whatever address, all requests of the wallet for tokens and
credentials go to `http://vercre.io`, where it is not. -/
theorem C173_violated_sent_elsewhere {a : Around}
    (hm : ∀ log recent u md, a.env.oracle log recent (.metadata u) = some md → Answered (.metadata u) (.metadata md)) (now : Int) (file : Dict Slot)
    (l : List (Nat × Cmd)) {en : Entry} (hen : en ∈ (after a (opened now file) l).world.log) {ev : Event} (hev : ev ∈ en.events) :
    (∀ q, ev.call = .token q → q.credentialIssuer = "http://vercre.io") ∧ (∀ q, ev.call = .credential q → q.credentialIssuer = "http://vercre.io") := by
  have h := stable_after (Good := Home (· = "http://vercre.io")) (Fit := Homing (· = "http://vercre.io")) (Right := Called (· = "http://vercre.io")) (a := a)
    ⟨fun r hr => ⟨_, homing a.provider hr⟩, fun f log recent c r _ hr => by
      cases c with
      | metadata u => exact metadata_answered (hm log recent u r hr)
      | _ => trivial⟩ (stable_opened now file) l
  have := h.fit en hen ev hev
  constructor <;> (intro q hq; rw [hq] at this)
  · exact this.2
  · exact this

/-- The example issuer, if it knew the wallet. -/
def acquainted (P : Issuer.Provider) : Issuer.Provider := { Server.Stores.provider P with
  client := fun id => if id = "wallet" then some { Server.Stores.client with clientId := "wallet" } else Server.Stores.clients.get? id }

/-- **C173**, what holds: these two reasons are all that is in the way. If the issuer knew the wallet and was at the address its metadata give, one credential offered would
be collected, under the assumptions of C169 about storage, keys and data. -/
theorem C173_known_and_at_its_address_partial {n : Interop.Net} {P : Nat → Issuer.Provider} (hP : ∀ j, n.provider j = acquainted (P j))
    (hfresh : Issuer.Env.Fresh n.env) {w : World Issuer.State} (hreach : Issuer.Reachable n.env w)
    {st : Issuer.Step} {req : Issuer.CreateOfferRequest} (hreq : st.req = .createOffer req) (haddr : req.credentialIssuer = "http://vercre.io")
    {oresp : Issuer.CreateOfferResponse}
    (h : (Issuer.step n.env w st).1 = .ok (.createOffer oresp)) (hpre : req.requests .preAuthorizedCode) {subj : String}
    (hsub : req.subjectId = some subj) {o : Issuer.CredentialOffer}
    (hdel : Issuer.Delivers req.credentialIssuer (Issuer.step n.env w st).2.store oresp.offerType o)
    {cid id : String} {claims : Dict Json} (hcid : o.configIds = [cid]) (hauth : st.provider.authorize subj cid = some [id]) (hfi : ∀ m, n.env.fault m = .ok)
    (hiss : ∀ j, Interop.Issues (n.provider j) Server.Stores.issuer subj cid id claims)
    {a : Around} (hfr : a.env.Fresh) (hf : ∀ m, a.env.fault m = .ok) (hdisk : ∀ m, a.disk m = true)
    (hu : Interop.Understands n a.provider (Issuer.step n.env w st).2.now ((Issuer.step n.env w st).2.now + 5 * 60 * Issuer.sec + Issuer.sec))
    {now : Int} {file : Dict Slot} {past : List (Nat × Cmd)} {s : App} (hs : s = after a (opened now file) past)
    (ho : a.env.oracle = n.oracle (Issuer.step n.env w st).2 s.world.log.length) {enc : String} (hread : a.readOffer enc = some o)
    {t1 t2 t3 t4 : Nat} {s' : App} (hs' : s' = after a s (collectCmds t1 t2 t3 t4 enc oresp.txCode))
    (hquiet : ∀ calls, calls <+: Interop.Net.made s.world.log.length s'.world.log [] →
      Interop.Undisturbed n (Issuer.step n.env w st).2 calls (Interop.Given o (s'.world.log.drop s.world.log.length))) :
    ∃ c, c.issuer = "http://vercre.io" ∧ c.vc.subject = .one { id := some (beforeHash a.provider.kid), claims } ∧ IsStored c.id (some (.credential c)) s' := by
  have hserves : ∀ j, Interop.Serves (n.provider j) req.credentialIssuer Server.Stores.issuer "wallet" := by
    intro j
    rw [hP, haddr]
    exact ⟨rfl, rfl, Server.Stores.server, _, _, rfl, rfl, by decide, rfl, _, _, rfl, rfl, by decide⟩
  obtain ⟨c, h1, h2, h3, _⟩ := C169_offer_ends_in_store_partial hfresh hreach hreq h hpre hsub hdel hserves (by unfold Dict.Nodup; decide)
    (by
      intro c hc
      rw [hcid, List.mem_singleton] at hc
      subst hc
      obtain ⟨cfg, hc, _⟩ := (hiss 0).config
      exact ⟨cfg, hc⟩) hfi (by rw [hcid]; exact .head _) hauth (by rw [hcid]; simp [hauth]) hiss hfr hf hdisk hu hs ho hread hs' hquiet
  exact ⟨c, h1.trans haddr, h2, h3⟩

end Verif.App
