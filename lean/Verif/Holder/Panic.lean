import Verif.Holder.EndProps
/-!
# When the wallet panics
-/
namespace Verif.Holder
open Verif HProg

/-- No credential configuration has an empty list of display properties. -/
def GoodIssuer (md : Verif.Issuer) : Prop := ∀ c ∈ md.configs, c.2.display ≠ some []

/-- The lists of response types and of challenge methods are not empty. -/
def GoodServer (sv : Server) : Prop := sv.responseTypesSupported ≠ [] ∧ sv.codeChallengeMethodsSupported ≠ some []

/-- Issuers and authorization servers answer with such metadata. -/
def HEnv.GoodMetadata (e : HEnv) : Prop :=
  (∀ log recent u md, e.oracle log recent (.metadata u) = some md → GoodIssuer md) ∧
  (∀ log recent u sv, e.oracle log recent (.oauthServer u) = some sv → GoodServer sv)

def GoodVal : HVal → Prop
  | .issuance i => GoodIssuer i.issuer ∧ GoodServer i.server
  | .presentation _ => True

def GoodReply : (c : Call) → c.Reply → Prop
  | .metadata _, md => GoodIssuer md
  | .oauthServer _, sv => GoodServer sv
  | _, _ => True

variable {α β : Type}

/-- A program that does not panic when what it reads and is told is good, and that stores only what is good. -/
def Safe (Q : α → Prop) : HProg α → Prop
  | .ret (.ok a) => Q a
  | .ret (.error x) => ∀ why, x ≠ .panic why
  | .get _ c => ∀ o, (∀ v, o = some v → GoodVal v) → Safe Q (c o)
  | .put _ v c => GoodVal v ∧ ∀ b, Safe Q (c b)
  | .purge _ c => ∀ b, Safe Q (c b)
  | .draw c => ∀ s, Safe Q (c s)
  | .now c => ∀ t, Safe Q (c t)
  | .call c k => ∀ o, (∀ r, o = some r → GoodReply c r) → Safe Q (k o)

theorem Safe.bind {Q : α → Prop} {R : β → Prop} {p : HProg α} {f : α → HProg β} (hp : Safe Q p) (hf : ∀ a, Q a → Safe R (f a)) :
    Safe R (p.bind f) := by
  induction p with
  | ret r =>
    cases r with
    | ok a => exact hf a hp
    | error x => exact hp
  | get k c ih => intro o ho; exact ih o (hp o ho)
  | put k v c ih => exact ⟨hp.1, fun b => ih b (hp.2 b)⟩
  | purge k c ih => intro b; exact ih b (hp b)
  | draw c ih => intro s; exact ih s (hp s)
  | now c ih => intro t; exact ih t (hp t)
  | call c k ih => intro o ho; exact ih o (hp o ho)

theorem Safe.seq {Q : α → Prop} {R : β → Prop} {p : HProg α} {f : α → HProg β} (hp : Safe Q p) (hf : ∀ a, Q a → Safe R (f a)) :
    Safe R (p >>= f) := hp.bind hf

def GoodStore (w : HWorld) : Prop := ∀ k v, w.store k = some v → GoodVal v

theorem writeRes_good {f : Fault} {s : String → Option HVal} {k : String} {o : Option HVal} (hs : ∀ k v, s k = some v → GoodVal v)
    (ho : ∀ v, o = some v → GoodVal v) : ∀ k' v, Prog.writeRes f s k o k' = some v → GoodVal v := by
  intro k' v h
  cases f with
  | failBefore => exact hs k' v h
  | ok =>
    simp only [Prog.writeRes, upd] at h
    split at h
    · exact ho v h
    · exact hs k' v h
  | failAfter =>
    simp only [Prog.writeRes, upd] at h
    split at h
    · exact ho v h
    · exact hs k' v h

theorem Safe.run {e : HEnv} (he : e.GoodMetadata) {Q : α → Prop} {p : HProg α} (hp : Safe Q p) {w : HWorld} (hw : GoodStore w) :
    GoodStore (p.run e w).2 ∧ (∀ why, (p.run e w).1 ≠ .error (.panic why)) := by
  induction p generalizing w with
  | ret r =>
    refine ⟨hw, ?_⟩
    cases r with
    | ok a => intro why h; cases h
    | error x => intro why h; cases h; exact hp why rfl
  | get k c ih =>
    exact ih _ (hp _ fun v hv => hw k v (getRes_some hv)) (w := { w with ops := w.ops + 1 }) hw
  | put k v c ih =>
    refine ih _ (hp.2 _) (w := { w with store := Prog.writeRes (e.fault w.ops) w.store k (some v), ops := w.ops + 1 }) ?_
    exact writeRes_good hw fun v' hv => by cases hv; exact hp.1
  | purge k c ih =>
    refine ih _ (hp _) (w := { w with store := Prog.writeRes (e.fault w.ops) w.store k none, ops := w.ops + 1 }) ?_
    exact writeRes_good hw fun v' hv => by cases hv
  | draw c ih => exact ih _ (hp _) (w := { w with drawn := w.drawn + 1 }) hw
  | now c ih => exact ih _ (hp _) hw
  | call c k ih =>
    refine ih _ (hp _ ?_) (w := { w with recent := w.recent ++ [⟨c, e.oracle w.log w.recent c⟩] }) hw
    intro r hr
    cases c <;> first | trivial | exact he.1 _ _ _ _ hr | exact he.2 _ _ _ _ hr

/-! ### The pieces -/

structure NoPanic (r : HRes α) : Prop where
  no : ∀ why, r ≠ .error (.panic why)

theorem safe_lift {r : HRes α} (h : NoPanic r) : Safe (fun a => r = .ok a) (lift r) := by
  cases r with
  | ok a => rfl
  | error x => intro why hx; subst hx; exact h.no why rfl

theorem safe_pure {Q : α → Prop} {a : α} (h : Q a) : Safe Q (pure a : HProg α) := h

theorem Safe.mono {Q R : α → Prop} {p : HProg α} (hp : Safe Q p) (h : ∀ a, Q a → R a) : Safe R p := by
  have := hp.bind (R := R) (f := fun a => pure a) fun a ha => h a ha
  have hid : p.bind (fun a => pure a) = p := by
    clear hp this
    induction p with
    | ret r => cases r <;> rfl
    | get k c ih => simp only [HProg.bind, ih]
    | put k v c ih => simp only [HProg.bind, ih]
    | purge k c ih => simp only [HProg.bind, ih]
    | draw c ih => simp only [HProg.bind, ih]
    | now c ih => simp only [HProg.bind, ih]
    | call c k ih => simp only [HProg.bind, ih]
  rwa [hid] at this

theorem safe_getIssuance (k : String) : Safe (fun i => GoodIssuer i.issuer ∧ GoodServer i.server) (getIssuance k) := by
  intro o ho
  match o with
  | some (.issuance i) => exact ho _ rfl
  | some (.presentation p) => intro why h; cases h
  | none => intro why h; cases h

theorem safe_getPresentation (k : String) : Safe (fun _ => True) (getPresentation k) := by
  intro o ho
  match o with
  | some (.presentation i) => trivial
  | some (.issuance p) => intro why h; cases h
  | none => intro why h; cases h

theorem safe_put {k : String} {v : HVal} (h : GoodVal v) : Safe (fun _ => True) (putE k v) := by
  refine ⟨h, fun b => ?_⟩
  cases b
  · intro why h; cases h
  · trivial

theorem safe_purge {k : String} : Safe (fun _ => True) (purgeE k) := by
  intro b
  cases b
  · intro why h; cases h
  · trivial

theorem safe_draw : Safe (fun _ => True) drawE := fun _ => trivial
theorem safe_now : Safe (fun _ => True) nowE := fun _ => trivial

theorem safe_callE (c : Call) : Safe (GoodReply c) (callE c) := by
  intro o ho
  cases o with
  | none => intro why h; cases h
  | some r => exact ho r rfl

theorem safe_callO (c : Call) : Safe (fun _ => True) (callO c) := fun _ _ => trivial

theorem safe_refuse {Q : α → Prop} (why : String) : Safe Q (refuse why) := by intro w h; cases h

theorem noPanic_check (c : Bool) (why : String) : NoPanic (check c why) := by refine ⟨?_⟩; intro w h; unfold check at h; split at h <;> cases h
theorem noPanic_need (o : Option α) (why : String) : NoPanic (need o why) := by refine ⟨?_⟩; intro w h; unfold need at h; split at h <;> cases h

theorem NoPanic.bind {r : HRes α} {f : α → HRes β} (hr : NoPanic r) (hf : ∀ a, r = .ok a → NoPanic (f a)) : NoPanic (r >>= f) := by
  cases r with
  | ok a => exact hf a rfl
  | error x => exact ⟨fun why h => by cases h; exact hr.no why rfl⟩

theorem noPanic_ok (a : α) : NoPanic (.ok a : HRes α) := ⟨by intro w h; cases h⟩
theorem noPanic_refused (why : String) : NoPanic (.error (.refused why) : HRes α) := ⟨by intro w h; cases h⟩

theorem noPanic_offeredConfigs (cs : Dict CredentialConfiguration) (ids : List String) (acc : Dict CredentialConfiguration) :
    NoPanic (offeredConfigs cs ids acc) := by
  induction ids generalizing acc with
  | nil => exact noPanic_ok _
  | cons a l ih => exact (noPanic_need ..).bind fun c _ => ih _

theorem noPanic_specDetails (cs : Dict CredentialConfiguration) (l : List AuthorizationSpec) : NoPanic (specDetails cs l) := by
  induction l with
  | nil => exact noPanic_ok _
  | cons s l ih =>
    unfold specDetails
    refine NoPanic.bind ?_ fun c _ => ih.bind fun d _ => noPanic_ok _
    unfold specClaims
    split
    · exact noPanic_ok _
    · split
      · exact noPanic_refused _
      · exact noPanic_ok _

theorem noPanic_narrowScope (cs : Dict CredentialConfiguration) (o : Option (List AuthorizationSpec)) : NoPanic (narrowScope cs o) := by
  cases o with
  | none => exact noPanic_ok _
  | some l => exact (noPanic_specDetails cs l).bind fun d _ => noPanic_ok _

theorem noPanic_detailConfig (iss : Verif.Issuer) (d : Issuer.AuthorizedDetail) : NoPanic (detailConfig iss d) := by
  unfold detailConfig
  split
  · exact noPanic_ok _
  · exact noPanic_need ..

theorem noPanic_authorizedCredentials (iss : Verif.Issuer) (l : List Issuer.AuthorizedDetail) (acc : Dict (List String)) :
    NoPanic (authorizedCredentials iss l acc) := by
  induction l generalizing acc with
  | nil => exact noPanic_ok _
  | cons d l ih => exact (noPanic_detailConfig ..).bind fun c _ => ih _

theorem noPanic_authorizedOf (iss : Verif.Issuer) (o : Option (List Issuer.AuthorizedDetail)) : NoPanic (authorizedOf iss o) := by
  cases o with
  | none => exact noPanic_ok _
  | some l => exact (noPanic_authorizedCredentials ..).bind fun c _ => noPanic_ok _

theorem noPanic_authorizedOfNonempty (iss : Verif.Issuer) (o : Option (List Issuer.AuthorizedDetail)) : NoPanic (authorizedOfNonempty iss o) := by
  unfold authorizedOfNonempty
  split
  · exact noPanic_ok _
  · exact noPanic_ok _
  · exact noPanic_authorizedOf ..

theorem noPanic_first {l : List α} (h : l ≠ []) : NoPanic (first l) := by
  cases l with
  | nil => exact absurd rfl h
  | cons a l => exact noPanic_ok _

theorem noPanic_offerDetails (cs : Dict CredentialConfiguration) (ids : List String) : NoPanic (offerDetails cs ids) := by
  induction ids with
  | nil => exact noPanic_ok _
  | cons a l ih => exact (noPanic_need ..).bind fun c _ => ih.bind fun d _ => noPanic_ok _

theorem noPanic_requestDetails (i : Issuance) (req : AuthorizeRequest) : NoPanic (requestDetails i req) := by
  unfold requestDetails
  split
  · exact noPanic_ok _
  · refine NoPanic.bind ?_ fun d _ => noPanic_ok _
    unfold authorizationDetails
    split
    · exact noPanic_ok _
    · split
      · exact noPanic_refused _
      · exact noPanic_offerDetails ..

theorem noPanic_authorizationRequest {i : Issuance} (req : AuthorizeRequest) (h : GoodServer i.server) : NoPanic (authorizationRequest i req) := by
  unfold authorizationRequest
  refine (noPanic_need ..).bind fun c _ => (noPanic_requestDetails ..).bind fun d _ => (noPanic_need ..).bind fun m hm =>
    (noPanic_first h.1).bind fun r _ => (noPanic_first ?_).bind fun m' _ => noPanic_ok _
  intro hn
  have := need_ok hm.symm
  rw [hn] at this
  exact h.2 this

theorem noPanic_authorizable (i : Issuance) : NoPanic (authorizable i) := by
  unfold authorizable
  split
  · exact noPanic_check ..
  · split
    · exact noPanic_refused _
    · exact noPanic_check ..

theorem noPanic_verifyVc (J : Jose) (k : Kind Vc) : NoPanic (ofRes (Proof.verifyVc J k)) := by
  refine ⟨fun why h => ?_⟩
  cases k with
  | object o => cases h
  | string t =>
    simp only [Proof.verifyVc, Bind.bind, Except.bind, orErr] at h
    cases hd : J.decodeVc t <;> rw [hd] at h <;> cases h

theorem noPanic_createVp (J : Jose) (vp : Vp) (c n s : String) (t : Int) : NoPanic (ofRes (Proof.create J .jwtVcJson (.vp vp c n) s t)) := by
  refine ⟨fun why h => ?_⟩
  simp only [Proof.create, Bind.bind, Except.bind, require, orErr] at h
  split at h
  · rename_i hx; split at hx <;> cases hx; cases h
  · split at h <;> cases h

theorem noPanic_logoUri {d : Option (List CredentialDisplay)} (h : d ≠ some []) : NoPanic (logoUri d) := by
  unfold logoUri
  split
  · exact noPanic_ok _
  · rename_i l
    exact (noPanic_first fun hn => h (by rw [hn])).bind fun x _ => noPanic_ok _

/-! ### The endpoints -/

theorem safe_storable (P : Provider) {config : CredentialConfiguration} (kind : Kind Vc) (h : config.display ≠ some []) :
    Safe (fun _ => True) (storable P config kind) := by
  unfold storable
  refine (safe_lift (noPanic_verifyVc ..)).seq fun p _ => ?_
  cases p with
  | vp => exact safe_refuse _
  | vc vc t =>
    refine (safe_lift (noPanic_check ..)).seq fun _ _ => ?_
    cases kind with
    | object o => exact safe_refuse _
    | string tok =>
      refine Safe.seq (Q := fun _ => True) ?_ fun id _ => (safe_lift (noPanic_logoUri h)).seq fun u _ => Safe.seq (Q := fun _ => True) ?_ fun l _ => trivial
      · unfold storableId
        cases vc.id with
        | some id => exact trivial
        | none => exact safe_draw.seq fun _ _ => trivial
      · unfold fetchLogo
        cases u with
        | none => exact trivial
        | some u => exact safe_callO _

theorem safe_storables (P : Provider) {config : CredentialConfiguration} (l : List (Kind Vc)) (h : config.display ≠ some []) :
    Safe (fun _ => True) (storables P config l) := by
  induction l with
  | nil => exact trivial
  | cons k l ih => exact (safe_storable P k h).seq fun _ _ => ih.seq fun _ _ => trivial

theorem safe_process (P : Provider) {config : CredentialConfiguration} (r : CredentialResponse) (h : config.display ≠ some []) :
    Safe (fun _ => True) (process P config r) := by
  unfold process
  cases r.response with
  | credential k => exact (safe_storable P k h).seq fun _ _ => trivial
  | credentials l => exact (safe_storables P l h).seq fun _ _ => trivial
  | transactionId id => exact trivial

/-- Good metadata in a flow. -/
abbrev GoodFlow (i : Issuance) : Prop := GoodIssuer i.issuer ∧ GoodServer i.server

theorem safe_byIdentifiers (P : Provider) (jwt cfg : String) {config : CredentialConfiguration} (wanted : Option (List String)) (ids : List String)
    {i : Issuance} (hi : GoodFlow i) (h : config.display ≠ some []) : Safe GoodFlow (byIdentifiers P jwt cfg config wanted ids i) := by
  induction ids generalizing i with
  | nil => exact hi
  | cons id ids ih =>
    unfold byIdentifiers
    split
    · exact (safe_callE _).seq fun r _ => (safe_process P r h).seq fun out _ => ih hi
    · exact ih hi

theorem get?_mem {γ : Type} {m : Dict γ} {k : String} {v : γ} (h : m.get? k = some v) : ∃ p ∈ m, p.2 = v := by
  induction m with
  | nil => cases h
  | cons p m ih =>
    simp only [Dict.get?] at h
    split at h
    · cases h; exact ⟨p, List.mem_cons_self, rfl⟩
    · obtain ⟨q, hq, hv⟩ := ih h
      exact ⟨q, List.mem_cons_of_mem _ hq, hv⟩

theorem GoodIssuer.get {md : Verif.Issuer} (h : GoodIssuer md) {k : String} {c : CredentialConfiguration} (hc : md.configs.get? k = some c) :
    c.display ≠ some [] := by
  obtain ⟨p, hp, rfl⟩ := get?_mem hc
  exact h p hp

theorem safe_byDetails (P : Provider) (jwt : String) (wanted : Option (List String)) (l : List Issuer.AuthorizedDetail) {i : Issuance} (hi : GoodFlow i) :
    Safe GoodFlow (byDetails P jwt wanted l i) := by
  induction l generalizing i with
  | nil => exact hi
  | cons d l ih =>
    unfold byDetails
    refine (safe_lift (noPanic_detailConfig ..)).seq fun cfg _ => (safe_lift (noPanic_need ..)).seq fun config hc =>
      (safe_byIdentifiers P jwt cfg wanted d.identifiers hi (hi.1.get (need_ok hc.symm))).seq fun j hj => ih hj

theorem safe_fetch (P : Provider) {i : Issuance} (req : CredentialsRequest) (jwt : String) (hi : GoodFlow i) : Safe GoodFlow (fetch P i req jwt) := by
  unfold fetch
  split
  · unfold byFormat
    refine (safe_lift (noPanic_check ..)).seq fun _ _ => (safe_lift (noPanic_need ..)).seq fun f _ => (safe_lift (noPanic_need ..)).seq fun p hp =>
      (safe_callE _).seq fun r _ => (safe_process P r ?_).seq fun out _ => hi
    exact hi.1 p (List.mem_of_find?_eq_some (need_ok hp.symm))
  · unfold byIdentifier
    exact (safe_lift (noPanic_need ..)).seq fun l _ => safe_byDetails P jwt _ l hi

theorem safe_startFlow (req : AuthorizeRequest) : Safe GoodFlow (startFlow req) := by
  unfold startFlow
  split
  · exact (safe_getIssuance _).seq fun i hi => (safe_lift (noPanic_authorizable i)).seq fun _ _ => hi
  · refine (safe_lift (noPanic_check ..)).seq fun _ _ => Safe.seq (Q := fun _ => True) (safe_draw.seq fun _ _ => trivial) fun i _ => ?_
    refine Safe.seq (Q := GoodFlow) ?_ fun i hi => hi
    exact (safe_callE _).seq fun md hmd => (safe_callE _).seq fun sv hsv => ⟨hmd, hsv⟩

theorem safe_saveAll {i : Issuance} (l : List Credential) : Safe (fun _ => True) (saveAll i l) := by
  induction l with
  | nil => exact trivial
  | cons c l ih =>
    unfold saveAll
    refine (safe_callO _).seq fun o _ => ?_
    match o with
    | some () => exact ih
    | none =>
      refine Safe.seq (Q := fun _ => True) ?_ fun _ _ => ?_
      · unfold notifyFailure
        cases i.notificationId with
        | none => exact trivial
        | some n => exact (safe_callO _).seq fun _ _ => trivial
      · intro why h; cases h

theorem safe_notifyOutcome (i : Issuance) (ev : NotificationEvent) : Safe (fun _ => True) (notifyOutcome i ev) := by
  unfold notifyOutcome
  cases i.notificationId with
  | none => exact trivial
  | some n => exact (safe_callE _).seq fun _ _ => trivial

theorem safe_serve (P : Provider) (q : Req) : Safe (fun _ => True) (serve P q) := by
  cases q with
  | offer req =>
    refine (safe_lift (noPanic_check ..)).seq fun _ _ => Safe.seq (Q := fun _ => True) (safe_draw.seq fun _ _ => trivial) fun i _ =>
      Safe.seq (Q := GoodFlow) ?_ fun i hi => (safe_put (v := .issuance { i with status := .ready }) hi).seq fun _ _ =>
        (safe_lift (noPanic_offeredConfigs ..)).seq fun _ _ => trivial
    exact (safe_callE _).seq fun md hmd => (safe_callE _).seq fun sv hsv => ⟨hmd, hsv⟩
  | accept req =>
    exact (safe_getIssuance _).seq fun i hi => (safe_lift (noPanic_check ..)).seq fun _ _ => (safe_lift (noPanic_check ..)).seq fun _ _ =>
      (safe_lift (noPanic_narrowScope ..)).seq fun acc _ => Safe.seq (safe_put (by exact hi)) fun _ _ => trivial
  | pin req =>
    exact (safe_getIssuance _).seq fun i hi => (safe_lift (noPanic_check ..)).seq fun _ _ => Safe.seq (safe_put (by exact hi)) fun _ _ => trivial
  | token id =>
    refine (safe_getIssuance _).seq fun i hi => (safe_lift (noPanic_check ..)).seq fun _ _ => (safe_lift ?_).seq fun q _ =>
      (safe_callE _).seq fun t _ => (safe_lift (noPanic_authorizedOf ..)).seq fun a _ => Safe.seq (safe_put (by exact hi)) fun _ _ => trivial
    exact (noPanic_need ..).bind fun g _ => (noPanic_need ..).bind fun p _ => noPanic_ok _
  | authorize req =>
    exact (safe_startFlow req).seq fun i hi => safe_draw.seq fun v _ => (safe_lift (noPanic_authorizationRequest req (by exact hi.2))).seq fun q _ =>
      (safe_callE _).seq fun a _ => (safe_callE _).seq fun t _ => (safe_lift (noPanic_authorizedOfNonempty ..)).seq fun m _ =>
        Safe.seq (safe_put (by exact hi)) fun _ _ => trivial
  | credentials req =>
    exact (safe_getIssuance _).seq fun i hi => (safe_lift (noPanic_check ..)).seq fun _ _ => safe_now.seq fun t _ =>
      (safe_lift (noPanic_need ..)).seq fun jwt _ => (safe_fetch P req jwt hi).seq fun j hj => Safe.seq (safe_put (by exact hj)) fun _ _ => trivial
  | deferred req =>
    refine (safe_getIssuance _).seq fun i hi => (safe_lift (noPanic_check ..)).seq fun _ _ => (safe_callE _).seq fun r _ =>
      (safe_lift (noPanic_need ..)).seq fun config hc => (safe_process P r (hi.1.get (need_ok hc.symm))).seq fun out _ =>
        Safe.seq (Q := fun _ => True) ?_ fun _ _ => trivial
    unfold stash
    split
    · exact safe_purge
    · exact safe_put hi
  | save id =>
    refine (safe_getIssuance _).seq fun i hi => (safe_saveAll _).seq fun _ _ => (safe_notifyOutcome ..).seq fun _ _ =>
      Safe.seq (Q := fun _ => True) ?_ fun _ _ => trivial
    unfold endFlow
    split
    · exact safe_purge
    · exact trivial
  | cancel id =>
    exact (safe_getIssuance _).seq fun i hi => (safe_notifyOutcome ..).seq fun _ _ => safe_purge.seq fun _ _ => trivial
  | request url =>
    refine (safe_lift (noPanic_need ..)).seq fun d _ => safe_draw.seq fun id _ => Safe.seq (Q := fun _ => True) ?_ fun q _ =>
      (safe_lift ?_).seq fun f _ => (safe_callE _).seq fun cs _ => Safe.seq (safe_put trivial) fun _ _ => trivial
    · unfold obtainRequest
      split
      · exact (safe_lift (noPanic_need ..)).mono fun _ _ => trivial
      · refine (safe_callE _).seq fun r _ => (safe_lift ?_).mono fun _ _ => trivial
        change NoPanic (parseResponse P r)
        cases r with
        | object o => exact noPanic_refused _
        | jwt t => exact noPanic_need ..
    · unfold buildFilter
      split
      · exact noPanic_refused _
      · split
        · exact noPanic_refused _
        · exact noPanic_ok _
  | authorizePresentation id =>
    exact (safe_getPresentation _).seq fun p _ => (safe_lift (noPanic_check ..)).seq fun _ _ => Safe.seq (safe_put trivial) fun _ _ => trivial
  | present id =>
    refine (safe_getPresentation _).seq fun p _ => (safe_lift (noPanic_check ..)).seq fun _ _ => Safe.seq (Q := fun _ => True) ?_ fun sub _ =>
      Safe.seq (Q := fun _ => True) ?_ fun vp _ => safe_now.seq fun t _ => (safe_lift (noPanic_createVp ..)).seq fun jwt _ =>
        (safe_callE _).seq fun _ _ => trivial
    · unfold createSubmission
      split
      · exact safe_refuse _
      · exact safe_draw.seq fun _ _ => trivial
    · unfold createVp
      refine safe_draw.seq fun u _ => ?_
      simp only
      split
      · exact safe_refuse _
      · refine (safe_lift ?_).mono fun _ _ => trivial
        split
        · exact noPanic_ok _
        · exact noPanic_refused _

variable {e : HEnv} {w : HWorld}

/-! ### C81 -/

/-- The wallet does not panic, whatever it is asked and told, as long as no metadata has an empty list where a non-empty one is due. -/
theorem C81_no_panic_partial (he : e.GoodMetadata) (hr : Reachable e w) {en : Entry} (hen : en ∈ w.log) (why : String) :
    en.result ≠ .error (.panic why) := by
  have main : GoodStore w ∧ ∀ en ∈ w.log, ∀ why, en.result ≠ .error (.panic why) := by
    refine reachable_induct (P := fun w => GoodStore w ∧ ∀ en ∈ w.log, ∀ why, en.result ≠ .error (.panic why)) ?_ ?_ hr
    · intro now
      exact ⟨fun k v h => (by cases h), fun en hen => (by cases hen)⟩
    · intro w s _ ih
      obtain ⟨h1, h2⟩ := (safe_serve s.provider s.req).run he (w := before w s) ih.1
      refine ⟨h1, ?_⟩
      intro en hen
      rw [step_log] at hen
      rcases List.mem_append.mp hen with hen | hen
      · exact ih.2 en hen
      · rw [List.mem_singleton] at hen; subst hen; exact h2
  exact main.2 en hen why

/-- With an empty list of response types an `authorize` call that gets that far panics: no authorization is asked for. -/
theorem authorizationRequest_panics {i : Issuance} {req : AuthorizeRequest} (hc : i.codeChallenge.isSome = true) (hd : ∃ l, i.accepted = some l)
    (hm : i.server.codeChallengeMethodsSupported.isSome = true) (hr : i.server.responseTypesSupported = []) :
    ∃ why, authorizationRequest i req = .error (.panic why) := by
  obtain ⟨c, hc⟩ := Option.isSome_iff_exists.mp hc
  obtain ⟨m, hm⟩ := Option.isSome_iff_exists.mp hm
  obtain ⟨l, hd⟩ := hd
  unfold authorizationRequest requestDetails authorizationDetails
  cases req.initiator.scope <;> simp only [hc, hm, hr, hd, need, first, Bind.bind, Except.bind, Pure.pure, Except.pure] <;> exact ⟨_, rfl⟩

/-- A wallet-initiated authorization with a server whose metadata has no response types brings the wallet down. -/
theorem C81_panics_on_empty_list (w : HWorld) (s : HStep) {c iss sub : String} {uri : Option String} {l : List AuthorizationDetail} {md : Verif.Issuer}
    {sv : Server} (hq : s.req = .authorize ⟨.wallet c iss none sub, uri, some l⟩) (hmd : e.oracle w.log [] (.metadata iss) = some md)
    (hsv : e.oracle w.log [⟨.metadata iss, some md⟩] (.oauthServer iss) = some sv) (hm : sv.codeChallengeMethodsSupported.isSome = true)
    (hr : sv.responseTypesSupported = []) : ∃ why, (step e w s).1 = .error (.panic why) := by
  obtain ⟨why, hwhy⟩ := authorizationRequest_panics (i := { id := e.rng w.drawn, clientId := c, subjectId := sub, issuer := md, server := sv, accepted := some l, codeChallenge := some (s.provider.codeChallenge (e.rng (w.drawn + 1))), codeVerifier := some (e.rng (w.drawn + 1)) })
    (req := ⟨.wallet c iss none sub, uri, some l⟩) rfl ⟨l, rfl⟩ hm hr
  refine ⟨why, ?_⟩
  rw [(step_eq e w s).1, hq]
  show ((authorize s.provider _).run e _).1 = _
  simp only [authorize, startFlow, check, newIssuance, setIssuer, lift, drawE, callE, Bind.bind, HProg.bind, Pure.pure, run, before,
    List.nil_append, hmd, Option.isSome_none, Bool.and_false, Bool.not_false, if_true]
  erw [hsv]
  simp only [HProg.bind, run]
  erw [hwhy]
  rfl

end Verif.Holder
