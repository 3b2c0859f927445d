import Verif.Verifier.Model
/-!
# Helper lemmas on the verifier
-/
namespace Verif.Verifier
open Verif Prog

theorem createRequest_ok {P : Provider} {req : CreateRequestRequest} {e : Env} {w w' : World VState} {r : CreateRequestResponse} :
    (createRequest P req).run e w = (.ok r, w') ↔
      req.inputDescriptors ≠ [] ∧ ∃ m, P.verifier req.clientId = some m ∧ e.fault w.ops = .ok ∧
        ∃ o, o = CreateRequest.object req (e.rng w.drawn) (e.rng (w.drawn + 1)) (e.rng (w.drawn + 2)) m ∧
          r = CreateRequest.reply req (e.rng (w.drawn + 1)) o ∧
          w' = { w with
            store := upd w.store (e.rng (w.drawn + 1)) (some { expiresAt := w.now + requestDur, requestObject := o })
            drawn := w.drawn + 3, ops := w.ops + 1 } := by
  simp only [createRequest, run_bind_ok, run_lift_ok, run_drawE_ok, run_nowE_ok, run_putE_ok, run_pure_ok, require_ok, orErr_ok]
  constructor
  · rintro ⟨_, _, ⟨h1, rfl⟩, _, _, ⟨rfl, rfl⟩, _, _, ⟨rfl, rfl⟩, m, _, ⟨h2, rfl⟩, _, _, ⟨rfl, rfl⟩, _, _, ⟨rfl, rfl⟩, _, _, ⟨h3, rfl⟩, rfl, rfl⟩
    exact ⟨by simpa using h1, m, h2, h3, _, rfl, rfl, rfl⟩
  · rintro ⟨h1, m, h2, h3, o, rfl, rfl, rfl⟩
    exact ⟨(), _, ⟨by simpa using h1, rfl⟩, _, _, ⟨rfl, rfl⟩, _, _, ⟨rfl, rfl⟩, m, _, ⟨h2, rfl⟩, _, _, ⟨rfl, rfl⟩, _, _, ⟨rfl, rfl⟩, (), _,
      ⟨h3, rfl⟩, rfl, rfl⟩

theorem requestObject_ok {P : Provider} {req : RequestObjectRequest} {e : Env} {w w' : World VState} {jwt : String} :
    (requestObject P req).run e w = (.ok jwt, w') ↔
      e.fault w.ops = .ok ∧ w' = { w with ops := w.ops + 1 } ∧ ∃ s k, w.store req.id = some s ∧
        s.requestObject.clientId = req.clientId ++ "/post" ∧ P.signer req.clientId = some k ∧
        P.encodeRequest k s.requestObject = some jwt := by
  simp only [requestObject, run_bind_ok, run_lift_ok, run_getE_ok, require_ok, orErr_ok]
  constructor
  · rintro ⟨s, _, ⟨h1, h2, rfl⟩, _, _, ⟨h3, rfl⟩, k, _, ⟨h4, rfl⟩, h5, rfl⟩
    exact ⟨h1, rfl, s, k, h2, by simpa using h3, h4, h5⟩
  · rintro ⟨h1, rfl, s, k, h2, h3, h4, h5⟩
    exact ⟨s, _, ⟨h1, h2, rfl⟩, (), _, ⟨by simpa using h3, rfl⟩, k, _, ⟨h4, rfl⟩, h5, rfl⟩

theorem inTurn_run {P : Provider} {value : Json} {maps : List Dif.DescriptorMap} {is : List Dif.InputDescriptor} {e : Env} {w : World VState} :
    (Response.inTurn P value maps is).run e w = (Response.checkInputs P w.now value maps is, w) := by
  induction is with
  | nil => rfl
  | cons i is ih =>
    simp only [Response.inTurn, Response.checkInputs]
    show ((nowE.bind _).run e w) = _
    rw [run_bind]
    show (((Prog.lift _).bind _).run e w) = _
    rw [run_bind]
    cases Response.checkInput P w.now value maps i with
    | error x => rfl
    | ok u => exact ih

/-- While the clock stands still, the checks are those at one moment. -/
theorem verify_run {P : Provider} {ro : RequestObject} {req : ResponseRequest} {e : Env} {w : World VState} :
    (Response.verify P ro req).run e w = (Response.check P w.now ro req, w) := by
  unfold Response.verify Response.check
  show (((Prog.lift _).bind _).run e w) = _
  rw [run_bind]
  cases Response.prepare P ro req with
  | error x => rfl
  | ok p => exact inTurn_run

theorem verify_run_ok {P : Provider} {ro : RequestObject} {req : ResponseRequest} {e : Env} {w w' : World VState} {u : Unit} :
    (Response.verify P ro req).run e w = (.ok u, w') ↔ Response.check P w.now ro req = .ok u ∧ w' = w := by
  rw [verify_run, Prod.mk.injEq]
  exact and_congr_right fun _ => eq_comm

theorem verify_run_err {P : Provider} {ro : RequestObject} {req : ResponseRequest} {e : Env} {w w' : World VState} {x : Err} :
    (Response.verify P ro req).run e w = (.error x, w') ↔ Response.check P w.now ro req = .error x ∧ w' = w := by
  rw [verify_run, Prod.mk.injEq]
  exact and_congr_right fun _ => eq_comm

theorem verify_guar {R : String → VState → Prop} {G : String → Option VState → Prop} {D : String → Prop} {P : Provider} {ro : RequestObject} {req : ResponseRequest} :
    Guar R G D (Response.verify P ro req) (fun _ => True) := by
  refine Guar.bind (Q := fun _ => True) (Guar.lift fun _ _ => trivial) fun p _ => ?_
  generalize p.2.2 = is
  induction is with
  | nil => exact Guar.pure trivial
  | cons i is ih =>
    exact Guar.bind (Q := fun _ => True) (Guar.nowE fun _ => trivial) fun _ _ =>
      Guar.bind (Q := fun _ => True) (Guar.lift fun _ _ => trivial) fun _ _ => ih

theorem response_ok {P : Provider} {req : ResponseRequest} {e : Env} {w w' : World VState} {r : ResponseResponse} :
    (response P req).run e w = (.ok r, w') ↔
      e.fault w.ops = .ok ∧ e.fault (w.ops + 1) = .ok ∧ ∃ k s, req.state = some k ∧ w.store k = some s ∧
        Response.check P w.now s.requestObject req = .ok () ∧
        r = { redirectUri := some "http://localhost:3000/cb", responseCode := none } ∧
        w' = { w with store := upd w.store k none, ops := w.ops + 2 } := by
  simp only [response, run_bind_ok, run_lift_ok, run_getE_ok, verify_run_ok, run_purgeE_ok, run_pure_ok, orErr_ok]
  constructor
  · rintro ⟨k, _, ⟨h1, rfl⟩, s, _, ⟨h2, h3, rfl⟩, _, _, ⟨h4, rfl⟩, _, _, ⟨h5, rfl⟩, rfl, rfl⟩
    exact ⟨h2, h5, k, s, h1, h3, h4, rfl, rfl⟩
  · rintro ⟨h2, h5, k, s, h1, h3, h4, rfl, rfl⟩
    exact ⟨k, _, ⟨h1, rfl⟩, s, _, ⟨h2, h3, rfl⟩, (), _, ⟨h4, rfl⟩, (), _, ⟨h5, rfl⟩, rfl, rfl⟩

theorem response_err {P : Provider} {req : ResponseRequest} {e : Env} {w w' : World VState} {x : Err}
    (h : (response P req).run e w = (.error x, w')) :
    (w'.store = w.store ∨ ∃ k s, req.state = some k ∧ w.store k = some s ∧ e.fault w.ops = .ok ∧ e.fault (w.ops + 1) ≠ .ok ∧
      Response.check P w.now s.requestObject req = .ok () ∧ w'.store = writeRes (e.fault (w.ops + 1)) w.store k none) ∧
    w'.drawn = w.drawn := by
  simp only [response, run_bind_err, run_lift_ok, run_lift_err, run_getE_ok, run_getE_err, verify_run_ok, verify_run_err,
    run_purgeE_ok, run_purgeE_err, run_pure_err, orErr_ok, orErr_err] at h
  rcases h with ⟨_, rfl⟩ | ⟨k, _, ⟨h1, rfl⟩, h⟩
  · exact ⟨.inl rfl, rfl⟩
  · rcases h with ⟨_, _, rfl⟩ | ⟨s, _, ⟨h2, h3, rfl⟩, h⟩
    · exact ⟨.inl rfl, rfl⟩
    · rcases h with ⟨_, rfl⟩ | ⟨_, _, ⟨h4, rfl⟩, h⟩
      · exact ⟨.inl rfl, rfl⟩
      · rcases h with ⟨_, h5, rfl⟩ | ⟨_, _, _, h⟩
        · exact ⟨.inr ⟨k, s, h1, h3, h2, h5, h4, rfl⟩, rfl⟩
        · exact h.elim

theorem mapErr_ok {α : Type} {e : Err} {r : Res α} {a : α} : Response.mapErr e r = .ok a ↔ r = .ok a := by
  unfold Response.mapErr
  split <;> simp

/-! ### Histories -/

/-- A world reachable from an empty store. -/
def Reachable (e : Env) (w : World VState) : Prop := ∃ t0 h, w = exec e (start t0) h

theorem exec_append (e : Env) (w : World VState) (a b : List Step) : exec e w (a ++ b) = exec e (exec e w a) b := by
  induction a generalizing w with
  | nil => rfl
  | cons s a ih => exact ih _

theorem step_drawn_le (e : Env) (w : World VState) (s : Step) : w.drawn ≤ (step e w s).2.drawn :=
  run_drawn_le e _ { w with now := w.now + s.wait }

/-- The writes of one call: a new entry under a drawn key, or removal of a key. -/
theorem call_guar {R : String → VState → Prop} {G : String → Option VState → Prop} {D : String → Prop} {P : Provider} {req : Req}
    (hnone : ∀ r k, req = .response r → r.state = some k → G k none) (hput : ∀ k v, D k → G k (some v)) :
    Guar R G D (call P req) (fun _ => True) := by
  cases req with
  | createRequest r =>
    refine Guar.bind (Q := fun _ => True) ?_ fun _ _ => Guar.pure trivial
    unfold createRequest
    refine Guar.bind (Q := fun _ => True) (Guar.lift fun _ _ => trivial) fun _ _ => ?_
    refine Guar.bind (Q := fun _ => True) (Guar.drawE fun _ _ => trivial) fun _ _ => ?_
    refine Guar.bind (Q := fun s => D s) (Guar.drawE fun _ h => h) fun k hk => ?_
    refine Guar.bind (Q := fun _ => True) (Guar.lift fun _ _ => trivial) fun _ _ => ?_
    refine Guar.bind (Q := fun _ => True) (Guar.drawE fun _ _ => trivial) fun _ _ => ?_
    refine Guar.bind (Q := fun _ => True) (Guar.nowE fun _ => trivial) fun _ _ => ?_
    refine Guar.bind (Q := fun _ => True) (Guar.putE (hput _ _ hk) trivial) fun _ _ => Guar.pure trivial
  | requestObject r =>
    refine Guar.bind (Q := fun _ => True) ?_ fun _ _ => Guar.pure trivial
    unfold requestObject
    refine Guar.bind (Q := fun _ => True) (Guar.getE fun _ _ => trivial) fun _ _ => ?_
    refine Guar.bind (Q := fun _ => True) (Guar.lift fun _ _ => trivial) fun _ _ => ?_
    refine Guar.bind (Q := fun _ => True) (Guar.lift fun _ _ => trivial) fun _ _ => ?_
    exact Guar.lift fun _ _ => trivial
  | response r =>
    refine Guar.bind (Q := fun _ => True) ?_ fun _ _ => Guar.pure trivial
    unfold response
    refine Guar.bind (Q := fun k => r.state = some k) (Guar.lift fun k h => by simpa using h) fun k hk => ?_
    refine Guar.bind (Q := fun _ => True) (Guar.getE fun _ _ => trivial) fun _ _ => ?_
    refine Guar.bind (Q := fun _ => True) verify_guar fun _ _ => ?_
    refine Guar.bind (Q := fun _ => True) (Guar.purgeE (hnone r k rfl hk) trivial) fun _ _ => Guar.pure trivial
  | metadata c => exact Guar.bind (Q := fun _ => True) (Guar.lift fun _ _ => trivial) fun _ _ => Guar.pure trivial

/-- Tokens drawn by a run. -/
def Drawn (e : Env) (a b : Nat) (x : String) : Prop := ∃ i, a ≤ i ∧ i < b ∧ x = e.rng i

/-- An entry after a step was there before, or its key was drawn in the step. -/
theorem step_entry (e : Env) (w : World VState) (s : Step) (k : String) (v : VState) (h : (step e w s).2.store k = some v) :
    w.store k = some v ∨ Drawn e w.drawn (step e w s).2.drawn k := by
  let b := (step e w s).2.drawn
  have hg : Guar (fun k v => w.store k = some v ∨ Drawn e w.drawn b k)
      (fun k (v : Option VState) => ∀ x, v = some x → Drawn e w.drawn b k) (Drawn e w.drawn b)
      (call s.provider s.req) (fun _ => True) :=
    call_guar (fun r k _ _ x h => by cases h) (fun k v hk x _ => hk)
  exact (hg.run (e := e) (w := { w with now := w.now + s.wait }) (fun k v h => .inl h) (fun k v h => .inr (h v rfl))
    (fun n h1 h2 => ⟨n, h1, h2, rfl⟩)).1 k v h

/-- A key that was not drawn in a step and is not the `state` of a response keeps its entry. -/
theorem step_keeps (e : Env) (w : World VState) (s : Step) (k : String)
    (hk : ∀ r, s.req = .response r → r.state ≠ some k) (hd : ¬ Drawn e w.drawn (step e w s).2.drawn k) :
    (step e w s).2.store k = w.store k := by
  let b := (step e w s).2.drawn
  have hg : Guar (fun _ _ => True)
      (fun k' (_ : Option VState) => k' ≠ k) (Drawn e w.drawn b)
      (call s.provider s.req) (fun _ => True) :=
    call_guar (fun r k' h1 h2 h => hk r h1 (h ▸ h2)) (fun k' v hk h => hd (h ▸ hk))
  exact (hg.run (e := e) (w := { w with now := w.now + s.wait }) (fun _ _ _ => trivial) (fun _ _ _ => trivial)
    (fun n h1 h2 => ⟨n, h1, h2, rfl⟩)).2.1 k (fun v h => h rfl)

/-- All keys in the store have been drawn. -/
def Known (e : Env) (w : World VState) : Prop := ∀ k v, w.store k = some v → ∃ i, i < w.drawn ∧ k = e.rng i

theorem Known.step {e : Env} {w : World VState} (h : Known e w) (s : Step) : Known e (step e w s).2 := by
  intro k v hv
  rcases step_entry e w s k v hv with h1 | ⟨i, _, h1, h2⟩
  · obtain ⟨i, hi, hk⟩ := h k v h1
    exact ⟨i, Nat.lt_of_lt_of_le hi (step_drawn_le e w s), hk⟩
  · exact ⟨i, h1, h2⟩

theorem Known.exec {e : Env} {w : World VState} (h : Known e w) (l : List Step) : Known e (exec e w l) := by
  induction l generalizing w with
  | nil => exact h
  | cons s l ih => exact ih (h.step s)

theorem Reachable.known {e : Env} {w : World VState} (h : Reachable e w) : Known e w := by
  obtain ⟨t0, l, rfl⟩ := h
  exact Known.exec (fun k v h => by cases h) l

theorem Reachable.step {e : Env} {w : World VState} (h : Reachable e w) (s : Step) : Reachable e (step e w s).2 := by
  obtain ⟨t0, l, rfl⟩ := h
  exact ⟨t0, l ++ [s], by rw [exec_append]; rfl⟩

/-- A drawn key without entry stays without. -/
theorem gone_stays {e : Env} (he : ∀ i j, e.rng i = e.rng j → i = j) {w : World VState} {k : String} {i : Nat} (hi : i < w.drawn)
    (hk : k = e.rng i) (hn : w.store k = none) (l : List Step) : (exec e w l).store k = none := by
  induction l generalizing w with
  | nil => exact hn
  | cons s l ih =>
    refine ih (Nat.lt_of_lt_of_le hi (step_drawn_le e w s)) ?_
    cases hv : (step e w s).2.store k with
    | none => rfl
    | some v =>
      rcases step_entry e w s k v hv with h1 | ⟨j, h1, _, h2⟩
      · rw [hn] at h1; cases h1
      · have := he _ _ (hk.symm.trans h2); omega

end Verif.Verifier
