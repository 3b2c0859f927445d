import Verif.Holder.Summary
/-!
# What is stored agrees with what happened
-/
namespace Verif.Holder
open Verif HProg

/-- The entry came back and concerns this flow. -/
def Names (en : Entry) (k : String) : Prop :=
  ∃ resp, en.result = .ok resp ∧
    ((∃ r, en.req = .accept r ∧ r.issuanceId = k) ∨ (∃ r, en.req = .credentials r ∧ r.issuanceId = k) ∨
     (∃ r, en.req = .deferred r ∧ r.issuanceId = k) ∨ (∃ a b c, resp = .offer k a b c) ∨ ∃ a b, resp = .request k a b)

/-- The steps a flow went through, by its status. -/
def Phase (L : List Entry) (k : String) (i : Issuance) : Prop :=
  match i.status with
  | .ready => i.scope = none ∧ i.pin = none ∧ InOrder [IsOffer k i.offer i.issuer] L
  | .pendingPin => i.scope = none ∧ RequiresTxCode i.offer ∧ InOrder [IsOffer k i.offer i.issuer, IsAccept k i.accepted] L
  | .accepted => i.scope = none ∧
      ((¬ RequiresTxCode i.offer ∧ i.pin = none ∧ InOrder [IsOffer k i.offer i.issuer, IsAccept k i.accepted] L) ∨
       RequiresTxCode i.offer ∧ ∃ p, i.pin = some p ∧ InOrder [IsOffer k i.offer i.issuer, IsAccept k i.accepted, IsPin k p] L)
  | .tokenReceived => ∃ t, t.accessToken = i.token.accessToken ∧ t.authorizationDetails = i.token.authorizationDetails ∧
      InOrder [IsToken k i.scope t] L
  | _ => False

structure FlowInv (e : HEnv) (L : List Entry) (k : String) (i : Issuance) : Prop where
  id : i.id = k
  note : i.notificationId = none
  phase : Phase L k i
  offered : ∀ en ∈ L, ∀ r a b c, en.req = .offer r → en.result = .ok (.offer k a b c) → r.offer = i.offer
  accepted : i.status ≠ .tokenReceived → ∀ en ∈ L, ∀ r resp, en.req = .accept r → r.issuanceId = k → en.result = .ok resp →
    i.status ≠ .ready ∧ Narrowed r.accept i.accepted
  received : e.NoLate → i.credentials.map (·.issued) = received k L
  came : ∀ c ∈ i.credentials, ∃ en ∈ L, Came k c en
  outstanding : e.NoLate → ∀ t, t ∈ Dict.keys i.deferred ↔ t ∈ outstanding k L
  client : ∀ en ∈ L, ∀ r a b c, en.req = .offer r → en.result = .ok (.offer k a b c) → r.clientId = i.clientId

structure PresInv (L : List Entry) (k : String) (p : Presentation) : Prop where
  id : p.id = k
  phase : match p.status with
    | .requested => InOrder [IsRequest k p.request p.credentials] L
    | .authorized => InOrder [IsRequest k p.request p.credentials, IsAuthorized k] L
    | _ => False
  returned : ∀ en ∈ L, ∀ a cs, en.result = .ok (.request k a cs) → cs = p.credentials

def ValInv (e : HEnv) (L : List Entry) (k : String) : HVal → Prop
  | .issuance i => FlowInv e L k i
  | .presentation p => PresInv L k p

structure Inv (e : HEnv) (L : List Entry) (s : String → Option HVal) (d : Nat) : Prop where
  key : ∀ k v, s k = some v → ∃ n, n < d ∧ k = e.rng n
  val : ∀ k v, s k = some v → ValInv e L k v
  named : ∀ en ∈ L, ∀ k, Names en k → ∃ n, n < d ∧ k = e.rng n
  quiet : ∀ en ∈ L, ∀ ev ∈ en.events, ∀ n, ev.call ≠ .notification n

theorem Phase.mono {L : List Entry} {k : String} {i : Issuance} (en : Entry) (h : Phase L k i) : Phase (L ++ [en]) k i := by
  unfold Phase at h ⊢
  split <;> simp_all only
  · exact ⟨trivial, trivial, h.2.2.append _⟩
  · exact ⟨trivial, trivial, h.2.2.append _⟩
  · refine ⟨trivial, ?_⟩
    rcases h.2 with ⟨a, b, c⟩ | ⟨a, p, b, c⟩
    · exact .inl ⟨a, b, c.append _⟩
    · exact .inr ⟨a, p, b, c.append _⟩
  · obtain ⟨t, a, b, c⟩ := h
    exact ⟨t, a, b, c.append _⟩

theorem receivedBy_nil {en : Entry} {k : String} (h : ¬ Names en k) : receivedBy k en = [] := by
  unfold receivedBy
  split
  · rename_i r resp h1 h2
    split
    · rename_i hk; exact absurd ⟨resp, h2, .inr (.inl ⟨r, h1, hk⟩)⟩ h
    · rfl
  · rename_i r resp h1 h2
    split
    · rename_i hk; exact absurd ⟨resp, h2, .inr (.inr (.inl ⟨r, h1, hk⟩))⟩ h
    · rfl
  · rfl

theorem outstandingStep_same {en : Entry} {k : String} (ts : List String) (h : ¬ Names en k) : outstandingStep k ts en = ts := by
  unfold outstandingStep
  split
  · rename_i r resp h1 h2
    split
    · rename_i hk; exact absurd ⟨resp, h2, .inr (.inl ⟨r, h1, hk⟩)⟩ h
    · rfl
  · rename_i r resp h1 h2
    split
    · rename_i hk; exact absurd ⟨resp, h2, .inr (.inr (.inl ⟨r, h1, hk⟩))⟩ h
    · rfl
  · rfl

theorem FlowInv.frame {e : HEnv} {L : List Entry} {k : String} {i : Issuance} {en : Entry} (h : FlowInv e L k i) (hn : ¬ Names en k) :
    FlowInv e (L ++ [en]) k i where
  id := h.id
  note := h.note
  phase := h.phase.mono en
  offered := by
    intro x hx r a b c h1 h2
    rcases List.mem_append.mp hx with hx | hx
    · exact h.offered x hx r a b c h1 h2
    · simp at hx; subst hx
      exact absurd ⟨_, h2, .inr (.inr (.inr (.inl ⟨a, b, c, rfl⟩)))⟩ hn
  accepted := by
    intro hs x hx r resp h1 h2 h3
    rcases List.mem_append.mp hx with hx | hx
    · exact h.accepted hs x hx r resp h1 h2 h3
    · simp at hx; subst hx
      exact absurd ⟨_, h3, .inl ⟨r, h1, h2⟩⟩ hn
  received := by
    intro hl
    rw [received_append, ← h.received hl]
    simp [Holder.received, receivedBy_nil hn]
  came := by
    intro c hc
    obtain ⟨x, hx, hcame⟩ := h.came c hc
    exact ⟨x, List.mem_append_left _ hx, hcame⟩
  outstanding := by
    intro hl t
    rw [h.outstanding hl, outstanding_snoc, outstandingStep_same _ hn]
  client := by
    intro x hx r a b c h1 h2
    rcases List.mem_append.mp hx with hx | hx
    · exact h.client x hx r a b c h1 h2
    · simp at hx; subst hx
      exact absurd ⟨_, h2, .inr (.inr (.inr (.inl ⟨a, b, c, rfl⟩)))⟩ hn

theorem PresInv.frame {L : List Entry} {k : String} {p : Presentation} {en : Entry} (h : PresInv L k p) (hn : ¬ Names en k) :
    PresInv (L ++ [en]) k p where
  id := h.id
  phase := by
    have hp := h.phase
    split <;> simp_all only
    · exact hp.append _
    · exact hp.append _
  returned := by
    intro x hx a cs h1
    rcases List.mem_append.mp hx with hx | hx
    · exact h.returned x hx a cs h1
    · simp at hx; subst hx
      exact absurd ⟨_, h1, .inr (.inr (.inr (.inr ⟨a, cs, rfl⟩)))⟩ hn

theorem ValInv.frame {e : HEnv} {L : List Entry} {k : String} {v : HVal} {en : Entry} (h : ValInv e L k v) (hn : ¬ Names en k) :
    ValInv e (L ++ [en]) k v := by
  cases v with
  | issuance i => exact FlowInv.frame h hn
  | presentation p => exact PresInv.frame h hn

/-- An entry with no notification among its calls. -/
def Quiet (en : Entry) : Prop := ∀ ev ∈ en.events, ∀ n, ev.call ≠ .notification n

section
variable {e : HEnv} {L : List Entry} {s : String → Option HVal} {d d' : Nat} {en : Entry}

theorem Inv.quietly (h : Inv e L s d) (hq : Quiet en) : ∀ x ∈ L ++ [en], ∀ ev ∈ x.events, ∀ n, ev.call ≠ .notification n := by
  intro x hx
  rcases List.mem_append.mp hx with hx | hx
  · exact h.quiet x hx
  · simp at hx; subst hx; exact hq

theorem Inv.keep (h : Inv e L s d) (hd : d ≤ d') (hn : ∀ k, ¬ Names en k) (hq : Quiet en) : Inv e (L ++ [en]) s d' where
  key k v hk := by obtain ⟨n, h1, h2⟩ := h.key k v hk; exact ⟨n, by omega, h2⟩
  val k v hk := (h.val k v hk).frame (hn k)
  named x hx k hk := by
    rcases List.mem_append.mp hx with hx | hx
    · obtain ⟨n, h1, h2⟩ := h.named x hx k hk; exact ⟨n, by omega, h2⟩
    · simp at hx; subst hx; exact absurd hk (hn k)
  quiet := h.quietly hq

theorem Inv.put (h : Inv e L s d) (hd : d ≤ d') {k : String} {v : HVal} (hk : ∃ n, n < d' ∧ k = e.rng n) (hn : ∀ x, Names en x → x = k)
    (hv : ValInv e (L ++ [en]) k v) (hq : Quiet en) : Inv e (L ++ [en]) (upd s k (some v)) d' where
  key x y hx := by
    by_cases hxk : x = k
    · subst hxk; exact hk
    · rw [upd, if_neg hxk] at hx; obtain ⟨n, h1, h2⟩ := h.key x y hx; exact ⟨n, by omega, h2⟩
  val x y hx := by
    by_cases hxk : x = k
    · subst hxk; rw [upd, if_pos rfl] at hx; cases hx; exact hv
    · rw [upd, if_neg hxk] at hx
      exact (h.val x y hx).frame fun hh => hxk (hn x hh)
  named x hx y hy := by
    rcases List.mem_append.mp hx with hx | hx
    · obtain ⟨n, h1, h2⟩ := h.named x hx y hy; exact ⟨n, by omega, h2⟩
    · simp at hx; subst hx
      have := hn y hy
      subst this; exact hk
  quiet := h.quietly hq

theorem Inv.drop (h : Inv e L s d) (hd : d ≤ d') {k : String} (hk : ∃ n, n < d' ∧ k = e.rng n) (hn : ∀ x, Names en x → x = k) (hq : Quiet en) :
    Inv e (L ++ [en]) (upd s k none) d' where
  key x y hx := by
    by_cases hxk : x = k
    · subst hxk; exact hk
    · rw [upd, if_neg hxk] at hx; obtain ⟨n, h1, h2⟩ := h.key x y hx; exact ⟨n, by omega, h2⟩
  val x y hx := by
    by_cases hxk : x = k
    · subst hxk; rw [upd, if_pos rfl] at hx; cases hx
    · rw [upd, if_neg hxk] at hx
      exact (h.val x y hx).frame fun hh => hxk (hn x hh)
  named x hx y hy := by
    rcases List.mem_append.mp hx with hx | hx
    · obtain ⟨n, h1, h2⟩ := h.named x hx y hy; exact ⟨n, by omega, h2⟩
    · simp at hx; subst hx
      have := hn y hy
      subst this; exact hk
  quiet := h.quietly hq

end

theorem names_error {en : Entry} {x : HErr} (h : en.result = .error x) (k : String) : ¬ Names en k := by
  rintro ⟨resp, h1, _⟩; rw [h] at h1; cases h1

theorem names_fails {en : Entry} (h : Fails en.result) (k : String) : ¬ Names en k := by
  obtain ⟨x, hx, _⟩ := h; exact names_error hx k

theorem needsPin_iff (o : Issuer.CredentialOffer) : needsPin o = true ↔ RequiresTxCode o := by
  unfold needsPin RequiresTxCode
  cases hg : o.grants with
  | none => simp
  | some g =>
    cases hp : g.preAuthorizedCode with
    | none => simp [hp]
    | some p => simp [hp]

theorem specDetails_narrowed {cs : Dict CredentialConfiguration} {l : List AuthorizationSpec} {ds : List AuthorizationDetail}
    (h : specDetails cs l = .ok ds) : l.length = ds.length ∧
      ∀ p ∈ l.zip ds, ∃ c, p.2.credential = .configurationId p.1.configId c ∧ c.bind ProfileClaims.claims = p.1.claims := by
  induction l generalizing ds with
  | nil => cases h; simp
  | cons s l ih =>
    unfold specDetails at h
    cases hc : specClaims cs s with
    | error x => rw [hc] at h; cases h
    | ok c =>
      cases hd : specDetails cs l with
      | error x => rw [hc, hd] at h; cases h
      | ok rest =>
        rw [hc, hd] at h
        simp only [Bind.bind, Except.bind, Pure.pure, Except.pure, Except.ok.injEq] at h
        subst h
        obtain ⟨h1, h2⟩ := ih hd
        refine ⟨by simp [h1], ?_⟩
        intro p hp
        rw [List.zip_cons_cons, List.mem_cons] at hp
        rcases hp with rfl | hp
        · refine ⟨c, rfl, ?_⟩
          unfold specClaims at hc
          split at hc
          · rename_i hn; cases hc; simp [hn]
          · rename_i cl hn
            split at hc
            · cases hc
            · simp only [Except.ok.injEq] at hc
              subst hc
              rw [hn]
              split <;> rfl
        · exact h2 p hp

theorem narrowScope_narrowed {cs : Dict CredentialConfiguration} {o : Option (List AuthorizationSpec)} {ds : Option (List AuthorizationDetail)}
    (h : narrowScope cs o = .ok ds) : Narrowed o ds := by
  cases o with
  | none => cases h; rfl
  | some l =>
    have h : (specDetails cs l >>= fun d => pure (some d)) = .ok ds := h
    cases hd : specDetails cs l with
    | error x => rw [hd] at h; cases h
    | ok d =>
      rw [hd] at h
      cases h
      exact ⟨d, rfl, specDetails_narrowed hd⟩

theorem received_fresh {e : HEnv} (hf : e.Fresh) {L : List Entry} {s : String → Option HVal} {d n : Nat} (h : Inv e L s d) (hn : d ≤ n) :
    received (e.rng n) L = [] ∧ outstanding (e.rng n) L = [] ∧ ∀ en ∈ L, ¬ Names en (e.rng n) := by
  have hno : ∀ en ∈ L, ¬ Names en (e.rng n) := by
    intro en hen hnm
    obtain ⟨m, h1, h2⟩ := h.named en hen _ hnm
    have := hf _ _ h2
    omega
  refine ⟨?_, ?_, hno⟩
  · rw [received, List.flatMap_eq_nil_iff]
    intro en hen
    exact receivedBy_nil (hno en hen)
  · unfold outstanding
    clear h
    induction L with
    | nil => rfl
    | cons en L ih =>
      rw [List.foldl_cons, outstandingStep_same _ (hno en (by simp))]
      exact ih fun x hx => hno x (by simp [hx])

/-- A flow just created. -/
theorem FlowInv.new {e : HEnv} (hf : e.Fresh) {L : List Entry} {s : String → Option HVal} {d n : Nat} (h : Inv e L s d) (hn : d ≤ n) {en : Entry}
    {i : Issuance} (hid : i.id = e.rng n) (hnote : i.notificationId = none) (hph : Phase (L ++ [en]) (e.rng n) i) (hc : i.credentials = []) (hd : i.deferred = [])
    (hoff : ∀ r a b c, en.req = .offer r → en.result = .ok (.offer (e.rng n) a b c) → r.offer = i.offer ∧ r.clientId = i.clientId)
    (hreq : (∃ r, en.req = .offer r) ∨ ∃ r, en.req = .authorize r) : FlowInv e (L ++ [en]) (e.rng n) i := by
  obtain ⟨h1, h2, h3⟩ := received_fresh hf h hn
  refine ⟨hid, hnote, hph, ?_, ?_, ?_, by simp [hc], ?_, ?_⟩
  · intro x hx r a b c hr hres
    rcases List.mem_append.mp hx with hx | hx
    · exact absurd ⟨_, hres, .inr (.inr (.inr (.inl ⟨a, b, c, rfl⟩)))⟩ (h3 x hx)
    · simp at hx; subst hx; exact (hoff r a b c hr hres).1
  · intro _ x hx r resp hr hk hres
    rcases List.mem_append.mp hx with hx | hx
    · exact absurd ⟨_, hres, .inl ⟨r, hr, hk⟩⟩ (h3 x hx)
    · simp at hx; subst hx
      rcases hreq with ⟨q, hq⟩ | ⟨q, hq⟩ <;> rw [hq] at hr <;> cases hr
  · intro _
    rw [received_append, h1, hc]
    rcases hreq with ⟨q, hq⟩ | ⟨q, hq⟩ <;> simp [Holder.received, receivedBy, hq]
  · intro _ t
    rw [outstanding_snoc, h2, hd]
    rcases hreq with ⟨q, hq⟩ | ⟨q, hq⟩ <;> simp [outstandingStep, hq, Dict.keys]
  · intro x hx r a b c hr hres
    rcases List.mem_append.mp hx with hx | hx
    · exact absurd ⟨_, hres, .inr (.inr (.inr (.inl ⟨a, b, c, rfl⟩)))⟩ (h3 x hx)
    · simp at hx; subst hx; exact (hoff r a b c hr hres).2

theorem OnlyLogos.quiet {evs : List Event} (h : OnlyLogos evs) : ∀ ev ∈ evs, ∀ n, ev.call ≠ .notification n := by
  intro ev hev n
  obtain ⟨u, hu⟩ := h ev hev
  rw [hu]; simp

theorem OnlyRequests.quiet {i : Issuance} {jwt : String} {evs : List Event} (h : OnlyRequests i jwt evs) :
    ∀ ev ∈ evs, ∀ n, ev.call ≠ .notification n := by
  intro ev hev n
  rcases h ev hev with ⟨r, hr, _⟩ | ⟨u, hu⟩
  · rw [hr]; simp
  · rw [hu]; simp

theorem Preamble.quiet {evs : List Event} (h : Preamble evs) : ∀ ev ∈ evs, ∀ n, ev.call ≠ .notification n := by
  intro ev hev n
  rcases h ev hev with ⟨u, hu⟩ | ⟨u, hu⟩ <;> rw [hu] <;> simp

theorem OnlyRequest.quiet {evs : List Event} (h : OnlyRequest evs) : ∀ ev ∈ evs, ∀ n, ev.call ≠ .notification n := by
  intro ev hev n
  rcases h ev hev with ⟨u, hu⟩ | ⟨u, hu⟩ <;> rw [hu] <;> simp

end Verif.Holder
