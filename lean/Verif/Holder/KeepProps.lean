import Verif.Holder.EndProps
/-!
# Received credentials are kept until they are saved or given up
-/
namespace Verif.Holder
open Verif HProg

variable {e : HEnv} {w : HWorld}

/-- The flow was cancelled, or saved with nothing outstanding, by a call that came back. -/
def Ended (k : String) (log : List Entry) : Prop :=
  ∃ pre en post, log = pre ++ en :: post ∧ (en.req = .cancel k ∨ en.req = .save k ∧ outstanding k pre = []) ∧ ∃ resp, en.result = .ok resp

theorem Ended.append {k : String} {log : List Entry} (l : List Entry) (h : Ended k log) : Ended k (log ++ l) := by
  obtain ⟨pre, en, post, rfl, h1, h2⟩ := h
  exact ⟨pre, en, post ++ l, by simp, h1, h2⟩

/-- The flow is stored. -/
def Kept (k : String) (s : String → Option HVal) : Prop := ∃ i, s k = some (.issuance i)

theorem Ends.kept {x : Write} {b : Resp} {r : HRes Resp} {ws : List Write} {s : String → Option HVal} {k : String} (h : Ends e x b r ws)
    (hk : Kept k s) (hx : x.1 = k → ∃ j, x.2 = some (.issuance j)) : Kept k (applyWrites s ws) := by
  have put : Kept k (applyWrites s [x]) := by
    by_cases hxk : x.1 = k
    · obtain ⟨j, hj⟩ := hx hxk
      exact ⟨j, by simp [applyWrites, upd, hxk, hj]⟩
    · obtain ⟨i, hi⟩ := hk
      exact ⟨i, by simp [applyWrites, upd, Ne.symm hxk, hi]⟩
  cases h with
  | lost => exact hk
  | done => exact put
  | late _ => exact put

theorem Ends.kept_noLate {x : Write} {b : Resp} {r : HRes Resp} {ws : List Write} {s : String → Option HVal} {k : String} (h : Ends e x b r ws)
    (hn : e.NoLate) (hk : Kept k s) : r = .ok b ∧ ws = [x] ∨ Kept k (applyWrites s ws) := by
  cases h with
  | lost => exact .inr hk
  | done => exact .inl ⟨rfl, rfl⟩
  | late h => obtain ⟨n, h⟩ := h; exact absurd h (hn n)

/-- A stored flow stays stored, unless it is ended or a deferred call leaves it without anything received or outstanding. -/
theorem step_kept (hf : e.Fresh) (hn : e.NoLate) (hr : Reachable e w) (s : HStep) {k : String} (hk : Kept k w.store) :
    Kept k (step e w s).2.store ∨
    ((s.req = .cancel k ∨ s.req = .save k ∧ outstanding k w.log = []) ∧ ∃ resp, (step e w s).1 = .ok resp) ∨
    received k (step e w s).2.log = [] := by
  have hI : Inv e (before w s).log (before w s).store (before w s).drawn := by
    have := reachable_inv hf hr
    exact this
  rw [(step_eq e w s).2, (step_eq e w s).1, step_log]
  obtain ⟨⟨r, w2⟩, hrun⟩ : ∃ q, (serve s.provider s.req).run e (before w s) = q := ⟨_, rfl⟩
  rw [hrun]
  simp only
  have hk' : Kept k (before w s).store := hk
  obtain ⟨i0, hi0⟩ := hk
  obtain ⟨m, hm, hkm⟩ := hI.key k _ hi0
  have fresh : ∀ {n : Nat}, (before w s).drawn ≤ n → e.rng n ≠ k := by
    intro n hle h; rw [hkm] at h; have := hf _ _ h; omega
  generalize s.req = q at hrun ⊢
  cases q with
  | offer req =>
    obtain ⟨evs, ws, hE, h1⟩ := offer_did hrun
    rw [hE.store]
    left
    rcases h1 with ⟨_, rfl, _⟩ | ⟨md, sv, _, _, ⟨_, rfl⟩ | ⟨rfl, _⟩⟩
    · exact hk'
    · exact hk'
    · exact ⟨i0, by simp only [applyWrites, upd, List.foldl]; rw [if_neg (Ne.symm (fresh (Nat.le_refl _)))]; exact hi0⟩
  | accept req =>
    obtain ⟨ws, hE, _, h1⟩ := accept_did hrun
    rw [hE.store]
    left
    rcases h1 with ⟨_, rfl⟩ | ⟨i, acc, hi, _, _, _, hends⟩
    · exact hk'
    · exact hends.kept hk' fun _ => ⟨_, rfl⟩
  | pin req =>
    obtain ⟨ws, hE, _, h1⟩ := pin_did hrun
    rw [hE.store]
    left
    rcases h1 with ⟨_, rfl⟩ | ⟨i, hi, _, hends⟩
    · exact hk'
    · exact hends.kept hk' fun _ => ⟨_, rfl⟩
  | token id =>
    obtain ⟨evs, ws, hE, _, h1⟩ := token_did hrun
    rw [hE.store]
    left
    rcases h1 with ⟨_, _, rfl⟩ | ⟨i, p, hi, _, _, q, _, ⟨_, rfl, _⟩ | ⟨t, a, _, _, hends⟩⟩
    · exact hk'
    · exact hk'
    · exact hends.kept hk' fun _ => ⟨_, rfl⟩
  | authorize req =>
    obtain ⟨evs, ws, hE, h1⟩ := authorize_did hrun
    rw [hE.store]
    left
    rcases h1 with ⟨_, rfl, _⟩ | ⟨i, p, m, hst, _, _, q, _, ⟨_, rfl, _⟩ | ⟨a, ⟨o, _, rfl, _⟩ | ⟨t, m', _, _, hends⟩⟩⟩
    · exact hk'
    · exact hk'
    · exact hk'
    · exact hends.kept hk' fun _ => ⟨_, rfl⟩
  | credentials req =>
    obtain ⟨evs, ws, hE, h1⟩ := credentials_did hrun
    rw [hE.store]
    left
    rcases h1 with ⟨_, _, rfl⟩ | ⟨i, jwt, hi, _, _, _, _, ⟨_, rfl⟩ | ⟨j, hg, _, hends⟩⟩
    · exact hk'
    · exact hk'
    · exact hends.kept hk' fun _ => ⟨_, rfl⟩
  | deferred req =>
    obtain ⟨evs, ws, hE, h1⟩ := deferred_did hrun
    have hrec : w2.recent = evs := by rw [hE.recent]; rfl
    rw [hE.store, hrec]
    rcases h1 with ⟨_, _, rfl⟩ | ⟨i, o, logos, hi, _, _, _, ⟨_, rfl⟩ | ⟨j, hg, _, hends⟩⟩
    · exact .inl hk'
    · exact .inl hk'
    · rcases hends.kept_noLate hn hk' with ⟨rfl, rfl⟩ | h
      · obtain ⟨c, df, nn, x, hj, htok, _⟩ := hg.same
        have hv : FlowInv e w.log req.issuanceId i := hI.val _ _ hi
        have hid : j.id = req.issuanceId := by rw [hj]; exact hv.id
        by_cases hjk : j.id = k
        · unfold stashed
          by_cases hc : (j.deferred.isEmpty && j.credentials.isEmpty) = true
          · right; right
            rw [received_append]
            have hcr : j.credentials = [] := by simp at hc; exact hc.2
            have hcat : i.credentials ++ c = [] := by rw [hj] at hcr; exact hcr
            have h1 : received k w.log = [] := by
              rw [← hjk, hid, ← hv.received hn]
              rw [List.append_eq_nil_iff] at hcat
              rw [hcat.1]; rfl
            rw [h1]
            have h2 : evs.flatMap Event.tokens = [] := by
              rw [← htok]; rw [List.append_eq_nil_iff] at hcat; rw [hcat.2]; rfl
            simp [received, receivedBy, h2]
          · left
            exact ⟨j, by rw [if_neg hc]; simp [applyWrites, upd, hjk]⟩
        · left
          exact ⟨i0, by simp only [applyWrites, upd, List.foldl]; rw [if_neg (Ne.symm hjk)]; exact hi0⟩
      · exact .inl h
  | save id =>
    obtain ⟨evs, ws, hE, _, h1⟩ := save_did (hI.noNote id) hrun
    rw [hE.store]
    rcases h1 with ⟨_, _, rfl⟩ | ⟨i, hi, ⟨done, c, rest, _, rfl, _⟩ | ⟨_, ⟨hd, hends⟩ | ⟨_, rfl, _⟩⟩⟩
    · exact .inl hk'
    · exact .inl hk'
    · rcases hends.kept_noLate hn hk' with ⟨rfl, rfl⟩ | h
      · by_cases hid : id = k
        · subst hid
          refine .inr (.inl ⟨.inr ⟨rfl, ?_⟩, _, rfl⟩)
          have hv : FlowInv e w.log id i := hI.val _ _ hi
          rw [List.eq_nil_iff_forall_not_mem]
          intro t ht
          have := (hv.outstanding hn t).mpr ht
          rw [List.isEmpty_iff.mp hd] at this
          simp [Dict.keys] at this
        · left
          exact ⟨i0, by simp only [applyWrites, upd, List.foldl]; rw [if_neg (Ne.symm hid)]; exact hi0⟩
      · exact .inl h
    · exact .inl hk'
  | cancel id =>
    obtain ⟨ws, hE, _, h1⟩ := cancel_did (hI.noNote id) hrun
    rw [hE.store]
    rcases h1 with ⟨_, rfl⟩ | ⟨i, hi, hends⟩
    · exact .inl hk'
    · rcases hends.kept_noLate hn hk' with ⟨rfl, rfl⟩ | h
      · by_cases hid : id = k
        · subst hid
          exact .inr (.inl ⟨.inl rfl, _, rfl⟩)
        · left
          exact ⟨i0, by simp only [applyWrites, upd, List.foldl]; rw [if_neg (Ne.symm hid)]; exact hi0⟩
      · exact .inl h
  | request url =>
    obtain ⟨evs, ws, hE, _, h1⟩ := request_did hrun
    rw [hE.store]
    left
    rcases h1 with ⟨_, rfl⟩ | ⟨q, p, f, cs, _, _, _, _, hends⟩
    · exact hk'
    · exact hends.kept hk' fun h => absurd h (fresh (Nat.le_refl _))
  | authorizePresentation id =>
    obtain ⟨ws, hE, _, h1⟩ := authorizePresentation_did hrun
    rw [hE.store]
    left
    rcases h1 with ⟨_, rfl⟩ | ⟨p, hp, _, hends⟩
    · exact hk'
    · refine hends.kept hk' fun h => ?_
      have hid : p.id = id := (hI.val _ _ hp : PresInv _ _ p).id
      simp only at h
      rw [← hid, h] at hp
      have : (before w s).store k = some (.issuance i0) := hi0
      rw [this] at hp; cases hp
  | present id =>
    obtain ⟨evs, hE, _⟩ := present_did hrun
    rw [hE.store]
    exact .inl hk'

/-- Credentials are received only for a flow that is stored. -/
theorem receives_stored (s : HStep) {k : String} (h : receivedBy k ⟨s.provider, w.now + s.wait, s.req,
    ((serve s.provider s.req).run e (before w s)).1, ((serve s.provider s.req).run e (before w s)).2.recent⟩ ≠ []) : Kept k w.store := by
  obtain ⟨⟨r, w2⟩, hrun⟩ : ∃ q, (serve s.provider s.req).run e (before w s) = q := ⟨_, rfl⟩
  rw [hrun] at h
  generalize s.req = q at hrun h
  cases q with
  | credentials req =>
    obtain ⟨evs, ws, hE, h1⟩ := credentials_did hrun
    rcases h1 with ⟨⟨x, rfl, _⟩, _⟩ | ⟨i, jwt, hi, _⟩
    · simp [receivedBy] at h
    · by_cases hk : req.issuanceId = k
      · rw [hk] at hi; exact ⟨i, hi⟩
      · simp only [receivedBy] at h
        cases r <;> simp [hk] at h
  | deferred req =>
    obtain ⟨evs, ws, hE, h1⟩ := deferred_did hrun
    rcases h1 with ⟨⟨x, rfl, _⟩, _⟩ | ⟨i, jwt, hi, hs, _⟩
    · simp [receivedBy] at h
    · by_cases hk : req.issuanceId = k
      · rw [hk] at hs; exact ⟨_, hs⟩
      · simp only [receivedBy] at h
        cases r <;> simp [hk] at h
  | _ => simp [receivedBy] at h

theorem received_kept (hf : e.Fresh) (hn : e.NoLate) (hr : Reachable e w) {k : String} (h : received k w.log ≠ []) (hx : ¬ Ended k w.log) :
    Kept k w.store := by
  refine reachable_induct (P := fun w => received k w.log ≠ [] → ¬ Ended k w.log → Kept k w.store) ?_ ?_ hr h hx
  · intro now h; exact absurd rfl h
  · intro w s hw ih h hx
    have hl := step_log e w s
    have hst : Kept k w.store := by
      by_cases h0 : received k w.log = []
      · refine receives_stored (e := e) s fun hb => h ?_
        rw [hl, received_append, h0]
        simp [received, hb]
      · refine ih h0 fun he => hx ?_
        rw [hl]; exact he.append _
    rcases step_kept hf hn hw s hst with hk | ⟨hq, hok⟩ | hz
    · exact hk
    · exact absurd ⟨w.log, _, [], hl, hq, hok⟩ hx
    · exact absurd hz h

theorem saveAll_works {i : Issuance} {l : List Credential} {w : HWorld} (ho : ∀ recent c, e.oracle w.log recent (.save c) = some ()) :
    ∃ w', (saveAll i l).run e w = (.ok (), w') ∧ w'.ops = w.ops := by
  induction l generalizing w with
  | nil => exact ⟨w, rfl, rfl⟩
  | cons c l ih =>
    obtain ⟨w', h1, h2⟩ := ih (w := { w with recent := w.recent ++ [⟨.save c, some ()⟩] }) ho
    refine ⟨w', ?_, h2⟩
    unfold saveAll
    show ((callO (.save c)).bind _).run e w = _
    simp only [callO, HProg.bind, run]
    rw [ho w.recent c]
    exact h1

/-- Whatever was received for a flow can still be saved, however many calls were made and failed in between, until the flow is cancelled or saved with
nothing outstanding: with a store and a storage that work, `save` then hands over all of it, once each and in order. -/
theorem C90_received_can_be_saved (hf : e.Fresh) (hn : e.NoLate) (hr : Reachable e w) {k : String} (h : received k w.log ≠ []) (hx : ¬ Ended k w.log)
    (s : HStep) (hq : s.req = .save k) (hst : ∀ n, w.ops ≤ n → e.fault n = .ok) (ho : ∀ recent c, e.oracle w.log recent (.save c) = some ()) :
    ∃ cs : List Credential, (step e w s).1 = .ok (.flow k) ∧ cs.map (·.issued) = received k w.log ∧
      (step e w s).2.log.map (·.events) = w.log.map (·.events) ++ [cs.map fun c => ⟨.save c, some ()⟩] := by
  obtain ⟨i, hi⟩ := received_kept hf hn hr h hx
  have hI := reachable_inv hf hr
  have hv : FlowInv e w.log k i := hI.val _ _ hi
  have hok : (step e w s).1 = .ok (.flow k) := by
    rw [(step_eq e w s).1, hq]
    show ((save k).run e (before w s)).1 = _
    have hi' : (before w s).store k = some (.issuance i) := hi
    have hops : (before w s).ops = w.ops := rfl
    obtain ⟨w', h1, h2⟩ := saveAll_works (e := e) (i := i) (l := i.credentials) (w := { before w s with ops := (before w s).ops + 1 }) ho
    have h2 : w'.ops = w.ops + 1 := h2
    have hget : (getIssuance k).run e (before w s) = (.ok i, { before w s with ops := (before w s).ops + 1 }) := by
      simp only [getIssuance, run, hi', hst _ (Nat.le_refl w.ops), hops, Prog.getRes]
    unfold save
    rw [run_bind, hget]
    simp only
    rw [run_bind, h1]
    simp only
    rw [run_bind]
    have hno : (notifyOutcome i .accepted).run e w' = (.ok (), w') := by unfold notifyOutcome; rw [hv.note]; rfl
    rw [hno]
    simp only
    unfold endFlow
    split
    · rw [run_bind]
      simp only [purgeE, run, h2, hst _ (Nat.le_succ w.ops)]
      rfl
    · rfl
  refine ⟨i.credentials, hok, hv.received hn, ?_⟩
  rw [step_log, List.map_append]
  congr 1
  simp only [List.map_cons, List.map_nil, List.cons.injEq, and_true]
  obtain ⟨⟨r, w2⟩, hrun⟩ : ∃ q, (serve s.provider s.req).run e (before w s) = q := ⟨_, rfl⟩
  rw [(step_eq e w s).1, hrun] at hok
  simp only at hok
  subst hok
  rw [hrun]
  rw [hq] at hrun
  obtain ⟨evs, ws, hE, _, h1⟩ := save_did (Inv.noNote (show Inv e (before w s).log (before w s).store (before w s).drawn from hI) k) hrun
  show w2.recent = _
  rw [hE.recent]
  rcases h1 with ⟨hf', _⟩ | ⟨j, hj, ⟨done, c, rest, hf', _⟩ | ⟨rfl, _⟩⟩
  · exact absurd rfl hf'.ne_ok
  · exact absurd rfl hf'.ne_ok
  · have hj : w.store k = some (.issuance j) := hj
    rw [hi] at hj; cases hj
    rfl

end Verif.Holder
