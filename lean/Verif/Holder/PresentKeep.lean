import Verif.Holder.KeepProps
import Verif.Holder.Nonce
import Verif.Holder.PresentProps
/-!
# A presentation flow changes only when it is authorized
-/
namespace Verif.Holder
open Verif HProg

variable {e : HEnv} {w : HWorld}

theorem Ends.same {x : Write} {b : Resp} {r : HRes Resp} {ws : List Write} {s : String → Option HVal} {k : String} (h : Ends e x b r ws)
    (hx : x.1 ≠ k) : applyWrites s ws k = s k := by
  have put : applyWrites s [x] k = s k := by simp [applyWrites, upd, Ne.symm hx]
  cases h with
  | lost => rfl
  | done => exact put
  | late _ => exact put

/-- A stored presentation flow is the same after any call but its authorization. -/
theorem step_presentation (hf : e.Fresh) (hr : Inv e w.log w.store w.drawn) (s : HStep) {k : String} {p : Presentation}
    (hk : w.store k = some (.presentation p)) (hs : s.req ≠ .authorizePresentation k) :
    (step e w s).2.store k = some (.presentation p) := by
  have hI : Inv e (before w s).log (before w s).store (before w s).drawn := hr
  rw [(step_eq e w s).2]
  obtain ⟨⟨r, w2⟩, hrun⟩ : ∃ q, (serve s.provider s.req).run e (before w s) = q := ⟨_, rfl⟩
  rw [hrun]
  simp only
  have hk' : (before w s).store k = some (.presentation p) := hk
  obtain ⟨m, hm, hkm⟩ := hI.key k _ hk'
  have fresh : ∀ {n : Nat}, (before w s).drawn ≤ n → e.rng n ≠ k := by
    intro n hle h; rw [hkm] at h; have := hf _ _ h; omega
  have other : ∀ {id : String} {i : Issuance}, (before w s).store id = some (.issuance i) → i.id ≠ k ∧ id ≠ k := by
    intro id i hi
    have hid : i.id = id := (hI.val _ _ hi : FlowInv _ _ _ i).id
    have : id ≠ k := fun h => by rw [h, hk'] at hi; cases hi
    exact ⟨hid ▸ this, this⟩
  rw [← hk']
  generalize s.req = q at hrun hs
  cases q with
  | offer req =>
    obtain ⟨evs, ws, hE, h1⟩ := offer_did hrun
    rw [hE.store]
    rcases h1 with ⟨_, rfl, _⟩ | ⟨md, sv, _, _, ⟨_, rfl⟩ | ⟨rfl, _⟩⟩
    · rfl
    · rfl
    · exact applyWrites_other (Ne.symm (fresh (Nat.le_refl _)))
  | accept req =>
    obtain ⟨ws, hE, _, h1⟩ := accept_did hrun
    rw [hE.store]
    rcases h1 with ⟨_, rfl⟩ | ⟨i, acc, hi, hst, _, _, hends⟩
    · rfl
    · exact hends.same (other hi).1
  | pin req =>
    obtain ⟨ws, hE, _, h1⟩ := pin_did hrun
    rw [hE.store]
    rcases h1 with ⟨_, rfl⟩ | ⟨i, hi, hst, hends⟩
    · rfl
    · exact hends.same (other hi).1
  | token id =>
    obtain ⟨evs, ws, hE, _, h1⟩ := token_did hrun
    rw [hE.store]
    rcases h1 with ⟨hfl, _, rfl⟩ | ⟨i, p, hi, hst, _, q, _, ⟨hfl, rfl, _⟩ | ⟨t, a, rfl, _, hends⟩⟩
    · rfl
    · rfl
    · exact hends.same (other hi).1
  | authorize req =>
    obtain ⟨evs, ws, hE, h1⟩ := authorize_did hrun
    rw [hE.store]
    rcases h1 with ⟨hfl, rfl, _⟩ | ⟨i, p, m, hst, hpre, _, q, _, ⟨hfl, rfl, _⟩ | ⟨a, ⟨o, hfl, rfl, _⟩ | ⟨t, m', hev, _, hends⟩⟩⟩
    · rfl
    · rfl
    · rfl
    · refine hends.same ?_
      cases hst with
      | stored _ hs ha => exact (other hs).1
      | new _ _ => exact fresh (Nat.le_refl _)
  | credentials req =>
    obtain ⟨evs, ws, hE, h1⟩ := credentials_nonce hrun
    rw [hE.store]
    rcases h1 with ⟨hfl, _, rfl⟩ | ⟨i, jwt, hi, hst, hjwt, honly, ⟨hfl, rfl⟩ | ⟨j', hg, hends⟩⟩
    · rfl
    · rfl
    · exact hends.same (by rw [hg.id]; exact (other hi).1)
  | deferred req =>
    obtain ⟨evs, ws, hE, h1⟩ := deferred_nonce hrun
    rw [hE.store]
    rcases h1 with ⟨_, _, rfl⟩ | ⟨i, o, logos, hi, hst, _, _, ⟨_, rfl⟩ | ⟨j', e1, e2, e3, e4, hends⟩⟩
    · rfl
    · rfl
    · exact hends.same (by rw [e1]; exact (other hi).1)
  | save id =>
    obtain ⟨evs, ws, hE, _, h1⟩ := save_did (hI.noNote id) hrun
    rw [hE.store]
    rcases h1 with ⟨_, _, rfl⟩ | ⟨i, hi, ⟨done, c, rest, _, rfl, _⟩ | ⟨_, ⟨hd, hends⟩ | ⟨_, rfl, _⟩⟩⟩
    · rfl
    · rfl
    · exact hends.same (other hi).2
    · rfl
  | cancel id =>
    obtain ⟨ws, hE, _, h1⟩ := cancel_did (hI.noNote id) hrun
    rw [hE.store]
    rcases h1 with ⟨_, rfl⟩ | ⟨i, hi, hends⟩
    · rfl
    · exact hends.same (other hi).2
  | request url =>
    obtain ⟨evs, ws, hE, _, h1⟩ := request_did hrun
    rw [hE.store]
    rcases h1 with ⟨_, rfl⟩ | ⟨q, p, f, cs, _, _, _, _, hends⟩
    · rfl
    · exact hends.same (fresh (Nat.le_refl _))
  | authorizePresentation id =>
    obtain ⟨ws, hE, _, h1⟩ := authorizePresentation_did hrun
    rw [hE.store]
    rcases h1 with ⟨_, rfl⟩ | ⟨p', hp, _, hends⟩
    · rfl
    · refine hends.same ?_
      have hid : p'.id = id := (hI.val _ _ hp : PresInv _ _ p').id
      simp only [hid]
      exact fun h => hs (by rw [h])
  | present id =>
    obtain ⟨evs, hE, _⟩ := present_did hrun
    rw [hE.store]
    rfl

/-- The same, over histories. -/
theorem exec_presentation (hf : e.Fresh) (hr : Inv e w.log w.store w.drawn) (l : List HStep) {k : String} {p : Presentation}
    (hk : w.store k = some (.presentation p)) (hs : ∀ s ∈ l, s.req ≠ .authorizePresentation k) :
    (exec e w l).store k = some (.presentation p) := by
  induction l generalizing w with
  | nil => exact hk
  | cons s l ih => exact ih (step_inv hf hr s) (step_presentation hf hr s hk (hs s (.head _))) fun s h => hs s (.tail _ h)

theorem Reachable.exec (hr : Reachable e w) (l : List HStep) : Reachable e (exec e w l) := by
  obtain ⟨t, s, rfl⟩ := hr
  exact ⟨t, s ++ l, by rw [exec_append]⟩

end Verif.Holder
