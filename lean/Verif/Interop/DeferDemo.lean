import Verif.Interop.DeferProps
import Verif.Interop.Demo
/-!
# A late credential: the hypotheses of C108 can be met
-/
namespace Verif.Interop.Demo
open Verif

/-- The issuer has no data for credential `emp-1` up to the wallet's fifth call. -/
def unready : Issuer.Provider := { provider with
  dataset := fun s id => if s = "normal" then some { claims := claims id, pending := id == "emp-1" } else none }

noncomputable def lateNet : Net := { net with provider := fun j => if j ≤ 4 then unready else provider }

noncomputable def lateEnv : Holder.HEnv := { env with oracle := lateNet.oracle issuer 0 }

theorem lateArrival (i : Nat) (w : World Issuer.State) : lateNet.arrival i w = { w with now := w.now + if i < 10 then 20 * 1000000000 else 0 } :=
  arrival i w

theorem lateClock (calls : List Holder.Call) :
    (lateNet.after issuer calls).2.now ≤ issuer.now + 20 * 1000000000 * ((min (lateNet.after issuer calls).1 10 : Nat) : Int) := by
  unfold Net.after
  have hinv : ∀ (calls : List Holder.Call) (s : Nat × World Issuer.State),
      s.2.now ≤ issuer.now + 20 * 1000000000 * ((min s.1 10 : Nat) : Int) →
      (calls.foldl lateNet.next s).2.now ≤ issuer.now + 20 * 1000000000 * ((min (calls.foldl lateNet.next s).1 10 : Nat) : Int) := by
    intro calls
    induction calls with
    | nil => intro s h; exact h
    | cons c calls ih =>
      intro s h
      refine ih _ ?_
      unfold Net.next
      split
      · exact h
      · simp only [Net.serve, Issuer.step_now, lateArrival]
        split <;> omega
  exact hinv calls (0, issuer) (by simp)

theorem lateUndisturbed (calls : List Holder.Call) (keys : String → Prop) : Undisturbed lateNet issuer calls keys where
  intact _ _ := by rw [lateArrival]
  intime := by
    rw [lateArrival]
    have := lateClock calls
    simp only [Issuer.sec]
    split <;> omega

theorem lateUnderstands (lo hi : Int) : Understands lateNet wallet lo hi where
  proofs c nonce h := ⟨nonce, h, fun i => by simp only [lateNet]; split <;> exact ⟨_, rfl, rfl, rfl, rfl⟩⟩
  credentials := (understands lo hi).credentials
  times _ _ _ := rfl

theorem lateProvider {p : Issuer.Provider → Prop} (h1 : p unready) (h2 : p provider) (j : Nat) : p (lateNet.provider j) := by
  simp only [lateNet]
  split
  · exact h1
  · exact h2

noncomputable def lateHistory : List Holder.HStep :=
  (askCalls "k" { clientId := "wallet", subjectId := "alice", offer } (some "123456") ["dev-1"] "emp-1").map fun r =>
    { provider := wallet, wait := 7, req := r }

example : ∃ txn more, (Holder.exec lateEnv (Holder.start 0) (lateHistory ++
      [{ provider := wallet, req := .deferred ⟨"k", txn, "Employee"⟩ }, { provider := wallet, req := .save "k" }])).log =
      (Holder.exec lateEnv (Holder.start 0) lateHistory).log ++ more ∧
    (savedIn more).map (fun c => (c.issuer, c.vc.subject)) =
      ["dev-1", "emp-1"].map (fun id => ("http://vercre.io", .one { id := some "did:web:holder", claims := claims id })) := by
  obtain ⟨txn, new, last, h1, _, _, _, h2⟩ := C108_late_credential_reaches_wallet (n := lateNet) (w := Issuer.start 0) (s := offerStep) (req := offerReq)
    (offer := offer) (md := md) (client := "wallet") (subj := "normal") (claims := claims) (want := ["dev-1"]) (late := "emp-1") (cid := "Employee")
    (e := lateEnv) (hw := Holder.start 0) (W := wallet) (oreq := { clientId := "wallet", subjectId := "alice", offer }) (hist := lateHistory)
    Issuer.Demo.env_fresh ⟨0, [], rfl⟩ rfl offered ⟨_, rfl, by decide⟩ rfl (.byVal ..) (by decide)
    (lateProvider (p := fun P => Serves P "http://vercre.io" md "wallet") ⟨rfl, rfl, _, _, _, rfl, rfl, by decide, rfl, _, _, rfl, rfl, by decide⟩
      ⟨rfl, rfl, _, _, _, rfl, rfl, by decide, rfl, _, _, rfl, rfl, by decide⟩)
    (by simp [Dict.Nodup, Dict.keys, md])
    (by
      intro cid hc
      simp only [offer, List.mem_cons, List.not_mem_nil, or_false] at hc
      rcases hc with rfl | rfl
      · exact ⟨_, .head _⟩
      · exact ⟨_, .tail _ (.head _)⟩)
    (fun _ => rfl) (by decide)
    (by
      intro id hid
      simp only [List.mem_cons, List.not_mem_nil, or_false] at hid
      subst hid
      exact ⟨"Developer", by decide, ⟨_, rfl, .head _⟩, lateProvider (p := fun P => Issues P md "normal" "Developer" "dev-1" (claims "dev-1"))
        ⟨⟨_, .tail _ (.head _), ⟨_, rfl⟩, nofun, ⟨_, rfl, .head _⟩, ⟨_, rfl, fun _ => rfl⟩, by decide, ⟨_, _, _, rfl⟩, fun _ => ⟨_, rfl⟩⟩, ⟨_, rfl, rfl, rfl⟩⟩
        ⟨⟨_, .tail _ (.head _), ⟨_, rfl⟩, nofun, ⟨_, rfl, .head _⟩, ⟨_, rfl, fun _ => rfl⟩, by decide, ⟨_, _, _, rfl⟩, fun _ => ⟨_, rfl⟩⟩, ⟨_, rfl, rfl, rfl⟩⟩⟩)
    ⟨by decide, _, rfl, .head _⟩ ⟨⟨_, _, .head _, rfl, .head _⟩, _, rfl, rfl⟩
    ⟨⟨_, .head _, ⟨_, rfl⟩, nofun, ⟨_, rfl, .head _⟩, ⟨_, rfl, fun _ => rfl⟩, by decide, ⟨_, _, _, rfl⟩, fun _ => ⟨_, rfl⟩⟩, ⟨_, rfl, rfl, rfl⟩⟩
    rfl (fun _ _ _ => rfl) (fun _ => rfl) (lateUnderstands _ _) rfl rfl
    (by intro st hst; obtain ⟨_, _, rfl⟩ := List.mem_map.1 hst; rfl) (by simp [lateHistory]; rfl) (fun _ _ => lateUndisturbed _ _)
  obtain ⟨more, h3, _, h4, _⟩ := h2 { provider := wallet, req := .deferred ⟨"k", txn, "Employee"⟩ } { provider := wallet, req := .save "k" } rfl rfl rfl
    (fun _ _ => lateUndisturbed _ _)
  exact ⟨txn, more, by rw [h1]; exact h3, h4⟩

end Verif.Interop.Demo
