import Verif.Interop.StaleProps
import Verif.Interop.Demo
/-!
# A flow that is stuck: the hypotheses of C109 can be met
-/
namespace Verif.Interop.Demo
open Verif

/-- The network, with the same text for all credentials. -/
def plainNet : Net := { env := Issuer.Demo.env, provider := fun _ => provider, others := fun _ => [], encode := fun _ => "vc", rest := fun _ _ _ => none }

/-- A wallet that, say for want of the issuer's key, cannot read credentials. -/
def plainWallet : Holder.Provider where
  kid := "did:web:holder#k1"
  signProof c := c.nonce
  jose := {
    encodeVc := fun _ _ => none
    decodeVc := fun _ => none
    encodeVp := fun _ _ => none
    decodeVp := fun _ => none }
  decodeRequest _ := none
  parseRequest _ := none
  percentDecode t := some t
  codeChallenge v := v
  validTime _ := true

def plainEnv : Holder.HEnv where
  rng n := String.ofList (List.replicate (n + 1) 'k')
  fault _ := .ok
  oracle := plainNet.oracle issuer 0

def plainWorld : Holder.HWorld := Holder.exec plainEnv (Holder.start 0)
  ((beginCalls "k" { clientId := "wallet", subjectId := "alice", offer } (some "123456")).map fun r => { provider := plainWallet, wait := 7, req := r })

/-- It asks for a credential, which it cannot read, and later, without others noticing, for the same one again. -/
def ask : Holder.HStep := { provider := plainWallet, req := .credentials ⟨"k", some ["dev-1"], none⟩ }

theorem plainProofs : ProofsAlways plainNet := by
  intro j url iss cid cfg h hc
  simp only [plainNet, provider] at h
  split at h
  · cases h
    have hc := Dict.mem_of_get? hc
    simp only [md, List.mem_cons, Prod.mk.injEq, List.not_mem_nil, or_false] at hc
    rcases hc with ⟨_, rfl⟩ | ⟨_, rfl⟩ <;> rfl
  · cases h

theorem plainTold : ProofsTold plainNet plainWallet := by
  intro c jwt h j p hp
  have h : c.nonce = some jwt := h
  cases hp
  exact h.symm

example : ∃ en2 q, (Holder.exec plainEnv plainWorld [ask, ask]).log = (Holder.step plainEnv plainWorld ask).2.log ++ [en2] ∧
    (⟨.credential q, none⟩ : Holder.Event) ∈ en2.events ∧ ∃ err, en2.result = .error err := by
  refine ⟨_, _, rfl, .head _, ?_⟩
  refine (C109_flow_stuck (n := plainNet) (w1 := issuer) (e := plainEnv) (hw := plainWorld) (st := ask) (k := "k") (later := []) (st2 := ask)
    Issuer.Demo.env_fresh plainProofs rfl ?_ (fun _ => nofun) ⟨0, _, rfl⟩ rfl (.failed _ _ _ _ _ rfl rfl (.head _) rfl rfl)
    (by intro s hs; simp at hs; subst hs; exact plainTold) rfl rfl rfl (.head _)).2
  intro i j h
  have h := congrArg (fun s => s.toList.length) h
  simpa [plainEnv] using h

end Verif.Interop.Demo
