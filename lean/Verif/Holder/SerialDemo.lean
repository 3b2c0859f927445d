import Verif.Holder.OverlapDemo
import Verif.Holder.Serial
/-!
# Calls about one flow, one after the other, amid other calls: the hypotheses of C113 are met
-/
namespace Verif.Holder.Demo
open Verif HProg

set_option maxRecDepth 40000

/-- How many turns each call has in `mixed`. -/
def share : Nat → Nat
  | 0 => 12
  | 1 => 11
  | 3 => 12
  | 4 => 11
  | _ => 10

theorem mixed_one_by_one : OneByOne aboutFlow mixed ([0, 1, 2, 3, 4] ++ 7 :: []) :=
  ⟨by decide, by decide, share, by decide +kernel⟩

/-- How the calls about the flow of call 0 end. -/
def ending (j : Nat) : HRes Resp := match (wallet mixed).prog j with
  | .ret r => r
  | _ => .error .load

theorem mixed_ended : ∀ j ∈ [0, 1, 2, 3, 4] ++ 7 :: [], (wallet mixed).Ended j (ending j) := by
  have key : ∀ j, (match (wallet mixed).prog j with | .ret _ => true | _ => false) = true → (wallet mixed).Ended j (ending j) := by
    intro j h
    unfold HPool.Ended ending
    split at h
    · rename_i r heq; rw [heq]
    · cases h
  intro j hj
  apply key
  revert j
  decide +kernel

-- the wallet that does one thing at a time, and does all that the calls about this flow did
example := C113_one_after_another_partial (t0 := 0) flows_disjoint mixed_one_by_one fun j hj => ⟨_, mixed_ended j hj⟩

-- what was received is saved
example : ∃ cs : List Credential, HPool.heard (wallet mixed).trace 7 = cs.map (fun c => ⟨.save c, some ()⟩) ∧ cs.map (·.issued) = ["vc.jwt"] := by
  obtain ⟨cs, h1, h2⟩ := C113_saved_once_partial (t0 := 0) (fun _ _ _ _ h => texts_inj h) (by
    intro i a h
    have : ∀ t ∈ mixed, (match t with | .run _ .failAfter _ => true | _ => false) = false := by decide +kernel
    cases this _ h) flows_disjoint mixed_one_by_one ending mixed_ended (k := flow) rfl (resp := .flow flow) rfl
  exact ⟨cs, h1, h2.trans (by decide +kernel)⟩

end Verif.Holder.Demo
