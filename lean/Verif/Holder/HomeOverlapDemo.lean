import Verif.Holder.HomeOverlap
import Verif.Holder.OverlapDemo
/-!
# Cases of C206 and C80 with overlapping calls
-/
namespace Verif.Holder.HomeOverlapDemo
open Verif HProg Holder.Demo

set_option maxRecDepth 40000

/-- Who was sent something, by which call, and with which access token. -/
def sentIn (H : Trace) : List (Nat × String × Option String) := H.filterMap fun x => match x with
  | (i, .made ev) => (addressee ev.call).map fun a => (i, a, bearerOf ev.call)
  | _ => none

/-- Two calls that overlap step by step, one of which is then broken off. -/
def tangled : List Turn := opening ++ go 4 3 ++ go 5 3 ++ go 4 1 ++ go 5 1

-- the metadata in the demo names another issuer, and everything goes there
example : sentIn (wallet tangled).trace = [(3, "https://elsewhere.example", none), (4, "https://elsewhere.example", some "at-1"),
    (5, "https://elsewhere.example", some "at-1")] := by decide +kernel

/-- Issuers that name themselves. -/
def plain : (c : Call) → Option c.Reply
  | .metadata a => some { metadata with credentialIssuer := a }
  | c => answers c

def frank : List Turn := tangled.map fun
  | .run i f _ => .run i f plain
  | .tick n => .tick n

def names (x : Nat × Act) : Bool := match x with
  | (_, .made ⟨.metadata a, some (md : Verif.Issuer)⟩) => md.credentialIssuer == a
  | _ => true

theorem names_all {H : Trace} (h : H.all names = true) : ∀ j a (md : Verif.Issuer), (j, .made ⟨.metadata a, some md⟩) ∈ H → md.credentialIssuer = a := by
  intro j a md hm
  have := List.all_eq_true.mp h _ hm
  exact eq_of_beq this

/-- The hypotheses of `C206_token_goes_where_it_came_from_overlap`, `C206_sent_to_named_issuer_overlap` and `C80_sent_to_own_issuer_overlap_partial`. -/
example : (∃ pre i ev post, (wallet frank).trace = pre ++ (i, .made ev) :: post ∧ addressee ev.call = some "https://issuer.example" ∧ bearerOf ev.call = some "at-1") ∧
    ∀ j a (md : Verif.Issuer), (j, .made ⟨.metadata a, some md⟩) ∈ (wallet frank).trace → md.credentialIssuer = a := by
  refine ⟨?_, names_all (by decide +kernel)⟩
  have h : (sentIn (wallet frank).trace).contains (5, "https://issuer.example", some "at-1") = true := by decide +kernel
  have h := List.contains_iff_mem.mp h
  obtain ⟨⟨i, x⟩, hx, h⟩ := List.mem_filterMap.mp h
  cases x with
  | silent => cases h
  | wrote => cases h
  | made ev =>
    obtain ⟨pre, post, hp⟩ := List.append_of_mem hx
    refine ⟨pre, i, ev, post, hp, ?_⟩
    simp only [Option.map_eq_some_iff] at h
    obtain ⟨a, h1, h2⟩ := h
    simp only [Prod.mk.injEq] at h2
    exact ⟨by rw [h1, h2.2.1], h2.2.2⟩

end Verif.Holder.HomeOverlapDemo
