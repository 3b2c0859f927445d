import Verif.Holder.OverlapProps
import Verif.Holder.Demo
import Verif.Issuer.OverlapDemo
/-!
# Overlapping calls on the small concrete wallet: what goes wrong (C112, C113), and that the theorems are not vacuous (C110 – C112)
-/
namespace Verif.Holder.Demo
open Verif HProg

/-- Texts drawn by each call. -/
def texts : Nat → Nat → String := Issuer.Demo.tokens

theorem texts_inj {i n j m : Nat} (h : texts i n = texts j m) : i = j ∧ n = m := Issuer.Demo.tokens_fresh.inj i n j m h

/-- The flow begun by call 0, and the presentation begun by call 10. -/
def flow : String := texts 0 0
def shown : String := texts 10 0

/-- The wallet of the demo, which can read two credentials. -/
def reader : Provider := { provider with
  jose := { provider.jose with
    decodeVc := fun t => if t = "vc.jwt" ∨ t = "vc2.jwt" then some ⟨"did:alice", none, "https://stranger.example", 0, "", none, vc⟩ else none } }

def requests : Nat → Req
  | 0 => .offer { clientId := "wallet", subjectId := "alice", offer := theOffer }
  | 1 => .accept { issuanceId := flow, accept := none }
  | 2 => .pin { issuanceId := flow, pin := "1234" }
  | 3 => .token flow
  | 4 => .credentials { issuanceId := flow, identifiers := some ["emp-1"], format := none }
  | 5 => .credentials { issuanceId := flow, identifiers := some ["emp-2"], format := none }
  | 6 => .cancel flow
  | 7 => .save flow
  | 8 => .save flow
  | 10 => .request "&presentation_definition"
  | 11 => .authorizePresentation shown
  | 12 => .present shown
  | 13 => .accept { issuanceId := flow, accept := some [] }
  | n => .offer { clientId := "wallet" ++ toString n, subjectId := "alice", offer := theOffer }

def theCalls (i : Nat) : Provider × Req := (reader, requests i)

/-- What the rest of the world answers. -/
def answers : (c : Call) → Option c.Reply
  | .credential r => match r.credential with
    | .identifier "emp-2" => some { response := .credential (.string "vc2.jwt") }
    | _ => some { response := .credential (.string "vc.jwt") }
  | c => oracle ["emp-1", "emp-2"] [] [] c

/-- Call `i` takes `n` turns. -/
def go (i n : Nat) : List Turn := List.replicate n (.run i .ok answers)

/-- Call `i` runs to its end. -/
def whole (i : Nat) : List Turn := go i 10

/-- Up to the token. -/
def opening : List Turn := whole 0 ++ whole 1 ++ whole 2 ++ whole 3

def wallet (s : List Turn) : HPool := overlapped texts 0 theCalls s

/-- How a call ended, in short. -/
def how (p : HPool) (i : Nat) : String := match p.prog i with
  | .ret r => short r
  | _ => "under way"

/-- The credentials stored for a flow, as issued. -/
def storedIn (p : HPool) (k : String) : Option (List String) := match p.store k with
  | some (.issuance f) => some (f.credentials.map (·.issued))
  | _ => none

/-- The credentials that came, with the call they came in. -/
def came (H : Trace) : List (Nat × String) := H.filterMap fun x => match x with
  | (i, .made ⟨.credential _, some ⟨.credential (.string t), _, _, _⟩⟩) => some (i, t)
  | _ => none

/-- The credentials put into the holder's store. -/
def savedBy (H : Trace) : List (Nat × String) := H.filterMap fun x => match x with
  | (i, .made ⟨.save c, _⟩) => some (i, c.issued)
  | _ => none

set_option maxRecDepth 40000

-- one at a time, all goes well
example : [0, 1, 2, 3, 4, 5, 7, 8].map (how (wallet (opening ++ whole 4 ++ whole 5 ++ whole 7 ++ whole 8))) =
    ["offer b", "flow b", "flow b", "authorized b", "credentials b", "credentials b", "flow b", "load"] := by decide +kernel
example : storedIn (wallet (opening ++ whole 4 ++ whole 5)) flow = some ["vc.jwt", "vc2.jwt"] := by decide +kernel

/-! ### C113: calls about one flow do not take effect one after the other -/

/-- Both calls for credentials look up the flow before either writes it back. -/
def racing : List Turn := opening ++ go 4 1 ++ go 5 1 ++ whole 4 ++ whole 5

/-- A credential that came, in a call that ended well, is lost: it is not in the flow any more, and so is not saved with it. -/
theorem C113_received_credential_lost : ∃ (rng : Nat → Nat → String) (calls : Nat → Provider × Req) (t0 : Int) (s : List Turn) (i j : Nat) (k t u : String),
    (∀ i n j m, rng i n = rng j m → i = j ∧ n = m) ∧
    (∃ d, (overlapped rng t0 calls s).Ended i (.ok (.credentials k d))) ∧ (∃ d, (overlapped rng t0 calls s).Ended j (.ok (.credentials k d))) ∧
    t ≠ u ∧ came (overlapped rng t0 calls s).trace = [(i, t), (j, u)] ∧ storedIn (overlapped rng t0 calls s) k = some [u] :=
  ⟨texts, theCalls, 0, racing, 4, 5, flow, "vc.jwt", "vc2.jwt", fun _ _ _ _ h => texts_inj h, ⟨_, rfl⟩, ⟨_, rfl⟩, by decide, by decide +kernel, by decide +kernel⟩

-- the other call's credential is then the only one saved, and the flow is over
example : savedBy (wallet (racing ++ whole 7)).trace = [(7, "vc2.jwt")] ∧ storedIn (wallet (racing ++ whole 7)) flow = none := by decide +kernel

/-- Saves that overlap save everything twice, and both end well. -/
theorem C113_saved_twice : ∃ (rng : Nat → Nat → String) (calls : Nat → Provider × Req) (t0 : Int) (s : List Turn) (i j : Nat) (k t : String), i ≠ j ∧
    (∀ i n j m, rng i n = rng j m → i = j ∧ n = m) ∧ (overlapped rng t0 calls s).Ended i (.ok (.flow k)) ∧
    (overlapped rng t0 calls s).Ended j (.ok (.flow k)) ∧ (came (overlapped rng t0 calls s).trace).map (·.2) = [t] ∧
    savedBy (overlapped rng t0 calls s).trace = [(i, t), (j, t)] :=
  ⟨texts, theCalls, 0, opening ++ whole 4 ++ go 7 1 ++ go 8 1 ++ whole 7 ++ whole 8, 7, 8, flow, "vc.jwt", by decide, fun _ _ _ _ h => texts_inj h,
    rfl, rfl, by decide +kernel, by decide +kernel⟩

/-! ### C112: a cancelled flow returns -/

/-- A call for credentials begins, the flow is cancelled, and the call goes on. -/
theorem C112_cancelled_flow_returns : ∃ (rng : Nat → Nat → String) (calls : Nat → Provider × Req) (t0 : Int) (s s' s'' : List Turn) (i j : Nat) (k t : String),
    (∀ i n j m, rng i n = rng j m → i = j ∧ n = m) ∧ (calls i).2 = .cancel k ∧ (overlapped rng t0 calls s).Ended i (.ok (.flow k)) ∧
    (overlapped rng t0 calls s).store k = none ∧ storedIn (overlapped rng t0 calls (s ++ s')) k = some [t] ∧
    savedBy (overlapped rng t0 calls (s ++ s' ++ s'')).trace = [(j, t)] :=
  ⟨texts, theCalls, 0, opening ++ go 4 1 ++ whole 6, whole 4, whole 7, 6, 7, flow, "vc.jwt", fun _ _ _ _ h => texts_inj h, rfl, rfl, rfl,
    by decide +kernel, by decide +kernel⟩

/-! ### The hypotheses of C110 – C112 are met -/

/-- The calls made to others. -/
def madeIn (H : Trace) : List (Nat × String) := H.filterMap fun x => match x with
  | (i, .made ev) => (kinds [ev]).head?.map fun k => (i, k)
  | _ => none

/-- Two flows and a presentation, all mixed up. -/
def mixed : List Turn :=
  go 0 2 ++ go 20 3 ++ go 10 2 ++ whole 0 ++ go 1 1 ++ whole 20 ++ whole 1 ++ whole 10 ++ go 11 1 ++ whole 2 ++ go 3 2 ++ whole 11 ++ go 12 3 ++ whole 3 ++
  go 4 1 ++ whole 12 ++ whole 4 ++ whole 7

example : madeIn (wallet mixed).trace = [(0, "metadata"), (20, "metadata"), (20, "server"), (10, "find"), (0, "server"), (3, "token"),
    (12, "present"), (4, "credential"), (4, "logo"), (7, "save")] := by decide +kernel

-- C110: the last of these calls is a save, and so on
theorem split_made {H : Trace} {i : Nat} {k : String} (h : (i, k) ∈ madeIn H) : ∃ pre ev post, H = pre ++ (i, .made ev) :: post ∧ (kinds [ev]).head? = some k := by
  obtain ⟨⟨j, a⟩, hm, ha⟩ := List.mem_filterMap.mp h
  cases a with
  | silent => cases ha
  | wrote => cases ha
  | made ev =>
    simp only [Option.map_eq_some_iff, Prod.mk.injEq] at ha
    obtain ⟨k', hk, rfl, rfl⟩ := ha
    obtain ⟨pre, post, rfl⟩ := List.append_of_mem hm
    exact ⟨pre, ev, post, rfl, hk⟩

example : ∃ pre i c o post, (overlapped texts 0 theCalls mixed).trace = pre ++ (i, .made ⟨.save c, o⟩) :: post := by
  obtain ⟨pre, ⟨c, o⟩, post, h, hk⟩ := split_made (H := (wallet mixed).trace) (i := 7) (k := "save") (by decide +kernel)
  cases c with
  | save c => exact ⟨pre, 7, c, o, post, h⟩
  | _ => exact absurd hk (by simp [kinds])

example : ∃ pre i u r o post, (overlapped texts 0 theCalls mixed).trace = pre ++ (i, .made ⟨.present u r, o⟩) :: post := by
  obtain ⟨pre, ⟨c, o⟩, post, h, hk⟩ := split_made (H := (wallet mixed).trace) (i := 12) (k := "present") (by decide +kernel)
  cases c with
  | present u r => exact ⟨pre, 12, u, r, o, post, h⟩
  | _ => exact absurd hk (by simp [kinds])

-- consent refused
example : how (wallet (whole 0 ++ whole 13)) 13 = "refused if accept is provided it cannot be empty" := by decide +kernel
example : how (wallet (whole 0 ++ [.run 1 .ok answers, .run 1 .failAfter answers] ++ whole 2)) 1 = "store" := by decide +kernel

/-- The calls about the flow of call 0. -/
def aboutFlow (i : Nat) : Bool := i < 10 || i == 13

theorem concerns_flow {i : Nat} {k : String} (h : Own texts theCalls i k) :
    (aboutFlow i = true → k = flow ∨ ∃ n, k = texts i n) ∧ (aboutFlow i = false → k = shown ∨ ∃ n, k = texts i n) := by
  rcases h with h | h
  · match i, h with
    | 1, .accept _ => exact ⟨fun _ => .inl rfl, fun h => by cases h⟩
    | 2, .pin _ => exact ⟨fun _ => .inl rfl, fun h => by cases h⟩
    | 3, .token _ => exact ⟨fun _ => .inl rfl, fun h => by cases h⟩
    | 4, .credentials _ => exact ⟨fun _ => .inl rfl, fun h => by cases h⟩
    | 5, .credentials _ => exact ⟨fun _ => .inl rfl, fun h => by cases h⟩
    | 6, .cancel _ => exact ⟨fun _ => .inl rfl, fun h => by cases h⟩
    | 7, .save _ => exact ⟨fun _ => .inl rfl, fun h => by cases h⟩
    | 8, .save _ => exact ⟨fun _ => .inl rfl, fun h => by cases h⟩
    | 11, .authorizePresentation _ => exact ⟨fun h => (by cases h), fun _ => .inl rfl⟩
    | 12, .present _ => exact ⟨fun h => (by cases h), fun _ => .inl rfl⟩
    | 13, .accept _ => exact ⟨fun _ => .inl rfl, fun h => by cases h⟩
  · exact ⟨fun _ => .inr h, fun _ => .inr h⟩

-- C111: the flow of call 0 goes as if there were neither the other flow nor the presentation
theorem flows_disjoint : ∀ i j k, aboutFlow i = true → aboutFlow j = false → Own texts theCalls i k → ¬ Own texts theCalls j k := by
  intro i j k hi hj h h'
  have hij : i ≠ j := fun e => by rw [e, hj] at hi; cases hi
  have h10 : i ≠ 10 := fun e => by rw [e] at hi; cases hi
  have h0 : j ≠ 0 := fun e => by rw [e] at hj; cases hj
  rcases (concerns_flow h).1 hi with rfl | ⟨n, rfl⟩ <;> rcases (concerns_flow h').2 hj with e | ⟨m, e⟩
  · exact absurd (texts_inj e).1 (by decide)
  · exact h0 (texts_inj e).1.symm
  · exact h10 (texts_inj e).1
  · exact hij (texts_inj e).1

example : (wallet mixed).Ended 7 (.ok (.flow flow)) ∧ (wallet (mixed.filter (among aboutFlow))).Ended 7 (.ok (.flow flow)) :=
  ⟨rfl, ((C111_flows_independent aboutFlow flows_disjoint (s := mixed)).1 7 _ rfl).1 rfl⟩

-- C112: cancelled while nothing was under way
theorem unstarted_of {p : HPool} {i : Nat} (h : (p.trace.map (·.1)).contains i = false) : Unstarted p i := by
  intro a ha
  have : (p.trace.map (·.1)).contains i = true := List.contains_iff_mem.2 (List.mem_map.2 ⟨_, ha, rfl⟩)
  rw [h] at this; cases this

example (s' : List Turn) : (overlapped texts 0 theCalls (opening ++ whole 6 ++ s')).store flow = none := by
  refine (C112_ended_stays_ended_partial (k := flow) rfl (fun i h => ?_) s').1
  rcases h with h | ⟨n, h⟩
  · match i, h with
    | 1, .accept _ => exact .inl ⟨_, rfl⟩
    | 2, .pin _ => exact .inl ⟨_, rfl⟩
    | 3, .token _ => exact .inl ⟨_, rfl⟩
    | 4, h => exact .inr ⟨unstarted_of (by decide +kernel), h⟩
    | 5, h => exact .inr ⟨unstarted_of (by decide +kernel), h⟩
    | 6, .cancel _ => exact .inl ⟨_, rfl⟩
    | 7, h => exact .inr ⟨unstarted_of (by decide +kernel), h⟩
    | 8, h => exact .inr ⟨unstarted_of (by decide +kernel), h⟩
    | 13, h => exact .inr ⟨unstarted_of (by decide +kernel), h⟩
  · obtain ⟨rfl, _⟩ := texts_inj h
    exact .inl ⟨_, rfl⟩

end Verif.Holder.Demo
