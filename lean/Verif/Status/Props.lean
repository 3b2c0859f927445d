import Verif.Status.Model
/-!
# Properties of status lists: C44 – C47, C74
-/
namespace Verif.Status

/-! ### Specification -/

/-- All statuses in a log, in order. -/
def statuses (issued : List StatusLogEntry) : List StatusValue := issued.flatMap StatusLogEntry.status

/-- `v` is the value the log gives last, for this purpose, to this index. -/
def LastValue (issued : List StatusLogEntry) (p : StatusPurpose) (idx : Nat) (v : UInt8) : Prop :=
  ∃ l1 s l2, statuses issued = l1 ++ s :: l2 ∧ s.purpose = p ∧ s.listIndex.toNat = idx ∧ s.value = v ∧
    ∀ x ∈ l2, ¬ (x.purpose = p ∧ x.listIndex.toNat = idx)

/-! ### Lemmas -/

theorem applyLog_eq (b : Build) (cfg : ListConfig) (bits : Bits) (issued : List StatusLogEntry) :
    applyLog b cfg bits issued = applyStatuses b cfg bits (statuses issued) := by
  induction issued generalizing bits with
  | nil => rfl
  | cons e es ih =>
    simp only [applyLog, statuses, List.flatMap_cons]
    have happ : ∀ (l1 l2 : List StatusValue) (bits : Bits),
        applyStatuses b cfg bits (l1 ++ l2) = (do let x ← applyStatuses b cfg bits l1; applyStatuses b cfg x l2) := by
      intro l1 l2
      induction l1 with
      | nil => intro bits; rfl
      | cons s l1 ih =>
        intro bits
        simp only [List.cons_append, applyStatuses]
        cases applyStatus b cfg bits s with
        | error x => rfl
        | ok y => exact ih y
    rw [happ]
    cases applyStatuses b cfg bits e.status with
    | error x => rfl
    | ok y => exact ih y

theorem mulUsize_ok {b : Build} {x y z : UInt64} (hlt : x.toNat * y.toNat < 2 ^ 64) : mulUsize b x y = .ok z ↔ z = x * y := by
  cases b <;> simp [mulUsize, hlt, eq_comm]

theorem mulUsize_lt {b : Build} {x y z : UInt64} (h : mulUsize b x y = .ok z) (hlt : x.toNat * y.toNat < 2 ^ 64) :
    z.toNat = x.toNat * y.toNat := by
  rw [(mulUsize_ok hlt).1 h, UInt64.toNat_mul, Nat.mod_eq_of_lt hlt]

theorem text_get (bits : Bits) (i : Nat) (h : i < maxEntries) : (text bits)[i]? = some (if bits i then '1' else '0') := by
  simp [text, h]

theorem text_length (bits : Bits) : (text bits).length = maxEntries := by simp [text]

theorem setMessage_spec {bits out : Bits} {position : Nat} {value : UInt8} (fuel i : Nat)
    (h : setMessage bits position value fuel i = .ok out) :
    (∀ j, j < fuel → out (position + (i + j)) = value.toNat.testBit (i + j)) ∧
    (∀ q, (∀ j, j < fuel → q ≠ position + (i + j)) → out q = bits q) ∧ (∀ j, j < fuel → position + (i + j) < maxEntries) := by
  induction fuel generalizing bits i with
  | zero =>
    cases h
    exact ⟨fun j hj => absurd hj (by omega), fun q _ => rfl, fun j hj => absurd hj (by omega)⟩
  | succ fuel ih =>
    simp only [setMessage, Except.bind_ok] at h
    obtain ⟨b1, h1, h2⟩ := h
    obtain ⟨ih1, ih2, ih3⟩ := ih (i + 1) h2
    unfold setBit at h1
    split at h1
    · rename_i hlt
      cases h1
      refine ⟨?_, ?_, ?_⟩
      · intro j hj
        cases j with
        | zero =>
          rw [ih2]
          · simp
          · intro j _; omega
        | succ j =>
          have := ih1 j (by omega)
          rw [show i + (j + 1) = i + 1 + j by omega]
          exact this
      · intro q hq
        rw [ih2]
        · have := hq 0 (by omega)
          simp only [Nat.add_zero] at this
          simp [this]
        · intro j hj
          have := hq (j + 1) (by omega)
          rw [show i + 1 + j = i + (j + 1) by omega]
          exact this
      · intro j hj
        cases j with
        | zero => simpa using hlt
        | succ j =>
          have := ih3 j (by omega)
          rw [show i + (j + 1) = i + 1 + j by omega]
          exact this
    · cases h1

theorem setMessage_ok (bits : Bits) (position : Nat) (value : UInt8) (fuel i : Nat)
    (h : ∀ j, j < fuel → position + (i + j) < maxEntries) : ∃ out, setMessage bits position value fuel i = .ok out := by
  induction fuel generalizing bits i with
  | zero => exact ⟨_, rfl⟩
  | succ fuel ih =>
    have h0 := h 0 (by omega)
    simp only [setMessage, setBit]
    rw [if_pos (by simpa using h0)]
    exact ih _ (i + 1) (fun j hj => by have := h (j + 1) (by omega); rw [show i + 1 + j = i + (j + 1) by omega]; exact this)

theorem setMessage_panic (bits : Bits) (position : Nat) (value : UInt8) (fuel i : Nat)
    (h : ∃ j, j < fuel ∧ maxEntries ≤ position + (i + j)) : ∃ m, setMessage bits position value fuel i = .error (.panic m) := by
  induction fuel generalizing bits i with
  | zero => obtain ⟨j, hj, _⟩ := h; omega
  | succ fuel ih =>
    simp only [setMessage, setBit]
    by_cases h0 : position + i < maxEntries
    · rw [if_pos h0]
      refine ih _ (i + 1) ?_
      obtain ⟨j, hj, hge⟩ := h
      cases j with
      | zero => simp only [Nat.add_zero] at hge; omega
      | succ j => exact ⟨j, by omega, by omega⟩
    · rw [if_neg h0]; exact ⟨_, rfl⟩

theorem setBit_ok {bits out : Bits} {i : Nat} {b : Bool} :
    setBit bits i b = .ok out ↔ i < maxEntries ∧ out = fun j => if j = i then b else bits j := by
  unfold setBit
  by_cases h : i < maxEntries
  · rw [if_pos h]; simp [h, eq_comm]
  · rw [if_neg h]; simp [h]

/-- What one status does to a list, where the multiplication does not overflow. -/
theorem applyStatus_ok {b : Build} {cfg : ListConfig} {bits out : Bits} {s : StatusValue}
    (hlt : s.listIndex.toNat * cfg.size.toNat < 2 ^ 64) :
    applyStatus b cfg bits s = .ok out ↔
      (s.purpose ≠ cfg.purpose ∧ out = bits) ∨
      (s.purpose = cfg.purpose ∧ s.listIndex.toNat * cfg.size.toNat < maxEntries ∧
        writeStatus cfg bits (s.listIndex.toNat * cfg.size.toNat) s = .ok out) := by
  unfold applyStatus
  split
  · rename_i hp
    simp only [Except.bind_ok, require_ok, decide_eq_true_eq, hp, ne_eq, not_true_eq_false, false_and, true_and, false_or]
    constructor
    · rintro ⟨p, h1, _, h2, h3⟩
      rw [mulUsize_lt h1 hlt] at h2 h3
      exact ⟨h2, h3⟩
    · rintro ⟨h2, h3⟩
      have h1 := (mulUsize_ok (b := b) hlt).2 rfl
      refine ⟨_, h1, (), ?_, ?_⟩ <;> rw [mulUsize_lt h1 hlt] <;> assumption
  · rename_i hp
    simp [hp, eq_comm]

/-! ### C44 -/

/-- Bits after a list of single bit statuses with size 1. -/
theorem single_bits (b : Build) (cfg : ListConfig) (hp : cfg.purpose ≠ .message) (hs : cfg.size = 1) (l : List StatusValue) (bits : Bits) :
    ((∃ out, applyStatuses b cfg bits l = .ok out) ↔ ∀ s ∈ l, s.purpose = cfg.purpose → s.listIndex.toNat < maxEntries) ∧
    (∀ out, applyStatuses b cfg bits l = .ok out → ∀ i,
      (∀ l1 s l2, l = l1 ++ s :: l2 → s.purpose = cfg.purpose → s.listIndex.toNat = i →
        (∀ x ∈ l2, ¬ (x.purpose = cfg.purpose ∧ x.listIndex.toNat = i)) → out i = (s.value != 0)) ∧
      ((∀ x ∈ l, ¬ (x.purpose = cfg.purpose ∧ x.listIndex.toNat = i)) → out i = bits i)) := by
  have hsz : cfg.size.toNat = 1 := by rw [hs]; rfl
  have hw : ∀ bits p s, writeStatus cfg bits p s = setBit bits p (s.value != 0) := by
    intro bits p s; unfold writeStatus; cases h : cfg.purpose <;> simp_all
  have hstep : ∀ (bits : Bits) (s : StatusValue) (out : Bits), applyStatus b cfg bits s = .ok out ↔
      (s.purpose ≠ cfg.purpose ∧ out = bits) ∨ (s.purpose = cfg.purpose ∧ s.listIndex.toNat < maxEntries ∧
        out = fun j => if j = s.listIndex.toNat then (s.value != 0) else bits j) := by
    intro bits s out
    rw [applyStatus_ok (by rw [hsz, Nat.mul_one]; exact s.listIndex.toNat_lt), hsz, Nat.mul_one, hw, setBit_ok]
    simp only [← and_assoc, and_self]
  induction l generalizing bits with
  | nil =>
    refine ⟨by simp [applyStatuses], ?_⟩
    intro out h i
    cases h
    refine ⟨?_, fun _ => rfl⟩
    intro l1 s l2 h
    have := congrArg List.length h; simp at this
  | cons s l ih =>
    constructor
    · simp only [applyStatuses, Except.bind_ok, List.forall_mem_cons]
      constructor
      · rintro ⟨out, mid, h1, h2⟩
        refine ⟨fun hpu => ?_, ((ih mid).1).1 ⟨out, h2⟩⟩
        rcases (hstep bits s mid).1 h1 with ⟨h, _⟩ | ⟨_, h, _⟩
        · exact absurd hpu h
        · exact h
      · rintro ⟨h1, h2⟩
        by_cases hpu : s.purpose = cfg.purpose
        · obtain ⟨out, ho⟩ := (ih (fun j => if j = s.listIndex.toNat then (s.value != 0) else bits j)).1.2 h2
          exact ⟨out, _, (hstep _ _ _).2 (.inr ⟨hpu, h1 hpu, rfl⟩), ho⟩
        · obtain ⟨out, ho⟩ := (ih bits).1.2 h2
          exact ⟨out, _, (hstep _ _ _).2 (.inl ⟨hpu, rfl⟩), ho⟩
    · intro out h i
      simp only [applyStatuses, Except.bind_ok] at h
      obtain ⟨mid, h1, h2⟩ := h
      obtain ⟨ih1, ih2⟩ := (ih mid).2 out h2 i
      constructor
      · intro l1 x l2 hl hx1 hx2 hx3
        cases l1 with
        | cons y l1 =>
          simp only [List.cons_append, List.cons.injEq] at hl
          exact ih1 l1 x l2 hl.2 hx1 hx2 hx3
        | nil =>
          simp only [List.nil_append, List.cons.injEq] at hl
          obtain ⟨rfl, rfl⟩ := hl
          rw [ih2 hx3]
          rcases (hstep bits s mid).1 h1 with ⟨h, _⟩ | ⟨_, _, rfl⟩
          · exact absurd hx1 h
          · simp [hx2]
      · intro hno
        simp only [List.forall_mem_cons] at hno
        rw [ih2 hno.2]
        rcases (hstep bits s mid).1 h1 with ⟨_, rfl⟩ | ⟨h, _, rfl⟩
        · rfl
        · have : ¬ i = s.listIndex.toNat := fun hi => hno.1 ⟨h, hi.symm⟩
          simp [this]

theorem last_or_none (issued : List StatusLogEntry) (p : StatusPurpose) (i : Nat) :
    (∃ v, LastValue issued p i v) ∨ ∀ x ∈ statuses issued, ¬ (x.purpose = p ∧ x.listIndex.toNat = i) := by
  unfold LastValue
  generalize statuses issued = l
  induction l with
  | nil => right; simp
  | cons s l ih =>
    rcases ih with ⟨v, l1, x, l2, h1, h2⟩ | h
    · exact .inl ⟨v, s :: l1, x, l2, by rw [h1]; rfl, h2⟩
    · by_cases hs : s.purpose = p ∧ s.listIndex.toNat = i
      · exact .inl ⟨s.value, [], s, l, rfl, hs.1, hs.2, rfl, h⟩
      · right
        intro x hx
        rcases List.mem_cons.1 hx with rfl | hx
        · exact hs
        · exact h x hx

/-- **C44**. For a revocation or suspension list with one bit per entry, publication succeeds exactly when all logged indexes of that
purpose are within the list; the published list then has 131072 entries, and entry `i` is `1` exactly when the last value the log gives
for that purpose and index is not zero. -/
theorem C44_revocation_bits (b : Build) (pack : List Char → String) (cfg : ListConfig) (hp : cfg.purpose ≠ .message) (hs : cfg.size = 1)
    (issued : List StatusLogEntry) :
    ((∃ out, bitstring b pack cfg issued = .ok out) ↔
      ∀ s ∈ statuses issued, s.purpose = cfg.purpose → s.listIndex.toNat < 131072) ∧
    ∀ out, bitstring b pack cfg issued = .ok out →
      ∃ t, out = pack t ∧ t.length = 131072 ∧
        ∀ i, i < 131072 → (t[i]? = some '1' ∨ t[i]? = some '0') ∧
          (t[i]? = some '1' ↔ ∃ v, LastValue issued cfg.purpose i v ∧ v ≠ 0) := by
  obtain ⟨h1, h2⟩ := single_bits b cfg hp hs (statuses issued) (fun _ => false)
  constructor
  · rw [show (131072 : Nat) = maxEntries from rfl, ← h1]
    simp only [bitstring, Except.bind_ok, applyLog_eq]
    constructor
    · rintro ⟨out, bits, h, _⟩; exact ⟨bits, h⟩
    · rintro ⟨bits, h⟩; exact ⟨_, bits, h, rfl⟩
  · intro out h
    simp only [bitstring, Except.bind_ok, applyLog_eq, pure, Except.pure, Except.ok.injEq] at h
    obtain ⟨bits, hb, rfl⟩ := h
    refine ⟨text bits, rfl, text_length bits, ?_⟩
    intro i hi
    rw [text_get bits i hi]
    obtain ⟨h3, h4⟩ := h2 bits hb i
    refine ⟨by cases bits i <;> simp, ?_⟩
    rcases last_or_none issued cfg.purpose i with ⟨v, hv⟩ | hno
    · have hout := hv
      obtain ⟨l1, s, l2, e1, e2, e3, e4, e5⟩ := hv
      have hbit := h3 l1 s l2 e1 e2 e3 e5
      rw [hbit, e4]
      have huniq : ∀ v', LastValue issued cfg.purpose i v' → (v' != 0) = (v != 0) := by
        rintro v' ⟨m1, x, m2, f1, f2, f3, f4, f5⟩
        rw [← f4, ← h3 m1 x m2 f1 f2 f3 f5, hbit, e4]
      constructor
      · intro hh
        refine ⟨v, hout, ?_⟩
        intro hv0
        simp [hv0] at hh
      · rintro ⟨v', hv', hne⟩
        rw [← huniq v' hv']
        simp [hne]
    · rw [h4 hno]
      constructor
      · intro hh; simp at hh
      · rintro ⟨v, ⟨l1, s, l2, e1, e2, e3, _⟩, _⟩
        exact absurd ⟨e2, e3⟩ (hno s (by rw [e1]; simp))

/-- A log that revokes credential 3, then reinstates it and revokes credential 5; the suspension is not part of the list. -/
def Demo.log : List StatusLogEntry :=
  [⟨"a", "s", [⟨.revocation, 3, 1⟩, ⟨.suspension, 4, 1⟩]⟩, ⟨"b", "s", [⟨.revocation, 3, 0⟩]⟩, ⟨"c", "s", [⟨.revocation, 5, 1⟩]⟩]

example : LastValue Demo.log .revocation 3 0 ∧ LastValue Demo.log .revocation 5 1 ∧
    (∃ out, bitstring .release String.ofList ⟨.revocation, 1, 1⟩ Demo.log = .ok out) :=
  ⟨⟨_, ⟨.revocation, 3, 0⟩, [⟨.revocation, 5, 1⟩], rfl, rfl, rfl, rfl, by decide⟩,
    ⟨[⟨.revocation, 3, 1⟩, ⟨.suspension, 4, 1⟩, ⟨.revocation, 3, 0⟩], ⟨.revocation, 5, 1⟩, [], rfl, rfl, rfl, rfl, by decide⟩,
    (C44_revocation_bits _ _ ⟨.revocation, 1, 1⟩ (by decide) (by decide) _).1.2 (by decide)⟩

/-! ### C45 -/

/-- **C45**, what holds: with at least eight bits per entry, a message status changes no bit outside the eight bits at the start of its
own entry, and puts its value there, lowest bit first. -/
theorem C45_no_overlap_partial (b : Build) (cfg : ListConfig) (hp : cfg.purpose = .message) (hs : 8 ≤ cfg.size.toNat) (bits out : Bits)
    (s : StatusValue) (hsp : s.purpose = .message) (hlt : s.listIndex.toNat * cfg.size.toNat < 2 ^ 64)
    (h : applyStatus b cfg bits s = .ok out) :
    (∀ j, j < 8 → out (s.listIndex.toNat * cfg.size.toNat + j) = s.value.toNat.testBit j) ∧
    ∀ idx, idx ≠ s.listIndex.toNat → ∀ j, j < cfg.size.toNat → out (idx * cfg.size.toNat + j) = bits (idx * cfg.size.toNat + j) := by
  rcases (applyStatus_ok hlt).1 h with ⟨h, _⟩ | ⟨_, h1, h2⟩
  · exact absurd (hsp.trans hp.symm) h
  · simp only [writeStatus, hp] at h2
    obtain ⟨h3, h4, -⟩ := setMessage_spec 8 0 h2
    refine ⟨fun j hj => by have := h3 j hj; simpa using this, ?_⟩
    intro idx hne j hj
    apply h4
    intro i hi
    generalize cfg.size.toNat = n at *
    generalize s.listIndex.toNat = k at *
    rcases Nat.lt_or_gt_of_ne hne with hlt | hgt
    · have : (idx + 1) * n ≤ k * n := Nat.mul_le_mul_right n hlt
      rw [Nat.add_mul] at this; omega
    · have : (k + 1) * n ≤ idx * n := Nat.mul_le_mul_right n hgt
      rw [Nat.add_mul] at this; omega

/-- **C45 is false** for every entry size below eight: giving credential 0 the value 0 erases the status bit of credential 1, whatever was
logged for it before. -/
theorem C45_neighbour_erased (b : Build) (cfg : ListConfig) (hp : cfg.purpose = .message) (hs : cfg.size.toNat < 8) (bits : Bits) :
    ∃ out, applyStatus b cfg bits ⟨.message, 0, 0⟩ = .ok out ∧ out (1 * cfg.size.toNat) = false := by
  obtain ⟨out, ho⟩ := setMessage_ok bits 0 0 8 0 (by intro j hj; simp [maxEntries]; omega)
  refine ⟨out, (applyStatus_ok (by simp)).2 (.inr ⟨hp.symm, by simp [maxEntries], ?_⟩), ?_⟩
  · simp only [writeStatus, hp]
    simpa using ho
  · obtain ⟨h3, -, -⟩ := setMessage_spec 8 0 ho
    have := h3 cfg.size.toNat hs
    simpa using this

/-- The same at the API: credential 1 has message 1, then credential 0 gets message 0, and the list reads 0 for both (size 2). -/
theorem C45_erased_example :
    ∃ out, bitstring .release String.ofList ⟨.message, 1, 2⟩ [⟨"b", "s", [⟨.message, 1, 1⟩]⟩, ⟨"a", "s", [⟨.message, 0, 0⟩]⟩] = .ok out ∧
      out.toList[2]? = some '0' := by
  have h1 : ∃ mid, applyStatus .release ⟨.message, 1, 2⟩ (fun _ => false) ⟨.message, 1, 1⟩ = .ok mid := by
    obtain ⟨out, ho⟩ := setMessage_ok (fun _ => false) 2 1 8 0 (by intro j hj; simp [maxEntries]; omega)
    exact ⟨out, (applyStatus_ok (by decide)).2 (.inr ⟨rfl, by decide, ho⟩)⟩
  obtain ⟨mid, h1⟩ := h1
  obtain ⟨out, h2, h3⟩ := C45_neighbour_erased .release ⟨.message, 1, 2⟩ rfl (by decide) mid
  refine ⟨String.ofList (text out), ?_, ?_⟩
  · simp only [bitstring, applyLog_eq, Except.bind_ok]
    exact ⟨out, by simp [statuses, applyStatuses, h1, h2, bind, Except.bind], rfl⟩
  · rw [String.toList_ofList, text_get out 2 (by decide)]
    simp only [show ((1 : Nat) * (⟨.message, 1, 2⟩ : ListConfig).size.toNat) = 2 from rfl] at h3
    simp [h3]

/-! ### C46 -/

/-- **C46**, what holds: revocation and suspension lists never panic where the index times the size fits the machine word, and message
lists do not panic if every entry has eight bits left; a position out of range is the error "status index out of range". -/
theorem C46_no_panic_partial (b : Build) (pack : List Char → String) (cfg : ListConfig) (issued : List StatusLogEntry)
    (hov : ∀ s ∈ statuses issued, s.listIndex.toNat * cfg.size.toNat < 2 ^ 64)
    (hm : cfg.purpose = .message → ∀ s ∈ statuses issued, s.purpose = .message →
      s.listIndex.toNat * cfg.size.toNat + 8 ≤ 131072 ∨ 131072 ≤ s.listIndex.toNat * cfg.size.toNat) :
    (∃ out, bitstring b pack cfg issued = .ok out) ∨ bitstring b pack cfg issued = .error (.serverError "status index out of range") := by
  have key : ∀ l : List StatusValue, (∀ s ∈ l, s ∈ statuses issued) → ∀ bits,
      (∃ out, applyStatuses b cfg bits l = .ok out) ∨ applyStatuses b cfg bits l = .error (.serverError "status index out of range") := by
    intro l
    induction l with
    | nil => intro _ bits; exact .inl ⟨_, rfl⟩
    | cons s l ih =>
      intro hl bits
      have hs := hl s List.mem_cons_self
      have hstep : (∃ out, applyStatus b cfg bits s = .ok out) ∨
          applyStatus b cfg bits s = .error (.serverError "status index out of range") := by
        by_cases hpu : s.purpose = cfg.purpose
        · by_cases hr : s.listIndex.toNat * cfg.size.toNat < maxEntries
          · left
            have hw : ∃ out, writeStatus cfg bits (s.listIndex.toNat * cfg.size.toNat) s = .ok out := by
              unfold writeStatus
              split
              · rename_i hmsg
                apply setMessage_ok
                intro j hj
                have := hm hmsg s hs (hpu.trans hmsg)
                simp only [maxEntries] at hr ⊢
                omega
              · exact ⟨_, setBit_ok.2 ⟨hr, rfl⟩⟩
            obtain ⟨out, hw⟩ := hw
            exact ⟨out, (applyStatus_ok (hov s hs)).2 (.inr ⟨hpu, hr, hw⟩)⟩
          · right
            have h1 := (mulUsize_ok (b := b) (hov s hs)).2 rfl
            have hr' : ¬ (s.listIndex * cfg.size).toNat < maxEntries := by rw [mulUsize_lt h1 (hov s hs)]; exact hr
            unfold applyStatus
            rw [if_pos hpu, h1]
            simp only [bind, Except.bind, require, hr', decide_false]
            rfl
        · exact .inl ⟨bits, (applyStatus_ok (hov s hs)).2 (.inl ⟨hpu, rfl⟩)⟩
      simp only [applyStatuses]
      rcases hstep with ⟨mid, h⟩ | h
      · rw [h]; exact ih (fun x hx => hl x (List.mem_cons_of_mem _ hx)) mid
      · rw [h]; exact .inr rfl
  simp only [bitstring, applyLog_eq]
  rcases key _ (fun _ h => h) (fun _ => false) with ⟨out, h⟩ | h
  · rw [h]; exact .inl ⟨_, rfl⟩
  · rw [h]; exact .inr rfl

/-- **C46 is false**: a message status within the last seven bits of the list makes publication panic, in every build and for every size
and log that starts with it. -/
theorem C46_message_at_end_panics (b : Build) (pack : List Char → String) (cfg : ListConfig) (hp : cfg.purpose = .message)
    (s : StatusValue) (hs : s.purpose = .message) (h1 : s.listIndex.toNat * cfg.size.toNat < 131072)
    (h2 : 131072 < s.listIndex.toNat * cfg.size.toNat + 8) (e : StatusLogEntry) (rest : List StatusValue) (he : e.status = s :: rest)
    (es : List StatusLogEntry) : ∃ m, bitstring b pack cfg (e :: es) = .error (.panic m) := by
  have hlt : s.listIndex.toNat * cfg.size.toNat < 2 ^ 64 := by omega
  have hmul := (mulUsize_ok (b := b) hlt).2 rfl
  obtain ⟨m, hm⟩ := setMessage_panic (fun _ => false) (s.listIndex.toNat * cfg.size.toNat) s.value 8 0 ⟨7, by omega, by simp [maxEntries]; omega⟩
  refine ⟨m, ?_⟩
  simp only [bitstring, applyLog_eq, statuses, List.flatMap_cons, he, List.cons_append, applyStatuses]
  unfold applyStatus
  rw [if_pos (hs.trans hp.symm), hmul]
  have hpos := mulUsize_lt hmul hlt
  simp only [bind, Except.bind, hpos]
  rw [show decide (s.listIndex.toNat * cfg.size.toNat < maxEntries) = true from decide_eq_true h1]
  simp only [require, if_true, writeStatus, hp, hm]

/-- **C46 is false**: in a debug build an index whose position does not fit the machine word makes publication panic, and in a release
build it may silently land on another credential's entry. -/
theorem C46_overflow :
    (∃ m, bitstring .debug String.ofList ⟨.revocation, 1, 4⟩ [⟨"a", "s", [⟨.revocation, 4611686018427387904, 1⟩]⟩] = .error (.panic m)) ∧
    ∃ out, applyStatus .release ⟨.revocation, 1, 4⟩ (fun _ => false) ⟨.revocation, 4611686018427387904, 1⟩ = .ok out ∧ out 0 = true :=
  ⟨⟨_, rfl⟩, _, rfl, rfl⟩

example : ∃ m, bitstring .release String.ofList ⟨.message, 1, 8⟩ [⟨"a", "s", [⟨.message, 16383, 1⟩]⟩] = .ok m := by
  have := C46_no_panic_partial .release String.ofList ⟨.message, 1, 8⟩ [⟨"a", "s", [⟨.message, 16383, 1⟩]⟩] (by decide) (by decide)
  rcases this with h | h
  · exact h
  · obtain ⟨out, ho⟩ := setMessage_ok (fun _ => false) (16383 * 8) 1 8 0 (by intro j hj; simp [maxEntries]; omega)
    have h1 : applyStatus .release ⟨.message, 1, 8⟩ (fun _ => false) ⟨.message, 16383, 1⟩ = .ok out :=
      (applyStatus_ok (by decide)).2 (.inr ⟨rfl, by decide, ho⟩)
    simp [bitstring, applyLog_eq, statuses, applyStatuses, h1, bind, Except.bind, pure, Except.pure] at h

/-! ### C47 -/

/-- **C47 is false**: producing the status list credential fails for every input, as the credential is built with only the base context. -/
theorem C47_credential_always_fails (J : Jose) (issuer : String) (cfg : ListConfig) (baseUrl bits : String) (ttl : Option Nat)
    (signer : String) (now : Int) :
    credential J issuer cfg baseUrl bits ttl signer now = .error (.serverError "no context set") := rfl

/-! ### C74 -/

/-- Status number `i` as a verifier reads it from the uncompressed bytes, W3C Bitstring Status List §3.2: the bits of each byte count from
the left. -/
def standardBit (bytes : List UInt8) (i : Nat) : Option Bool := (bytes[i / 8]?).map fun x => x.toNat.testBit (7 - i % 8)

/-- The bytes of a text of ASCII characters. -/
def asciiBytes (t : List Char) : List UInt8 := t.map fun c => c.toNat.toUInt8

/-- **C74 is false**: the published list is the text of zeros and ones, not the bits. Whatever was logged, a verifier that follows the
standard reads entries 2 and 3 of each eight as set and entries 0, 1, 4, 5, 6 as not set. -/
theorem C74_published_text_not_bits (b : Build) (pack : List Char → String) (cfg : ListConfig) (issued : List StatusLogEntry)
    (out : String) (h : bitstring b pack cfg issued = .ok out) :
    ∃ t, out = pack t ∧ ∀ i, i < 131072 →
      ((i % 8 = 2 ∨ i % 8 = 3) → standardBit (asciiBytes t) i = some true) ∧
      ((i % 8 = 0 ∨ i % 8 = 1 ∨ i % 8 = 4 ∨ i % 8 = 5 ∨ i % 8 = 6) → standardBit (asciiBytes t) i = some false) := by
  simp only [bitstring, Except.bind_ok, pure, Except.pure, Except.ok.injEq] at h
  obtain ⟨bits, -, rfl⟩ := h
  refine ⟨text bits, rfl, ?_⟩
  intro i hi
  have hget : (asciiBytes (text bits))[i / 8]? = some (if bits (i / 8) then 49 else 48) := by
    unfold asciiBytes
    rw [List.getElem?_map, text_get bits (i / 8) (by simp only [maxEntries]; omega)]
    cases bits (i / 8) <;> rfl
  unfold standardBit
  rw [hget]
  constructor
  · rintro (h | h) <;> rw [h] <;> cases bits (i / 8) <;> rfl
  · rintro (h | h | h | h | h) <;> rw [h] <;> cases bits (i / 8) <;> rfl

/-- A credential nobody revoked reads as revoked. -/
example : ∃ t, bitstring .release String.ofList ⟨.revocation, 1, 1⟩ [] = .ok (String.ofList t) ∧
    standardBit (asciiBytes t) 2 = some true := by
  obtain ⟨t, h1, h2⟩ := C74_published_text_not_bits .release String.ofList ⟨.revocation, 1, 1⟩ [] _ rfl
  exact ⟨t, by rw [← h1]; rfl, (h2 2 (by decide)).1 (.inl rfl)⟩

end Verif.Status
