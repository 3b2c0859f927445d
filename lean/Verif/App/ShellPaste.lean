import Verif.App.ShellProps
import Verif.App.LinkProps
/-!
# Offers and requests that are pasted into the example wallet (C187)
-/
namespace Verif.App
open Holder (Credential Entry Call Obtained containsText)

variable {a : Around} {s : App} {t : Nat}

/-! ### `encodeURIComponent` -/

/-- One byte as one or three. -/
theorem component_spec (b : UInt8) :
    (∀ x ∈ (if componentByte b then [b] else [37, hexUpper (b.toNat / 16), hexUpper (b.toNat % 16)]), x < 128 ∧ x ≠ 38) ∧
    ∀ l, decodeBytes ((if componentByte b then [b] else [37, hexUpper (b.toNat / 16), hexUpper (b.toNat % 16)]) ++ l) = b :: decodeBytes l := by
  have key : ∀ b : Fin 256, let b : UInt8 := UInt8.ofFin b
      (componentByte b = true → b < 128 ∧ b ≠ 37 ∧ b ≠ 38) ∧
      (componentByte b = false → hexUpper (b.toNat / 16) < 128 ∧ hexUpper (b.toNat % 16) < 128 ∧ hexUpper (b.toNat / 16) ≠ 38 ∧ hexUpper (b.toNat % 16) ≠ 38 ∧
        hexByte (hexUpper (b.toNat / 16)) = some (b.toNat / 16) ∧ hexByte (hexUpper (b.toNat % 16)) = some (b.toNat % 16)) := by decide +kernel
  have hb := key b.toFin
  simp only [UInt8.ofFin_toFin] at hb
  cases hk : componentByte b with
  | true =>
    have := hb.1 hk
    refine ⟨by simp [this.1, this.2.2], fun l => ?_⟩
    exact decodeBytes_cons this.2.1 l
  | false =>
    have := hb.2 hk
    refine ⟨by simp [this.1, this.2.1, this.2.2.1, this.2.2.2.1], fun l => ?_⟩
    have e : (b.toNat / 16 * 16 + b.toNat % 16).toUInt8 = b := toUInt8_eq b _ (by omega)
    simp only [Bool.false_eq_true, if_false, List.cons_append, List.nil_append]
    rw [decodeBytes]
    simp only [if_true, this.2.2.2.2.1, this.2.2.2.2.2, e]

theorem decodeText_component (l : List Char) : decodeText (encodeComponent l) = some l := by
  have h : utf8 (encodeComponent l) = (utf8 l).flatMap fun b => if componentByte b then [b] else [37, hexUpper (b.toNat / 16), hexUpper (b.toNat % 16)] := by
    apply utf8_ascii
    intro b hb
    obtain ⟨x, _, hx⟩ := List.mem_flatMap.1 hb
    exact ((component_spec x).1 b hx).1
  have hd : ∀ bs : List UInt8, decodeBytes (bs.flatMap fun b => if componentByte b then [b] else [37, hexUpper (b.toNat / 16), hexUpper (b.toNat % 16)]) = bs := by
    intro bs
    induction bs with
    | nil => rfl
    | cons b bs ih => rw [List.flatMap_cons, (component_spec b).2, ih]
  rw [decodeText, h, hd, utf8?_utf8]

theorem component_amp (l : List Char) : '&' ∉ encodeComponent l := by
  intro h
  obtain ⟨b, hb, he⟩ := List.mem_map.mp h
  obtain ⟨x, _, hx⟩ := List.mem_flatMap.1 hb
  obtain ⟨h1, h2⟩ := (component_spec x).1 b hx
  apply h2
  have hn : b.toNat < 128 := h1
  have hv : (Char.ofNat b.toNat).toNat = b.toNat := by
    have : b.toNat.isValidChar := by left; omega
    simp [Char.ofNat, this, Char.toNat, Char.ofNatAux]
  rw [he] at hv
  exact UInt8.toNat_inj.mp hv.symm

theorem containsText_amp {p l : List Char} (h : '&' ∉ l) : containsText ('&' :: p) l = false := by
  induction l with
  | nil => rfl
  | cons c l ih =>
    have hc : ¬ '&' = c := fun e => h (List.mem_cons.mpr (.inl e))
    have hl := ih fun hm => h (List.mem_cons_of_mem _ hm)
    simp only [containsText, List.isPrefixOf, hl, Bool.or_false]
    simp [hc]

/-! ### What gets into the form -/

/-- The length of a text in UTF-16 code units. -/
def units : List Char → Nat
  | [] => 0
  | c :: l => (if c.toNat < 65536 then 1 else 2) + units l

theorem fitting_all {n : Nat} {l : List Char} (h : units l ≤ n) : fitting n l = l := by
  induction l generalizing n with
  | nil => rfl
  | cons c l ih =>
    simp only [units] at h
    simp only [fitting]
    split
    · rename_i hc
      rw [if_pos hc] at h
      rw [if_pos (by omega), ih (by omega)]
    · rename_i hc
      rw [if_neg hc] at h
      rw [if_pos (by omega), ih (by omega)]

theorem dropWhile_spaces {p l : List Char} (h : ∀ c ∈ p, isSpace c = true) : (p ++ l).dropWhile isSpace = l.dropWhile isSpace := by
  induction p with
  | nil => rfl
  | cons c p ih =>
    rw [List.cons_append, List.dropWhile_cons_of_pos (h c (by simp))]
    exact ih fun c hc => h c (List.mem_cons_of_mem _ hc)

/-- A text that begins and ends with something else is freed of the white space around it. -/
theorem trim_around {p q l : List Char} {x y : Char} (hp : ∀ c ∈ p, isSpace c = true) (hq : ∀ c ∈ q, isSpace c = true) (hx : isSpace x = false) (hy : isSpace y = false) :
    trim (p ++ (x :: l ++ [y]) ++ q) = x :: l ++ [y] := by
  unfold trim
  rw [List.append_assoc, dropWhile_spaces hp]
  have e : ((x :: l ++ [y]) ++ q).dropWhile isSpace = (x :: l ++ [y]) ++ q := by
    rw [List.cons_append, List.cons_append, List.dropWhile_cons_of_neg (by rw [hx]; decide)]
  rw [e, List.reverse_append, dropWhile_spaces fun c hc => hq c (List.mem_reverse.mp hc), List.reverse_append]
  have e2 : ([y].reverse ++ (x :: l).reverse).dropWhile isSpace = [y].reverse ++ (x :: l).reverse := by
    show (y :: (x :: l).reverse).dropWhile isSpace = _
    rw [List.dropWhile_cons_of_neg (by rw [hy]; decide)]
    rfl
  rw [e2, ← List.reverse_append, List.reverse_reverse]

theorem submit_add {w : Wallet} {inst n : Nat} {txt : List Char} {err : Bool} (hs : w.shell.screen = .credential inst (.add n txt err)) {x v : List Char}
    (hv : trim (fitting maxLength x) = v) (hne : v ≠ []) :
    (w.run a [.click (.enter x), .click .submit]).calls = w.calls ++ [{ cmd := .offer (String.ofList (encodeComponent v)), by_ := n }] := by
  have he : v.isEmpty = false := by cases v with | nil => exact absurd rfl hne | cons _ _ => rfl
  have h1 : w.shell.click (.enter x) = ({ w.shell with screen := .credential inst (.add n v false) }, []) := by
    unfold Shell.click; rw [hs]; simp only [hv, he]
  have e1 : w.step a (.click (.enter x)) = w.with ({ w.shell with screen := .credential inst (.add n v false) }, []) := by
    show w.with (w.shell.click _) = _; rw [h1]
  show ((w.step a (.click (.enter x))).step a (.click .submit)).calls = _
  rw [e1]
  have h2 : ({ w.shell with screen := .credential inst (.add n v false) } : Shell).click .submit =
      ({ w.shell with screen := .credential inst (.add n v false) }, [{ cmd := .offer (String.ofList (encodeComponent v)), by_ := n }]) := by
    simp [Shell.click, he]
  show (w.calls ++ []) ++ (Shell.click _ _).2 = _
  rw [List.append_nil]
  exact congrArg (w.calls ++ ·.2) h2

theorem submit_present {w : Wallet} {inst n : Nat} {txt : List Char} {err : Bool} (hs : w.shell.screen = .credential inst (.present n txt err)) {x v : List Char}
    (hv : trim (fitting maxLength x) = v) (hne : v ≠ []) :
    (w.run a [.click (.enter x), .click .submit]).calls = w.calls ++ [{ cmd := .request (String.ofList (encodeComponent v)), by_ := n }] := by
  have he : v.isEmpty = false := by cases v with | nil => exact absurd rfl hne | cons _ _ => rfl
  have h1 : w.shell.click (.enter x) = ({ w.shell with screen := .credential inst (.present n v false) }, []) := by
    unfold Shell.click; rw [hs]; simp only [hv, he]
  have e1 : w.step a (.click (.enter x)) = w.with ({ w.shell with screen := .credential inst (.present n v false) }, []) := by
    show w.with (w.shell.click _) = _; rw [h1]
  show ((w.step a (.click (.enter x))).step a (.click .submit)).calls = _
  rw [e1]
  have h2 : ({ w.shell with screen := .credential inst (.present n v false) } : Shell).click .submit =
      ({ w.shell with screen := .credential inst (.present n v false) }, [{ cmd := .request (String.ofList (encodeComponent v)), by_ := n }]) := by
    simp [Shell.click, he]
  show (w.calls ++ []) ++ (Shell.click _ _).2 = _
  rw [List.append_nil]
  exact congrArg (w.calls ++ ·.2) h2

/-! ### C187 -/

/-- **C187** An offer in JSON, of at most 1024 UTF-16 code units together with white space around it, that is pasted and submitted gets to the application as it was
made. -/
theorem C187_offer_pasted_partial {w : Wallet} {inst n : Nat} {txt : List Char} {err : Bool} (hs : w.shell.screen = .credential inst (.add n txt err))
    (o : Issuer.CredentialOffer) {p q : List Char} (hp : ∀ c ∈ p, isSpace c = true) (hq : ∀ c ∈ q, isSpace c = true)
    (hlen : units (p ++ (Wire.writeCredentialOffer o).chars ++ q) ≤ 1024) :
    ∃ e, (w.run a [.click (.enter (p ++ (Wire.writeCredentialOffer o).chars ++ q)), .click .submit]).calls = w.calls ++ [{ cmd := .offer e, by_ := n }] ∧
      readOfferText e = some o := by
  have hj : ∃ l, (Wire.writeCredentialOffer o).chars = '{' :: l ++ ['}'] := ⟨_, by unfold Wire.writeCredentialOffer; rw [Json.chars]⟩
  obtain ⟨l, hl⟩ := hj
  have hv : trim (fitting maxLength (p ++ (Wire.writeCredentialOffer o).chars ++ q)) = (Wire.writeCredentialOffer o).chars := by
    rw [fitting_all (n := maxLength) hlen, hl]
    exact trim_around hp hq rfl rfl
  refine ⟨_, submit_add hs hv (by rw [hl]; simp), ?_⟩
  unfold readOfferText
  rw [String.toList_ofList, decodeText_component, Option.bind_some, parseJson_chars _ (Wire.wf_credentialOffer o), Option.bind_some, Wire.readCredentialOffer_write]

theorem lexStr_open {l : List Char} (h : Clean l) (n : Nat) : lexStr n l = none := by
  induction l generalizing n with
  | nil => cases n <;> rfl
  | cons c l ih =>
    cases n with
    | zero => rfl
    | succ n =>
      obtain ⟨h1, h2, h3⟩ := h c (by simp)
      rw [lexStr, if_neg h1, if_neg h2, if_neg h3, ih fun c hc => h c (List.mem_cons_of_mem _ hc)]
      rfl

/-- The beginning of an offer. -/
def offerHead : List Char := "{\"credential_issuer\":\"".toList

theorem parse_open {l : List Char} (h : Clean l) : parseJson (offerHead ++ l) = none := by
  have hk : Clean "credential_issuer".toList := by
    have : "credential_issuer".toList.all (fun c => c ≠ '"' && c ≠ '\\' && !(decide (c.toNat < 32))) = true := by decide +kernel
    intro c hc
    have := List.all_eq_true.mp this c hc
    simpa [and_assoc] using this
  have hm : ∀ n, members (n + 2) ('"' :: "credential_issuer".toList ++ '"' :: ':' :: '"' :: l) = none := by
    intro n
    rw [members]
    have hw : skipWs ('"' :: "credential_issuer".toList ++ '"' :: ':' :: '"' :: l) = '"' :: ("credential_issuer".toList ++ '"' :: ':' :: '"' :: l) := rfl
    simp only [hw]
    rw [lexStr_clean _ _ hk _ (by simp)]
    have hw2 : skipWs (':' :: '"' :: l) = ':' :: '"' :: l := rfl
    simp only [hw2]
    have hv : value (n + 1) ('"' :: l) = none := by
      rw [value]
      have hw3 : skipWs ('"' :: l) = '"' :: l := rfl
      simp only [hw3, if_true]
      rw [lexStr_open h]
      rfl
    rw [hv]
  have he : offerHead ++ l = '{' :: ('"' :: "credential_issuer".toList ++ '"' :: ':' :: '"' :: l) := by
    have : offerHead = '{' :: '"' :: "credential_issuer".toList ++ ['"', ':', '"'] := by decide +kernel
    rw [this]; simp
  have hv : ∀ n, value (n + 3) (offerHead ++ l) = none := by
    intro n
    rw [he, value]
    have hw : skipWs ('{' :: ('"' :: "credential_issuer".toList ++ '"' :: ':' :: '"' :: l)) = '{' :: ('"' :: "credential_issuer".toList ++ '"' :: ':' :: '"' :: l) := rfl
    have hw2 : skipWs ('"' :: "credential_issuer".toList ++ '"' :: ':' :: '"' :: l) = '"' :: ("credential_issuer".toList ++ '"' :: ':' :: '"' :: l) := rfl
    simp only [hw]
    rw [if_neg (by decide), if_neg (by decide), if_pos True.intro]
    simp only [hw2]
    have := hm n
    rw [show ('"' :: "credential_issuer".toList ++ '"' :: ':' :: '"' :: l) = ('"' :: "credential_issuer".toList) ++ '"' :: ':' :: '"' :: l from rfl] at this
    rw [this]
    rfl
  unfold parseJson
  have : 2 * (offerHead ++ l).length + 2 = (2 * (offerHead ++ l).length - 1) + 3 := by
    have : 22 ≤ (offerHead ++ l).length := by
      have h22 : offerHead.length = 22 := by decide +kernel
      rw [List.length_append]
      omega
    omega
  rw [this, hv]

theorem fitting_take {n : Nat} {l m : List Char} (h : ∀ c ∈ l, c.toNat < 65536) (hl : n ≤ l.length) : fitting n (l ++ m) = l.take n := by
  induction l generalizing n with
  | nil =>
    obtain rfl : n = 0 := Nat.le_zero.mp hl
    cases m with
    | nil => rfl
    | cons c m =>
      simp only [List.nil_append, fitting, List.take_nil]
      exact if_neg (by split <;> omega)
  | cons c l ih =>
    cases n with
    | zero =>
      simp only [List.cons_append, fitting, List.take_zero]
      exact if_neg (by split <;> omega)
    | succ n =>
      simp only [List.cons_append, fitting, List.take_succ_cons, if_pos (h c (by simp))]
      rw [if_pos (by omega), Nat.add_sub_cancel, ih (fun c hc => h c (List.mem_cons_of_mem _ hc)) (by simpa using hl)]

/-- **C187** A longer one is cut off and cannot be read any more; for example, each whose issuer has an address of more than a thousand characters. -/
theorem C187_violated_cut_off {w : Wallet} {inst n : Nat} {txt : List Char} {err : Bool} (hs : w.shell.screen = .credential inst (.add n txt err))
    (o : Issuer.CredentialOffer) (hlen : 1002 ≤ o.credentialIssuer.toList.length)
    (hc : ∀ c ∈ o.credentialIssuer.toList, 33 ≤ c.toNat ∧ c.toNat < 127 ∧ c ≠ '"' ∧ c ≠ '\\') :
    ∃ e, (w.run a [.click (.enter (Wire.writeCredentialOffer o).chars), .click .submit]).calls = w.calls ++ [{ cmd := .offer e, by_ := n }] ∧
      readOfferText e = none := by
  have hclean : Clean o.credentialIssuer.toList := fun c h => ⟨(hc c h).2.2.1, (hc c h).2.2.2, by have := (hc c h).1; omega⟩
  have hne : o.credentialIssuer ≠ "" := by
    intro e
    rw [e] at hlen
    exact absurd hlen (by decide)
  obtain ⟨m, hm⟩ : ∃ m, (Wire.writeCredentialOffer o).chars = (offerHead ++ o.credentialIssuer.toList) ++ m := by
    have hk : quoteChars "credential_issuer".toList = '"' :: "credential_issuer".toList ++ ['"'] := by decide +kernel
    have hh : offerHead = '{' :: '"' :: "credential_issuer".toList ++ ['"', ':', '"'] := by decide +kernel
    unfold Wire.writeCredentialOffer
    rw [Json.chars]
    simp only [Wire.members, Wire.nonEmpty, if_neg hne]
    have hf : ∀ (k : String) (x : Json) (l : List (String × Json)), ∃ m, Json.charsObj ((k, x) :: l) = quoteChars k.toList ++ ':' :: x.chars ++ m := by
      intro k x l
      cases l with
      | nil => exact ⟨[], by simp [Json.charsObj]⟩
      | cons y l => exact ⟨_, Json.charsObj.eq_3 ..⟩
    rw [List.filterMap_cons]
    obtain ⟨m, hm⟩ := hf "credential_issuer" (.str o.credentialIssuer) _
    refine ⟨'"' :: m ++ ['}'], ?_⟩
    simp only [Option.map_some]
    rw [hm, hk, Json.chars, quoteChars_clean hclean, hh]
    simp
  have hasc : ∀ c ∈ offerHead ++ o.credentialIssuer.toList, c.toNat < 65536 := by
    intro c h
    rcases List.mem_append.mp h with h | h
    · have : offerHead.all (fun c => decide (c.toNat < 65536)) = true := by decide +kernel
      exact of_decide_eq_true (List.all_eq_true.mp this c h)
    · have := (hc c h).2.1; omega
  have h22 : offerHead.length = 22 := by decide +kernel
  have hfit : fitting maxLength (Wire.writeCredentialOffer o).chars = offerHead ++ o.credentialIssuer.toList.take 1002 := by
    rw [hm, fitting_take hasc (by rw [List.length_append, h22]; unfold maxLength; omega), List.take_append, List.take_of_length_le (by rw [h22]; decide), h22]
    rfl
  have hcut : ∃ l y, offerHead ++ o.credentialIssuer.toList.take 1002 = '{' :: l ++ [y] ∧ isSpace y = false := by
    have hl : (o.credentialIssuer.toList.take 1002) ≠ [] := by
      intro e
      have := congrArg List.length e
      rw [List.length_take] at this
      simp only [List.length_nil] at this
      omega
    obtain ⟨z, y, hzy⟩ : ∃ z y, o.credentialIssuer.toList.take 1002 = z ++ [y] := ⟨_, _, (List.dropLast_concat_getLast hl).symm⟩
    have hy : y ∈ o.credentialIssuer.toList := List.mem_of_mem_take (by rw [hzy]; simp)
    refine ⟨offerHead.tail ++ z, y, ?_, ?_⟩
    · rw [hzy]
      have : offerHead = '{' :: offerHead.tail := by decide +kernel
      rw [this]
      simp
    · obtain ⟨h1, h2, _⟩ := hc y hy
      unfold isSpace
      simp
      omega
  obtain ⟨l, y, hly, hy⟩ := hcut
  have htrim : trim (fitting maxLength (Wire.writeCredentialOffer o).chars) = offerHead ++ o.credentialIssuer.toList.take 1002 := by
    rw [hfit, hly]
    have := trim_around (p := []) (q := []) (l := l) (x := '{') (y := y) (fun _ h => absurd h List.not_mem_nil) (fun _ h => absurd h List.not_mem_nil) rfl hy
    simpa using this
  refine ⟨_, submit_add hs htrim (by rw [hly]; simp), ?_⟩
  unfold readOfferText
  rw [String.toList_ofList, decodeText_component, Option.bind_some, parse_open fun c h => hclean c (List.mem_of_mem_take h), Option.bind_none]

/-- **C187** A request that is pasted is fetched: from the very text that was pasted. -/
theorem C187_request_fetched_partial (hp : a.provider.percentDecode = fun e => (decodeText e.toList).map String.ofList)
    {w : Wallet} {inst n : Nat} {txt : List Char} {err : Bool} (hs : w.shell.screen = .credential inst (.present n txt err)) {x v : List Char}
    (hv : trim (fitting maxLength x) = v) (hne : v ≠ []) :
    ∃ e, (w.run a [.click (.enter x), .click .submit]).calls = w.calls ++ [{ cmd := .request e, by_ := n }] ∧
      ∀ q pre, Obtained a.provider e q pre → ∃ t, pre = [⟨.requestObject (String.ofList v), some (.jwt t)⟩] ∧ a.provider.decodeRequest t = some q := by
  refine ⟨_, submit_present hs hv hne, fun q pre h => ?_⟩
  have hno : containsText "&presentation_definition".toList (String.ofList (encodeComponent v)).toList = false := by
    exact containsText_amp (by rw [String.toList_ofList]; exact component_amp v)
  cases h with
  | inline h hc => rw [hno] at hc; cases hc
  | fetched hu h hc =>
    rw [hp] at hu
    simp only [String.toList_ofList, decodeText_component, Option.map_some] at hu
    cases hu
    exact ⟨_, rfl, h⟩

/-- **C187** So a request that has everything in it, and which the library takes in as it is without asking anybody, is taken for an address when it is pasted. -/
theorem C187_violated_by_value (hp : a.provider.percentDecode = fun e => (decodeText e.toList).map String.ofList)
    {w : Wallet} {inst n : Nat} {txt : List Char} {err : Bool} (hs : w.shell.screen = .credential inst (.present n txt err)) {v : List Char} {q : Verifier.RequestObject}
    (hv : trim (fitting maxLength v) = v) (hin : Obtained a.provider (String.ofList v) q []) :
    ∃ e, (w.run a [.click (.enter v), .click .submit]).calls = w.calls ++ [{ cmd := .request e, by_ := n }] ∧
      ∀ q' pre, Obtained a.provider e q' pre → ∃ t, pre = [⟨.requestObject (String.ofList v), some (.jwt t)⟩] := by
  have hne : v ≠ [] := by
    rintro rfl
    cases hin with
    | inline _ hc => cases hc
  obtain ⟨e, h1, h2⟩ := C187_request_fetched_partial (a := a) hp hs hv hne
  exact ⟨e, h1, fun q' pre h => by obtain ⟨t, ht, _⟩ := h2 q' pre h; exact ⟨t, ht⟩⟩

end Verif.App
