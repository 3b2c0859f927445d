import Verif.App.Shell
import Verif.App.LinkProps

/-! The details of a credential on the screen: /repo/examples/wallet/src/Credential/Detail.tsx 60-100 and Credential/index.tsx 104-110. -/

namespace Verif.App

open Holder (Credential Entry Call)

/-- `ClaimDefinition`, Detail.tsx 86-100: a name and a value, or nothing at all for the name `id`. -/
def claimDefinition (name value : String) : Option (String × String) := if name = "id" then none else some (name, value)

/-- The rows for the claims, Detail.tsx 68-70: `name={value} value={value}`. Claims come as the texts of their values, view/credential.rs 137-143.
Simplification: JavaScript's order of properties is not modelled. -/
def claimRows (d : Detail) : List (String × String) := d.claims.filterMap fun (_, v) => claimDefinition v.render v.render

/-- `:\/\/(.[^/]+)` at the beginning of a text, Credential/index.tsx 108: what the group catches. -/
def caught : List Char → Option (List Char)
  | ':' :: '/' :: '/' :: x :: l =>
    if x = '\n' ∨ x = '\r' ∨ x = '\u2028' ∨ x = '\u2029' then none
    else match l.takeWhile (· ≠ '/') with
      | [] => none
      | m => some (x :: m)
  | _ => none

/-- `match` of the same, anywhere in a text: the first place counts. Credential/index.tsx 108. -/
def firstCaught : List Char → Option (List Char)
  | [] => none
  | c :: l => (caught (c :: l)).or (firstCaught l)

/-- `domainFromUrl`, Credential/index.tsx 104-110. -/
def domainFromUrl (url : Option String) : String :=
  match url with
  | none => ""
  | some u => match firstCaught u.toList with
    | some m => String.ofList m
    | none => u

/-- The row for the issuer, Detail.tsx 75. -/
def issuerRow (d : Detail) : Option (String × String) := claimDefinition "Issued by" (domainFromUrl d.display.issuer)

/-! ### Properties -/

theorem render_ne_id {v : Json} (h : v.WF) : v.render ≠ "id" := by
  intro e
  have hc : v.chars = ['i', 'd'] := by
    have := congrArg String.toList e
    unfold Json.render at this
    rw [String.toList_ofList] at this
    exact this
  have hp := parseJson_chars v h
  rw [hc] at hp
  have : parseJson ['i', 'd'] = none := by decide +kernel
  rw [this] at hp
  cases hp

/-- **C188** Every claim of a credential of one subject is on the screen, with its value. -/
theorem C188_values_shown_partial {c : Credential} {d : Detail} (h : detailOf c = some d) {sub : CredentialSubject} (hs : c.vc.subject = .one sub)
    (hn : (sub.claims.map (·.1)).Nodup) {k : String} {v : Json} (hm : (k, v) ∈ sub.claims) (hv : v.WF) : ∃ row ∈ claimRows d, row.2 = v.render := by
  have := Dict.mem_of_get? ((C154_one_subject_partial h hs hn k v).mpr hm)
  refine ⟨(v.render, v.render), List.mem_filterMap.mpr ⟨_, this, ?_⟩, rfl⟩
  exact if_neg (render_ne_id hv)

theorem mem_insert {m : Dict Json} {k : String} {v : Json} {x : String × Json} (h : x ∈ m.insert k v) : x = (k, v) ∨ x ∈ m := by
  induction m with
  | nil => exact .inl (List.mem_singleton.mp h)
  | cons y m ih =>
    unfold Dict.insert at h
    split at h
    · rcases List.mem_cons.mp h with h | h
      · exact .inl h
      · exact .inr (List.mem_cons_of_mem _ h)
    · rcases List.mem_cons.mp h with h | h
      · exact .inr (h ▸ List.mem_cons_self ..)
      · rcases ih h with h | h
        · exact .inl h
        · exact .inr (List.mem_cons_of_mem _ h)

theorem mem_collect {l : List (String × Json)} {acc : Dict Json} {x : String × Json} (h : x ∈ collect acc l) : x ∈ acc ∨ x ∈ l := by
  induction l generalizing acc with
  | nil => exact .inl h
  | cons y l ih =>
    rcases ih h with h | h
    · rcases mem_insert h with h | h
      · exact .inr (h ▸ List.mem_cons_self ..)
      · exact .inl h
    · exact .inr (List.mem_cons_of_mem _ h)

theorem detail_claims {c : Credential} {d : Detail} (h : detailOf c = some d) : d.claims = collect [] ((subjects c.vc).flatMap (·.claims)) := by
  unfold detailOf at h
  cases hd : firstDisplay c.display with
  | none => rw [hd] at h; cases h
  | some x =>
    cases hp : displayOf c with
    | none => rw [hd, hp] at h; cases h
    | some y =>
      rw [hd, hp] at h
      cases h
      exact foldl_collect _ _

/-- **C188** Nothing else is: each row has the value of a claim. -/
theorem C188_nothing_else {c : Credential} {d : Detail} (h : detailOf c = some d) {row : String × String} (hr : row ∈ claimRows d) :
    ∃ s ∈ subjects c.vc, ∃ k v, (k, v) ∈ s.claims ∧ row.2 = v.render := by
  obtain ⟨⟨k, v⟩, hm, he⟩ := List.mem_filterMap.mp hr
  rw [detail_claims h] at hm
  rcases mem_collect hm with h | h
  · cases h
  · obtain ⟨s, hs, h⟩ := List.mem_flatMap.mp h
    refine ⟨s, hs, k, v, h, ?_⟩
    dsimp only [claimDefinition] at he
    split at he
    · cases he
    · cases he; rfl

/-- The names of claims are changed. -/
def renamed (f : String → String) (l : List (String × Json)) : List (String × Json) := l.map fun (k, v) => (f k, v)

theorem renamed_insert {f : String → String} (hf : ∀ x y, f x = f y → x = y) (m : Dict Json) (k : String) (v : Json) :
    (Dict.insert (renamed f m) (f k) v : Dict Json) = renamed f (m.insert k v) := by
  induction m with
  | nil => rfl
  | cons y m ih =>
    obtain ⟨k', v'⟩ := y
    unfold renamed Dict.insert
    simp only [List.map_cons]
    by_cases h : k' = k
    · rw [if_pos h, if_pos (congrArg f h)]; rfl
    · rw [if_neg h, if_neg fun e => h (hf _ _ e)]
      exact congrArg _ ih

theorem renamed_collect {f : String → String} (hf : ∀ x y, f x = f y → x = y) (l : List (String × Json)) (acc : Dict Json) :
    collect (renamed f acc) (renamed f l) = renamed f (collect acc l) := by
  induction l generalizing acc with
  | nil => rfl
  | cons y l ih =>
    obtain ⟨k, v⟩ := y
    show collect (Dict.insert (renamed f acc) (f k) v) (renamed f l) = _
    rw [renamed_insert hf, ih]
    rfl

/-- **C188** The names of the claims are nowhere: two credentials whose claims have the same values look the same, whatever the claims are called. -/
theorem C188_violated_names_not_shown {c c' : Credential} {d d' : Detail} (h : detailOf c = some d) (h' : detailOf c' = some d')
    {f : String → String} (hf : ∀ x y, f x = f y → x = y) (hc : (subjects c'.vc).flatMap (·.claims) = renamed f ((subjects c.vc).flatMap (·.claims))) :
    claimRows d' = claimRows d := by
  unfold claimRows
  rw [detail_claims h, detail_claims h', hc]
  rw [show collect [] (renamed f ((subjects c.vc).flatMap (·.claims))) = renamed f (collect [] ((subjects c.vc).flatMap (·.claims))) from renamed_collect hf _ []]
  unfold renamed
  rw [List.filterMap_map]
  rfl

theorem firstCaught_scheme {s l : List Char} (hs : ':' ∉ s) : firstCaught (s ++ l) = firstCaught l := by
  induction s with
  | nil => rfl
  | cons c s ih =>
    have hc : c ≠ ':' := fun e => hs (e ▸ List.mem_cons_self ..)
    rw [List.cons_append, firstCaught, ih fun h => hs (List.mem_cons_of_mem _ h)]
    have : caught (c :: (s ++ l)) = none := by
      unfold caught
      split
      · rename_i heq; exact absurd (List.cons.inj heq).1 hc
      · rfl
    rw [this, Option.none_or]

/-- **C188** Of the issuer's address the authority is shown: what is between `://` and the next slash. -/
theorem C188_issuer_shown_partial {c : Credential} {d : Detail} (h : detailOf c = some d) {scheme host path : List Char} (hs : ':' ∉ scheme) (hh : '/' ∉ host)
    (h2 : 2 ≤ host.length) (hl : ∀ x ∈ host, 33 ≤ x.toNat ∧ x.toNat < 127) (hp : path = [] ∨ ∃ l, path = '/' :: l)
    (hi : c.issuer = String.ofList (scheme ++ "://".toList ++ host ++ path)) : issuerRow d = some ("Issued by", String.ofList host) := by
  have hd : d.display.issuer = some c.issuer := by
    unfold detailOf displayOf at h
    cases hd : firstDisplay c.display with
    | none => rw [hd] at h; cases h
    | some x => rw [hd] at h; cases h; rfl
  match host, h2 with
  | x :: y :: r, _ =>
    have hx := hl x (by simp)
    have htake : ((y :: r) ++ path).takeWhile (· ≠ '/') = y :: r := by
      have hall : ∀ z ∈ y :: r, (decide (z ≠ '/')) = true := fun z hz => by
        have : z ≠ '/' := fun e => hh (e ▸ List.mem_cons_of_mem _ hz)
        simpa using this
      rw [List.takeWhile_append_of_pos hall]
      rcases hp with rfl | ⟨l, rfl⟩ <;> simp
    have hc : caught (':' :: '/' :: '/' :: x :: ((y :: r) ++ path)) = some (x :: y :: r) := by
      rw [caught, htake, if_neg]
      rintro (rfl | rfl | rfl | rfl) <;> exact absurd hx (by decide)
    have hf : firstCaught c.issuer.toList = some (x :: y :: r) := by
      rw [hi, String.toList_ofList]
      have : scheme ++ "://".toList ++ (x :: y :: r) ++ path = scheme ++ (':' :: '/' :: '/' :: x :: ((y :: r) ++ path)) := by
        have : "://".toList = [':', '/', '/'] := by decide
        rw [this]; simp
      rw [this, firstCaught_scheme hs, firstCaught, hc, Option.some_or]
    unfold issuerRow claimDefinition domainFromUrl
    rw [hd]
    simp only [hf]
    rw [if_neg (by decide)]

end Verif.App
