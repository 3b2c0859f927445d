import Verif.Wire.SpellingProps
import Verif.Wire.ForeignDemo
/-!
# C205: examples
-/
namespace Verif.Wire.SpellingDemo
open Verif.Grammar
open Verif.Wire.Demo (has_nil has_cons)

/-- Shows what members a message on hand has. -/
local macro "members" : tactic => `(tactic| repeat (first | exact has_nil _ | refine has_cons rfl ?_))

mutual
/-- Whether two values are the same. For the examples only; models no code. -/
def same : Json → Json → Bool
  | .null, .null => true
  | .bool a, .bool b => a == b
  | .num a, .num b => a == b
  | .str a, .str b => a == b
  | .arr a, .arr b => sameArr a b
  | .obj a, .obj b => sameObj a b
  | _, _ => false
/-- Whether two lists are the same. For the examples only; models no code. -/
def sameArr : List Json → List Json → Bool
  | [], [] => true
  | x :: l, y :: m => same x y && sameArr l m
  | _, _ => false
/-- Whether two lists of members are the same. For the examples only; models no code. -/
def sameObj : List (String × Json) → List (String × Json) → Bool
  | [], [] => true
  | (k, x) :: l, (k', y) :: m => k == k' && same x y && sameObj l m
  | _, _ => false
end

mutual
theorem same_eq : ∀ a b : Json, same a b = true → a = b
  | .null, b, h => by cases b <;> simp [same] at h <;> rfl
  | .bool a, b, h => by cases b <;> simp [same] at h; rw [h]
  | .num a, b, h => by cases b <;> simp [same] at h; rw [h]
  | .str a, b, h => by cases b <;> simp [same] at h; rw [h]
  | .arr a, b, h => by cases b <;> simp [same] at h; rw [sameArr_eq a _ h]
  | .obj a, b, h => by cases b <;> simp [same] at h; rw [sameObj_eq a _ h]
theorem sameArr_eq : ∀ a b : List Json, sameArr a b = true → a = b
  | [], b, h => by cases b <;> simp [sameArr] at h; rfl
  | x :: l, b, h => by
    cases b <;> simp [sameArr] at h
    rw [same_eq x _ h.1, sameArr_eq l _ h.2]
theorem sameObj_eq : ∀ a b : List (String × Json), sameObj a b = true → a = b
  | [], b, h => by cases b <;> simp [sameObj] at h; rfl
  | (k, x) :: l, b, h => by
    cases b with
    | nil => simp [sameObj] at h
    | cons y m =>
      obtain ⟨k', y⟩ := y
      simp [sameObj] at h
      rw [h.1.1, same_eq x _ h.1.2, sameObj_eq l _ h.2]
end

theorem says {text : List Char} {j : Json} (h : (parseJson text).elim false (same · j) = true) : Denotes text j := by
  refine (parse_iff _ _).1 ?_
  cases hp : parseJson text with
  | none => rw [hp] at h; cases h
  | some j' => rw [hp] at h; rw [same_eq j' j h]

/-- An offer with white space, an escaped slash, an escape by number and a surrogate pair, its members in an unusual order. -/
def offer : List Char :=
  " {\"grants\" :\n  {\"urn:ietf:params:oauth:grant-type:pre-authorized_code\": {\"pre-authorized_code\" : \"\\u0061b\"}},\r\n\t\"name\": \"\\uD83D\\uDE00\", \"credential_issuer\":\"http:\\/\\/issuer\", \"credential_configuration_ids\": [ \"Employee\" ] }\n".toList

/-- The code of the offer. -/
def code : List (String × Json) := [("pre-authorized_code", .str "ab")]
/-- The grants of the offer. -/
def grants : List (String × Json) := [("urn:ietf:params:oauth:grant-type:pre-authorized_code", .obj code)]
/-- What the offer says. -/
def said : List (String × Json) :=
  [("grants", .obj grants), ("name", .str "😀"), ("credential_issuer", .str "http://issuer"), ("credential_configuration_ids", .arr [.str "Employee"])]

theorem offer_says : Denotes offer (.obj said) := says (by decide +kernel)

example : App.readOfferText (String.ofList (percentEncode offer)) =
    some { credentialIssuer := "http://issuer", configIds := ["Employee"],
           grants := some { authorizationCode := none, preAuthorizedCode := some { preAuthorizedCode := "ab", txCode := false, authorizationServer := none } } } :=
  C205_offer_link_read offer_says (pm := code) (gm := grants) "http://issuer" "ab" ["Employee"] (by members) (by members)
    (by members)

/-- The same offer in printable ASCII is read the same. -/
example : parseJson (dumps (.obj said)) = some (.obj said) := (C205_respelled offer_says).1

/-- What a front end sends. -/
def ask : List Char := "{\n  \"purpose\" : \"To \\u00e9tude\",\n  \"shop\" : 17,\n  \"client_id\":\"http://verifier\" }".toList

theorem ask_says : Denotes ask (.obj [("purpose", .str "To étude"), ("shop", .num "17"), ("client_id", .str "http://verifier")]) := says (by decide +kernel)

example : (parseJson ask).bind readCreateRequest = some { clientId := "http://verifier", purpose := "To étude", inputDescriptors := [], deviceFlow := .crossDevice } :=
  C205_front_end_understood ask_says (client := some "http://verifier") (purpose := some "To étude") (scheme := none) (flow := none) (ds := none) (fun _ h => by cases h)
    (by members)

/-- Half a smiley. -/
example : parseJson "\"a\\uD83D\"".toList = none :=
  C205_half_pair_refused (before := ['a']) (h := ['D', '8', '3', 'D']) (rest := ['"']) (n := 0xD83D) (.plain (by decide) (by decide) (by decide) .nil)
    ⟨_, _, _, _, 13, 8, 3, 13, rfl, .inr rfl, .inl rfl, .inl rfl, .inr rfl, rfl⟩ (by decide) (by decide) (by decide)

/-- A trailing comma is not JSON. -/
example : ¬ ∃ j, Denotes "[1,]".toList j := by
  rintro ⟨j, h⟩
  have h := (C205_read_iff _ _).2 h
  have : (parseJson "[1,]".toList).isNone = true := by decide +kernel
  rw [h] at this
  cases this

end Verif.Wire.SpellingDemo
