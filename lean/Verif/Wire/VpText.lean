import Verif.Wire.Credential
import Verif.Core.Base64
import Verif.Core.JsonParse
/-!
# Presentations from text

/repo/crates/w3c-vc/src/model/vp.rs 167-180.
-/
namespace Verif.Wire

/-- What comes of reading a text: the program panics, an error is returned, or a value is. /repo/crates/w3c-vc/src/model/vp.rs 170. -/
inductive Reading (α : Type) where
  | panics
  | refused
  | is (a : α)

/-- The `?` on the parsers. /repo/crates/w3c-vc/src/model/vp.rs 173-178. -/
def Reading.of {α : Type} : Option α → Reading α
  | none => .refused
  | some a => .is a

/-- `FromStr for VerifiablePresentation`, vp.rs 170-179. `&s[0..1]` panics if there is no first byte or if it is not a character of its own. -/
def vpFromStr (T : TimeText) : List Char → Reading Vp
  | [] => .panics
  | c :: l =>
    if 1 < (String.utf8EncodeChar c).length then .panics
    else if c ≠ '{' then .of (((base64Decode (c :: l)).bind utf8?).bind fun t => (parseJson t).bind (readVp T))
    else .of ((parseJson (c :: l)).bind (readVp T))

end Verif.Wire
