import Verif.Wire.Asked
import Verif.Wire.Request
/-!
# Presentation requests as query strings

`RequestObject::to_querystring`, /repo/crates/openid/src/verifier.rs 379-388, and how a wallet reads one, /repo/vercre-holder/src/presentation/request.rs 58-63.
-/
namespace Verif.Wire

/-- `RequestObject::to_querystring`, verifier.rs 385-387. Numbers (times of a client's registration) are left out, see `toS`. -/
def toQuery (r : Verifier.RequestObject) : List Char := urlEncode (.strct (toSm (writeAsk r)))

/-- `urlencode::from_str::<RequestObject>`, request.rs 60. -/
def readQuery (lossy : List UInt8 → List Char) (s : List Char) : Option Verifier.RequestObject := (urlDecode lossy s).bind readAsk

end Verif.Wire
