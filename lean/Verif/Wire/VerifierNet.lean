import Verif.Wire.Answer
import Verif.Wire.Net
import Verif.Wire.AskedProps
import Verif.Interop.Present
/-!
# The wallet connected to a verifier by text

The connection of `Interop.VNet`, with the messages between the wallet and the verifier written as JSON text on one side and read on the other, and the verifier's states
written as JSON text by `StateStore`.
-/
namespace Verif.Wire
open Interop (Net VNet)

/-- An answer of the wallet, verifier.rs 505-530. -/
def answerOf (r : Verifier.ResponseRequest) : Answer Verif.Vp := { vpToken := r.vpToken, submission := r.submission, state := r.state }

/-- What the verifier sees of it, verifier.rs 505-530. -/
def answerSeen (r : Answer Verif.Vp) : Verifier.ResponseRequest := { vpToken := r.vpToken, submission := r.submission, state := r.state }

/-- A verifier and its surroundings, whose store keeps text. `T` is how times are written; `readPlain` and `writePlain` are for presentations that are not signed,
which the wallet never sends. Connects wallet and verifier as /repo/vercre-holder/tests/provider.rs 97-116 does, with JSON text in between. -/
structure TextVNet extends VNet where
  T : TimeText
  readPlain : Json → Option Verif.Vp
  writePlain : Verif.Vp → Json

/-- Serving one step over a store of text, as `Verifier.step` and `Prog.viaText`. -/
def vStepText (T : TimeText) (e : Env) (w : World (List Char)) (s : Verifier.Step) : Res Verifier.Resp × World (List Char) :=
  ((Verifier.call s.provider s.req).viaText (vStateText T) (textVState T)).run e { w with now := w.now + s.wait }

/-- The world after a history, over a store of text.
Connects wallet and verifier as /repo/vercre-holder/tests/provider.rs 97-116 does, with JSON text in between. -/
def vExecText (T : TimeText) (e : Env) (w : World (List Char)) : List Verifier.Step → World (List Char)
  | [] => w
  | s :: rest => vExecText T e (vStepText T e w s).2 rest

namespace TextVNet
variable (n : TextVNet)

/-- What the verifier makes of a call of the wallet. A request object is asked for by its URL, so that nothing is written, /repo/vercre-holder/tests/provider.rs 97-106; an answer
is sent as text. -/
def carried : Holder.Call → Option Verifier.Req
  | .requestObject url => Interop.verifierRequest (.requestObject url)
  | .present _ r => (sent (writeAnswer n.writePlain (answerOf r)) (readAnswer n.readPlain)).map fun a => .response (answerSeen a)
  | _ => none

/-- The verifier serving the wallet's `i`-th call, after others.
Connects wallet and verifier as /repo/vercre-holder/tests/provider.rs 97-116 does, with JSON text in between. -/
def serve (i : Nat) (v : World (List Char)) (r : Verifier.Req) : Res Verifier.Resp × World (List Char) :=
  vStepText n.T n.env (vExecText n.T n.env v (n.others i)) { provider := n.provider i, req := r }

/-- One more call of the wallet: how many reached the verifier, and the verifier after it.
Connects wallet and verifier as /repo/vercre-holder/tests/provider.rs 97-116 does, with JSON text in between. -/
def next (s : Nat × World (List Char)) (c : Holder.Call) : Nat × World (List Char) :=
  match n.carried c with
  | none => s
  | some r => (s.1 + 1, (n.serve s.1 s.2 r).2)

/-- The verifier after some calls of the wallet.
Connects wallet and verifier as /repo/vercre-holder/tests/provider.rs 97-116 does, with JSON text in between. -/
def after (v : World (List Char)) (calls : List Holder.Call) : Nat × World (List Char) := calls.foldl n.next (0, v)

/-- The answer to a call that reaches the verifier after some calls. A call that cannot be read fails.
Connects wallet and verifier as /repo/vercre-holder/tests/provider.rs 97-116 does, with JSON text in between. -/
def answer (v : World (List Char)) (calls : List Holder.Call) (c : Holder.Call) : Option (Res Verifier.Resp) :=
  (n.carried c).map fun r => (n.serve (n.after v calls).1 (n.after v calls).2 r).1

/-- What the wallet makes of an answer of `request_object`, sent as text: the signed form is the only one the verifier sends.
Connects wallet and verifier as /repo/vercre-holder/tests/provider.rs 97-116 does, with JSON text in between. -/
def objectReply : Res Verifier.Resp → Option Holder.RequestObjectType
  | .ok (.requestObject jwt) => sent (writeFetched (.jwt jwt)) readFetched
  | _ => none

/-- What the wallet makes of an answer of `response`, sent as text.
Connects wallet and verifier as /repo/vercre-holder/tests/provider.rs 97-116 does, with JSON text in between. -/
def presentReply : Res Verifier.Resp → Option Verifier.ResponseResponse
  | .ok (.response r) => sent (writeRedirect r) readRedirect
  | _ => none

/-- What the wallet's calls answer: the verifier was in world `v` when the wallet had `skip` entries in its history.
Connects wallet and verifier as /repo/vercre-holder/tests/provider.rs 97-116 does, with JSON text in between. -/
def oracle (v : World (List Char)) (skip : Nat) (log : List Holder.Entry) (recent : List Holder.Event) : (c : Holder.Call) → Option c.Reply
  | .requestObject url => (n.answer v (Net.made skip log recent) (.requestObject url)).bind objectReply
  | .present uri r => (n.answer v (Net.made skip log recent) (.present uri r)).bind presentReply
  | c => n.rest log recent c

end TextVNet

end Verif.Wire
