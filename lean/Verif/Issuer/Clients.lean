import Verif.Issuer.System
/-!
# Clients that register themselves

The `Metadata` provider of the test utilities, which the example issuer uses too, keeps the clients in a map that `register` adds to:
/repo/crates/test-utils/src/store/issuance.rs 66-107, /repo/crates/test-utils/src/issuer.rs 44-51, /repo/examples/issuer/src/provider.rs 39-46.
-/
namespace Verif.Issuer

/-- `ClientStore::get`, issuance.rs 89-94. -/
def ClientStore.get (clients : Dict Client) (id : String) : Option Client := clients.get? id

/-- `ClientStore::add`, issuance.rs 97-107, with the new identifier (`Uuid::new_v4`) as an argument: the client as it was kept, and the map. -/
def ClientStore.add (uuid : String) (client : Client) (clients : Dict Client) : Client × Dict Client :=
  ({ client with clientId := uuid }, clients.insert uuid { client with clientId := uuid })

/-- An issuer together with its clients. `ids` counts the identifiers given out. /repo/crates/test-utils/src/issuer.rs 22-29. -/
structure Desk where
  world : World State
  clients : Dict Client
  ids : Nat

/-- The provider of a call: anything, but for the clients, which are those of the store (/repo/crates/test-utils/src/issuer.rs 45-51). -/
def Desk.provider (uuid : Nat → String) (d : Desk) (P : Provider) : Provider :=
  { P with
    client := fun id => ClientStore.get d.clients id
    register := fun c => some (ClientStore.add (uuid d.ids) c d.clients).1 }

/-- The clients after a call. `register` asks the provider last, and the provider does not fail, so that a client is added exactly if the call
succeeds (/repo/vercre-issuer/src/register.rs 33-46); no other endpoint asks for it. -/
def Desk.after (uuid : Nat → String) (d : Desk) (req : Req) (answer : Res Resp) (world : World State) : Desk :=
  match answer, req with
  | .ok _, .register r => { world, clients := (ClientStore.add (uuid d.ids) r.client d.clients).2, ids := d.ids + 1 }
  | _, _ => { d with world }

/-- Serving one step. Machinery of the model. -/
def deskStep (e : Env) (uuid : Nat → String) (d : Desk) (s : Step) : Res Resp × Desk :=
  let x := step e d.world { s with provider := d.provider uuid s.provider }
  (x.1, d.after uuid s.req x.1 x.2)

/-- The desk after a history. Machinery of the model. -/
def deskExec (e : Env) (uuid : Nat → String) (d : Desk) : List Step → Desk
  | [] => d
  | s :: rest => deskExec e uuid (deskStep e uuid d s).2 rest

end Verif.Issuer
