/-
A client and a server that both keep account of their requests with the queue of bsp-server/src/req_queue.rs: the client
with `Outgoing` (31-35, 59-69), the server with `Incoming` (26-29, 37-57), over connections (bsp-server/src/lib.rs:37-40).
-/
import Verif.Asking
import Verif.Serving

namespace Bsp
namespace Deal
open Conn Transport Queue

section
variable [Ext]

/-- The client and the server. bsp-server/src/lib.rs:37-40 and req_queue.rs:6-35 on both ends. -/
structure World (α β : Type) where
  client : Asking.Client α
  server : Serving.State β

variable [FloatText]

/-- One step.  `ask`: `Outgoing::register` (bsp-server/src/req_queue.rs:60-65) numbers a request.  `send`, `say`, `recv`:
lib.rs:37-40.  `handle`: req_queue.rs:66-68.  `server`: req_queue.rs:37-57.  The threads on both sides:
transporter.rs:14-80.  Bytes that one side has written arrive at the other, in order.  Simplification: neither side drops
its ends of the channels. -/
inductive Step (checked : Bool) (kc ks : Kind) (wish : Message → Option RequestId) :
    World α β → Asking.Ev → World α β → Prop
  | ask {w : World α β} {d id q} {r : Request} : w.client.queue.register checked d = some (id, q) → r.id = id →
      Step checked kc ks wish w .ask { w with client := { w.client with
        queue := q, outbox := w.client.outbox ++ [r], asked := w.client.asked ++ [(r, d)] } }
  | send {w : World α β} {a b r io} : w.client.outbox = a ++ r :: b →
      Transport.Step kc w.client.io (.accept (.request r)) io →
      Step checked kc ks wish w .move { w with client := { w.client with io := io, outbox := a ++ b } }
  | say {w : World α β} {m io} : (∀ r, m ≠ .request r) → Transport.Step kc w.client.io (.accept m) io →
      Step checked kc ks wish w .say { w with client := { w.client with io := io } }
  | recv {w : World α β} {m io} : Transport.Step kc w.client.io (.deliver m) io →
      Step checked kc ks wish w .move { w with client := { w.client with io := io, inbox := w.client.inbox ++ [m] } }
  | handle {w : World α β} {a b m} : w.client.inbox = a ++ m :: b →
      Step checked kc ks wish w .move { w with client := { w.client.handle m with inbox := a ++ b } }
  | thread {w : World α β} {act io} : Transport.Step kc w.client.io act io → Pool.kindOf act = some .thread →
      Step checked kc ks wish w .move { w with client := { w.client with io := io } }
  | fails {w : World α β} {io} : Transport.Step kc w.client.io .writeFails io →
      Step checked kc ks wish w .writeFails { w with client := { w.client with io := io } }
  | toClient {w : World α β} {bs io} : bs ≠ [] → w.client.io.arrived ++ bs <+: w.server.io.out →
      Transport.Step kc w.client.io (.arrive bs) io →
      Step checked kc ks wish w .move { w with client := { w.client with io := io } }
  | cutClient {w : World α β} {b io} : Transport.Step kc w.client.io (.hangUp b) io →
      Step checked kc ks wish w .hangUp { w with client := { w.client with io := io } }
  | toServer {w : World α β} {bs io} : bs ≠ [] → w.server.io.arrived ++ bs <+: w.client.io.out →
      Transport.Step ks w.server.io (.arrive bs) io →
      Step checked kc ks wish w .move { w with server := { w.server with io := io } }
  | cutServer {w : World α β} {b io} : Transport.Step ks w.server.io (.hangUp b) io →
      Step checked kc ks wish w .hangUp { w with server := { w.server with io := io } }
  | server {w : World α β} {a s} : Serving.Step ks wish w.server a s → a ≠ .peer →
      Step checked kc ks wish w (Asking.evOf a) { w with server := s }

/-- A sequence of steps. Executions of bsp-server/src/transporter.rs:14-80 and req_queue.rs:37-69 on both ends. -/
inductive Steps (checked : Bool) (kc ks : Kind) (wish : Message → Option RequestId) :
    World α β → List Asking.Ev → World α β → Prop
  | nil (w) : Steps checked kc ks wish w [] w
  | snoc {w as v a u} : Steps checked kc ks wish w as v → Step checked kc ks wish v a u →
      Steps checked kc ks wish w (as ++ [a]) u

/-- Nothing can happen any more by itself: the client may ask or say more, the connection may be cut.
Specification about bsp-server/src/transporter.rs:14-80 and req_queue.rs:37-69 on both ends. -/
def Quiet (checked : Bool) (kc ks : Kind) (wish : Message → Option RequestId) (w : World α β) : Prop :=
  ∀ a v, Step checked kc ks wish w a v → a ≠ .move ∧ a ≠ .writeFails

end
end Deal
end Bsp
