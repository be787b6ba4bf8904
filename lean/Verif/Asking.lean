/-
A client that keeps account of its requests with `Outgoing` (bsp-server/src/req_queue.rs:31-35, 59-69) on a connection
(bsp-server/src/lib.rs:37-40) to a server whose workers share a connection (`Pool`).
-/
import Verif.Pool
import Verif.ReqQueue

namespace Bsp
namespace Asking
open Conn Transport Queue

section
variable [Ext]

/-- The client: its connection (bsp-server/src/lib.rs:37-40), its queue (bsp-server/src/req_queue.rs:31-35), the requests
that have a number and are still to be sent, and the messages received and still to be handled.  `asked` records the
requests with the data registered for them, `handled` the messages handled with what the queue has returned.
Simplification: the queue is not compiled in the repository (lib.rs:11); the client uses it as its comments and names
say.  Any number of threads may use it (behind a lock), so numbering, sending, receiving and handling are separate steps
that may come in any order. -/
structure Client (α : Type) where
  io : Transport.State := {}
  queue : Outgoing α := .new
  outbox : List Request := []
  inbox : List Message := []
  asked : List (Request × α) := []
  handled : List (Message × Option α) := []

/-- The client takes the data of the request that a response is for out of the queue:
`Outgoing::complete`, bsp-server/src/req_queue.rs:66-68.  Other messages do not concern the queue. -/
def Client.handle (c : Client α) (m : Message) : Client α :=
  match m with
  | .response r =>
    let x := c.queue.complete r.id
    { c with queue := x.2, handled := c.handled ++ [(m, x.1)] }
  | m => { c with handled := c.handled ++ [(m, none)] }

/-- The client and the server. bsp-server/src/lib.rs:37-40 on both ends. -/
structure World (α : Type) where
  client : Client α
  pool : Pool.State

/-- What can happen. bsp-server/src/req_queue.rs:59-69, lib.rs:37-40, transporter.rs:14-80. -/
inductive Ev where
  /-- the client has one more thing to ask -/
  | ask
  /-- the client sends something that is not a request -/
  | say
  /-- the input of one side ends -/
  | hangUp
  /-- a write fails -/
  | writeFails
  /-- the time limit of lib.rs:183 is over -/
  | timeout
  /-- anything else: sending, receiving, handling, the steps of the threads, the arrival of bytes -/
  | move
deriving DecidableEq

/-- How the steps of the server count. Classifies the steps of README.md:37-61. -/
def evOf : Pool.Act → Ev
  | .writeFails => .writeFails
  | .timeout => .timeout
  | _ => .move

variable [Dbg] [FloatText]

/-- One step.  `ask`: `Outgoing::register` (bsp-server/src/req_queue.rs:60-65) numbers a request.  `send`, `say`, `recv`:
lib.rs:37-40.  `handle`: req_queue.rs:66-68.  The threads on both sides: transporter.rs:14-80.  Bytes that one side has
written arrive at the other, in order.  Simplification: the client does not drop its ends of the channels. -/
inductive Step (checked : Bool) (kc ks : Kind) : World α → Ev → World α → Prop
  | ask {w : World α} {d id q} {r : Request} : w.client.queue.register checked d = some (id, q) → r.id = id →
      Step checked kc ks w .ask { w with client := { w.client with
        queue := q, outbox := w.client.outbox ++ [r], asked := w.client.asked ++ [(r, d)] } }
  | send {w : World α} {a b r io} : w.client.outbox = a ++ r :: b →
      Transport.Step kc w.client.io (.accept (.request r)) io →
      Step checked kc ks w .move { w with client := { w.client with io := io, outbox := a ++ b } }
  | say {w : World α} {m io} : (∀ r, m ≠ .request r) → Transport.Step kc w.client.io (.accept m) io →
      Step checked kc ks w .say { w with client := { w.client with io := io } }
  | recv {w : World α} {m io} : Transport.Step kc w.client.io (.deliver m) io →
      Step checked kc ks w .move { w with client := { w.client with io := io, inbox := w.client.inbox ++ [m] } }
  | handle {w : World α} {a b m} : w.client.inbox = a ++ m :: b →
      Step checked kc ks w .move { w with client := { w.client.handle m with inbox := a ++ b } }
  | thread {w : World α} {act io} : Transport.Step kc w.client.io act io → Pool.kindOf act = some .thread →
      Step checked kc ks w .move { w with client := { w.client with io := io } }
  | fails {w : World α} {io} : Transport.Step kc w.client.io .writeFails io →
      Step checked kc ks w .writeFails { w with client := { w.client with io := io } }
  | toClient {w : World α} {bs io} : bs ≠ [] → w.client.io.arrived ++ bs <+: w.pool.io.out →
      Transport.Step kc w.client.io (.arrive bs) io →
      Step checked kc ks w .move { w with client := { w.client with io := io } }
  | cutClient {w : World α} {b io} : Transport.Step kc w.client.io (.hangUp b) io →
      Step checked kc ks w .hangUp { w with client := { w.client with io := io } }
  | toServer {w : World α} {bs io} : bs ≠ [] → w.pool.io.arrived ++ bs <+: w.client.io.out →
      Transport.Step ks w.pool.io (.arrive bs) io →
      Step checked kc ks w .move { w with pool := { w.pool with io := io } }
  | cutServer {w : World α} {b io} : Transport.Step ks w.pool.io (.hangUp b) io →
      Step checked kc ks w .hangUp { w with pool := { w.pool with io := io } }
  | server {w : World α} {a p} : Pool.Step ks w.pool a p → a ≠ .peer →
      Step checked kc ks w (evOf a) { w with pool := p }

/-- A sequence of steps. Executions of bsp-server/src/transporter.rs:14-80 on both ends, with README.md:37-61 on one and
bsp-server/src/req_queue.rs:59-69 on the other. -/
inductive Steps (checked : Bool) (kc ks : Kind) : World α → List Ev → World α → Prop
  | nil (w) : Steps checked kc ks w [] w
  | snoc {w as v a u} : Steps checked kc ks w as v → Step checked kc ks v a u → Steps checked kc ks w (as ++ [a]) u

/-- Nothing can happen any more by itself: the client may ask or say more, the connection may be cut, the time limit may
pass. Specification about bsp-server/src/transporter.rs:14-80 on both ends. -/
def Quiet (checked : Bool) (kc ks : Kind) (w : World α) : Prop :=
  ∀ a v, Step checked kc ks w a v → a ≠ .move ∧ a ≠ .writeFails

end
end Asking
end Bsp
