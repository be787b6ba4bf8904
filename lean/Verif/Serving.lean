/-
A server that keeps account of the requests it works on with `Incoming` (bsp-server/src/req_queue.rs:26-29, 37-57) on a
connection (bsp-server/src/lib.rs:37-40), with any number of jobs at the same time.
-/
import Verif.Pool
import Verif.ReqQueue

namespace Bsp
namespace Serving
open Conn Transport Queue

section
variable [Ext]

/-- The server: its connection (bsp-server/src/lib.rs:37-40), its queue (bsp-server/src/req_queue.rs:26-29), the messages
received and still to be handled, the requests that are being worked on with the data registered for them, and the
responses that are still to be sent.  `handled`, `finished` and `again` record what has happened: the messages handled;
the jobs finished, with their data, their outcome and what the queue has returned; the ids registered while they were
pending.  Simplification: the queue is not compiled in the repository (lib.rs:11); the server uses it as its names say.
Any number of threads may use it (behind a lock), so receiving, handling, finishing and sending are separate steps that
may come in any order. -/
structure State (α : Type) where
  io : Transport.State := {}
  queue : Incoming α := .new
  inbox : List Message := []
  jobs : List (Request × α) := []
  outbox : List Response := []
  handled : List Message := []
  finished : List (Request × α × Response × Option α) := []
  again : List RequestId := []

/-- A request is registered and work on it begins: `Incoming::register`, bsp-server/src/req_queue.rs:38-40. -/
def State.begin (s : State α) (r : Request) (d : α) : State α :=
  { s with
    queue := s.queue.register r.id d
    jobs := s.jobs ++ [(r, d)]
    again := if (s.queue.pending r.id).isSome then s.again ++ [r.id] else s.again }

/-- The client no longer wants an answer: `Incoming::cancel`, bsp-server/src/req_queue.rs:41-53.  Its response, if
there is one, is sent. -/
def State.cancel (s : State α) (id : RequestId) : State α :=
  let x := s.queue.cancel id
  { s with queue := x.2, outbox := s.outbox ++ x.1.toList }

/-- A message is handled.  `wish` says which messages ask to cancel which request: the repository does not say it (in
LSP, from which bsp-server/src/req_queue.rs:41-53 is taken, a notification does). -/
def State.handle (wish : Message → Option RequestId) (s : State α) (m : Message) (d : α) : State α :=
  let t := { s with handled := s.handled ++ [m] }
  match m with
  | .request r => t.begin r d
  | m =>
    match wish m with
    | some id => t.cancel id
    | none => t

/-- A job ends with a response, which is sent if the request is still pending: `Incoming::complete`,
bsp-server/src/req_queue.rs:54-56. -/
def State.finish (s : State α) (r : Request) (d : α) (x : Response) : State α :=
  let y := s.queue.complete r.id
  { s with
    queue := y.2
    outbox := if y.1.isSome then s.outbox ++ [x] else s.outbox
    finished := s.finished ++ [(r, d, x, y.1)] }

variable [FloatText]

/-- One step: with `Pool.Act.peer` for the other side and `Pool.Act.worker` for what the threads of the server do.
bsp-server/src/lib.rs:37-40, req_queue.rs:37-57, transporter.rs:14-80.  Simplification: the server does not drop its ends
of the channels. -/
inductive Step (k : Kind) (wish : Message → Option RequestId) : State α → Pool.Act → State α → Prop
  | io {s : State α} {a act io'} : Transport.Step k s.io a io' → Pool.kindOf a = some act →
      Step k wish s act { s with io := io' }
  | recv {s : State α} {m io'} : Transport.Step k s.io (.deliver m) io' →
      Step k wish s .worker { s with io := io', inbox := s.inbox ++ [m] }
  | handle {s : State α} {a b m d} : s.inbox = a ++ m :: b →
      Step k wish s .worker { s.handle wish m d with inbox := a ++ b }
  | finish {s : State α} {a b r d} {x : Response} : s.jobs = a ++ (r, d) :: b → x.id = r.id →
      Step k wish s .worker { s.finish r d x with jobs := a ++ b }
  | send {s : State α} {a b x io'} : s.outbox = a ++ x :: b → Transport.Step k s.io (.accept (.response x)) io' →
      Step k wish s .worker { s with io := io', outbox := a ++ b }

/-- A sequence of steps. Executions of bsp-server/src/req_queue.rs:37-57 with transporter.rs:14-80. -/
inductive Steps (k : Kind) (wish : Message → Option RequestId) : State α → List Pool.Act → State α → Prop
  | nil (s) : Steps k wish s [] s
  | snoc {s as t a u} : Steps k wish s as t → Step k wish t a u → Steps k wish s (as ++ [a]) u

/-- No step can be taken but by the peer.
Specification about bsp-server/src/req_queue.rs:37-57 with transporter.rs:14-80. -/
def Quiet (k : Kind) (wish : Message → Option RequestId) (s : State α) : Prop :=
  ∀ a t, Step k wish s a t → a = .peer

end
end Serving
end Bsp
