/-
A connection used by one thread that receives and by any number of threads that only send: the main thread runs the
loop of README.md:37-61 and gives each request to a thread of its own, which has a clone of `sender`
(bsp-server/src/lib.rs:37-40) and sends what there is to send for the request.
-/
import Verif.Pool

namespace Bsp
namespace Crew
open Conn Session Transport

section
variable [Ext] [Dbg] [FloatText]

omit [Ext] [Dbg] [FloatText] in
/-- A thread that works on a request: what it has sent, what it has left to send, and what it has given up because a
send failed.  It uses the sender of bsp-server/src/lib.rs:38 in place of README.md:46-54. -/
structure Job where
  req : Request
  sent : List Message := []
  left : List Message
  lost : List Message := []

omit [Ext] [Dbg] [FloatText] in
/-- The connection with its I/O threads (bsp-server/src/lib.rs:37-40), where the main thread is in README.md:37-61, what it
has sent itself, and the other threads in the order in which they were started. -/
structure State where
  io : Transport.State
  main : App := .idle
  mine : List Message := []
  jobs : List Job := []

omit [FloatText] in
/-- What the main thread does with what it receives: README.md:37-61 and bsp-server/src/lib.rs:178-199.  The handshake is
over (README.md:25). -/
def onRecv (a : App) (m : Option Message) : App := Session.onRecv (fun _ => none) a m

/-- One step.  `work r ms`: a thread started for the request `r` may want to send the messages `ms`, in this order.  Only
the main thread receives (bsp-server/src/lib.rs:39), everyone sends (lib.rs:38).  The receiver is dropped after the main
thread is done with it, the last sender after all threads are.  Simplification: what the program does beyond that is
not modelled, and neither is how long a thread works before it sends. -/
inductive Step (k : Kind) (work : Request → List Message → Prop) : State → Pool.Act → State → Prop
  | io {p : State} {a act io'} : Transport.Step k p.io a io' → Pool.kindOf a = some act →
      Step k work p act { p with io := io' }
  /-- a receive that succeeds: README.md:37, lib.rs:183 -/
  | recv {p : State} {m io'} : p.main.receives = true → Transport.Step k p.io (.deliver m) io' →
      (∀ r, onRecv p.main (some m) ≠ .answering r) →
      Step k work p .worker { p with io := io', main := onRecv p.main (some m) }
  /-- a request is given to a new thread, where README.md:46-54 answers it at once -/
  | hire {p : State} {m io' r ms} : p.main.receives = true → Transport.Step k p.io (.deliver m) io' →
      onRecv p.main (some m) = .answering r → work r ms →
      Step k work p .worker { p with io := io', jobs := p.jobs ++ [{ req := r, left := ms }] }
  /-- a receive that fails: the reader thread, which has the only sender, has ended -/
  | closed {p : State} : p.main.receives = true → p.io.reader.ended = true →
      Step k work p .worker { p with main := onRecv p.main none }
  /-- the main thread sends: lib.rs:182 -/
  | reply {p : State} {m io'} : toSend p.main = some m → Transport.Step k p.io (.accept m) io' →
      Step k work p .worker { p with io := io', main := onSent p.main true, mine := p.mine ++ [m] }
  /-- a send of the main thread fails: lib.rs:182 -/
  | noReply {p : State} {m} : toSend p.main = some m → p.io.writer.ended = true →
      Step k work p .worker { p with main := onSent p.main false }
  /-- another thread sends: lib.rs:38 -/
  | send {io io' : Transport.State} {main mine a b r s m l z} : Transport.Step k io (.accept m) io' →
      Step k work ⟨io, main, mine, a ++ ⟨r, s, m :: l, z⟩ :: b⟩ .worker ⟨io', main, mine, a ++ ⟨r, s ++ [m], l, z⟩ :: b⟩
  /-- a send of another thread fails, and the thread gives up -/
  | unsent {io : Transport.State} {main mine a b r s m l z} : io.writer.ended = true →
      Step k work ⟨io, main, mine, a ++ ⟨r, s, m :: l, z⟩ :: b⟩ .worker ⟨io, main, mine, a ++ ⟨r, s, [], m :: l⟩ :: b⟩
  /-- lib.rs:183, 191-194 -/
  | timeout {p : State} : p.main = .leaving →
      Step k work p .timeout { p with main := .ended (.err ("unexpected error during shutdown: " ++ Dbg.timeout)) }
  /-- the only user of lib.rs:39 is done -/
  | dropRx {p : State} : (∃ r, p.main = .ended r) → p.io.rxAlive = true →
      Step k work p .drop { p with io := { p.io with rxAlive := false } }
  /-- the last user of lib.rs:38 is done -/
  | dropTx {p : State} : (∃ r, p.main = .ended r) → (∀ j ∈ p.jobs, j.left = []) → p.io.txAlive = true →
      Step k work p .drop { p with io := { p.io with txAlive := false } }

/-- A sequence of steps. Executions of README.md:37-61 with bsp-server/src/transporter.rs:14-80. -/
inductive Steps (k : Kind) (work : Request → List Message → Prop) : State → List Pool.Act → State → Prop
  | nil (p) : Steps k work p [] p
  | snoc {p as q a r} : Steps k work p as q → Step k work q a r → Steps k work p (as ++ [a]) r

/-- No step can be taken but by the peer or by the passing of the time limit.
Specification about README.md:37-61 with bsp-server/src/transporter.rs:14-80. -/
def Quiet (k : Kind) (work : Request → List Message → Prop) (p : State) : Prop :=
  ∀ a q, Step k work p a q → a = .peer ∨ a = .timeout

end
end Crew
end Bsp
