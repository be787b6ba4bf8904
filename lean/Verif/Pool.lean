/-
A connection shared by several threads: `sender` and `receiver` of a `Connection` are handles that any number of
threads can use through a shared reference (bsp-server/src/lib.rs:37-40), so a server can run the loop of
README.md:37-61 in several worker threads on one connection.
-/
import Verif.Session

namespace Bsp
namespace Pool
open Conn Session Transport

section
variable [Ext] [Dbg] [FloatText]

/-- The connection with its I/O threads, and where each worker is.  Every worker runs the loop of README.md:37-61 on
the same connection (bsp-server/src/lib.rs:37-40). -/
structure State where
  io : Transport.State
  workers : List App

omit [Dbg] [FloatText] in
/-- `n` workers that enter the loop (README.md:37) on a connection. -/
def start (io : Transport.State) (n : Nat) : State := ⟨io, List.replicate n .idle⟩

omit [FloatText] in
/-- What a worker does with what it receives: README.md:37-61 and bsp-server/src/lib.rs:178-199.  The handshake, and
with it the handler of build/initialize, is over before there are workers (README.md:25). -/
def onRecv (a : App) (m : Option Message) : App := Session.onRecv (fun _ => none) a m

/-- What can happen.
The steps of README.md:37-61 in each worker and of the threads of bsp-server/src/transporter.rs:14-80. -/
inductive Act where
  /-- bytes arrive, or the input ends -/
  | peer
  /-- a step of the reader or writer thread -/
  | thread
  /-- a write fails -/
  | writeFails
  /-- a worker receives, sends, or finds a channel closed -/
  | worker
  /-- the 30 s of lib.rs:183 are over -/
  | timeout
  /-- the connection is dropped, after the last worker -/
  | drop
deriving DecidableEq

omit [Dbg] [FloatText] [Ext] in
/-- How the steps count that are not up to the workers.
Classifies the steps of the threads of bsp-server/src/transporter.rs:14-80. -/
def kindOf : Transport.Act → Option Act
  | .arrive _ | .hangUp _ => some .peer
  | .read | .undeliverable | .write _ | .written | .close => some .thread
  | .writeFails => some .writeFails
  | .deliver _ | .accept _ | .dropRx | .dropTx => none

/-- One step.  A message goes to any one of the workers that are waiting to receive (bsp-server/src/lib.rs:39:
crossbeam channels have many consumers), the writer takes its next message from any one of the workers that are
waiting to send (lib.rs:38).  The connection is dropped when no worker uses it any more.  Simplification: what the
program does after its workers have ended is not modelled beyond that. -/
inductive Step (k : Kind) : State → Act → State → Prop
  | io {p : State} {a act io'} : Transport.Step k p.io a io' → kindOf a = some act →
      Step k p act { p with io := io' }
  /-- a receive that succeeds: README.md:37, lib.rs:183 -/
  | recv {io io' : Transport.State} {a b : List App} {x : App} {m} : x.receives = true →
      Transport.Step k io (.deliver m) io' →
      Step k ⟨io, a ++ x :: b⟩ .worker ⟨io', a ++ onRecv x (some m) :: b⟩
  /-- a receive that fails: the reader thread, which has the only sender, has ended -/
  | closed {io : Transport.State} {a b : List App} {x : App} : x.receives = true → io.reader.ended = true →
      Step k ⟨io, a ++ x :: b⟩ .worker ⟨io, a ++ onRecv x none :: b⟩
  /-- a send that succeeds: README.md:46-54, lib.rs:182 -/
  | send {io io' : Transport.State} {a b : List App} {x : App} {m} : toSend x = some m →
      Transport.Step k io (.accept m) io' →
      Step k ⟨io, a ++ x :: b⟩ .worker ⟨io', a ++ onSent x true :: b⟩
  /-- a send that fails: the writer thread, which has the only receiver, has ended -/
  | unsent {io : Transport.State} {a b : List App} {x : App} {m} : toSend x = some m → io.writer.ended = true →
      Step k ⟨io, a ++ x :: b⟩ .worker ⟨io, a ++ onSent x false :: b⟩
  /-- lib.rs:183, 191-194 -/
  | timeout {io : Transport.State} {a b : List App} :
      Step k ⟨io, a ++ .leaving :: b⟩ .timeout
        ⟨io, a ++ .ended (.err ("unexpected error during shutdown: " ++ Dbg.timeout)) :: b⟩
  /-- the last user of lib.rs:37-40 is gone -/
  | dropRx {p : State} : (∀ x ∈ p.workers, ∃ r, x = .ended r) → p.io.rxAlive = true →
      Step k p .drop { p with io := { p.io with rxAlive := false } }
  /-- the last user of lib.rs:37-40 is gone -/
  | dropTx {p : State} : (∀ x ∈ p.workers, ∃ r, x = .ended r) → p.io.txAlive = true →
      Step k p .drop { p with io := { p.io with txAlive := false } }

/-- A sequence of steps. Executions of README.md:37-61 with bsp-server/src/transporter.rs:14-80. -/
inductive Steps (k : Kind) : State → List Act → State → Prop
  | nil (p) : Steps k p [] p
  | snoc {p as q a r} : Steps k p as q → Step k q a r → Steps k p (as ++ [a]) r

/-- No step can be taken but by the peer or by the passing of the time limit.
Specification about README.md:37-61 with bsp-server/src/transporter.rs:14-80. -/
def Quiet (k : Kind) (p : State) : Prop := ∀ a q, Step k p a q → a = .peer ∨ a = .timeout

end
end Pool
end Bsp
