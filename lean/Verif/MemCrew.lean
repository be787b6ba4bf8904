/-
One end of `Connection::memory` (bsp-server/src/lib.rs:69-81) used by one thread that receives and by any number of
threads that only send, as a real connection is used in `Crew`, while a tester uses the other end in any way it likes.
-/
import Verif.MemSession
import Verif.Crew

namespace Bsp
namespace MemCrew
open Conn Session Mem

section
variable [Ext] [Dbg]

omit [Dbg] in
/-- The pair of connections (bsp-server/src/lib.rs:69-81) with the main thread, which has done the handshake and is in the
loop of README.md:37-61, what that thread has sent itself since, and the other threads in the order in which they were
started. -/
structure State where
  proc : MemSession.Proc
  mine : List Message := []
  jobs : List Crew.Job := []

/-- One step, the threads being on `side`.  `work r ms`: a thread started for the request `r` may want to send the messages
`ms`, in this order.  Only the main thread receives (bsp-server/src/lib.rs:39), everyone sends (lib.rs:38); a send never
waits (lib.rs:70: the channels are unbounded).  The receiver is dropped after the main thread is done with it, the last
sender after all threads are.  Simplification: as in `Crew`. -/
inductive Step (side : Side) (work : Request → List Message → Prop) : State → MemSession.Act → State → Prop
  | tester (p : State) (op : Op) : Step side work p .tester { p with proc := p.proc.does side.other op }
  /-- a receive that succeeds: README.md:37, lib.rs:183 -/
  | recv {p : State} {m} : p.proc.app.receives = true → p.proc.outcome side .recv = .received m →
      (∀ r, Crew.onRecv p.proc.app (some m) ≠ .answering r) →
      Step side work p .main
        { p with proc := { p.proc.does side .recv with app := Crew.onRecv p.proc.app (some m) } }
  /-- a request is given to a new thread, where README.md:46-54 answers it at once -/
  | hire {p : State} {m r ms} : p.proc.app.receives = true → p.proc.outcome side .recv = .received m →
      Crew.onRecv p.proc.app (some m) = .answering r → work r ms →
      Step side work p .main { p with proc := p.proc.does side .recv, jobs := p.jobs ++ [{ req := r, left := ms }] }
  /-- a receive that fails: the tester has dropped its sender -/
  | closed {p : State} : p.proc.app.receives = true → p.proc.outcome side .recv = .disconnected →
      Step side work p .main { p with proc := { p.proc.does side .recv with app := Crew.onRecv p.proc.app none } }
  /-- the main thread sends: lib.rs:182 -/
  | reply {p : State} {m} : toSend p.proc.app = some m → p.proc.outcome side (.send m) = .sent m →
      Step side work p .main
        { p with proc := { p.proc.does side (.send m) with app := onSent p.proc.app true }, mine := p.mine ++ [m] }
  /-- a send of the main thread fails: lib.rs:182 -/
  | noReply {p : State} {m} : toSend p.proc.app = some m → p.proc.outcome side (.send m) = .sendFailed m →
      Step side work p .main { p with proc := { p.proc.does side (.send m) with app := onSent p.proc.app false } }
  /-- another thread sends: lib.rs:38 -/
  | send {proc : MemSession.Proc} {mine a b r s m l z} : proc.outcome side (.send m) = .sent m →
      Step side work ⟨proc, mine, a ++ ⟨r, s, m :: l, z⟩ :: b⟩ .main
        ⟨proc.does side (.send m), mine, a ++ ⟨r, s ++ [m], l, z⟩ :: b⟩
  /-- a send of another thread fails, because the tester has dropped its receiver, and the thread gives up -/
  | unsent {proc : MemSession.Proc} {mine a b r s m l z} : proc.outcome side (.send m) = .sendFailed m →
      Step side work ⟨proc, mine, a ++ ⟨r, s, m :: l, z⟩ :: b⟩ .main
        ⟨proc.does side (.send m), mine, a ++ ⟨r, s, [], m :: l⟩ :: b⟩
  /-- lib.rs:183, 191-194 -/
  | timeout {p : State} : p.proc.app = .leaving →
      Step side work p .timeout
        { p with proc := { p.proc with app := .ended (.err ("unexpected error during shutdown: " ++ Dbg.timeout)) } }
  /-- the only user of lib.rs:39 is done -/
  | dropRx {p : State} : (∃ r, p.proc.app = .ended r) → p.proc.outcome side .dropReceiver = .droppedReceiver →
      Step side work p .drop { p with proc := p.proc.does side .dropReceiver }
  /-- the last user of lib.rs:38 is done -/
  | dropTx {p : State} : (∃ r, p.proc.app = .ended r) → (∀ j ∈ p.jobs, j.left = []) →
      p.proc.outcome side .dropSender = .droppedSender →
      Step side work p .drop { p with proc := p.proc.does side .dropSender }

/-- A sequence of steps. Executions of README.md:37-61 on bsp-server/src/lib.rs:69-81. -/
inductive Steps (side : Side) (work : Request → List Message → Prop) : State → List MemSession.Act → State → Prop
  | nil (p) : Steps side work p [] p
  | snoc {p as q a r} : Steps side work p as q → Step side work q a r → Steps side work p (as ++ [a]) r

/-- The threads can do nothing but wait.
Specification about README.md:37-61 on bsp-server/src/lib.rs:69-81. -/
def Quiet (side : Side) (work : Request → List Message → Prop) (p : State) : Prop :=
  ∀ a q, Step side work p a q → a = .tester ∨ a = .timeout

end
end MemCrew
end Bsp
