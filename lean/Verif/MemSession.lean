/-
The program of README.md:36-63, with the handshake of bsp-server/src/lib.rs:114-175, on one end of
`Connection::memory` (lib.rs:69-81), while a tester uses the other end in any way it likes.
-/
import Verif.Session
import Verif.Memory

namespace Bsp
namespace MemSession
open Conn Session Mem

section
variable [Ext] [Dbg]

/-- The two channels, where the server thread is, and what has happened so far.
bsp-server/src/lib.rs:69-81 and README.md:25-27, 36-63. -/
structure Proc where
  mem : Mem.State := Mem.memory
  app : App := .start
  seen : List (Side × Ev) := []

/-- An operation on the channels. The fields of bsp-server/src/lib.rs:37-40. -/
def Proc.does (p : Proc) (side : Side) (op : Op) : Proc :=
  { p with mem := (Mem.step p.mem side op).1, seen := p.seen ++ [(side, (Mem.step p.mem side op).2)] }

/-- What happens in an operation. The fields of bsp-server/src/lib.rs:37-40. -/
def Proc.outcome (p : Proc) (side : Side) (op : Op) : Ev := (Mem.step p.mem side op).2

/-- Who takes a step. Of the pair of bsp-server/src/lib.rs:69-81. -/
inductive Act where
  /-- the tester does something with its connection -/
  | tester
  /-- the server receives, sends, or finds a channel closed -/
  | main
  /-- the 30 s of lib.rs:183 are over -/
  | timeout
  /-- the server drops an end of a channel -/
  | drop
deriving DecidableEq

/-- One step, the server being on `side`.  A `recv` that finds the channel empty is one that still waits: it takes no
step.  lib.rs:114-200, README.md:36-63. -/
inductive Step (side : Side) (process : InitializeBuild → Option Value) : Proc → Act → Proc → Prop
  | tester (p : Proc) (op : Op) : Step side process p .tester (p.does side.other op)
  /-- lib.rs:126, 161, 183, README.md:37 -/
  | recv {p : Proc} {m} : p.app.receives = true → p.outcome side .recv = .received m →
      Step side process p .main { p.does side .recv with app := onRecv process p.app (some m) }
  /-- the same, failing -/
  | closed {p : Proc} : p.app.receives = true → p.outcome side .recv = .disconnected →
      Step side process p .main { p.does side .recv with app := onRecv process p.app none }
  /-- lib.rs:134, 160, 182, README.md:46-54 -/
  | send {p : Proc} {m} : toSend p.app = some m → p.outcome side (.send m) = .sent m →
      Step side process p .main { p.does side (.send m) with app := onSent p.app true }
  /-- the same, failing -/
  | unsent {p : Proc} {m} : toSend p.app = some m → p.outcome side (.send m) = .sendFailed m →
      Step side process p .main { p.does side (.send m) with app := onSent p.app false }
  /-- lib.rs:183, 192-195 -/
  | timeout {p : Proc} : p.app = .leaving →
      Step side process p .timeout
        { p with app := .ended (.err ("unexpected error during shutdown: " ++ Dbg.timeout)) }
  /-- README.md:62, 25, 27 -/
  | dropRx {p : Proc} {r} : p.app = .ended r → p.outcome side .dropReceiver = .droppedReceiver →
      Step side process p .drop (p.does side .dropReceiver)
  /-- README.md:62, 25, 27 -/
  | dropTx {p : Proc} {r} : p.app = .ended r → p.outcome side .dropSender = .droppedSender →
      Step side process p .drop (p.does side .dropSender)

/-- A sequence of steps. Executions of README.md:36-63 on bsp-server/src/lib.rs:69-81. -/
inductive Steps (side : Side) (process : InitializeBuild → Option Value) : Proc → List Act → Proc → Prop
  | nil (p) : Steps side process p [] p
  | snoc {p as q a r} : Steps side process p as q → Step side process q a r → Steps side process p (as ++ [a]) r

/-- The server can do nothing but wait.
Specification about README.md:36-63 on bsp-server/src/lib.rs:69-81. -/
def Quiet (side : Side) (process : InitializeBuild → Option Value) (p : Proc) : Prop :=
  ∀ a q, Step side process p a q → a = .tester ∨ a = .timeout

end
end MemSession
end Bsp
