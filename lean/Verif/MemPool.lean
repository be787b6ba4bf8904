/-
Workers that share one end of `Connection::memory` (bsp-server/src/lib.rs:69-81), as they share a real connection in
`Pool`, while a tester uses the other end in any way it likes.
-/
import Verif.MemSession
import Verif.Pool

namespace Bsp
namespace MemPool
open Conn Session Mem

section
variable [Ext] [Dbg]

/-- The pair of connections with the thread that did the handshake, which from then on only waits for the workers, and
where each worker is.  bsp-server/src/lib.rs:37-40, 69-81, README.md:25, 37-61. -/
structure State where
  main : MemSession.Proc
  workers : List App

/-- `n` workers that enter the loop (README.md:37) on one end of bsp-server/src/lib.rs:69-81. -/
def start (main : MemSession.Proc) (n : Nat) : State := ⟨main, List.replicate n .idle⟩

/-- One step, the workers being on `side`.  A message goes to any one of the workers that are waiting to receive; a send
never waits (lib.rs:70: the channels are unbounded).  The connection is dropped when no worker uses it any more.
lib.rs:37-40, 69-81, 178-199, README.md:37-61. -/
inductive Step (side : Side) : State → MemSession.Act → State → Prop
  | tester (p : State) (op : Op) : Step side p .tester { p with main := p.main.does side.other op }
  /-- a receive that succeeds: README.md:37, lib.rs:183 -/
  | recv {main : MemSession.Proc} {a b : List App} {x : App} {m} : x.receives = true →
      main.outcome side .recv = .received m →
      Step side ⟨main, a ++ x :: b⟩ .main ⟨main.does side .recv, a ++ Pool.onRecv x (some m) :: b⟩
  /-- a receive that fails: the tester has dropped its sender -/
  | closed {main : MemSession.Proc} {a b : List App} {x : App} : x.receives = true →
      main.outcome side .recv = .disconnected →
      Step side ⟨main, a ++ x :: b⟩ .main ⟨main.does side .recv, a ++ Pool.onRecv x none :: b⟩
  /-- a send that succeeds: README.md:46-54, lib.rs:182 -/
  | send {main : MemSession.Proc} {a b : List App} {x : App} {m} : toSend x = some m →
      main.outcome side (.send m) = .sent m →
      Step side ⟨main, a ++ x :: b⟩ .main ⟨main.does side (.send m), a ++ onSent x true :: b⟩
  /-- a send that fails: the tester has dropped its receiver -/
  | unsent {main : MemSession.Proc} {a b : List App} {x : App} {m} : toSend x = some m →
      main.outcome side (.send m) = .sendFailed m →
      Step side ⟨main, a ++ x :: b⟩ .main ⟨main.does side (.send m), a ++ onSent x false :: b⟩
  /-- lib.rs:183, 191-194 -/
  | timeout {main : MemSession.Proc} {a b : List App} :
      Step side ⟨main, a ++ .leaving :: b⟩ .timeout
        ⟨main, a ++ .ended (.err ("unexpected error during shutdown: " ++ Dbg.timeout)) :: b⟩
  /-- the last user of lib.rs:37-40 is gone -/
  | dropRx {p : State} : (∀ x ∈ p.workers, ∃ r, x = .ended r) → p.main.outcome side .dropReceiver = .droppedReceiver →
      Step side p .drop { p with main := p.main.does side .dropReceiver }
  /-- the last user of lib.rs:37-40 is gone -/
  | dropTx {p : State} : (∀ x ∈ p.workers, ∃ r, x = .ended r) → p.main.outcome side .dropSender = .droppedSender →
      Step side p .drop { p with main := p.main.does side .dropSender }

/-- A sequence of steps. Executions of README.md:37-61 on bsp-server/src/lib.rs:69-81. -/
inductive Steps (side : Side) : State → List MemSession.Act → State → Prop
  | nil (p) : Steps side p [] p
  | snoc {p as q a r} : Steps side p as q → Step side q a r → Steps side p (as ++ [a]) r

/-- The workers can do nothing but wait.
Specification about README.md:37-61 on bsp-server/src/lib.rs:69-81. -/
def Quiet (side : Side) (p : State) : Prop := ∀ a q, Step side p a q → a = .tester ∨ a = .timeout

end
end MemPool
end Bsp
