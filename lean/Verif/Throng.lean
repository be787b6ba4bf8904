/-
Infinite runs of a server that starts a thread for each request (`Crew`), in which requests come in for ever, and what it
means that its threads are scheduled fairly.
-/
import Verif.Crew

namespace Bsp
namespace Crew
open Conn Session Transport

/-- Who acts: the reader thread, the writer thread, the main thread in that it receives, and the thread that was started
as the one with that number, in that it sends.
bsp-server/src/transporter.rs:16-41, 51-74, bsp-server/src/lib.rs:37-40, README.md:37-61. -/
inductive Actor where
  | reader
  | writer
  | receives
  | sends (i : Nat)
deriving DecidableEq

section
variable [Ext] [Dbg] [FloatText]

/-- The step from `p` to `q` is one of that actor: `Message::read` returns, the writer thread writes or is done with a
message, the main thread receives a message (and starts a thread if it is a request), the writer takes the next message
of that thread.
bsp-server/src/transporter.rs:16-41, 51-74, bsp-server/src/lib.rs:37-40, README.md:37-61. -/
def Acts (k : Kind) (work : Request → List Message → Prop) (i : Actor) (p q : State) : Prop :=
  match i with
  | .reader => ∃ io, Transport.Step k p.io .read io ∧ q = { p with io }
  | .writer => ∃ act io, (act = .written ∨ ∃ bs, act = .write bs) ∧ Transport.Step k p.io act io ∧ q = { p with io }
  | .receives => ∃ m io, p.main.receives = true ∧ Transport.Step k p.io (.deliver m) io ∧
      ((∃ r ms, onRecv p.main (some m) = .answering r ∧ work r ms ∧
          q = { p with io, jobs := p.jobs ++ [{ req := r, left := ms }] }) ∨
       ((∀ r, onRecv p.main (some m) ≠ .answering r) ∧ q = { p with io, main := onRecv p.main (some m) }))
  | .sends i => ∃ a b r s m l z io, p.jobs = a ++ ⟨r, s, m :: l, z⟩ :: b ∧ a.length = i ∧
      Transport.Step k p.io (.accept m) io ∧ q = { p with io, jobs := a ++ ⟨r, s ++ [m], l, z⟩ :: b }

/-- A run: from a main thread that enters the loop on a connection, step by step, with pauses.
Executions of README.md:37-61 with bsp-server/src/transporter.rs:14-80. -/
structure Run (k : Kind) (work : Request → List Message → Prop) (io : Transport.State) (s : Nat → State) : Prop where
  start : s 0 = { io := io }
  next : ∀ i, s (i + 1) = s i ∨ ∃ a, Step k work (s i) a (s (i + 1))

/-- Nobody who could act all the time never does.
Assumption about the scheduler of the operating system, under which bsp-server/src/transporter.rs:14-80 run. -/
def Scheduled (k : Kind) (work : Request → List Message → Prop) (s : Nat → State) : Prop :=
  ∀ i n, (∀ m, n ≤ m → ∃ q, Acts k work i (s m) q) → ∃ m, n ≤ m ∧ Acts k work i (s m) (s (m + 1))

/-- No thread that waits to send is passed over for ever, while the writer is ready again and again.
Assumption about the channel of bsp-server/src/transporter.rs:15, 67 (crossbeam keeps those who wait in a queue). -/
def Queued (k : Kind) (work : Request → List Message → Prop) (s : Nat → State) : Prop :=
  ∀ i n, (∀ m, n ≤ m → ∃ m', m ≤ m' ∧ ∃ q, Acts k work (.sends i) (s m') q) →
    ∃ m, n ≤ m ∧ Acts k work (.sends i) (s m) (s (m + 1))

end
end Crew
end Bsp
