/-
Infinite runs of workers that share a connection (`Pool`), in which requests come in for ever, and what it means that
they are scheduled fairly.
-/
import Verif.Pool

namespace Bsp
namespace Pool
open Conn Session Transport

/-- Who acts: the reader thread, the writer thread, and each worker, known by its place, in that it receives and in that
it sends.
bsp-server/src/transporter.rs:16-41, 51-74, bsp-server/src/lib.rs:37-40, README.md:37-61. -/
inductive Actor where
  | reader
  | writer
  | receives (i : Nat)
  | sends (i : Nat)
deriving DecidableEq

section
variable [Ext] [Dbg] [FloatText]

/-- The step from `p` to `q` is one of that actor: `Message::read` returns, the writer thread writes or is done with a
message, the worker at that place receives a message, the writer takes the message of the worker at that place.
bsp-server/src/transporter.rs:16-41, 51-74, bsp-server/src/lib.rs:37-40, README.md:37-61. -/
def Acts (k : Kind) (i : Actor) (p q : State) : Prop :=
  match i with
  | .reader => ∃ io, Transport.Step k p.io .read io ∧ q = { p with io }
  | .writer => ∃ act io, (act = .written ∨ ∃ bs, act = .write bs) ∧ Transport.Step k p.io act io ∧ q = { p with io }
  | .receives i => ∃ a x b m io, p.workers = a ++ x :: b ∧ a.length = i ∧ x.receives = true ∧
      Transport.Step k p.io (.deliver m) io ∧ q = ⟨io, a ++ onRecv x (some m) :: b⟩
  | .sends i => ∃ a x b m io, p.workers = a ++ x :: b ∧ a.length = i ∧ toSend x = some m ∧
      Transport.Step k p.io (.accept m) io ∧ q = ⟨io, a ++ onSent x true :: b⟩

/-- A run: from `n` workers that enter the loop on a connection, step by step, with pauses.
Executions of README.md:37-61 with bsp-server/src/transporter.rs:14-80. -/
structure Run (k : Kind) (io : Transport.State) (n : Nat) (s : Nat → State) : Prop where
  start : s 0 = Pool.start io n
  next : ∀ i, s (i + 1) = s i ∨ ∃ a, Step k (s i) a (s (i + 1))

/-- Nobody who could act all the time never does.
Assumption about the scheduler of the operating system, under which bsp-server/src/transporter.rs:14-80 run. -/
def Scheduled (k : Kind) (s : Nat → State) : Prop :=
  ∀ i n, (∀ m, n ≤ m → ∃ q, Acts k i (s m) q) → ∃ m, n ≤ m ∧ Acts k i (s m) (s (m + 1))

/-- No worker that waits to send is passed over for ever, while the writer is ready again and again.
Assumption about the channel of bsp-server/src/transporter.rs:15, 67 (crossbeam keeps those who wait in a queue). -/
def Queued (k : Kind) (s : Nat → State) : Prop :=
  ∀ i n, (∀ m, n ≤ m → ∃ m', m ≤ m' ∧ ∃ q, Acts k (.sends i) (s m') q) →
    ∃ m, n ≤ m ∧ Acts k (.sends i) (s m) (s (m + 1))

end
end Pool
end Bsp
