/-
Infinite runs of a client and the server with finite buffers (`Flow`), in which the client may go on sending for ever, and
what it means that they are scheduled fairly.
-/
import Verif.Flow

namespace Bsp
namespace Fair
open Transport
open EndToEnd (World Ev)

/-- Who acts: on each side the reader thread, the writer thread, the operating system that hands over what has come in,
and the application (the client's in that it receives).
bsp-server/src/transporter.rs:16-41, 51-74 on both sides, bsp-server/src/lib.rs:37-40, README.md:25-62. -/
inductive Actor where
  | clientReader
  | clientWriter
  | clientInput
  | clientReceives
  | serverReader
  | serverWriter
  | serverInput
  | serverMain
deriving DecidableEq

section
variable [Ext] [Conn.Dbg] [FloatText]

/-- A step of the connection of the server of that kind. bsp-server/src/transporter.rs:16-41, 51-74. -/
def ServerIo (ks : Kind) (P : Transport.Act → Prop) (w w' : World) : Prop :=
  ∃ act io, P act ∧ Transport.Step ks w.server.io act io ∧ w' = { w with server := { w.server with io } }

/-- The step from `w` to `w'` is one of that actor: `Message::read` returns, the writer thread writes or is done with a
message, bytes arrive, a message is received, the main thread of the server receives or sends.
bsp-server/src/transporter.rs:16-41, 51-74 on both sides, bsp-server/src/lib.rs:37-40, README.md:25-62. -/
def Acts (c : Flow.Caps) (kc ks : Kind) (process : InitializeBuild → Option Value) (i : Actor) (w w' : World) : Prop :=
  match i with
  | .clientReader => Flow.Step c kc ks process w (.client (.act .read)) w'
  | .clientWriter => ∃ act, (act = .written ∨ ∃ bs, act = .write bs) ∧
      Flow.Step c kc ks process w (.client (.act act)) w'
  | .clientInput => ∃ bs, Flow.Step c kc ks process w (.client (.act (.arrive bs))) w'
  | .clientReceives => ∃ m, Flow.Step c kc ks process w (.client (.act (.deliver m))) w'
  | .serverReader => Flow.Step c kc ks process w (.server .thread) w' ∧ ServerIo ks (· = .read) w w'
  | .serverWriter => Flow.Step c kc ks process w (.server .thread) w' ∧
      ServerIo ks (fun act => act = .written ∨ ∃ bs, act = .write bs) w w'
  | .serverInput => Flow.Step c kc ks process w (.server .peer) w' ∧
      ServerIo ks (fun act => ∃ bs, bs ≠ [] ∧ act = .arrive bs) w w'
  | .serverMain => Flow.Step c kc ks process w (.server .main) w'

/-- A run: from the start, step by step, with pauses (a run that comes to an end pauses for ever).
Executions of README.md:14-63 with bsp-server/src/transporter.rs:14-80 on both sides. -/
structure Run (c : Flow.Caps) (kc ks : Kind) (process : InitializeBuild → Option Value) (s : Nat → World) : Prop where
  start : s 0 = {}
  next : ∀ n, s (n + 1) = s n ∨ ∃ a, Flow.Step c kc ks process (s n) a (s (n + 1))

/-- Nobody who could act all the time never does.
Assumption about the scheduler of the operating system, under which bsp-server/src/transporter.rs:14-80 run. -/
def Scheduled (c : Flow.Caps) (kc ks : Kind) (process : InitializeBuild → Option Value) (s : Nat → World) : Prop :=
  ∀ i n, (∀ m, n ≤ m → ∃ w, Acts c kc ks process i (s m) w) → ∃ m, n ≤ m ∧ Acts c kc ks process i (s m) (s (m + 1))

end
end Fair
end Bsp
