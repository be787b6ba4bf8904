/-
A client with one thread, or with a thread that receives all the time, and a server whose loop runs in several worker
threads (`Pool`), with finite buffers between them (`Flow`).
-/
import Verif.Pool
import Verif.Window

namespace Bsp
namespace Desk
open Transport

section
variable [Ext]

/-- The client, and the server of `Pool`. bsp-server/src/lib.rs:37-66 on both ends. -/
structure World where
  client : Link.Side
  server : Pool.State

/-- The server as one side of a connection.  Simplification: its process does not exit; what it does after its workers have
ended is not modelled (README.md:37-63). -/
def side (p : Pool.State) : Link.Side := ⟨p.io, false⟩

/-- The two sides. bsp-server/src/lib.rs:53-66 on both ends. -/
def sides (w : World) : Link.Link := ⟨w.client, side w.server⟩

/-- What can happen: to the client, or to the server. bsp-server/src/transporter.rs:14-80, README.md:37-61. -/
inductive Ev where
  | client (e : Link.Ev)
  | server (a : Pool.Act)

variable [Conn.Dbg] [FloatText]

/-- What the two can do.  The client moves as in `Link`.  The server moves as in `Pool`; what comes in from outside (bytes,
the end of the input, a failing write) is what the connection brings, as in `Link`.
bsp-server/src/transporter.rs:14-80 on both sides, README.md:37-61 on the side of the server. -/
inductive Goes (kc ks : Kind) : World → Ev → World → Prop
  | client {w : World} {ev c} : Link.Move kc ks w.client (side w.server) ev c → Goes kc ks w (.client ev) { w with client := c }
  | server {w : World} {a p} : Pool.Step ks w.server a p →
      (a = .peer ∨ a = .writeFails →
        ∃ act, Pool.kindOf act = some a ∧ Link.Move ks kc (side w.server) w.client (.act act) (side p)) →
      Goes kc ks w (.server a) { w with server := p }

/-- One step: what the two can do and the buffers let happen.
README.md:37-61, bsp-server/src/transporter.rs:14-80 on both ends. -/
structure Step (c : Flow.Caps) (kc ks : Kind) (w : World) (a : Ev) (w' : World) : Prop where
  goes : Goes kc ks w a w'
  lets : Flow.Lets c (sides w) (sides w')

/-- A sequence of steps. Executions of README.md:37-61 with bsp-server/src/transporter.rs:14-80 on both sides. -/
inductive Steps (c : Flow.Caps) (kc ks : Kind) : World → List Ev → World → Prop
  | nil (w) : Steps c kc ks w [] w
  | snoc {w as v a u} : Steps c kc ks w as v → Step c kc ks v a u → Steps c kc ks w (as ++ [a]) u

/-- What the client can do besides: drop its connection or exit. bsp-server/src/lib.rs:37-40. -/
def Leaves : Ev → Prop
  | .client (.act .dropRx) | .client (.act .dropTx) | .client .exit => True
  | _ => False

/-- Nothing can happen any more but that the client sends, drops its connection or exits, or that the time limit passes: a
client one of whose threads receives all the time.
Specification about README.md:37-61 with bsp-server/src/transporter.rs:14-80 on both sides. -/
def Quiet (c : Flow.Caps) (kc ks : Kind) (w : World) : Prop :=
  ∀ a v, Step c kc ks w a v → (∃ m, a = .client (.act (.accept m))) ∨ Leaves a ∨ a = .server .timeout

/-- What a client does that has one thread and the messages of `script` to send: it sends the next one when it has decided
so, and receives when it has decided so, and when all have been sent.
bsp-server/src/lib.rs:37-40, transporter.rs:15, 24, 50, 67. -/
def Chooses (script : List Message) (sends : Flow.Policy) (w : World) : Ev → Prop
  | .client (.act (.accept m)) => w.client.io.accepted ++ [m] <+: script ∧
      sends w.client.io.accepted w.client.io.delivered = true
  | .client (.act (.deliver _)) => w.client.io.accepted = script ∨
      sends w.client.io.accepted w.client.io.delivered = false
  | _ => True

/-- A sequence of steps with such a client. Executions of README.md:37-61 with bsp-server/src/transporter.rs:14-80 on
both sides. -/
inductive Dialog (c : Flow.Caps) (kc ks : Kind) (script : List Message) (sends : Flow.Policy) :
    World → List Ev → World → Prop
  | nil (w) : Dialog c kc ks script sends w [] w
  | snoc {w as v a u} : Dialog c kc ks script sends w as v → Step c kc ks v a u → Chooses script sends v a →
      Dialog c kc ks script sends w (as ++ [a]) u

/-- Neither can the client do what it has decided, nor can anything else happen, but that the client drops its connection
or exits, or that the time limit passes.
Specification about README.md:37-61 with bsp-server/src/transporter.rs:14-80 on both sides. -/
def Waits (c : Flow.Caps) (kc ks : Kind) (script : List Message) (sends : Flow.Policy) (w : World) : Prop :=
  ∀ a v, Step c kc ks w a v → Chooses script sends w a → Leaves a ∨ a = .server .timeout

end
end Desk
end Bsp
