/-
A client with one thread and a server that receives in one thread and sends in others (`Crew`), with finite buffers
between them (`Flow`).
-/
import Verif.Crew
import Verif.Window

namespace Bsp
namespace Hall
open Transport

section
variable [Ext]

/-- The client, and the server of `Crew`. bsp-server/src/lib.rs:37-66 on both ends. -/
structure World where
  client : Link.Side
  server : Crew.State

/-- The server as one side of a connection.  Simplification: its process does not exit; it could only after the end of
its main thread (README.md:37-63). -/
def side (p : Crew.State) : Link.Side := ⟨p.io, false⟩

/-- The two sides. bsp-server/src/lib.rs:53-66 on both ends. -/
def sides (w : World) : Link.Link := ⟨w.client, side w.server⟩

/-- What can happen: to the client, or to the server. bsp-server/src/transporter.rs:14-80, README.md:37-61. -/
inductive Ev where
  | client (e : Link.Ev)
  | server (a : Pool.Act)

variable [Conn.Dbg] [FloatText]

/-- What the two can do.  The client moves as in `Link`.  The server moves as in `Crew`; what comes in from outside (bytes,
the end of the input, a failing write) is what the connection brings, as in `Link`.
bsp-server/src/transporter.rs:14-80 on both sides, README.md:37-61 on the side of the server. -/
inductive Goes (kc ks : Kind) (work : Request → List Message → Prop) : World → Ev → World → Prop
  | client {w : World} {ev c} : Link.Move kc ks w.client (side w.server) ev c →
      Goes kc ks work w (.client ev) { w with client := c }
  | server {w : World} {a p} : Crew.Step ks work w.server a p →
      (a = .peer ∨ a = .writeFails →
        ∃ act, Pool.kindOf act = some a ∧ Link.Move ks kc (side w.server) w.client (.act act) (side p)) →
      Goes kc ks work w (.server a) { w with server := p }

/-- One step: what the two can do and the buffers let happen.
README.md:37-61, bsp-server/src/transporter.rs:14-80 on both ends. -/
structure Step (c : Flow.Caps) (kc ks : Kind) (work : Request → List Message → Prop) (w : World) (a : Ev) (w' : World) :
    Prop where
  goes : Goes kc ks work w a w'
  lets : Flow.Lets c (sides w) (sides w')

/-- What a client does that has one thread and the messages of `script` to send: it sends the next one when it has decided
so, and receives when it has decided so, and when all have been sent.
bsp-server/src/lib.rs:37-40, transporter.rs:15, 24, 50, 67. -/
def Chooses (script : List Message) (sends : Flow.Policy) (w : World) : Ev → Prop
  | .client (.act (.accept m)) => w.client.io.accepted ++ [m] <+: script ∧
      sends w.client.io.accepted w.client.io.delivered = true
  | .client (.act (.deliver _)) => w.client.io.accepted = script ∨
      sends w.client.io.accepted w.client.io.delivered = false
  | _ => True

/-- A sequence of steps with such a client. Executions of README.md:37-61 with bsp-server/src/transporter.rs:14-80 on
both sides. -/
inductive Dialog (c : Flow.Caps) (kc ks : Kind) (work : Request → List Message → Prop) (script : List Message)
    (sends : Flow.Policy) : World → List Ev → World → Prop
  | nil (w) : Dialog c kc ks work script sends w [] w
  | snoc {w as v a u} : Dialog c kc ks work script sends w as v → Step c kc ks work v a u →
      Chooses script sends v a → Dialog c kc ks work script sends w (as ++ [a]) u

/-- What the client can do besides: drop its connection or exit. bsp-server/src/lib.rs:37-40. -/
def Leaves : Ev → Prop
  | .client (.act .dropRx) | .client (.act .dropTx) | .client .exit => True
  | _ => False

/-- Neither can the client do what it has decided, nor can anything else happen, but that the client drops its connection
or exits, or that the time limit passes.
Specification about README.md:37-61 with bsp-server/src/transporter.rs:14-80 on both sides. -/
def Waits (c : Flow.Caps) (kc ks : Kind) (work : Request → List Message → Prop) (script : List Message)
    (sends : Flow.Policy) (w : World) : Prop :=
  ∀ a v, Step c kc ks work w a v → Chooses script sends w a → Leaves a ∨ a = .server .timeout

end
end Hall
end Bsp
