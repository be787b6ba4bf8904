/-
Finite buffers: two connected processes as in `Link` and `EndToEnd`, where the operating system keeps only so many
bytes that are on their way.  A writer that finds the buffer full waits; a reader thread takes bytes only while it is in
`Message::read`, and not while it waits for the application to receive.
-/
import Verif.EndToEnd

namespace Bsp
namespace Flow
open Transport

section
variable [Ext]

/-- How many bytes are kept in each direction from the `write_all` of one side (bsp-server/src/message.rs:46) until the
other side takes them (message.rs:68, 88).  The numbers are those of the operating system; nothing is supposed of them here. -/
structure Caps where
  toRight : Nat
  toLeft : Nat

variable [FloatText]

/-- The reader thread is in a call that reads the stream: `Message::read` needs more than what it has got so far.
bsp-server/src/transporter.rs:28, 53, message.rs:58-91. -/
def Asks (s : State) : Prop := s.reader = .reading ∧ ∀ r, ¬ Settled s r

/-- What finite buffers let happen: bytes are written only if there is room for them, and are taken from the buffer only
by a reader thread that asks for them (as many as there are or fewer, as `BufReader` and `read` may do).
bsp-server/src/message.rs:42-49, 58-91, transporter.rs:17-41, 48-74. -/
structure Lets (c : Caps) (l l' : Link.Link) : Prop where
  right : l'.a.io.out = l.a.io.out ∨ l'.a.io.out.length ≤ l.b.io.arrived.length + c.toRight
  left : l'.b.io.out = l.b.io.out ∨ l'.b.io.out.length ≤ l.a.io.arrived.length + c.toLeft
  takesA : l'.a.io.arrived = l.a.io.arrived ∨ Asks l.a.io
  takesB : l'.b.io.arrived = l.b.io.arrived ∨ Asks l.b.io

/-- The states two connected processes can get into. bsp-server/src/transporter.rs:14-80 on both ends. -/
inductive Reachable (c : Caps) (ka kb : Kind) : Link.Link → Prop
  | start : Reachable c ka kb {}
  | step {l ev l'} : Reachable c ka kb l → Link.LinkStep ka kb l ev l' → Lets c l l' → Reachable c ka kb l'

end

section
variable [Ext] [Conn.Dbg] [FloatText]
open EndToEnd (World Ev)

/-- The client and the server as the two sides. bsp-server/src/lib.rs:53-66 on both ends. -/
def sides (w : World) : Link.Link := ⟨w.client, EndToEnd.side w.server⟩

/-- One step of a client and the server. README.md:14-63, bsp-server/src/transporter.rs:14-80 on both ends. -/
structure Step (c : Caps) (kc ks : Kind) (process : InitializeBuild → Option Value) (w : World) (a : Ev) (w' : World) :
    Prop where
  step : EndToEnd.Step kc ks process w a w'
  lets : Lets c (sides w) (sides w')

/-- A sequence of steps. Executions of README.md:14-63 with bsp-server/src/transporter.rs:14-80 on both sides. -/
inductive Steps (c : Caps) (kc ks : Kind) (process : InitializeBuild → Option Value) : World → List Ev → World → Prop
  | nil (w) : Steps c kc ks process w [] w
  | snoc {w as v a u} : Steps c kc ks process w as v → Step c kc ks process v a u →
      Steps c kc ks process w (as ++ [a]) u

/-- Nothing can happen any more but by the application of the client or by the passing of the time limit.
Specification about README.md:14-63 with bsp-server/src/transporter.rs:14-80 on both sides. -/
def Quiet (c : Caps) (kc ks : Kind) (process : InitializeBuild → Option Value) (w : World) : Prop :=
  ∀ a v, Step c kc ks process w a v → a.free = true

/-- What a client with one thread does that first sends the messages of `script`, one after the other, and then
receives: it sends the next one of them, and receives only when all have been sent (`send` on a `bounded(0)` channel
returns when the writer thread has taken the message).
bsp-server/src/lib.rs:37-40, transporter.rs:15, 24, 50, 67. -/
def Turn (script : List Message) (w : World) : Ev → Prop
  | .client (.act (.accept m)) => w.client.io.accepted ++ [m] <+: script
  | .client (.act (.deliver _)) => w.client.io.accepted = script
  | _ => True

/-- A sequence of steps with such a client. Executions of README.md:14-63 with bsp-server/src/transporter.rs:14-80 on
both sides. -/
inductive Turns (c : Caps) (kc ks : Kind) (process : InitializeBuild → Option Value) (script : List Message) :
    World → List Ev → World → Prop
  | nil (w) : Turns c kc ks process script w [] w
  | snoc {w as v a u} : Turns c kc ks process script w as v → Step c kc ks process v a u → Turn script v a →
      Turns c kc ks process script w (as ++ [a]) u

/-- Neither can the client send the next message, nor receive when it is its turn, nor can anything else happen, but that
the client drops its connection or exits, or that the time limit passes.
Specification about README.md:14-63 with bsp-server/src/transporter.rs:14-80 on both sides. -/
def Stuck (c : Caps) (kc ks : Kind) (process : InitializeBuild → Option Value) (script : List Message) (w : World) :
    Prop :=
  ∀ a v, Step c kc ks process w a v → Turn script w a →
    a = .server .timeout ∨ a = .client (.act .dropRx) ∨ a = .client (.act .dropTx) ∨ a = .client .exit

end
end Flow
end Bsp
