/-
The server of README.md:14-63 and a client that uses this library too, connected to each other: `Session` at one end of
a `Link`, any application at the other.
-/
import Verif.Session
import Verif.Link

namespace Bsp
namespace EndToEnd
open Transport

section
variable [Ext]

/-- The server process as one side of a connection. README.md:14-63, bsp-server/src/lib.rs:42-66. -/
def side (p : Session.Proc) : Link.Side := ⟨p.io, p.exit.isSome⟩

/-- The two processes. README.md:14-63 on one side, bsp-server/src/lib.rs:37-66 on the other. -/
structure World where
  client : Link.Side := {}
  server : Session.Proc := {}

/-- What can happen: to the client, or to the server. bsp-server/src/transporter.rs:14-80, README.md:14-63. -/
inductive Ev where
  | client (e : Link.Ev)
  | server (a : Session.Act)

/-- What is up to the application of the client, or to the clock. bsp-server/src/lib.rs:37-40, 183. -/
def Ev.free : Ev → Bool
  | .client e => e.app
  | .server .timeout => true
  | .server _ => false

variable [Conn.Dbg] [FloatText]

/-- One step.  The client moves as in `Link`.  The server moves as in `Session`; what comes in from outside (bytes, the
end of the input, a failing write) is what the connection brings, as in `Link`.
bsp-server/src/transporter.rs:14-80 on both sides, README.md:14-63 on the side of the server. -/
inductive Step (kc ks : Kind) (process : InitializeBuild → Option Value) : World → Ev → World → Prop
  | client {w : World} {ev c} : Link.Move kc ks w.client (side w.server) ev c →
      Step kc ks process w (.client ev) { w with client := c }
  | server {w : World} {a p} : Session.Step ks process w.server a p →
      (a = .peer ∨ a = .writeFails →
        ∃ act, Session.kindOf act = some a ∧ Link.Move ks kc (side w.server) w.client (.act act) (side p)) →
      Step kc ks process w (.server a) { w with server := p }

/-- A sequence of steps. Executions of README.md:14-63 with bsp-server/src/transporter.rs:14-80 on both sides. -/
inductive Steps (kc ks : Kind) (process : InitializeBuild → Option Value) : World → List Ev → World → Prop
  | nil (w) : Steps kc ks process w [] w
  | snoc {w as v a u} : Steps kc ks process w as v → Step kc ks process v a u → Steps kc ks process w (as ++ [a]) u

/-- Nothing can happen any more but by the application of the client or by the passing of the time limit.
Specification about README.md:14-63 with bsp-server/src/transporter.rs:14-80 on both sides. -/
def Quiet (kc ks : Kind) (process : InitializeBuild → Option Value) (w : World) : Prop :=
  ∀ a v, Step kc ks process w a v → a.free = true

end
end EndToEnd
end Bsp
