/-
The process of a server with threads (`Crew`), from the end of the handshake to its exit, and a client with one thread
(`Flow.Policy`), connected by buffers of limited size (`Flow`).
-/
import Verif.Hall

namespace Bsp
namespace Firm
open Transport

section
variable [Ext]

/-- The process: its threads, and whether it has exited, with success or not. README.md:19-63. -/
structure Proc where
  crew : Crew.State
  exit : Option Bool := none

/-- What the process does: a step of a thread, or its exit. bsp-server/src/transporter.rs:14-80, README.md:27-33. -/
inductive Act where
  | crew (a : Pool.Act)
  | exit

variable [Conn.Dbg] [FloatText]

/-- One step.  The main thread ends the process when it returns from `main`, whatever the other threads are doing; it does so
at once if the loop has ended with an error, and else after `join`.  `conn` is moved into the loop (README.md:27, 36) and
dropped with it. README.md:27-33, 36-63. -/
inductive Step (k : Kind) (work : Request → List Message → Prop) : Proc → Act → Proc → Prop
  | run {p : Proc} {a c} : p.exit = none → Crew.Step k work p.crew a c → Step k work p (.crew a) { p with crew := c }
  /-- README.md:27: `?` -/
  | abort {p : Proc} {r} : p.exit = none → p.crew.main = .ended r → r ≠ .ok () → p.crew.io.rxAlive = false →
      Step k work p .exit { p with exit := some false }
  /-- README.md:29-33 -/
  | finish {p : Proc} : p.exit = none → p.crew.main = .ended (.ok ()) → p.crew.io.rxAlive = false →
      join k p.crew.io ≠ .waiting → Step k work p .exit { p with exit := some (decide (join k p.crew.io = .ok)) }

/-- A sequence of steps. Executions of README.md:27-63 with bsp-server/src/transporter.rs:14-80. -/
inductive Steps (k : Kind) (work : Request → List Message → Prop) : Proc → List Act → Proc → Prop
  | nil (p) : Steps k work p [] p
  | snoc {p as q a r} : Steps k work p as q → Step k work q a r → Steps k work p (as ++ [a]) r

omit [Conn.Dbg] [FloatText] in
/-- The process as one side of a connection. README.md:19-63, bsp-server/src/lib.rs:42-66. -/
def side (p : Proc) : Link.Side := ⟨p.crew.io, p.exit.isSome⟩

omit [Conn.Dbg] [FloatText] in
/-- The two processes. README.md:19-63 on one side, bsp-server/src/lib.rs:37-66 on the other. -/
structure World where
  client : Link.Side := {}
  server : Proc

omit [Conn.Dbg] [FloatText] in
/-- The two sides. bsp-server/src/lib.rs:53-66 on both ends. -/
def sides (w : World) : Link.Link := ⟨w.client, side w.server⟩

omit [Conn.Dbg] [FloatText] in
/-- What can happen: to the client, or to the server. bsp-server/src/transporter.rs:14-80, README.md:27-63. -/
inductive Ev where
  | client (e : Link.Ev)
  | server (a : Act)

/-- What the two can do, as in `Hall`. bsp-server/src/transporter.rs:14-80 on both sides, README.md:27-63 on the side of
the server. -/
inductive Goes (kc ks : Kind) (work : Request → List Message → Prop) : World → Ev → World → Prop
  | client {w : World} {ev c} : Link.Move kc ks w.client (side w.server) ev c →
      Goes kc ks work w (.client ev) { w with client := c }
  | server {w : World} {a p} : Step ks work w.server a p →
      (∀ b, a = .crew b → b = .peer ∨ b = .writeFails →
        ∃ act, Pool.kindOf act = some b ∧ Link.Move ks kc (side w.server) w.client (.act act) (side p)) →
      Goes kc ks work w (.server a) { w with server := p }

/-- One step: what the two can do and the buffers let happen.
README.md:27-63, bsp-server/src/transporter.rs:14-80 on both ends. -/
structure Moves (c : Flow.Caps) (kc ks : Kind) (work : Request → List Message → Prop) (w : World) (a : Ev) (w' : World) :
    Prop where
  goes : Goes kc ks work w a w'
  lets : Flow.Lets c (sides w) (sides w')

/-- What a client does that has one thread and the messages of `script` to send, as in `Hall`.
bsp-server/src/lib.rs:37-40, transporter.rs:15, 24, 50, 67. -/
def Chooses (script : List Message) (sends : Flow.Policy) (w : World) : Ev → Prop
  | .client (.act (.accept m)) => w.client.io.accepted ++ [m] <+: script ∧
      sends w.client.io.accepted w.client.io.delivered = true
  | .client (.act (.deliver _)) => w.client.io.accepted = script ∨
      sends w.client.io.accepted w.client.io.delivered = false
  | _ => True

/-- A sequence of steps with such a client. Executions of README.md:27-63 with bsp-server/src/transporter.rs:14-80 on
both sides. -/
inductive Dialog (c : Flow.Caps) (kc ks : Kind) (work : Request → List Message → Prop) (script : List Message)
    (sends : Flow.Policy) : World → List Ev → World → Prop
  | nil (w) : Dialog c kc ks work script sends w [] w
  | snoc {w as v a u} : Dialog c kc ks work script sends w as v → Moves c kc ks work v a u →
      Chooses script sends v a → Dialog c kc ks work script sends w (as ++ [a]) u

/-- What the client can do besides: drop its connection or exit. bsp-server/src/lib.rs:37-40. -/
def Leaves : Ev → Prop
  | .client (.act .dropRx) | .client (.act .dropTx) | .client .exit => True
  | _ => False

/-- Neither can the client do what it has decided, nor can anything else happen, but that the client drops its connection
or exits, or that the time limit passes.
Specification about README.md:27-63 with bsp-server/src/transporter.rs:14-80 on both sides. -/
def Waits (c : Flow.Caps) (kc ks : Kind) (work : Request → List Message → Prop) (script : List Message)
    (sends : Flow.Policy) (w : World) : Prop :=
  ∀ a v, Moves c kc ks work w a v → Chooses script sends w a → Leaves a ∨ a = .server (.crew .timeout)

end
end Firm
end Bsp
