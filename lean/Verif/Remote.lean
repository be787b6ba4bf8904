/-
The server of README.md:14-63 at the end of a chain of relays, with a client that uses this library at the other end.
-/
import Verif.Chain
import Verif.EndToEnd

namespace Bsp
namespace Remote
open Transport
open EndToEnd (side)

section
variable [Ext]

/-- The chain, and the server that is at its end: `(chain.link n).b` is its side of the last connection.
README.md:14-63, bsp-server/src/lib.rs:37-66. -/
structure World where
  chain : Chain.World := {}
  server : Session.Proc := {}

/-- What can happen: to the client, to a relay, or to the server. bsp-server/src/transporter.rs:14-80, README.md:14-63. -/
inductive Ev where
  | client (e : Link.Ev)
  | relay
  | server (a : Session.Act)

/-- What is up to the application of the client, or to the clock. bsp-server/src/lib.rs:37-40, 183. -/
def Ev.free : Ev → Bool
  | .client e => e.app
  | .server .timeout => true
  | _ => false

variable [Conn.Dbg] [FloatText]

/-- One step.  The client and the `n` relays move as in `Chain`.  The server moves as in `Session`; what comes in from
outside (bytes, the end of the input, a failing write) is what the last connection brings, as in `EndToEnd`.
bsp-server/src/transporter.rs:14-80 everywhere, README.md:14-63 in the server. -/
inductive Step (kc : Kind) (kl : Nat → Kind) (n : Nat) (process : InitializeBuild → Option Value) :
    World → Ev → World → Prop
  | client {w : World} {ev c} : Chain.Next kc kl n w.chain (.client ev) c →
      Step kc kl n process w (.client ev) { w with chain := c }
  | relay {w : World} {c} : Chain.Next kc kl n w.chain .relay c → Step kc kl n process w .relay { w with chain := c }
  | server {w : World} {a p} : Session.Step (kl n) process w.server a p →
      (a = .peer ∨ a = .writeFails → ∃ act, Session.kindOf act = some a ∧
        Link.Move (kl n) (Chain.near kc n) (side w.server) (w.chain.link n).a (.act act) (side p)) →
      Step kc kl n process w (.server a) ⟨w.chain.set n { w.chain.link n with b := side p }, p⟩

/-- A sequence of steps. Executions of README.md:14-63 with bsp-server/src/transporter.rs:14-80 in `n + 2` processes. -/
inductive Steps (kc : Kind) (kl : Nat → Kind) (n : Nat) (process : InitializeBuild → Option Value) :
    World → List Ev → World → Prop
  | nil (w) : Steps kc kl n process w [] w
  | snoc {w as v a u} : Steps kc kl n process w as v → Step kc kl n process v a u →
      Steps kc kl n process w (as ++ [a]) u

/-- Nothing can happen any more but by the application of the client or by the passing of the time limit.
Specification about README.md:14-63 with bsp-server/src/transporter.rs:14-80. -/
def Quiet (kc : Kind) (kl : Nat → Kind) (n : Nat) (process : InitializeBuild → Option Value) (w : World) : Prop :=
  ∀ a v, Step kc kl n process w a v → a.free = true

end
end Remote
end Bsp
