/-
Clients with one thread, which either send or receive: as in `Flow`, but the client may receive between its sends, as it
decides from what it has sent and received so far.
-/
import Verif.Flow

namespace Bsp
namespace Flow
open Transport
open EndToEnd (World Ev)

section
variable [Ext]

/-- Whether the client goes on to send the next of its messages, or else to receive: it decides from what it has sent and
what it has received so far, and then waits in the call of `send` or `recv` on the channel of its connection until that
returns. bsp-server/src/lib.rs:37-40, transporter.rs:15, 24, 50, 67. -/
abbrev Policy := List Message → List Message → Bool

/-- What such a client does that has to send the messages of `script`: it sends the next one when it has decided so, and
receives when it has decided so, and when all have been sent.
bsp-server/src/lib.rs:37-40, transporter.rs:15, 24, 50, 67. -/
def Chooses (script : List Message) (sends : Policy) (w : World) : Ev → Prop
  | .client (.act (.accept m)) => w.client.io.accepted ++ [m] <+: script ∧
      sends w.client.io.accepted w.client.io.delivered = true
  | .client (.act (.deliver _)) => w.client.io.accepted = script ∨
      sends w.client.io.accepted w.client.io.delivered = false
  | _ => True

variable [Conn.Dbg] [FloatText]

/-- A sequence of steps with such a client. Executions of README.md:14-63 with bsp-server/src/transporter.rs:14-80 on
both sides. -/
inductive Dialog (c : Caps) (kc ks : Kind) (process : InitializeBuild → Option Value) (script : List Message)
    (sends : Policy) : World → List Ev → World → Prop
  | nil (w) : Dialog c kc ks process script sends w [] w
  | snoc {w as v a u} : Dialog c kc ks process script sends w as v → Step c kc ks process v a u →
      Chooses script sends v a → Dialog c kc ks process script sends w (as ++ [a]) u

/-- Neither can the client do what it has decided, nor can anything else happen, but that the client drops its connection
or exits, or that the time limit passes.
Specification about README.md:14-63 with bsp-server/src/transporter.rs:14-80 on both sides. -/
def Waits (c : Caps) (kc ks : Kind) (process : InitializeBuild → Option Value) (script : List Message) (sends : Policy)
    (w : World) : Prop :=
  ∀ a v, Step c kc ks process w a v → Chooses script sends w a →
    a = .server .timeout ∨ a = .client (.act .dropRx) ∨ a = .client (.act .dropTx) ∨ a = .client .exit

end
end Flow
end Bsp
