/-
The server of README.md:14-63 at the end of a chain of relays as in `Remote`, with finite buffers on each connection as in
`Narrow`.
-/
import Verif.Remote
import Verif.Narrow

namespace Bsp
namespace Reach
open Transport
open Remote (World Ev)

section
variable [Ext] [Conn.Dbg] [FloatText]

/-- One step that the buffers of the connections let happen. bsp-server/src/transporter.rs:14-80 and message.rs:42-49, 58-91
everywhere, README.md:14-63 in the server. -/
structure Step (c : Nat → Flow.Caps) (kc : Kind) (kl : Nat → Kind) (n : Nat) (process : InitializeBuild → Option Value)
    (w : World) (a : Ev) (w' : World) : Prop where
  step : Remote.Step kc kl n process w a w'
  lets : ∀ i ≤ n, Flow.Lets (c i) (w.chain.link i) (w'.chain.link i)

/-- A sequence of steps. Executions of README.md:14-63 with bsp-server/src/transporter.rs:14-80 in `n + 2` processes. -/
inductive Steps (c : Nat → Flow.Caps) (kc : Kind) (kl : Nat → Kind) (n : Nat) (process : InitializeBuild → Option Value) :
    World → List Ev → World → Prop
  | nil (w) : Steps c kc kl n process w [] w
  | snoc {w as v a u} : Steps c kc kl n process w as v → Step c kc kl n process v a u →
      Steps c kc kl n process w (as ++ [a]) u

/-- Nothing can happen any more but by the application of the client or by the passing of the time limit.
Specification about README.md:14-63 with bsp-server/src/transporter.rs:14-80. -/
def Quiet (c : Nat → Flow.Caps) (kc : Kind) (kl : Nat → Kind) (n : Nat) (process : InitializeBuild → Option Value)
    (w : World) : Prop :=
  ∀ a v, Step c kc kl n process w a v → a.free = true

end
end Reach
end Bsp
