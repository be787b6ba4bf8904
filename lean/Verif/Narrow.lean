/-
A chain of relays as in `Chain`, with finite buffers on each of its links as in `Flow`.
-/
import Verif.Chain
import Verif.Flow

namespace Bsp
namespace Narrow
open Transport Link
open Bridge (Who)

section
variable [Ext] [FloatText]

/-- One step of the chain that the buffers of the links let happen. Pairs of bsp-server/src/lib.rs:42-66 with
transporter.rs:14-80 and message.rs:42-49, 58-91 on both ends. -/
structure Next (c : Nat → Flow.Caps) (kc : Kind) (kl : Nat → Kind) (n : Nat) (w : Chain.World) (x : Who)
    (w' : Chain.World) : Prop where
  step : Chain.Next kc kl n w x w'
  lets : ∀ i ≤ n, Flow.Lets (c i) (w.link i) (w'.link i)

/-- The states the chain can get into. Pairs of bsp-server/src/lib.rs:42-66. -/
inductive Reachable (c : Nat → Flow.Caps) (kc : Kind) (kl : Nat → Kind) (n : Nat) : Chain.World → Prop
  | start : Reachable c kc kl n {}
  | step {w x w'} : Reachable c kc kl n w → Next c kc kl n w x w' → Reachable c kc kl n w'

/-- A sequence of steps. Executions of pairs of bsp-server/src/lib.rs:42-66. -/
inductive Steps (c : Nat → Flow.Caps) (kc : Kind) (kl : Nat → Kind) (n : Nat) :
    Chain.World → List Who → Chain.World → Prop
  | nil (w) : Steps c kc kl n w [] w
  | snoc {w xs w' x w''} : Steps c kc kl n w xs w' → Next c kc kl n w' x w'' → Steps c kc kl n w (xs ++ [x]) w''

/-- Only the client's and the server's program can do something. Pairs of bsp-server/src/lib.rs:42-66. -/
def Quiet (c : Nat → Flow.Caps) (kc : Kind) (kl : Nat → Kind) (n : Nat) (w : Chain.World) : Prop :=
  ∀ x w', Next c kc kl n w x w' → x.free = true

end
end Narrow
end Bsp
