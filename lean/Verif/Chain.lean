/-
A chain of relays: each of them is a program as in `Bridge`, between a client and a server that use the library too.
-/
import Verif.Bridge

namespace Bsp
namespace Chain
open Transport Link
open Bridge (Hand Who)

section
variable [Ext]

/-- The client is `(link 0).a`, the server `(link n).b`; relay `i` has the connections `(link i).b` and `(link (i+1)).a`, and
the two threads `up i` and `down i`. Pairs of bsp-server/src/lib.rs:42-66. -/
structure World where
  link : Nat → Link := fun _ => {}
  up : Nat → Hand := fun _ => .waiting
  down : Nat → Hand := fun _ => .waiting

/-- What there is around relay `i`. Two pairs of bsp-server/src/lib.rs:42-66. -/
def World.around (w : World) (i : Nat) : Bridge.World := ⟨w.link i, w.link (i + 1), w.up i, w.down i⟩

/-- The same after something has happened there. Two pairs of bsp-server/src/lib.rs:42-66. -/
def World.put (w : World) (i : Nat) (b : Bridge.World) : World where
  link := fun j => if j = i then b.left else if j = i + 1 then b.right else w.link j
  up := fun j => if j = i then b.up else w.up j
  down := fun j => if j = i then b.down else w.down j

/-- The same with another link `i`. One pair of bsp-server/src/lib.rs:42-66. -/
def World.set (w : World) (i : Nat) (l : Link) : World := { w with link := fun j => if j = i then l else w.link j }

/-- The two ends of the chain. bsp-server/src/lib.rs:42-66. -/
def World.ends (w : World) (n : Nat) : Bridge.World := { left := w.link 0, right := w.link n }

/-- How the left side of link `i` is connected: the client as it likes, every relay with `connect`.
bsp-server/src/lib.rs:46-57. -/
def near (kc : Kind) : Nat → Kind
  | 0 => kc
  | _ + 1 => .socket

variable [FloatText]

/-- One step: of the client or its connection, of the server or its connection, or of one of the `n` relays (what `Bridge`
says of one). `kl i` is how the right side of link `i` is connected. Pairs of bsp-server/src/lib.rs:42-66. -/
inductive Next (kc : Kind) (kl : Nat → Kind) (n : Nat) : World → Who → World → Prop
  | client {w ev a} : Move kc (kl 0) (w.link 0).a (w.link 0).b ev a →
      Next kc kl n w (.client ev) (w.set 0 { w.link 0 with a })
  | server {w ev b} : Move (kl n) (near kc n) (w.link n).b (w.link n).a ev b →
      Next kc kl n w (.server ev) (w.set n { w.link n with b })
  | relay {w i b} : i < n → Bridge.Next (near kc i) (kl i) (kl (i + 1)) (w.around i) .relay b →
      Next kc kl n w .relay (w.put i b)

/-- The states they can get into. Pairs of bsp-server/src/lib.rs:42-66. -/
inductive Reachable (kc : Kind) (kl : Nat → Kind) (n : Nat) : World → Prop
  | start : Reachable kc kl n {}
  | step {w x w'} : Reachable kc kl n w → Next kc kl n w x w' → Reachable kc kl n w'

/-- Only the client's and the server's program can do something. Pairs of bsp-server/src/lib.rs:42-66. -/
def Quiet (kc : Kind) (kl : Nat → Kind) (n : Nat) (w : World) : Prop := ∀ x w', Next kc kl n w x w' → x.free = true

end
end Chain
end Bsp
