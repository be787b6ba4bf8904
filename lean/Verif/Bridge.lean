/-
A relay: a program with two connections of this library that passes on, in each direction, what it receives
(the fields `sender` and `receiver` of bsp-server/src/lib.rs:37-40 are public, and what has been received can be sent),
between a client and a server that use the library too.
-/
import Verif.Link

namespace Bsp
namespace Bridge
open Transport Link

section
variable [Ext]

/-- Where a thread `for m in receiver { if sender.send(m).is_err() { break } }` of the relay is: in `recv`; in `send`;
after the loop, when it drops the two handles and ends. A user of bsp-server/src/lib.rs:37-40. -/
inductive Hand where
  | waiting
  | holding (m : Message)
  | ended

/-- What the thread has in its hand. A user of bsp-server/src/lib.rs:37-40. -/
def Hand.held : Hand → List Message
  | .holding m => [m]
  | _ => []

/-- The client (`left.a`) with the relay's first connection (`left.b`), the relay's second connection (`right.a`)
with the server (`right.b`), and the two threads of the relay.  The client and the server do what they like.
Two pairs of bsp-server/src/lib.rs:42-66. -/
structure World where
  left : Link := {}
  right : Link := {}
  up : Hand := .waiting
  down : Hand := .waiting

/-- The relay has not exited. A user of bsp-server/src/lib.rs:42-66. -/
def World.awake (w : World) : Prop := w.left.b.gone = false ∧ w.right.a.gone = false

variable [FloatText]

/-- One step of a thread of the relay that receives from `s` and sends to `d`: a rendezvous with the reader thread of `s`
(transporter.rs:34, 55), the end of the iterator when that thread has ended (40, 60), a rendezvous with the writer thread
of `d` (20, 70), a `send` that fails since that thread has ended (22, 73), and the two drops after the loop.
A user of bsp-server/src/lib.rs:37-40. -/
inductive Carry (ks kd : Kind) : Side → Hand → Side → Side → Hand → Side → Prop
  | recv {s d m io} : Step ks s.io (.deliver m) io → Carry ks kd s .waiting d { s with io } (.holding m) d
  | closed {s d} : s.io.reader.ended = true → Carry ks kd s .waiting d s .ended d
  | send {s d m io} : Step kd d.io (.accept m) io → Carry ks kd s (.holding m) d s .waiting { d with io }
  | unsent {s d m} : d.io.writer.ended = true → Carry ks kd s (.holding m) d s .ended d
  | dropRx {s d} : s.io.rxAlive = true →
      Carry ks kd s .ended d { s with io := { s.io with rxAlive := false } } .ended d
  | dropTx {s d} : d.io.txAlive = true →
      Carry ks kd s .ended d s .ended { d with io := { d.io with txAlive := false } }

/-- Whose step it is. The parties of bsp-server/src/lib.rs:42-66. -/
inductive Who where
  | client (ev : Ev)
  | server (ev : Ev)
  | relay

omit [Ext] [FloatText] in
/-- The steps that are up to the client's and the server's program. bsp-server/src/lib.rs:37-40. -/
def Who.free [Ext] : Who → Bool
  | .client ev => ev.app
  | .server ev => ev.app
  | .relay => false

/-- One step: of the client or its connection, of the server or its connection, of the I/O threads of the relay and the
network (`near`, `far`), of its two own threads; and its exit, after it has joined its own threads and then the I/O threads of
the first connection and (if that was Ok) those of the second one (io_thread.rs:17-32).
Two pairs of bsp-server/src/lib.rs:42-66; the relay's second connection is made with `connect` (53-57), the
first one in any way. -/
inductive Next (kc kl ks : Kind) : World → Who → World → Prop
  | client {w ev a} : Move kc kl w.left.a w.left.b ev a → Next kc kl ks w (.client ev) { w with left := { w.left with a } }
  | server {w ev b} : Move ks .socket w.right.b w.right.a ev b →
      Next kc kl ks w (.server ev) { w with right := { w.right with b } }
  | near {w act b} : Move kl kc w.left.b w.left.a (.act act) b → Ev.app (.act act) = false → (∀ m, act ≠ .deliver m) →
      Next kc kl ks w .relay { w with left := { w.left with b } }
  | far {w act a} : Move .socket ks w.right.a w.right.b (.act act) a → Ev.app (.act act) = false →
      (∀ m, act ≠ .deliver m) → Next kc kl ks w .relay { w with right := { w.right with a } }
  | up {w b h a} : w.awake → Carry kl .socket w.left.b w.up w.right.a b h a →
      Next kc kl ks w .relay { w with left := { w.left with b }, right := { w.right with a }, up := h }
  | down {w b h a} : w.awake → Carry .socket kl w.right.a w.down w.left.b a h b →
      Next kc kl ks w .relay { w with left := { w.left with b }, right := { w.right with a }, down := h }
  | finish {w} : w.awake → w.up = .ended → w.down = .ended →
      w.left.b.io.rxAlive = false → w.left.b.io.txAlive = false → w.right.a.io.rxAlive = false → w.right.a.io.txAlive = false →
      join kl w.left.b.io ≠ .waiting → (join kl w.left.b.io = .ok → join .socket w.right.a.io ≠ .waiting) →
      Next kc kl ks w .relay { w with left := { w.left with b := { w.left.b with gone := true } },
                                      right := { w.right with a := { w.right.a with gone := true } } }

/-- The states they can get into. Two pairs of bsp-server/src/lib.rs:42-66. -/
inductive Reachable (kc kl ks : Kind) : World → Prop
  | start : Reachable kc kl ks {}
  | step {w x w'} : Reachable kc kl ks w → Next kc kl ks w x w' → Reachable kc kl ks w'

/-- Only the client's and the server's program can do something. Two pairs of bsp-server/src/lib.rs:42-66. -/
def Quiet (kc kl ks : Kind) (w : World) : Prop := ∀ x w', Next kc kl ks w x w' → x.free = true

end
end Bridge
end Bsp
