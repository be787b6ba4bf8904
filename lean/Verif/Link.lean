/-
Setting up and taking down a connection: `Connection::stdio`, `connect` and `listen`
(bsp-server/src/lib.rs:42-66), and two processes that use this library on the two ends of a
connection, with the end of one side seen by the other.
-/
import Verif.Transport

namespace Bsp
namespace Link
open Frame Transport

/-! ### Setting up -/

/-- Who holds a descriptor of the connected socket: `main` during the setup, the two threads after it.
bsp-server/src/transporter.rs:49, 52, 66, 71. -/
inductive Owner where
  | main
  | reader
  | writer
deriving Repr, DecidableEq

/-- What is open and running in the process: the descriptors of the connected socket, whether the
listening socket is open, and the threads that have been started.
bsp-server/src/lib.rs:53-66, transporter.rs:47-80. -/
structure World where
  fds : List Owner := []
  listening : Bool := false
  threads : List Owner := []
deriving Repr, DecidableEq

/-- How a call ends: with a connection, with an `Err`, or in a panic.
bsp-server/src/lib.rs:46, 53, 61. -/
inductive Outcome (ε : Type) where
  | ok (threads : Owner × Owner)
  | err (e : ε)
  | panic
deriving Repr, DecidableEq

/-- The answers of the operating system: to `TcpStream::connect` (lib.rs:54), `TcpListener::bind` (62),
`accept` (63), and the two calls of `try_clone` (transporter.rs:49, 66).  That a thread cannot be started
(`thread::spawn` panics) is not modelled. -/
structure Os (ε : Type) where
  connect : Option ε
  bind : Option ε
  accept : Option ε
  clone1 : Bool
  clone2 : Bool

/-- `drop` of one descriptor held by `main`. bsp-server/src/transporter.rs:80 (and when unwinding). -/
def World.drop (w : World) : World := { w with fds := w.fds.erase .main }

/-- `try_clone`: one more descriptor. bsp-server/src/transporter.rs:49, 66. -/
def World.clone (w : World) : World := { w with fds := .main :: w.fds }

/-- `thread::spawn(move || ..)`: the thread takes over a descriptor.
bsp-server/src/transporter.rs:51-61, 68-74. -/
def World.spawn (o : Owner) (w : World) : World :=
  { w with fds := w.fds.erase .main ++ [o], threads := w.threads ++ [o] }

/-- `Transporter::socket(stream)`: transporter.rs:47-80.  `stream` is dropped in the end, or when unwinding
from an `unwrap` of a failed `try_clone`. `IoThreads::new` (io_thread.rs:10-15) keeps the handles in the
order reader, writer. -/
def socket {ε : Type} (os : Os ε) (w : World) : Outcome ε × World :=
  if os.clone1 then
    let w := w.clone.spawn .reader
    if os.clone2 then
      let w := w.clone.spawn .writer
      (.ok (.reader, .writer), w.drop)
    else (.panic, w.drop)
  else (.panic, w.drop)

/-- `Connection::connect`: lib.rs:53-57. -/
def connect {ε : Type} (os : Os ε) (w : World) : Outcome ε × World :=
  match os.connect with
  | some e => (.err e, w)
  | none => socket os { w with fds := .main :: w.fds }

/-- `Connection::listen`: lib.rs:61-66.  `listener` is dropped when the function returns. -/
def listen {ε : Type} (os : Os ε) (w : World) : Outcome ε × World :=
  match os.bind with
  | some e => (.err e, w)
  | none =>
    let w := { w with listening := true }
    match os.accept with
    | some e => (.err e, { w with listening := false })
    | none =>
      let r := socket os { w with fds := .main :: w.fds }
      (r.1, { r.2 with listening := false })

/-- `Connection::stdio`: lib.rs:46-49, transporter.rs:14-44: there is nothing that can fail; the threads use
the standard streams of the process, which stay open as long as the process. -/
def stdio {ε : Type} (w : World) : Outcome ε × World :=
  (.ok (.reader, .writer), { w with threads := w.threads ++ [.writer, .reader] })

/-! ### Two processes -/

section
variable [Ext]

/-- One process with its connection; `gone` when the process has exited.
bsp-server/src/lib.rs:42-66, README.md:14-63. -/
structure Side where
  io : State := {}
  gone : Bool := false

/-- Whether the descriptors of this side are closed: the two threads have one each
(transporter.rs:49, 66) and drop it when they end; nobody else has one (C93). The standard streams
(transporter.rs:17, 26) are open until the process exits. -/
def Side.closed (k : Kind) (x : Side) : Bool :=
  x.gone || (k == .socket && x.io.reader.ended && x.io.writer.ended)

/-- What can happen to one side: an action of `Transport`, or the exit of the process.
bsp-server/src/transporter.rs:14-80, README.md:14-63. -/
inductive Ev where
  | act (a : Act)
  | exit

/-- What is up to the application: to send, to drop its ends of the channels, to exit.
bsp-server/src/lib.rs:37-40, README.md:14-63. -/
def Ev.app : Ev → Bool
  | .act (.accept _) | .act .dropRx | .act .dropTx | .exit => true
  | _ => false

variable [FloatText]

/-- One step of the side `x`, the other side being `y`.  `own`: what the threads and the application do by
themselves.  `arrive`: bytes that the other side has written arrive.  `fin`: the other side is closed and
all its bytes have arrived.  `reset`: a TCP socket that is closed with bytes not read, or that gets bytes
after it is closed, resets the connection.  `fails`: writing to a connection whose other side is closed
fails, as long as there is something to write (message.rs:46-47: the flush of a TCP socket does nothing, and the flush of
the standard output writes what is left in its buffer, so that neither fails when all has been written).
Failures of the network itself are not modelled.
bsp-server/src/transporter.rs:14-80. -/
inductive Move (k k' : Kind) : Side → Side → Ev → Side → Prop
  | own {x y act io} : x.gone = false → Step k x.io act io → (∀ bs, act ≠ .arrive bs) →
      (∀ b, act ≠ .hangUp b) → act ≠ .writeFails → Move k k' x y (.act act) { x with io }
  | arrive {x y bs io} : x.gone = false → bs ≠ [] → x.io.arrived ++ bs <+: y.io.out →
      Step k x.io (.arrive bs) io → Move k k' x y (.act (.arrive bs)) { x with io }
  | fin {x y io} : x.gone = false → y.closed k' = true → x.io.arrived = y.io.out →
      Step k x.io (.hangUp false) io → Move k k' x y (.act (.hangUp false)) { x with io }
  | reset {x y io} : x.gone = false → y.closed k' = true → k = .socket →
      (y.io.unread ≠ [] ∨ y.io.arrived ≠ x.io.out) →
      Step k x.io (.hangUp true) io → Move k k' x y (.act (.hangUp true)) { x with io }
  | fails {x y r io} : x.gone = false → y.closed k' = true → x.io.writer = .writing r →
      r ≠ [] → Step k x.io .writeFails io →
      Move k k' x y (.act .writeFails) { x with io }
  | exit {x y} : x.gone = false → Move k k' x y .exit { x with gone := true }

end

section
variable [Ext]

/-- Two processes connected to each other. bsp-server/src/lib.rs:53-66 on both ends. -/
structure Link where
  a : Side := {}
  b : Side := {}

variable [FloatText]

/-- A step of one of the two sides. bsp-server/src/transporter.rs:14-80 on both ends. -/
inductive LinkStep (ka kb : Kind) : Link → Ev → Link → Prop
  | left {l ev a} : Move ka kb l.a l.b ev a → LinkStep ka kb l ev { l with a }
  | right {l ev b} : Move kb ka l.b l.a ev b → LinkStep ka kb l ev { l with b }

/-- The states two connected processes can get into. bsp-server/src/transporter.rs:14-80 on both ends. -/
inductive Reachable (ka kb : Kind) : Link → Prop
  | start : Reachable ka kb {}
  | step {l ev l'} : Reachable ka kb l → LinkStep ka kb l ev l' → Reachable ka kb l'

/-- Only the applications can do something: the threads wait, and nothing is on its way.
bsp-server/src/transporter.rs:14-80 on both ends. -/
def Quiet (ka kb : Kind) (l : Link) : Prop := ∀ ev l', LinkStep ka kb l ev l' → ev.app = true

end
end Link
end Bsp
