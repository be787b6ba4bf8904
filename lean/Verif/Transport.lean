/-
The I/O threads of a connection: `Transporter::stdio` and `Transporter::socket`
(bsp-server/src/transporter.rs) and `IoThreads::join` (bsp-server/src/io_thread.rs), as a transition
system in which reader thread, writer thread, application, peer and operating system take steps in any
order.
-/
import Verif.Framing

namespace Bsp
namespace Transport
open Frame

/-- The two constructors: transporter.rs:14-44 and 47-80. -/
inductive Kind where
  | stdio
  | socket
deriving Repr, DecidableEq

section
variable [Ext]

/-- Where the reader thread is: in `Message::read` (transporter.rs:28, 53); blocked in
`reader_sender.send(msg)` (34, 55); ended with `Ok(())` (40, 60), with an `Err` (the `?` in 28), or in a
panic (an `unwrap` in 34, 53, 55, or the capacity overflow of message.rs:86). -/
inductive Reader where
  | reading
  | sending (m : Message)
  | done
  | failed
  | panicked

/-- Where the writer thread is: waiting in the iterator over `writer_receiver` (transporter.rs:19-20,
69-70); in `it.write(..)` with these bytes still to be written (21, 71); ended with `Ok(())` (22, 73), with
an `Err` (the `?` in 21), or in a panic (the `unwrap` in 72). -/
inductive Writer where
  | idle
  | writing (rest : Bytes)
  | done
  | failed
  | panicked

/-- The state of one connection and its threads.

`arrived` are all input bytes that have arrived so far, `unread` those not yet consumed by the messages
read; `inEnd` says whether the input has ended, and then whether in an I/O error (`some true`) or in end
of file.  `rxAlive` and `txAlive` say whether the application still has a handle for the channel from the
reader and to the writer (clones of a handle count as one: what matters to the threads is whether all of
them are gone).  `out` are the bytes written.  `delivered` and `accepted` record the messages whose
`recv` and `send` by the application have succeeded.

Simplification: `Message::read` takes bytes as they come, in the model it takes the bytes of a message
when its result no longer depends on bytes to come (`Settled`); what a failing read has consumed is not
modelled, since the reader does not read again after a failure.  Bytes that are in a buffer of the standard
library (`BufReader`, `Stdin`, the `LineWriter` of `Stdout`) count as not read and as written.
bsp-server/src/transporter.rs:14-80. -/
structure State where
  arrived : Bytes := []
  unread : Bytes := []
  inEnd : Option Bool := none
  reader : Reader := .reading
  rxAlive : Bool := true
  delivered : List Message := []
  writer : Writer := .idle
  out : Bytes := []
  txAlive : Bool := true
  accepted : List Message := []

variable [FloatText]

/-- The result of `Message::read` on what has arrived, once it does not depend on what is still to come:
if the input has ended that is the result on the unread bytes; otherwise the result must be the same
whatever follows and however the input ends (with the following bytes left unread).
bsp-server/src/message.rs:32-40; C78 proves that this is when a call on an open input returns. -/
def Settled (s : State) (r : Res Flat Message) : Prop :=
  match s.inEnd with
  | some b => readMsg (⟨s.unread, b⟩ : Flat) = r
  | none =>
    match r with
    | .item m rest => ∀ more b, readMsg (⟨s.unread ++ more, b⟩ : Flat) = .item m ⟨rest.bytes ++ more, b⟩
    | r => ∀ more b, readMsg (⟨s.unread ++ more, b⟩ : Flat) = r

/-- The reader after `Message::read` has failed: `?` in transporter.rs:28, `unwrap` in 53. -/
def readError : Kind → Reader
  | .stdio => .failed
  | .socket => .panicked

/-- What the reader does with the result of `Message::read`: transporter.rs:28-34 and 40, 53-55 and 60. -/
def afterRead (k : Kind) (s : State) : Res Flat Message → State
  | .item m rest => { s with reader := .sending m, unread := rest.bytes }
  | .eof => { s with reader := .done }
  | .panic => { s with reader := .panicked }
  | .invalidData => { s with reader := readError k }
  | .unexpectedEof => { s with reader := readError k }
  | .ioError => { s with reader := readError k }

/-- The test for the exit notification: transporter.rs:29-32, 54. -/
def isExit : Message → Bool
  | .notification .exit => true
  | _ => false

/-- The reader after `reader_sender.send(msg)` has succeeded: transporter.rs:36-38, 56-58. -/
def afterSend (m : Message) : Reader := if isExit m then .done else .reading

/-- The writer after a failed write: `?` in transporter.rs:21, `unwrap` in 72. -/
def writeError : Kind → Writer
  | .stdio => .failed
  | .socket => .panicked

/-- What can happen.
bsp-server/src/transporter.rs:14-80, and what the holder of bsp-server/src/lib.rs:37-40 and the peer can do. -/
inductive Act where
  /-- bytes arrive -/
  | arrive (bs : Bytes)
  /-- the input ends, in an I/O error or in end of file -/
  | hangUp (broken : Bool)
  /-- the reader's `Message::read` returns -/
  | read
  /-- the reader hands a message to a receiving application (rendezvous: `bounded(0)`) -/
  | deliver (m : Message)
  /-- the reader's `send` fails -/
  | undeliverable
  /-- the application drops the receiver -/
  | dropRx
  /-- the writer takes a message from a sending application (rendezvous: `bounded(0)`) -/
  | accept (m : Message)
  /-- the operating system takes some bytes from the writer -/
  | write (bs : Bytes)
  /-- the writer's `Message::write` returns -/
  | written
  /-- a write fails -/
  | writeFails
  /-- the application drops the last sender -/
  | dropTx
  /-- the writer's iterator ends -/
  | close

/-- Steps that are up to the two threads (and the operating system): the others need the application or
the peer. bsp-server/src/transporter.rs:16-41, 51-74. -/
def Act.thread : Act → Bool
  | .read | .undeliverable | .write _ | .written | .writeFails | .close => true
  | _ => false

/-- One step of one party.  The bounded(0) channels (transporter.rs:15, 24, 50, 67) hold no message: a
`send` succeeds when the other side takes the message, and fails when the other side is gone (a thread
drops its end when it ends).  A `send` or `recv` of the application that fails changes nothing here. -/
inductive Step (k : Kind) : State → Act → State → Prop
  /-- the peer -/
  | arrive (s : State) (bs) : s.inEnd = none →
      Step k s (.arrive bs) { s with arrived := s.arrived ++ bs, unread := s.unread ++ bs }
  | hangUp (s : State) (broken) : s.inEnd = none →
      Step k s (.hangUp broken) { s with inEnd := some broken }
  /-- transporter.rs:28, 53 -/
  | read (s : State) (r) : s.reader = .reading → Settled s r →
      Step k s .read (afterRead k s r)
  /-- transporter.rs:34-38, 55-58 -/
  | deliver (s : State) (m) : s.reader = .sending m → s.rxAlive = true →
      Step k s (.deliver m) { s with reader := afterSend m, delivered := s.delivered ++ [m] }
  /-- transporter.rs:34, 55: `send(msg).unwrap()` -/
  | undeliverable (s : State) (m) : s.reader = .sending m → s.rxAlive = false →
      Step k s .undeliverable { s with reader := .panicked }
  | dropRx (s : State) : Step k s .dropRx { s with rxAlive := false }
  /-- transporter.rs:19-21, 69-71 -/
  | accept (s : State) (m) : s.writer = .idle → s.txAlive = true →
      Step k s (.accept m) { s with writer := .writing (Frame.write m), accepted := s.accepted ++ [m] }
  /-- message.rs:45-47 -/
  | write (s : State) (a b) : s.writer = .writing (a ++ b) → a ≠ [] →
      Step k s (.write a) { s with writer := .writing b, out := s.out ++ a }
  /-- message.rs:48 -/
  | written (s : State) : s.writer = .writing [] →
      Step k s .written { s with writer := .idle }
  /-- message.rs:45-47, transporter.rs:21, 72 -/
  | writeFails (s : State) (b) : s.writer = .writing b →
      Step k s .writeFails { s with writer := writeError k }
  | dropTx (s : State) : Step k s .dropTx { s with txAlive := false }
  /-- transporter.rs:22, 73 -/
  | close (s : State) : s.writer = .idle → s.txAlive = false →
      Step k s .close { s with writer := .done }

/-- A sequence of steps. Executions of bsp-server/src/transporter.rs:14-80. -/
inductive Steps (k : Kind) : State → List Act → State → Prop
  | nil (s) : Steps k s [] s
  | snoc {s as s' a s''} : Steps k s as s' → Step k s' a s'' → Steps k s (as ++ [a]) s''

/-- States a connection can get into. bsp-server/src/transporter.rs:14-80. -/
def Reachable (k : Kind) (s : State) : Prop := ∃ as, Steps k {} as s

omit [FloatText] in
/-- Whether a thread has ended. As seen by bsp-server/src/io_thread.rs:18. -/
def Reader.ended : Reader → Bool
  | .reading | .sending _ => false
  | _ => true

omit [FloatText] in
/-- Whether a thread has ended. As seen by bsp-server/src/io_thread.rs:25. -/
def Writer.ended : Writer → Bool
  | .idle | .writing _ => false
  | _ => true

/-! ### Joining -/

/-- How a call of `join` stands: still waiting; returned; or panicked, after having printed a line.
bsp-server/src/io_thread.rs:17-32. -/
inductive Joined where
  | waiting
  | ok
  | err
  | panic (printed : Bytes)
deriving DecidableEq

omit [FloatText] in
/-- `IoThreads::join`: io_thread.rs:17-32, as far as it can get in a state.  `println!` (20, 27) takes the
lock of the standard output, which the stdio writer holds as long as it lives (transporter.rs:18). The
payload of the panic that is passed on is not modelled. -/
def join (k : Kind) (s : State) : Joined :=
  match s.reader with
  | .reading | .sending _ => .waiting
  | .failed => .err
  | .panicked =>
    if k = .stdio ∧ s.writer.ended = false then .waiting
    else .panic (utf8 "reader panicked!\n".toList)
  | .done =>
    match s.writer with
    | .idle | .writing _ => .waiting
    | .done => .ok
    | .failed => .err
    | .panicked => .panic (utf8 "writer panicked!\n".toList)

omit [FloatText] in
/-- What is on the standard output of a stdio process after `join` has panicked: the line follows what the
writer has written.  io_thread.rs:20, 27. -/
def stdoutAfter (s : State) (printed : Bytes) : Bytes := s.out ++ printed

/-! ### Two peers -/

/-- Two connections joined by two byte streams (a TCP connection, or two pipes).
bsp-server/src/lib.rs:53-66 on both ends. -/
structure Pair where
  a : State
  b : State

/-- One step of a pair: a step of one side other than the arrival of bytes; or bytes that one side has
written arrive at the other, in order.  A stream may be cut anywhere.
bsp-server/src/transporter.rs:14-80 on both ends. -/
inductive PairStep (ka kb : Kind) : Pair → Pair → Prop
  | left {p a' act} : Step ka p.a act a' → (∀ bs, act ≠ .arrive bs) → PairStep ka kb p { p with a := a' }
  | right {p b' act} : Step kb p.b act b' → (∀ bs, act ≠ .arrive bs) → PairStep ka kb p { p with b := b' }
  | toRight {p b' bs} : p.b.arrived ++ bs <+: p.a.out → Step kb p.b (.arrive bs) b' →
      PairStep ka kb p { p with b := b' }
  | toLeft {p a' bs} : p.a.arrived ++ bs <+: p.b.out → Step ka p.a (.arrive bs) a' →
      PairStep ka kb p { p with a := a' }

/-- States two joined connections can get into. bsp-server/src/transporter.rs:14-80 on both ends. -/
inductive PairReachable (ka kb : Kind) : Pair → Prop
  | start : PairReachable ka kb ⟨{}, {}⟩
  | step {p q} : PairReachable ka kb p → PairStep ka kb p q → PairReachable ka kb q

end
end Transport
end Bsp
