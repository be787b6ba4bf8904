/-
`Connection::memory` (bsp-server/src/lib.rs:69-81): two connections joined by two unbounded
crossbeam channels, used by any number of threads in any order.
-/
import Verif.Message

namespace Bsp
namespace Mem

section
variable [Ext]

/-- An unbounded crossbeam channel (`unbounded()`, lib.rs:70): the queued messages and the number of live
sending and receiving handles (`Sender` and `Receiver` can be cloned; the fields of `Connection` are public,
lib.rs:37-40).  Each operation of a channel is atomic. -/
structure Chan where
  queue : List Message := []
  senders : Nat := 1
  receivers : Nat := 1

/-- `Connection`: lib.rs:37-40; the channels its two ends belong to. -/
structure Conn where
  sender : Bool
  receiver : Bool
deriving Repr, DecidableEq

/-- The two connections. The two results of bsp-server/src/lib.rs:69-81. -/
inductive Side where
  | left
  | right
deriving Repr, DecidableEq

/-- The other connection. bsp-server/src/lib.rs:69-81. -/
def Side.other : Side → Side
  | .left => .right
  | .right => .left

/-- The channels, and the two connections. bsp-server/src/lib.rs:70-80. -/
structure State where
  chan : Bool → Chan
  conn : Side → Conn

/-- `Connection::memory`: lib.rs:69-81; channel `false` is (s1, r1), channel `true` is (s2, r2). -/
def memory : State where
  chan := fun _ => {}
  conn
    | .left => { sender := false, receiver := true }
    | .right => { sender := true, receiver := false }

/-- What a side can do with its handles.  A blocking `recv` is a `recv` that is tried again while the
outcome is `empty`. The public fields of bsp-server/src/lib.rs:37-40 allow these. -/
inductive Op where
  | send (m : Message)
  | recv
  | cloneSender
  | cloneReceiver
  | dropSender
  | dropReceiver

/-- What happened. `gone`: the side has no handle for the operation any more.
Results of the operations on the fields of bsp-server/src/lib.rs:37-40. -/
inductive Ev where
  | sent (m : Message)
  | sendFailed (m : Message)
  | received (m : Message)
  | empty
  | disconnected
  | clonedSender
  | clonedReceiver
  | droppedSender
  | droppedReceiver
  | gone

/-- Replaces one channel. Auxiliary to bsp-server/src/lib.rs:70. -/
def State.set (s : State) (c : Bool) (x : Chan) : State :=
  { s with chan := fun d => if d = c then x else s.chan d }

/-- `Sender::send` of an unbounded channel: it fails once there is no receiver.
The call of bsp-server/src/lib.rs:204. -/
def Chan.send (x : Chan) (m : Message) : Chan × Ev :=
  if x.senders = 0 then (x, .gone)
  else if x.receivers = 0 then (x, .sendFailed m)
  else ({ x with queue := x.queue ++ [m] }, .sent m)

/-- `Receiver::try_recv`: disconnection is reported once the queue is empty and there is no sender.
On the `receiver` of bsp-server/src/lib.rs:39. -/
def Chan.recv (x : Chan) : Chan × Ev :=
  if x.receivers = 0 then (x, .gone)
  else match x.queue with
    | m :: r => ({ x with queue := r }, .received m)
    | [] => (x, if x.senders = 0 then .disconnected else .empty)

/-- `Sender::clone`. On the `sender` of bsp-server/src/lib.rs:38. -/
def Chan.cloneSender (x : Chan) : Chan × Ev :=
  if x.senders = 0 then (x, .gone) else ({ x with senders := x.senders + 1 }, .clonedSender)

/-- `Receiver::clone`. On the `receiver` of bsp-server/src/lib.rs:39. -/
def Chan.cloneReceiver (x : Chan) : Chan × Ev :=
  if x.receivers = 0 then (x, .gone) else ({ x with receivers := x.receivers + 1 }, .clonedReceiver)

/-- `Sender::drop`. Of the `sender` of bsp-server/src/lib.rs:38. -/
def Chan.dropSender (x : Chan) : Chan × Ev :=
  if x.senders = 0 then (x, .gone) else ({ x with senders := x.senders - 1 }, .droppedSender)

/-- `Receiver::drop`: when the last receiver goes, what is queued is discarded.
Of the `receiver` of bsp-server/src/lib.rs:39. -/
def Chan.dropReceiver (x : Chan) : Chan × Ev :=
  if x.receivers = 0 then (x, .gone)
  else ({ x with
    receivers := x.receivers - 1
    queue := if x.receivers = 1 then [] else x.queue }, .droppedReceiver)

/-- The operation of an `Op` on the channel concerned (`Connection::send`, lib.rs:203-205, and the public
fields, lib.rs:38-39). -/
def Op.on (op : Op) (x : Chan) : Chan × Ev :=
  match op with
  | .send m => x.send m
  | .recv => x.recv
  | .cloneSender => x.cloneSender
  | .cloneReceiver => x.cloneReceiver
  | .dropSender => x.dropSender
  | .dropReceiver => x.dropReceiver

/-- Which channel of its connection an operation concerns.
The fields of bsp-server/src/lib.rs:37-40. -/
def Op.end (op : Op) (c : Conn) : Bool :=
  match op with
  | .send _ | .cloneSender | .dropSender => c.sender
  | .recv | .cloneReceiver | .dropReceiver => c.receiver

/-- One operation of one side. Users of the pair of bsp-server/src/lib.rs:69-81. -/
def step (s : State) (side : Side) (op : Op) : State × Ev :=
  let c := op.end (s.conn side)
  let r := op.on (s.chan c)
  (s.set c r.1, r.2)

/-- Any interleaving of operations of the two sides, with what happened, from a state.
Users of the pair of bsp-server/src/lib.rs:69-81. -/
def run (s : State) : List (Side × Op) → State × List (Side × Ev)
  | [] => (s, [])
  | (side, op) :: ops =>
    let r := step s side op
    let rest := run r.1 ops
    (rest.1, (side, r.2) :: rest.2)

end
end Mem
end Bsp
