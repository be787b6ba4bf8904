/-
The four ways to send on a connection (bsp-server/src/lib.rs:203-228), called by any number of threads at
a time, on a connection with I/O threads (transporter.rs) and on one of a pair in memory (lib.rs:69-81).
-/
import Verif.Transport
import Verif.Memory

namespace Bsp
namespace Sending

section
variable [Ext]

/-- Which method is called: bsp-server/src/lib.rs:203-205, 208-210, 213-219, 222-228. -/
inductive How where
  | send
  | trySend
  | sendTimeout
  | sendDeadline
deriving DecidableEq

/-- One call: the method and the message (`msg.into()`). bsp-server/src/lib.rs:203-228. -/
structure Call where
  how : How
  msg : Message

/-- What a call returns: `Ok(())`, or one of the errors of crossbeam-channel with the message in it
(`SendError` counts as `disconnected`). The result types of bsp-server/src/lib.rs:203, 208, 217, 226. -/
inductive Result where
  | ok
  | disconnected (m : Message)
  | full (m : Message)
  | timeout (m : Message)

variable [FloatText]

/-- A call returns, in a state of the connection.  The channel to the writer is `bounded(0)`
(transporter.rs:15, 67): the message is taken by the writer (`accept`), or the writer has ended (it drops its end of
the channel), or the call does not wait (any longer).  Simplification: a writer that is `idle` in the model may
not yet be waiting inside `recv`, so that `try_send` may also find the channel full then; time is not modelled, a time
limit may have passed at any moment.  bsp-server/src/lib.rs:203-228. -/
inductive Returns (k : Transport.Kind) (s : Transport.State) (c : Call) : Result → Transport.State → Prop
  /-- lib.rs:204, 209, 218, 227 -/
  | taken {s'} : Transport.Step k s (.accept c.msg) s' → Returns k s c .ok s'
  /-- the same -/
  | gone : s.writer.ended = true → Returns k s c (.disconnected c.msg) s
  /-- lib.rs:209 -/
  | full : c.how = .trySend → s.writer.ended = false → Returns k s c (.full c.msg) s
  /-- lib.rs:218 -/
  | timeout : c.how = .sendTimeout → s.writer.ended = false → Returns k s c (.timeout c.msg) s
  /-- lib.rs:227 -/
  | deadline : c.how = .sendDeadline → s.writer.ended = false → Returns k s c (.timeout c.msg) s

omit [FloatText] in
/-- A connection in use: its state, the calls in progress (each in a thread of its own), the calls made so far, and
those that have returned, with their results, in the order in which they have returned.
bsp-server/src/lib.rs:37-40, 203-228. -/
structure Use where
  io : Transport.State := {}
  waiting : List Call := []
  made : List Call := []
  returned : List (Call × Result) := []

/-- One step.  A call borrows the connection (`&self`), so no step drops the last sender while one is in progress.
bsp-server/src/lib.rs:203-228, transporter.rs:14-80. -/
inductive Step (k : Transport.Kind) : Use → Use → Prop
  /-- a thread calls one of the methods -/
  | call (u : Use) (c : Call) : u.io.txAlive = true →
      Step k u { u with waiting := u.waiting ++ [c], made := u.made ++ [c] }
  /-- a call returns -/
  | returns {u : Use} {c a b r io} : u.waiting = a ++ c :: b → Returns k u.io c r io →
      Step k u { u with io := io, waiting := a ++ b, returned := u.returned ++ [(c, r)] }
  /-- anything else, lib.rs:37-40 and transporter.rs:14-80 -/
  | other {u : Use} {act io} : Transport.Step k u.io act io → (∀ m, act ≠ .accept m) →
      (act = .dropTx → u.waiting = []) → Step k u { u with io := io }

/-- Any sequence of steps. Executions of bsp-server/src/lib.rs:203-228 with transporter.rs:14-80. -/
inductive Steps (k : Transport.Kind) : Use → Use → Prop
  | nil (u) : Steps k u u
  | snoc {u v w} : Steps k u v → Step k v w → Steps k u w

omit [FloatText] in
/-- A call on a connection in memory, whose channels are `unbounded` (lib.rs:70-71): there is always room, so that
the four methods do the same; `none` if the caller has no handle.  bsp-server/src/lib.rs:203-228. -/
def inMemory (s : Mem.State) (side : Mem.Side) (c : Call) : Mem.State × Option Result :=
  match Mem.step s side (.send c.msg) with
  | (s', .sent _) => (s', some .ok)
  | (s', .sendFailed m) => (s', some (.disconnected m))
  | (s', _) => (s', none)

end
end Sending
end Bsp
