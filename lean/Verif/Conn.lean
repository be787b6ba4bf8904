/-
The handshake and shutdown procedures of a connection: bsp-server/src/lib.rs:113-200.

The application thread sees the other side of its two channels only through the results of its own
receive and send operations.  A `World` holds these results in advance: what will be received and when,
how many sends will be accepted and how long each takes, and what happens after that.
-/
import Verif.Debug

namespace Bsp
namespace Conn
open Json

/-- What happens once all messages have been received.
The ways the `recv` calls of bsp-server/src/lib.rs:126, 161, 183 can end. -/
inductive Fin where
  /-- all senders of the channel are dropped at that time: `recv` returns an error -/
  | closedAt (t : Nat)
  /-- nothing: `recv` blocks -/
  | silent
deriving DecidableEq, Repr

/-- What happens to a send once no more is accepted.
Of the `send` calls of bsp-server/src/lib.rs:134-136, 160, 182. -/
inductive OutEnd where
  /-- all receivers of the channel are dropped: `send` returns an error -/
  | closed
  /-- nobody takes the message from the bounded channel: `send` blocks -/
  | stuck
deriving DecidableEq, Repr

/-- The environment of the application thread, and what the thread has done so far (`sent`, `calls`).
Times are in milliseconds. lib.rs:37-40 (a `Connection` is a pair of channel ends). -/
structure World [Ext] where
  inp : List (Nat × Message)
  fin : Fin
  out : List Nat
  outEnd : OutEnd
  now : Nat := 0
  sent : List Message := []
  calls : List InitializeBuild := []

/-- How a call ends.
`Result<_, ProtocolError>` of bsp-server/src/lib.rs:114-200, the panics of its `unwrap` calls (136, 160), and blocking for ever. -/
inductive Out (α : Type) where
  | ok (a : α)
  /-- `Err(ProtocolError(text))`, error.rs:5-6 -/
  | err (text : String)
  | panic
  | blocked
deriving Repr

section
variable [Ext]

/-- crossbeam `Receiver::recv`; `none` is `RecvError`. Used at lib.rs:126, 161. -/
def recv (w : World) : Out (Option Message) × World :=
  match w.inp with
  | (t, m) :: r => (.ok (some m), { w with inp := r, now := max w.now t })
  | [] =>
    match w.fin with
    | .closedAt t => (.ok none, { w with now := max w.now t })
    | .silent => (.blocked, w)

/-- Result of `recv_timeout`. bsp-server/src/lib.rs:183. -/
inductive Timed where
  | msg (m : Message)
  | timeout
  | disconnected

/-- crossbeam `Receiver::recv_timeout` (used at lib.rs:183): what happens up to the deadline counts
(at the very moment of the deadline the real call may go either way). -/
def recvTimeout (limit : Nat) (w : World) : Timed × World :=
  match w.inp with
  | (t, m) :: r =>
    if t ≤ w.now + limit then (.msg m, { w with inp := r, now := max w.now t })
    else (.timeout, { w with now := w.now + limit })
  | [] =>
    match w.fin with
    | .closedAt t =>
      if t ≤ w.now + limit then (.disconnected, { w with now := max w.now t })
      else (.timeout, { w with now := w.now + limit })
    | .silent => (.timeout, { w with now := w.now + limit })

/-- crossbeam `Sender::send`; `false` is `SendError`. Used at lib.rs:134, 160, 182, 204. -/
def send (m : Message) (w : World) : Out Bool × World :=
  match w.out with
  | d :: r => (.ok true, { w with out := r, now := w.now + d, sent := w.sent ++ [m] })
  | [] =>
    match w.outEnd with
    | .closed => (.ok false, w)
    | .stuck => (.blocked, w)

theorem recv_length {w w' : World} {m : Message} (h : recv w = (.ok (some m), w')) :
    w'.inp.length < w.inp.length := by
  unfold recv at h
  split at h
  · rename_i e; cases h; rw [e]; simp
  · split at h <;> cases h

theorem send_inp {w w' : World} {m : Message} {r : Out Bool} (h : send m w = (r, w')) :
    w'.inp = w.inp := by
  unfold send at h
  split at h
  · cases h; rfl
  · split at h <;> cases h <;> rfl

variable [Dbg]

/-- `initialize_start`: lib.rs:124-150. -/
def initializeStart (w : World) : Out (RequestId × InitializeBuild) × World :=
  match _h : recv w with
  | (.ok (some (.request (.initializeBuild id params))), w1) => (.ok (id, params), w1)
  | (.ok (some (.request req)), w1) =>
    match _hs : send (.response (.serverNotInitialized req.id
        ("expected initialize request, got " ++ Dbg.req req))) w1 with
    | (.ok true, w2) => initializeStart w2
    | (.ok false, w2) => (.panic, w2)
    | (_, w2) => (.blocked, w2)
  | (.ok (some msg), w1) => (.err ("expected initialize request, got " ++ Dbg.msg msg), w1)
  | (.ok none, w1) => (.err ("expected initialize request, got error: " ++ Dbg.recvError), w1)
  | (_, w1) => (.blocked, w1)
termination_by w.inp.length
decreasing_by rw [send_inp _hs]; exact recv_length _h

/-- `initialize_finish`: lib.rs:154-175. -/
def initializeFinish (id : RequestId) (result : Value) (w : World) : Out Unit × World :=
  match send (.response (.ok id result)) w with
  | (.ok true, w1) =>
    match recv w1 with
    | (.ok (some (.notification .initialized)), w2) => (.ok (), w2)
    | (.ok (some msg), w2) => (.err ("expected Message::Notification, got: " ++ Dbg.msg msg), w2)
    | (.ok none, w2) => (.err ("expected initialized notification, got error: " ++ Dbg.recvError), w2)
    | (_, w2) => (.blocked, w2)
  | (.ok false, w1) => (.panic, w1)
  | (_, w1) => (.blocked, w1)

/-- `Connection::initialize`: lib.rs:114-121.  The handler is a function that may panic (`none`, which also
stands for a failing `to_value(..).unwrap()`, response.rs:28); it is assumed not to use the
connection itself and to take no time. -/
def handshake (process : InitializeBuild → Option Value) (w : World) : Out InitializeBuild × World :=
  match initializeStart w with
  | (.ok (id, params), w1) =>
    let w2 := { w1 with calls := w1.calls ++ [params] }
    match process params with
    | none => (.panic, w2)
    | some v =>
      match initializeFinish id v w2 with
      | (.ok (), w3) => (.ok params, w3)
      | (.err e, w3) => (.err e, w3)
      | (.panic, w3) => (.panic, w3)
      | (.blocked, w3) => (.blocked, w3)
  | (.err e, w1) => (.err e, w1)
  | (.panic, w1) => (.panic, w1)
  | (.blocked, w1) => (.blocked, w1)

/-- The wait for exit in `handle_shutdown`: lib.rs:183-195 (and `Ok(true)`, 196). -/
def awaitExit (w1 : World) : Out Bool × World :=
  match recvTimeout 30000 w1 with
  | (.msg (.notification .exit), w2) => (.ok true, w2)
  | (.msg msg, w2) => (.err ("unexpected message during shutdown: " ++ Dbg.msg msg), w2)
  | (.timeout, w2) => (.err ("unexpected error during shutdown: " ++ Dbg.timeout), w2)
  | (.disconnected, w2) => (.err ("unexpected error during shutdown: " ++ Dbg.disconnected), w2)

/-- `handle_shutdown`: lib.rs:178-200.  The outcome of the send is ignored (line 182), except that
a send that never ends keeps the function from going on.  Tracing is not modelled. -/
def handleShutdown (req : Request) (w : World) : Out Bool × World :=
  match req with
  | .shutdown id =>
    match send (.response (.ok id Value.null)) w with
    | (.ok _, w1) => awaitExit w1
    | (_, w1) => (.blocked, w1)
  | _ => (.ok false, w)

end
end Conn
end Bsp
