/-
A whole server process: the program of README.md:14-63 on the main thread, with the reader and writer thread
of its connection, from the bytes that come in to the bytes that go out and the exit of the process.
-/
import Verif.Readme
import Verif.Transport

namespace Bsp
namespace Session
open Conn

section
variable [Ext]

/-- Where the main thread is. README.md:14-63. -/
inductive App where
  /-- in `recv` of `initialize_start`: lib.rs:126 -/
  | start
  /-- in the `send` that refuses a request: lib.rs:133-135 -/
  | refusing (req : Request)
  /-- in the `send` of `initialize_finish`: lib.rs:160 -/
  | replying (id : RequestId) (result : Value)
  /-- in the `recv` of `initialize_finish`: lib.rs:161 -/
  | confirming
  /-- in the iterator over the messages received: README.md:37 -/
  | idle
  /-- in the `send` of an answer: README.md:46-54 -/
  | answering (req : Request)
  /-- in the `send` of `handle_shutdown`: lib.rs:182 -/
  | stopping (id : RequestId)
  /-- in the `recv_timeout` of `handle_shutdown`: lib.rs:183 -/
  | leaving
  /-- out of `block` or out of `main` -/
  | ended (r : Out Unit)

variable [Dbg]

/-- What the main thread does with what it receives (`none`: all senders are gone), up to its next operation on
a channel. lib.rs:126-148 and 114-121; lib.rs:161-173; README.md:37-62; lib.rs:183-196. -/
def onRecv (process : InitializeBuild → Option Value) : App → Option Message → App
  | .start, some (.request (.initializeBuild id p)) =>
    match process p with
    | none => .ended .panic
    | some v => .replying id v
  | .start, some (.request req) => .refusing req
  | .start, some msg => .ended (.err ("expected initialize request, got " ++ Dbg.msg msg))
  | .start, none => .ended (.err ("expected initialize request, got error: " ++ Dbg.recvError))
  | .confirming, some (.notification .initialized) => .idle
  | .confirming, some msg => .ended (.err ("expected Message::Notification, got: " ++ Dbg.msg msg))
  | .confirming, none => .ended (.err ("expected initialized notification, got error: " ++ Dbg.recvError))
  | .idle, some (.request (.shutdown id)) => .stopping id
  | .idle, some (.request req) => .answering req
  | .idle, some _ => .idle
  | .idle, none => .ended (.ok ())
  | .leaving, some (.notification .exit) => .ended (.ok ())
  | .leaving, some msg => .ended (.err ("unexpected message during shutdown: " ++ Dbg.msg msg))
  | .leaving, none => .ended (.err ("unexpected error during shutdown: " ++ Dbg.disconnected))
  | a, _ => a

omit [Dbg] in
/-- Whether the main thread is waiting to receive. lib.rs:126, 161, 183, README.md:37. -/
def App.receives : App → Bool
  | .start | .confirming | .idle | .leaving => true
  | _ => false

/-- The message the main thread is about to send. lib.rs:134, 159-160, 181-182, README.md:46-54. -/
def toSend : App → Option Message
  | .refusing req => some (.response (.serverNotInitialized req.id
      ("expected initialize request, got " ++ Dbg.req req)))
  | .replying id v => some (.response (.ok id v))
  | .answering req => some (reply req)
  | .stopping id => some (.response (.ok id Value.null))
  | _ => none

omit [Dbg] in
/-- What follows the send, if it succeeded (`true`) or failed. lib.rs:135, 160, 182, README.md:46-54. -/
def onSent : App → Bool → App
  | .refusing _, true => .start
  | .refusing _, false => .ended .panic
  | .replying _ _, true => .confirming
  | .replying _ _, false => .ended .panic
  | .answering _, true => .idle
  | .answering _, false => .ended (.err "sending on a disconnected channel")
  | .stopping _, _ => .leaving
  | a, _ => a

/-! ### The main thread alone -/

omit [Dbg] in
/-- The parameters with which the handler has been called (`process(&params)`, lib.rs:119). -/
def handled : App → Message → List InitializeBuild
  | .start, .request (.initializeBuild _ p) => [p]
  | _, _ => []

/-- Runs of the main thread in an environment that answers its receives and sends. lib.rs:114-200,
README.md:25-27, 36-63. -/
inductive Runs (process : InitializeBuild → Option Value) : App → World → Out Unit → World → Prop
  | ended (r w) : Runs process (.ended r) w r w
  | recv {a w m w' r w''} : a.receives = true → a ≠ .leaving → recv w = (.ok (some m), w') →
      Runs process (onRecv process a (some m)) { w' with calls := w'.calls ++ handled a m } r w'' →
      Runs process a w r w''
  | closed {a w w' r w''} : a.receives = true → a ≠ .leaving → recv w = (.ok none, w') →
      Runs process (onRecv process a none) w' r w'' → Runs process a w r w''
  | waiting {a w w'} : a.receives = true → a ≠ .leaving → recv w = (.blocked, w') →
      Runs process a w .blocked w'
  | exit {w m w' r w''} : recvTimeout 30000 w = (.msg m, w') →
      Runs process (onRecv process .leaving (some m)) w' r w'' → Runs process .leaving w r w''
  | noExit {w w' r w''} : recvTimeout 30000 w = (.disconnected, w') →
      Runs process (onRecv process .leaving none) w' r w'' → Runs process .leaving w r w''
  | timeout {w w'} : recvTimeout 30000 w = (.timeout, w') →
      Runs process .leaving w (.err ("unexpected error during shutdown: " ++ Dbg.timeout)) w'
  | send {a m w b w' r w''} : toSend a = some m → send m w = (.ok b, w') →
      Runs process (onSent a b) w' r w'' → Runs process a w r w''
  | stuck {a m w w'} : toSend a = some m → send m w = (.blocked, w') → Runs process a w .blocked w'

/-! ### The process -/

open Transport

variable [FloatText]

/-- The process: its connection and I/O threads, the main thread, and whether it has exited and then whether with
success (`main` has returned `Ok`). README.md:19-34. -/
structure Proc where
  io : State := {}
  app : App := .start
  exit : Option Bool := none

/-- What can happen.
The steps of README.md:14-63 and of the threads of bsp-server/src/transporter.rs:14-80. -/
inductive Act where
  /-- bytes arrive, or the input ends -/
  | peer
  /-- a step of the reader or writer thread -/
  | thread
  /-- a write fails -/
  | writeFails
  /-- the main thread receives, sends, or finds a channel closed -/
  | main
  /-- the 30 s of lib.rs:183 are over -/
  | timeout
  /-- the main thread drops an end of a channel: at the end of `block` (README.md:62), or where `main` returns early
  or panics (25, 27) -/
  | drop
  /-- the process exits -/
  | exit
deriving DecidableEq

/-- The steps that are not up to the main thread, and how they count.
Classifies the steps of the threads of bsp-server/src/transporter.rs:14-80. -/
def kindOf : Transport.Act → Option Act
  | .arrive _ | .hangUp _ => some .peer
  | .read | .undeliverable | .write _ | .written | .close => some .thread
  | .writeFails => some .writeFails
  | .deliver _ | .accept _ | .dropRx | .dropTx => none

/-- One step of the process.  Where `main` has returned an error or has panicked the process exits without
waiting for the threads; otherwise it waits in `join` (README.md:29). Simplification: an exit of the process
(which ends the threads) is a single step. -/
inductive Step (k : Kind) (process : InitializeBuild → Option Value) : Proc → Act → Proc → Prop
  | io {p : Proc} {a act io'} : p.exit = none → Transport.Step k p.io a io' → kindOf a = some act →
      Step k process p act { p with io := io' }
  /-- a receive that succeeds -/
  | recv {p : Proc} {m io'} : p.exit = none → p.app.receives = true → Transport.Step k p.io (.deliver m) io' →
      Step k process p .main { p with io := io', app := onRecv process p.app (some m) }
  /-- a receive that fails: the reader thread, which has the only sender, has ended -/
  | closed {p : Proc} : p.exit = none → p.app.receives = true → p.io.reader.ended = true →
      Step k process p .main { p with app := onRecv process p.app none }
  /-- a send that succeeds -/
  | send {p : Proc} {m io'} : p.exit = none → toSend p.app = some m → Transport.Step k p.io (.accept m) io' →
      Step k process p .main { p with io := io', app := onSent p.app true }
  /-- a send that fails: the writer thread, which has the only receiver, has ended -/
  | unsent {p : Proc} {m} : p.exit = none → toSend p.app = some m → p.io.writer.ended = true →
      Step k process p .main { p with app := onSent p.app false }
  /-- lib.rs:183, 192-195 -/
  | timeout {p : Proc} : p.exit = none → p.app = .leaving →
      Step k process p .timeout
        { p with app := .ended (.err ("unexpected error during shutdown: " ++ Dbg.timeout)) }
  /-- README.md:62, 25, 27 -/
  | dropRx {p : Proc} {r} : p.exit = none → p.app = .ended r → p.io.rxAlive = true →
      Step k process p .drop { p with io := { p.io with rxAlive := false } }
  /-- README.md:62, 25, 27 -/
  | dropTx {p : Proc} {r} : p.exit = none → p.app = .ended r → p.io.txAlive = true →
      Step k process p .drop { p with io := { p.io with txAlive := false } }
  /-- README.md:25, 27: `?`, or a panic -/
  | abort {p : Proc} {r} : p.exit = none → p.app = .ended r → r ≠ .ok () →
      p.io.rxAlive = false → p.io.txAlive = false → Step k process p .exit { p with exit := some false }
  /-- README.md:29-33 -/
  | finish {p : Proc} : p.exit = none → p.app = .ended (.ok ()) →
      p.io.rxAlive = false → p.io.txAlive = false → join k p.io ≠ .waiting →
      Step k process p .exit { p with exit := some (decide (join k p.io = .ok)) }

/-- A sequence of steps. Executions of README.md:14-63 with bsp-server/src/transporter.rs:14-80. -/
inductive Steps (k : Kind) (process : InitializeBuild → Option Value) : Proc → List Act → Proc → Prop
  | nil (p) : Steps k process p [] p
  | snoc {p as q a r} : Steps k process p as q → Step k process q a r → Steps k process p (as ++ [a]) r

/-- No step can be taken but by the peer or by the passing of the time limit.
Specification about README.md:14-63 with bsp-server/src/transporter.rs:14-80. -/
def Quiet (k : Kind) (process : InitializeBuild → Option Value) (p : Proc) : Prop :=
  ∀ a q, Step k process p a q → a = .peer ∨ a = .timeout

end
end Session
end Bsp
