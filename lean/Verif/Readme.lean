/-
The main loop documented in README.md:14-63, over the environment of Verif.Conn.
-/
import Verif.Conn
import Verif.Convert

namespace Bsp
namespace Conn

section
variable [Ext]

/-- `WorkspaceBuildTargetsResult::default()` as sent by README.md:46. -/
def noTargets (id : RequestId) : Message :=
  Message.ofResult .workspaceBuildTargets id { targets := [] }

/-- `BuildTargetSourcesResult::default()` as sent by README.md:49. -/
def noSources (id : RequestId) : Message :=
  Message.ofResult .sources id { items := [] }

/-- What the loop sends for a request other than shutdown. README.md:45-54. -/
def reply : Request → Message
  | .workspaceBuildTargets id => noTargets id
  | .buildTargetSources id _ => noSources id
  | req => .response (.methodNotFound req.id "")

variable [Dbg]

/-- `block`: README.md:34-62.  The error of a failing send (`?` on `SendError`) is reduced to its text. -/
def block (w : World) : Out Unit × World :=
  match _h : recv w with
  | (.ok (some (.request (.shutdown id))), w1) =>
    match handleShutdown (.shutdown id) w1 with
    | (.ok _, w2) => (.ok (), w2)
    | (.err e, w2) => (.err e, w2)
    | (.panic, w2) => (.panic, w2)
    | (.blocked, w2) => (.blocked, w2)
  | (.ok (some (.request req)), w1) =>
    match _hs : send (reply req) w1 with
    | (.ok true, w2) => block w2
    | (.ok false, w2) => (.err "sending on a disconnected channel", w2)
    | (_, w2) => (.blocked, w2)
  | (.ok (some _), w1) => block w1
  | (.ok none, w1) => (.ok (), w1)
  | (_, w1) => (.blocked, w1)
termination_by w.inp.length
decreasing_by
  · rw [send_inp _hs]; exact recv_length _h
  · exact recv_length _h

/-- `main` up to the join of the threads: README.md:18-26. -/
def serve (process : InitializeBuild → Option Value) (w : World) : Out Unit × World :=
  match handshake process w with
  | (.ok _, w1) => block w1
  | (.err e, w1) => (.err e, w1)
  | (.panic, w1) => (.panic, w1)
  | (.blocked, w1) => (.blocked, w1)

end
end Conn
end Bsp
