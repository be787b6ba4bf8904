/-
What reading costs in memory: the buffer of `read_msg_text` (bsp-server/src/message.rs:58-91), and
what is never given back (bsp-server/src/request.rs:462).
-/
import Verif.Framing

namespace Bsp
namespace Frame

/-- The header loop once more, for the largest size that `buf` gets: it holds one line at a time
(message.rs:63-64) and is then made as large as declared (message.rs:87), if that is possible at all.
Simplification: a `String` or `Vec` may reserve up to about twice as much; what a failing `read_line`
has put into it is everything there was.  bsp-server/src/message.rs:58-88. -/
def headersRoom (size : Option Nat) (s : Flat) : Nat :=
  match h : Source.readUntil s with
  | none => s.bytes.length
  | some (l, s') =>
    if hl : l = [] then 0
    else
      max l.length (match fromUtf8 l with
      | none => 0
      | some line =>
        match stripCrlf line with
        | none => 0
        | some [] =>
          match size with
          | none => 0
          | some n => if isizeMax < n then 0 else n
        | some (c :: b) =>
          match splitSep (c :: b) with
          | none => 0
          | some (name, value) =>
            if name = contentLength then
              match parseUsize value with
              | none => 0
              | some n => headersRoom (some n) s'
            else headersRoom size s')
termination_by Source.size s
decreasing_by all_goals exact Source.size_lt h hl

/-- The largest size of the buffer while `read_msg_text` reads from `s`.
bsp-server/src/message.rs:58-91. -/
def room (s : Flat) : Nat := headersRoom none s

end Frame

section
variable [Ext]

/-- The bytes that the final match on the method leaks: `Box::leak(method.into_boxed_str())`
(request.rs:462) keeps the UTF-8 text of the method for ever; all other branches give everything back
when the request is dropped. bsp-server/src/request.rs:441-463. -/
def Request.leakOfMethod (method : String) : Nat :=
  if method = "build/initialize" then 0
  else if method = "build/shutdown" then 0
  else if method = "workspace/buildTargets" then 0
  else if method = "workspace/reload" then 0
  else if method = "buildTarget/dependencyModules" then 0
  else if method = "debugSession/start" then 0
  else if method = "buildTarget/sources" then 0
  else if method = "textDocument/inverseSources" then 0
  else if method = "buildTarget/dependencySources" then 0
  else if method = "buildTarget/resources" then 0
  else if method = "buildTarget/run" then 0
  else if method = "buildTarget/compile" then 0
  else if method = "buildTarget/test" then 0
  else if method = "buildTarget/cleanCache" then 0
  else method.utf8ByteSize

/-- What decoding a `Request` leaks: nothing if it returns before the final match.
bsp-server/src/request.rs:394-463. -/
def Request.leak : Json → Nat
  | .obj ms =>
    match visitLoop .buffered ms ⟨none, none, none⟩ with
    | none => 0
    | some a =>
      match a.method, a.id with
      | some method, some id =>
        match RequestId.dec id.json, a.params with
        | some _, some _ => leakOfMethod method
        | _, _ => 0
      | _, _ => 0
  | _ => 0

/-- What decoding a `Message` leaks: the three types are tried in turn, and responses and notifications
own their texts (response.rs:4-22, notification.rs:16-28). bsp-server/src/message.rs:7-13. -/
def Message.leak (j : Json) : Nat := Request.leak j

namespace Frame
variable [FloatText]

/-- What reading message after message leaks, until something else than a message comes (also the last
message, which is rejected, is decoded).
bsp-server/src/message.rs:32-40 in the loop of bsp-server/src/transporter.rs:31, 64. -/
def leakAll (s : Flat) : Nat :=
  match readText s with
  | .item cs _ =>
    match Text.parse cs with
    | none => 0
    | some j => Message.leak j +
      match h : readMsg s with
      | .item _ s' => leakAll s'
      | _ => 0
  | _ => 0
termination_by Source.size s
decreasing_by exact readMsg_size _ h

end Frame
end
end Bsp
