/-
Texts made by `Display` and `Debug`: bsp-server/src/request/id.rs:27-34, request.rs:168-203, error.rs:8-59 and the
derived `Debug` of the other messages, as far as they go into error texts (lib.rs:132-194).
-/
import Verif.Message
import Verif.Framing

namespace Bsp

/-- One character in the `Debug` of a `str` (core `char::escape_debug_ext`, with double quotes and combining
characters escaped).  `odd` stands for the Unicode tables of core: characters that are `Grapheme_Extend` or not
printable.  (Before Rust 1.62 the character NUL was written `\u{0}`.)  Used by bsp-server/src/request/id.rs:31. -/
def escDebug (odd : Char → Bool) (c : Char) : List Char :=
  if c = '\x00' then ['\\', '0']
  else if c = '\t' then ['\\', 't']
  else if c = '\r' then ['\\', 'r']
  else if c = '\n' then ['\\', 'n']
  else if c = '\\' then ['\\', '\\']
  else if c = '"' then ['\\', '"']
  else if odd c then '\\' :: 'u' :: '{' :: (Nat.toDigits 16 c.toNat ++ ['}'])
  else [c]

/-- `Debug` of a `str` (core). Used by bsp-server/src/request/id.rs:31 and the derived `Debug`s. -/
def strDebug (odd : Char → Bool) (s : String) : List Char := '"' :: (s.toList.flatMap (escDebug odd) ++ ['"'])

namespace RequestId
/-- `Display`: request/id.rs:27-34. -/
def display (odd : Char → Bool) : RequestId → List Char
  | .i32 i => Text.printInt i.toInt
  | .str s => strDebug odd s

/-- Derived `Debug`. request/id.rs:4-13. -/
def debug (odd : Char → Bool) : RequestId → List Char
  | .i32 i => "RequestId(I32(".toList ++ Text.printInt i.toInt ++ "))".toList
  | .str s => "RequestId(String(".toList ++ strDebug odd s ++ "))".toList

/-- Derived `Ord`: numbers before strings, strings by their bytes. request/id.rs:4-13. -/
def less : RequestId → RequestId → Bool
  | .i32 a, .i32 b => a < b
  | .i32 _, .str _ => true
  | .str _, .i32 _ => false
  | .str a, .str b => decide (utf8 a.toList < utf8 b.toList)
end RequestId

namespace Conn

/-- Parameter: texts that the crate takes from its dependencies: the Unicode tables behind `Debug` of `str`, the
derived `Debug` of the params (bsp-types) and of `serde_json::Value`, and `Display` of the errors of crossbeam-channel
(lib.rs:132-194). -/
class Dbg [Ext] where
  /-- characters written as `\u{..}` -/
  odd : Char → Bool
  /-- `Debug` of the params of a request that is not custom -/
  params : Request → List Char
  /-- `Debug` of the params of a notification that is not custom -/
  noteParams : Notification → List Char
  /-- `Debug` of a `serde_json::Value` -/
  value : Value → List Char
  /-- `Display` of a `RecvError` -/
  recvError : String
  /-- `Display` of `RecvTimeoutError::Timeout` -/
  timeout : String
  /-- `Display` of `RecvTimeoutError::Disconnected` -/
  disconnected : String

namespace Dbg
variable [Ext] [Dbg]

/-- What follows the id in the `Debug` of a request: request.rs:178-201. -/
def afterId : Request → List Char
  | .shutdown _ => strDebug odd "Shutdown"
  | .workspaceBuildTargets _ => strDebug odd "WorkspaceBuildTargets"
  | .workspaceReload _ => strDebug odd "WorkspaceReload"
  | .custom _ m v => strDebug odd m ++ ",\n".toList ++ value v
  | r => params r

/-- `Debug for Request`: request.rs:168-203. -/
def reqText (r : Request) : List Char := r.id.display odd ++ ", ".toList ++ afterId r

/-- Derived `Debug` of an `Option`. For bsp-server/src/response.rs:11, 13, 21. -/
def optText {α : Type _} (f : α → List Char) : Option α → List Char
  | none => "None".toList
  | some x => "Some(".toList ++ f x ++ ")".toList

/-- Derived `Debug`. bsp-server/src/response.rs:16-22. -/
def errText (e : ResponseError) : List Char :=
  "ResponseError { code: ".toList ++ Text.printInt e.code.toInt ++ ", message: ".toList ++ strDebug odd e.message ++
    ", data: ".toList ++ optText value e.data ++ " }".toList

/-- Derived `Debug`. bsp-server/src/response.rs:4-14. -/
def respText (r : Response) : List Char :=
  "Response { id: ".toList ++ r.id.debug odd ++ ", result: ".toList ++ optText value r.result ++
    ", error: ".toList ++ optText errText r.error ++ " }".toList

/-- Derived `Debug`. notification.rs:16-28. -/
def noteText : Notification → List Char
  | .exit => "Exit".toList
  | .initialized => "Initialized".toList
  | .showMessage p => "ShowMessage(".toList ++ noteParams (.showMessage p) ++ ")".toList
  | .logMessage p => "LogMessage(".toList ++ noteParams (.logMessage p) ++ ")".toList
  | .publishDiagnostics p => "PublishDiagnostics(".toList ++ noteParams (.publishDiagnostics p) ++ ")".toList
  | .taskStart p => "TaskStart(".toList ++ noteParams (.taskStart p) ++ ")".toList
  | .taskFinish p => "TaskFinish(".toList ++ noteParams (.taskFinish p) ++ ")".toList
  | .taskProgress p => "TaskProgress(".toList ++ noteParams (.taskProgress p) ++ ")".toList
  | .buildTargetDidChange p => "BuildTargetDidChange(".toList ++ noteParams (.buildTargetDidChange p) ++ ")".toList
  | .custom m v => "Custom(".toList ++ strDebug odd m ++ ", ".toList ++ value v ++ ")".toList

/-- `{:?}` of a request. lib.rs:132. -/
def req (r : Request) : String := String.ofList (reqText r)

/-- `{:?}` of a message: derived `Debug`. message.rs:7-13, lib.rs:139, 164, 187. -/
def msg : Message → String
  | .request r => String.ofList ("Request(".toList ++ reqText r ++ ")".toList)
  | .response r => String.ofList ("Response(".toList ++ respText r ++ ")".toList)
  | .notification n => String.ofList ("Notification(".toList ++ noteText n ++ ")".toList)

end Dbg
end Conn

/-- `ExtractError`: error.rs:22-31; the JSON error is represented by its text. -/
inductive ExtractError (α : Type _) where
  | methodMismatch (x : α)
  | jsonError (method : String) (error : String)

section
variable [Ext]

/-- `Display for ExtractError<Request>`: error.rs:33-45. -/
def ExtractError.ofRequest : ExtractError Request → String
  | .methodMismatch r => "Method mismatch for request '" ++ r.method ++ "'"
  | .jsonError m e => "Invalid request\nMethod: " ++ m ++ "\n error: " ++ e

/-- `Display for ExtractError<Notification>`: error.rs:47-59. -/
def ExtractError.ofNotification : ExtractError Notification → String
  | .methodMismatch n => "Method mismatch for notification '" ++ n.method ++ "'"
  | .jsonError m e => "Invalid notification\nMethod: " ++ m ++ "\n error: " ++ e

end
end Bsp
