/-
The unit tests of the repository, carried over to the model, as a check of the model (not of any property): the same
inputs, the same expected texts and values.  bsp-server/src/tests.rs, and the test modules of
bsp-server/src/request.rs:286-335, 471-483 and bsp-server/src/notification.rs:124-157, 269-295.
-/
import Verif.Api
import Verif.Props.Wire

namespace Bsp
open Json Api

namespace Conformance
attribute [local instance] Ext.sample FloatText.sample

/-- `serde_json::to_string` of a request by itself. bsp-server/src/request.rs:205-284. -/
def requestText (r : Request) : List Char := Text.print (.obj r.members)

/-- `serde_json::to_string` of a notification by itself. bsp-server/src/notification.rs:99-122. -/
def notificationText (n : Notification) : List Char := Text.print (.obj n.members)

/-- `TaskId::from(&str)`. bsp-types/src/task/id.rs:29-36. -/
def taskIdOfStr (id : String) : TaskId := ⟨id, []⟩

/-- The `InitializeBuild` of the test; the URL is a parsed one.
bsp-server/src/request.rs:293-301. -/
def initializeBuild : InitializeBuild :=
  InitializeBuild.set_display_name (InitializeBuild.new "MyName" "1" "2"
    (⟨"file:///tmp/lua_27s2fl", by decide⟩ : { s : String // s ≠ "" }) default_ClientCapabilities Value.null) "MyName"

/-- From a text to a value, in two steps: the tree, and what it is decoded to. -/
theorem fromText {α : Type} {dec : Json → Option α} {text : List Char} {a : α} (j : Json)
    (h1 : Text.parse text = some j) (h2 : dec j = some a) : (Text.parse text).bind dec = some a := by
  rw [h1, Option.bind_some, h2]

/-- tests.rs:3-9 `shutdown_with_explicit_null`. -/
example : (Text.parse "{\"jsonrpc\": \"2.0\",\"id\": 3,\"method\": \"build/shutdown\", \"params\": null }".toList).bind
    Message.dec = some (.request (.shutdown (.i32 3))) :=
  fromText (.obj [("jsonrpc", .str "2.0"), ("id", .int 3), ("method", .str "build/shutdown"), ("params", .null)])
    (by decide +kernel) (by rfl)

/-- tests.rs:11-19 `shutdown_with_no_params`, which is marked `ignore`: the assertion fails, since the message is taken
for a response. -/
example : (Text.parse "{\"jsonrpc\": \"2.0\",\"id\": 3,\"method\": \"build/shutdown\"}".toList).bind Message.dec =
    some (.response ⟨.i32 3, none, none⟩) :=
  fromText (.obj [("jsonrpc", .str "2.0"), ("id", .int 3), ("method", .str "build/shutdown")])
    (by decide +kernel) (by rfl)

/-- tests.rs:21-27 `serialize_request_with_null_params`. -/
example : Text.print (.obj (Message.members (.request (.shutdown (.i32 3))))) = "{\"id\":3,\"method\":\"build/shutdown\"}".toList := by
  decide +kernel

/-- notification.rs:127-132 `initialized`. -/
example : notificationText .initialized =
    "{\"method\":\"build/initialized\"}".toList := by
  decide +kernel

/-- notification.rs:134-139 `exit`. -/
example : notificationText .exit =
    "{\"method\":\"build/exit\"}".toList := by
  decide +kernel

/-- notification.rs:141-149 `show_message`. -/
example : notificationText (.taskStart (TaskStart.new (taskIdOfStr "some_id"))) =
    "{\"method\":\"build/taskStart\",\"params\":{\"taskId\":{\"id\":\"some_id\"}}}".toList := by
  decide +kernel

/-- notification.rs:151-156 `custom`. -/
example : notificationText (.custom "custom" Value.null) =
    "{\"method\":\"custom\",\"params\":null}".toList := by
  decide +kernel

/-- request.rs:291-309 `initialize`. -/
example : requestText (.initializeBuild (.i32 3) initializeBuild) =
    "{\"id\":3,\"method\":\"build/initialize\",\"params\":{\"displayName\":\"MyName\",\"version\":\"1\",\"bspVersion\":\"2\",\"rootUri\":\"file:///tmp/lua_27s2fl\",\"capabilities\":{\"languageIds\":[]},\"data\":null}}".toList := by
  decide +kernel

/-- request.rs:311-316 `shutdown`. -/
example : requestText (.shutdown (.i32 3)) =
    "{\"id\":3,\"method\":\"build/shutdown\"}".toList := by
  decide +kernel

/-- request.rs:318-326 `debug_session_start`. -/
example : requestText (.debugSessionStart (.i32 3) (DebugSessionStart.set_data_kind default_DebugSessionStart "Some")) =
    "{\"id\":3,\"method\":\"debugSession/start\",\"params\":{\"targets\":[],\"dataKind\":\"Some\"}}".toList := by
  decide +kernel

/-- request.rs:328-333 `custom`. -/
example : requestText (.custom (.i32 3) "some/method" Value.null) =
    "{\"id\":3,\"method\":\"some/method\"}".toList := by
  decide +kernel

/-- request.rs:474-482 `initialize`: from text, without a buffer in between. -/
example : (Text.parse "{\"id\":3,\"method\":\"build/initialize\",\"params\":{\"displayName\":\"MyName\",\"version\":\"1\",\"bspVersion\":\"2\",\"rootUri\":\"file:///tmp/lua_27s2fl\",\"capabilities\":{\"languageIds\":[]},\"data\":null}}".toList).bind
    (Request.decMode .streaming) = some (.initializeBuild (.i32 3) { initializeBuild with data := none }) :=
  fromText (.obj [("id", .int 3), ("method", .str "build/initialize"), ("params", .obj [("displayName", .str "MyName"),
    ("version", .str "1"), ("bspVersion", .str "2"), ("rootUri", .str "file:///tmp/lua_27s2fl"),
    ("capabilities", .obj [("languageIds", .arr [])]), ("data", .null)])]) (by decide +kernel) (by rfl)

/-- notification.rs:272-277 `initialized_without_params`. -/
example : (Text.parse "{\"method\":\"build/initialized\"}".toList).bind (Notification.decMode .streaming) =
    some .initialized :=
  fromText (.obj [("method", .str "build/initialized")]) (by decide +kernel) (by rfl)

/-- notification.rs:279-287 `initialized_with_params`: from a `Value`. -/
example : Notification.decMode .buffered (canon (.obj [("jsonrpc", .str "2.0"), ("method", .str "build/initialized")])) =
    some .initialized := by
  rfl

/-- notification.rs:289-294 `show_message`. -/
example : (Text.parse "{\"method\":\"build/taskStart\",\"params\":{\"taskId\":{\"id\":\"some_id\"}}}".toList).bind
    (Notification.decMode .streaming) = some (.taskStart (TaskStart.new (taskIdOfStr "some_id"))) :=
  fromText (.obj [("method", .str "build/taskStart"), ("params", .obj [("taskId", .obj [("id", .str "some_id")])])])
    (by decide +kernel) (by rfl)

end Conformance
end Bsp
