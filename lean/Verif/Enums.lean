/-
Enumerations of bsp-types: `serde_repr` numeric enums, the task data kind with its hand-written
serde code, and the build target tag.
-/
import Verif.Serde

namespace Bsp
open Json

/-! ### MessageType -/

/-- bsp-types/src/message_type.rs:1-12. -/
inductive MessageType where
  | error | warning | info | log
deriving DecidableEq, Repr

namespace MessageType
/-- `#[repr(u16)]` discriminants. message_type.rs:4-11. -/
def code : MessageType → Nat
  | .error => 1
  | .warning => 2
  | .info => 3
  | .log => 4
/-- `Serialize_repr`. message_type.rs:1-2. -/
def enc (x : MessageType) : Json := .int x.code
/-- `Deserialize_repr`: an integer (`u16::deserialize`) equal to a discriminant.
message_type.rs:1-2. -/
def dec : Json → Option MessageType
  | .int i =>
    if i = 1 then some .error else if i = 2 then some .warning
    else if i = 3 then some .info else if i = 4 then some .log else none
  | _ => none
/-- `Default`. message_type.rs:14-18. -/
def default : MessageType := .log
theorem dec_enc (x : MessageType) : dec (canon (enc x)) = some x := by
  cases x <;> simp [enc, dec, code]
end MessageType

/-! ### TaskStatus -/

/-- bsp-types/src/task/status.rs:5-14. -/
inductive TaskStatus where
  | ok | error | cancelled
deriving DecidableEq, Repr

namespace TaskStatus
/-- `#[repr(u8)]` discriminants. task/status.rs:9-13. -/
def code : TaskStatus → Nat
  | .ok => 1
  | .error => 2
  | .cancelled => 3
/-- `Serialize_repr`. task/status.rs:5-6. -/
def enc (x : TaskStatus) : Json := .int x.code
/-- `Deserialize_repr`. task/status.rs:5-6. -/
def dec : Json → Option TaskStatus
  | .int i =>
    if i = 1 then some .ok else if i = 2 then some .error
    else if i = 3 then some .cancelled else none
  | _ => none
theorem dec_enc (x : TaskStatus) : dec (canon (enc x)) = some x := by
  cases x <;> simp [enc, dec, code]
end TaskStatus

/-! ### BuildTargetEventKind -/

/-- bsp-types/src/bt_did_change.rs:45-54. -/
inductive BuildTargetEventKind where
  | created | changed | deleted
deriving DecidableEq, Repr

namespace BuildTargetEventKind
/-- `#[repr(u16)]` discriminants. bt_did_change.rs:48-53. -/
def code : BuildTargetEventKind → Nat
  | .created => 1
  | .changed => 2
  | .deleted => 3
/-- `Serialize_repr`. bt_did_change.rs:45-46. -/
def enc (x : BuildTargetEventKind) : Json := .int x.code
/-- `Deserialize_repr`. bt_did_change.rs:45-46. -/
def dec : Json → Option BuildTargetEventKind
  | .int i =>
    if i = 1 then some .created else if i = 2 then some .changed
    else if i = 3 then some .deleted else none
  | _ => none
theorem dec_enc (x : BuildTargetEventKind) : dec (canon (enc x)) = some x := by
  cases x <;> simp [enc, dec, code]
end BuildTargetEventKind

/-! ### SourceKind -/

/-- bsp-types/src/bt_sources.rs:143-150. -/
inductive SourceKind where
  | file | directory
deriving DecidableEq, Repr

namespace SourceKind
/-- `#[repr(u16)]` discriminants. bt_sources.rs:146-149. -/
def code : SourceKind → Nat
  | .file => 1
  | .directory => 2
/-- `Serialize_repr`. bt_sources.rs:143-144. -/
def enc (x : SourceKind) : Json := .int x.code
/-- `Deserialize_repr`. bt_sources.rs:143-144. -/
def dec : Json → Option SourceKind
  | .int i => if i = 1 then some .file else if i = 2 then some .directory else none
  | _ => none
theorem dec_enc (x : SourceKind) : dec (canon (enc x)) = some x := by
  cases x <;> simp [enc, dec, code]
end SourceKind

/-! ### TaskDataKind -/

/-- bsp-types/src/task/kind.rs:6-16. -/
inductive TaskDataKind where
  | compileTask | compileReport | testTask | testReport | testStart | testFinish
  | custom (s : String)
  | none
deriving DecidableEq, Repr

namespace TaskDataKind
/-- `Serialize`. task/kind.rs:19-34. -/
def enc : TaskDataKind → Json
  | .compileTask => .str "compile-task"
  | .compileReport => .str "compile-report"
  | .testTask => .str "test-task"
  | .testReport => .str "test-report"
  | .testStart => .str "test-start"
  | .testFinish => .str "test-finish"
  | .custom s => .str s
  | .none => .null
/-- The match on the text. task/kind.rs:42-50. -/
def ofString (s : String) : TaskDataKind :=
  if s = "compile-task" then .compileTask
  else if s = "compile-report" then .compileReport
  else if s = "test-task" then .testTask
  else if s = "test-report" then .testReport
  else if s = "test-start" then .testStart
  else if s = "test-finish" then .testFinish
  else .custom s
/-- `Deserialize`: never fails. task/kind.rs:36-53. -/
def dec (j : Json) : Option TaskDataKind :=
  match decStr j with
  | some s => some (ofString s)
  | Option.none => some .none
/-- `is_none`. task/kind.rs:62-64. -/
def isNone : TaskDataKind → Bool
  | .none => true
  | _ => false
/-- What a kind is read back as: a custom kind with a reserved name becomes the reserved kind
(consequence of task/kind.rs:28,42-50). -/
def norm : TaskDataKind → TaskDataKind
  | .custom s => ofString s
  | k => k
theorem dec_enc (x : TaskDataKind) : dec (canon (enc x)) = some x.norm := by
  cases x <;> simp [enc, dec, decStr, norm, ofString]
theorem norm_of_isNone {x : TaskDataKind} (h : x.isNone = true) : x.norm = .none := by
  cases x <;> simp_all [isNone, norm]
theorem enc_ne_null {x : TaskDataKind} (h : x.isNone = false) : Json.null ≠ x.enc := by
  cases x <;> simp_all [isNone, enc]
end TaskDataKind

/-! ### BuildTargetTag -/

/-- bsp-types/src/bt_tag.rs:9-38 (`Libary` is spelt that way in the code). -/
inductive BuildTargetTag where
  | libary | application | test | integrationTest | benchmark | noIDE | manual
  | custom (s : String)
deriving DecidableEq, Repr

namespace BuildTargetTag
/-- Derived externally tagged enum with `rename_all = "kebab-case"`: a unit variant is its name,
the newtype variant a one-member object. bt_tag.rs:9-38. -/
def enc : BuildTargetTag → Json
  | .libary => .str "libary"
  | .application => .str "application"
  | .test => .str "test"
  | .integrationTest => .str "integration-test"
  | .benchmark => .str "benchmark"
  | .noIDE => .str "no-i-d-e"
  | .manual => .str "manual"
  | .custom s => .obj [("custom", .str s)]
/-- Variant of a unit variant name. bt_tag.rs:14-35. -/
def unitVariant (s : String) : Option BuildTargetTag :=
  if s = "libary" then some .libary
  else if s = "application" then some .application
  else if s = "test" then some .test
  else if s = "integration-test" then some .integrationTest
  else if s = "benchmark" then some .benchmark
  else if s = "no-i-d-e" then some .noIDE
  else if s = "manual" then some .manual
  else none
/-- Derived `Deserialize` (`deserialize_enum` of `serde_json::Value`): a string names a unit
variant; an object with exactly one member names a variant with its content, which must be null
for a unit variant (`unit_variant` deserialises `()`). bt_tag.rs:9-38. -/
def dec : Json → Option BuildTargetTag
  | .str s => unitVariant s
  | .obj [(k, v)] =>
    if k = "custom" then (decStr v).map .custom
    else match v with
      | .null => unitVariant k
      | _ => none
  | _ => none
/-- `Default`. bt_tag.rs:40-44. -/
def default : BuildTargetTag := .noIDE
theorem dec_enc (x : BuildTargetTag) : dec (canon (enc x)) = some x := by
  cases x <;> simp [enc, dec, unitVariant, canon, canonMembers, insertKV, decStr]
end BuildTargetTag

/-! ### NumberOrString -/

/-- The code of a diagnostic: lsp_types::NumberOrString (bsp-types/src/publish_diagnostics.rs:1, 22). -/
inductive NumberOrString where
  | number (n : Int32)
  | string (s : String)
deriving DecidableEq

namespace NumberOrString
/-- `Serialize`, untagged. lsp_types::NumberOrString (bsp-types/src/publish_diagnostics.rs:1, 22). -/
def enc : NumberOrString → Json
  | .number n => encI32 n
  | .string s => .str s
/-- `Deserialize`, untagged: first as a number, then as a string.
lsp_types::NumberOrString (bsp-types/src/publish_diagnostics.rs:1, 22). -/
def dec (j : Json) : Option NumberOrString :=
  match decI32 j with
  | some n => some (.number n)
  | none => (decStr j).map .string
theorem dec_enc (x : NumberOrString) : dec (canon (enc x)) = some x := by
  cases x with
  | number n => simp [enc, dec, dec_i32]
  | string s => simp [enc, dec, decI32, decStr]
theorem canon_enc_ne_null (x : NumberOrString) : canon (enc x) ≠ .null := by
  cases x <;> simp [enc, encI32]
theorem enc_ne_null (x : NumberOrString) : enc x ≠ .null := by
  cases x <;> simp [enc, encI32]
end NumberOrString

end Bsp
