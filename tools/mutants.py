"""Wrong programs to test the theorems against: each edits one or more definitions of the model the way a
realistic bug in the code would."""
mutants = []
def m(name, file, edits, definition, edit, claim, **kw):
    mutants.append(dict(name=name, file=file, edits=edits, definition=definition, edit=edit, claim=claim, **kw))

# --- framing -------------------------------------------------------------------------------------------
m("len-chars", "Framing.lean", [("Nat.toDigits 10 (utf8 cs).length ++ ['\\r', '\\n', '\\r', '\\n'])", "Nat.toDigits 10 cs.length ++ ['\\r', '\\n', '\\r', '\\n'])")],
  "Frame.frame", "Content-Length counts characters instead of bytes", "C01,C11: the length is the number of UTF-8 bytes")
m("len-plus2", "Framing.lean", [("Nat.toDigits 10 (utf8 cs).length ++ ['\\r', '\\n', '\\r', '\\n'])", "Nat.toDigits 10 ((utf8 cs).length + 2) ++ ['\\r', '\\n', '\\r', '\\n'])")],
  "Frame.frame", "Content-Length counts two bytes too many (a trailing newline that is not written)", "C02,C11: streams are read back")
m("frame-lf", "Framing.lean", [("Nat.toDigits 10 (utf8 cs).length ++ ['\\r', '\\n', '\\r', '\\n'])", "Nat.toDigits 10 (utf8 cs).length ++ ['\\n', '\\n'])")],
  "Frame.frame", "header ended by LF LF", "C01,C11: header ends in CR LF CR LF")
m("frame-contenttype", "Framing.lean", [("utf8 (\"Content-Length: \".toList ++ Nat.toDigits 10 (utf8 cs).length ++ ['\\r', '\\n', '\\r', '\\n'])", "utf8 (\"Content-Type: x\\r\\nContent-Length: \".toList ++ Nat.toDigits 10 (utf8 cs).length ++ ['\\r', '\\n', '\\r', '\\n'])")],
  "Frame.frame", "an extra header is written first (reading still works)", "C11: exact shape of what is written")
m("first-length-wins", "Framing.lean", [("              | some n => headers (some n) s'\n", "              | some n => headers (some (size.getD n)) s'\n")],
  "Frame.headers", "the first Content-Length counts", "C04: the last Content-Length counts")
m("name-insensitive", "Framing.lean", [("            if name = contentLength then", "            if name.map Char.toLower = contentLength.map Char.toLower then")],
  "Frame.headers", "header name compared case-insensitively", "C04: name is compared case-sensitively")
m("no-sep-ignored", "Framing.lean", [("          match splitSep (c :: b) with\n          | none => .invalidData", "          match splitSep (c :: b) with\n          | none => headers size s'")],
  "Frame.headers", "a header line without separator is skipped", "C05: such a line is rejected")
m("bad-length-ignored", "Framing.lean", [("              match parseUsize value with\n              | none => .invalidData", "              match parseUsize value with\n              | none => headers size s'")],
  "Frame.headers", "an unparsable Content-Length is skipped", "C05,C06: it is rejected")
m("no-length-zero", "Framing.lean", [("          match size with\n          | none => .invalidData", "          match size with\n          | none => .item 0 s'")],
  "Frame.headers", "a missing Content-Length counts as 0", "C05: a block without Content-Length is rejected")
m("eof-in-headers", "Framing.lean", [("    if hl : l = [] then .eof\n", "    if hl : l = [] then (if size = none then .eof else .unexpectedEof)\n")],
  "Frame.headers", "end of input after a Content-Length line is an error (what the code should do)", "C07: exactly when a clean end is reported")
m("crlf-optional", "Framing.lean", [("if a = '\\n' ∧ b = '\\r' then some r.reverse else none", "if a = '\\n' then some (if b = '\\r' then r.reverse else (b :: r).reverse) else none")],
  "Frame.stripCrlf", "a line may end in a bare LF", "C05: a line without CR LF is rejected")
m("sep-colon", "Framing.lean", [("    if c = ':' ∧ r.head? = some ' ' then some ([], r.tail)", "    if c = ':' then some ([], if r.head? = some ' ' then r.tail else r)")],
  "Frame.splitSep", "the space after the colon is optional", "C05: a line without \": \" is rejected")
m("sep-last", "Framing.lean", [("    if c = ':' ∧ r.head? = some ' ' then some ([], r.tail)\n    else (splitSep r).map fun p => (c :: p.1, p.2)", "    match splitSep r with\n    | some p => some (c :: p.1, p.2)\n    | none => if c = ':' ∧ r.head? = some ' ' then some ([], r.tail) else none")],
  "Frame.splitSep", "split at the last separator", "C04: the name ends at the first separator")
m("usize-overflow", "Framing.lean", [("      if acc * 10 + (c.toNat - 48) < 2 ^ 64 then digitsVal cs (acc * 10 + (c.toNat - 48)) else none", "      digitsVal cs ((acc * 10 + (c.toNat - 48)) % 2 ^ 64)")],
  "Frame.digitsVal", "overflow wraps", "C06: at most 2^64-1")
m("usize-no-plus", "Framing.lean", [("    if c = '+' then (if r = [] then none else digitsVal r 0)\n    else digitsVal (c :: r) 0", "    digitsVal (c :: r) 0")],
  "Frame.parseUsize", "a leading + is rejected", "C06: optional +")
m("usize-lone-plus", "Framing.lean", [("    if c = '+' then (if r = [] then none else digitsVal r 0)", "    if c = '+' then digitsVal r 0")],
  "Frame.parseUsize", "a lone + is 0", "C06: one or more digits")
m("usize-empty", "Framing.lean", [("  match cs with\n  | [] => none\n  | c :: r =>\n    if c = '+'", "  match cs with\n  | [] => some 0\n  | c :: r =>\n    if c = '+'")],
  "Frame.parseUsize", "the empty value is 0", "C06: one or more digits")
m("body-lossy", "Framing.lean", [("        match fromUtf8 b with\n        | none => .invalidData\n        | some cs => .item cs s''", "        match fromUtf8 b with\n        | none => .item ['\\uFFFD'] s''\n        | some cs => .item cs s''")],
  "Frame.readText", "invalid UTF-8 is replaced (from_utf8_lossy)", "C10: such a body is rejected")
m("alloc-check", "Framing.lean", [("    if isizeMax < n then .panic", "    if 2 ^ 32 < n then .panic")],
  "Frame.readText", "lengths above 2^32 panic", "C01: any text up to isize::MAX is read back")

# --- JSON text -----------------------------------------------------------------------------------------
m("esc-quote", "JsonText.lean", [("  if c = '\"' then ['\\\\', '\"']\n", "  if c = '\"' then ['\"']\n")],
  "Text.escChar", "quotes are not escaped", "C39: text round trip")
m("esc-upper", "JsonText.lean", [("if n < 10 then Char.ofNat (48 + n) else Char.ofNat (87 + n)", "if n < 10 then Char.ofNat (48 + n) else Char.ofNat (86 + n)")],
  "Text.hexDigit", "hexadecimal digits off by one", "C39: text round trip")
m("esc-none", "JsonText.lean", [("  else if c.toNat < 0x20 then ['\\\\', 'u', '0', '0', hexDigit (c.toNat / 16), hexDigit (c.toNat % 16)]\n", "")],
  "Text.escChar", "control characters are written raw", "C39: text round trip")
m("surrogates", "JsonText.lean", [("(n - 0xD800) * 0x400 + (n2 - 0xDC00) + 0x10000", "(n - 0xD800) * 0x400 + (n2 - 0xDC00)")],
  "Text.uEscape", "surrogate pairs decoded without the offset", "C39: the parser follows RFC 8259")
m("depth-128", "JsonText.lean", [("  match parseValue 127 cs with", "  match parseValue 128 cs with")],
  "Text.parse", "one more level of nesting is allowed", "C40: 128 levels are rejected")
m("depth-126", "JsonText.lean", [("  match parseValue 127 cs with", "  match parseValue 126 cs with")],
  "Text.parse", "one level less is allowed", "C39: 127 levels are read back")
m("trailing", "JsonText.lean", [("if skipWs r = [] then some j else none", "some j")],
  "Text.parse", "trailing characters are ignored", "C39: the parser follows RFC 8259")
m("leading-zero", "JsonText.lean", [("  else if 1 < ds.length ∧ ds.head? = some '0' then none\n", "")],
  "Text.parseNum", "leading zeros are accepted", "C39: the parser follows RFC 8259")
m("int-wrap", "JsonText.lean", [("(if n < 2 ^ 64 then some n else none)", "some (n % 2 ^ 64 : Nat)")],
  "Text.fitInt", "large integers wrap around", "C39: the parser follows RFC 8259")
m("trailing-comma", "JsonText.lean", [("            | d :: r => if d = ']' then none else some (d :: r))", "            | d :: r => some (d :: r))")],
  "Text.elems", "no check for a closing bracket after a comma (the value parser rejects it anyway)", "none: behaviour is unchanged",
  note="an equivalent program: the value parser does not accept ']' either; only the proof of a lemma can depend on it")

# --- message layer -------------------------------------------------------------------------------------
m("notif-before-resp", "Message.lean", [("  | none => match Response.dec j with\n    | some r => some (.response r)\n    | none => match Notification.dec j with\n      | some n => some (.notification n)\n      | none => none", "  | none => match Notification.dec j with\n    | some n => some (.notification n)\n    | none => match Response.dec j with\n      | some r => some (.response r)\n      | none => none")],
  "Message.dec", "notifications are tried before responses", "C14: request before response before notification")
m("resp-first", "Message.lean", [("  match Request.dec j with\n  | some r => some (.request r)\n  | none => match Response.dec j with\n    | some r => some (.response r)\n    | none => match Notification.dec j", "  match Response.dec j with\n  | some r => some (.response r)\n  | none => match Request.dec j with\n    | some r => some (.request r)\n    | none => match Notification.dec j")],
  "Message.dec", "responses are tried before requests", "C12,C14: requests first")
m("jsonrpc-missing", "Message.lean", [("def enc (m : Message) : Json := .obj ((\"jsonrpc\", .str \"2.0\") :: m.members)", "def enc (m : Message) : Json := .obj (m.members)")],
  "Message.enc", "the jsonrpc member is not written", "C11: first member jsonrpc")
m("jsonrpc-version", "Message.lean", [("(\"jsonrpc\", .str \"2.0\") :: m.members", "(\"jsonrpc\", .str \"1.0\") :: m.members")],
  "Message.enc", "the version written is 1.0", "C11: jsonrpc 2.0")
m("jsonrpc-last", "Message.lean", [(".obj ((\"jsonrpc\", .str \"2.0\") :: m.members)", ".obj (m.members ++ [(\"jsonrpc\", .str \"2.0\")])")],
  "Message.enc", "jsonrpc comes last", "C11: it is the first member")
m("dup-id-last", "Message.lean", [("    if k = \"id\" then\n      if a.id.isSome then none\n      else visitLoop mode ms { a with id := some (Value.ofJson v) }", "    if k = \"id\" then\n      visitLoop mode ms { a with id := some (Value.ofJson v) }")],
  "Request.visitLoop", "the last of several ids wins", "C17: duplicates are rejected")
m("dup-params-notif", "Message.lean", [("    if k = \"params\" then\n      if a.params.isSome then none\n      else visitLoop mode ms { a with params := some (Value.ofJson v) }\n    else if k = \"method\" then\n      if a.method.isSome then none\n      else match decStr v with\n        | some s => visitLoop mode ms { a with method := some s }\n        | none => none\n    else match mode with\n      | .buffered => visitLoop mode ms a\n      | .streaming => none\n\n/-- The final match on the method. notification.rs:250-261. -/", "    if k = \"params\" then\n      visitLoop mode ms { a with params := some (Value.ofJson v) }\n    else if k = \"method\" then\n      if a.method.isSome then none\n      else match decStr v with\n        | some s => visitLoop mode ms { a with method := some s }\n        | none => none\n    else match mode with\n      | .buffered => visitLoop mode ms a\n      | .streaming => none\n\n/-- The final match on the method. notification.rs:250-261. -/")],
  "Notification.visitLoop", "the last of several params wins", "C17: duplicates are rejected")
m("unknown-rejected", "Message.lean", [("        | some s => visitLoop mode ms { a with method := some s }\n        | none => none\n    else match mode with\n      | .buffered => visitLoop mode ms a\n      | .streaming => none\n\n/-- The final match on the method. request.rs:441-463. -/", "        | some s => visitLoop mode ms { a with method := some s }\n        | none => none\n    else if k = \"jsonrpc\" then visitLoop mode ms a else none\n\n/-- The final match on the method. request.rs:441-463. -/")],
  "Request.visitLoop", "unknown members other than jsonrpc are rejected", "C15: unknown members are ignored")
m("streaming-lenient", "Message.lean", [("      | .streaming => none\n\n/-- The final match on the method. request.rs:441-463. -/", "      | .streaming => visitLoop mode ms a\n\n/-- The final match on the method. request.rs:441-463. -/")],
  "Request.visitLoop", "unknown members are skipped when decoding from text", "C64: direct decoding fails for unknown members")
m("id-u32", "Serde.lean", [("if -(2 ^ 31) ≤ i ∧ i < 2 ^ 31 then some (Int32.ofInt i) else none", "if 0 ≤ i ∧ i < 2 ^ 31 then some (Int32.ofInt i) else none")],
  "decI32", "negative integers are rejected", "C18: integers in [-2^31, 2^31)")
m("id-wrap", "Serde.lean", [("if -(2 ^ 31) ≤ i ∧ i < 2 ^ 31 then some (Int32.ofInt i) else none", "some (Int32.ofInt i)")],
  "decI32", "integers wrap around", "C18,C19: out-of-range ids are not accepted")
m("id-str-number", "Message.lean", [("  | .i32 i => encI32 i\n  | .str s => .str s\n/-- Derived untagged deserialiser", "  | .i32 i => .str (toString i)\n  | .str s => .str s\n/-- Derived untagged deserialiser")],
  "RequestId.enc", "numeric ids are written as strings", "C18: the number 1 and the string \"1\" stay distinct")
m("shutdown-fixed", "Message.lean", [("      if method ≠ \"build/shutdown\" ∨ method ≠ \"workspace/buildTargets\" ∨ method ≠ \"workspace/reload\"\n      then none", "      if method ≠ \"build/shutdown\" ∧ method ≠ \"workspace/buildTargets\" ∧ method ≠ \"workspace/reload\"\n      then none")],
  "Request.finish", "the condition of request.rs:431-433 corrected to a conjunction", "C13,C14,C20: what the code does with requests without params")
m("params-default-null", "Message.lean", [("      if method ≠ \"build/shutdown\" ∨ method ≠ \"workspace/buildTargets\" ∨ method ≠ \"workspace/reload\"\n      then none\n      else some Value.null", "      some Value.null")],
  "Request.finish", "missing params count as null for every method", "C14,C20: missing params")
m("ofmethod-swap", "Message.lean", [("  else if method = \"buildTarget/run\" then (BuildTargetRun.dec params.json).map (.buildTargetRun id)", "  else if method = \"buildTarget/run\" then (BuildTargetTest.dec params.json).map (.buildTargetTest id)")],
  "Request.ofMethod", "buildTarget/run is decoded as a test request", "C22: names and variants")
m("method-typo", "Message.lean", [("  | .buildTargetResources _ _ => \"buildTarget/resources\"", "  | .buildTargetResources _ _ => \"buildTarget/resource\"")],
  "Request.method", "misspelt method name", "C22,C23: fixed names")
m("method-consistent-rename", "Message.lean", [("  | .buildTargetResources _ _ => \"buildTarget/resources\"", "  | .buildTargetResources _ _ => \"buildTarget/res\""), ("  else if method = \"buildTarget/resources\" then", "  else if method = \"buildTarget/res\" then")],
  "Request.method, Request.ofMethod", "method renamed on both sides (round trip still works)", "C22: fixed names of the table")
m("notif-method-rename", "Message.lean", [("  | .taskProgress _ => \"build/taskProgressing\"", "  | .taskProgress _ => \"build/taskProgress\""), ("  else if method = \"build/taskProgressing\" then", "  else if method = \"build/taskProgress\" then")],
  "Notification.method, Notification.ofMethod", "taskProgressing renamed to the name of the BSP specification on both sides", "C22: fixed names of the table")
m("id-accessor", "Message.lean", [("  | .custom id _ _ => id\n\n/-- `Request::params`", "  | .custom _ m _ => .str m\n\n/-- `Request::params`")],
  "Request.id", "id() of a custom request is its method", "C23: id() agrees with the wire")
m("params-accessor-fixed", "Message.lean", [("  | .custom _ m _ => .ofJson (.str m)\n\n/-- `Serialize for Request`", "  | .custom _ _ v => v\n\n/-- `Serialize for Request`")],
  "Request.params", "line 115 corrected", "C24: violated by the code")
m("params-accessor-null", "Message.lean", [("  | .buildTargetRun _ p => .ofJson p.enc\n", "  | .buildTargetRun _ _ => .null\n")],
  "Request.params", "params() of a run request is null", "C24: params() agrees with the wire")
m("custom-null-params", "Message.lean", [("(if !v.isNull then [(\"params\", v.json)] else [])", "[(\"params\", v.json)]")],
  "Request.members", "null params of a custom request are written", "C13,C34: what is omitted")
m("error-code", "Message.lean", [("  | .serverNotInitialized => -32002\n", "  | .serverNotInitialized => -32001\n")],
  "ErrorCode.code", "wrong code for ServerNotInitialized", "C25,C42: code -32002")
m("error-code-swap", "Message.lean", [("def invalidRequest (id : RequestId) (m : String) := err id ErrorCode.invalidRequest.code m", "def invalidRequest (id : RequestId) (m : String) := err id ErrorCode.invalidParams.code m")],
  "Response.invalidRequest", "wrong code in a constructor", "C25: code of the name")
m("err-with-result", "Message.lean", [("  { id, result := none, error := some { code, message, data := none } }", "  { id, result := some .null, error := some { code, message, data := none } }")],
  "Response.err", "an error response also has a null result", "C25: exactly one of result and error")
m("resp-result-required", "Message.lean", [("  let result ← s.opt 1 \"result\" decValue\n  let error ← s.opt 2 \"error\" ResponseError.dec", "  let result ← (s.req 1 \"result\" decValue).map some\n  let error ← s.opt 2 \"error\" ResponseError.dec")],
  "Response.dec", "result is required", "C14,C26: error responses are read back")
m("resp-error-rename", "Message.lean", [("    ++ skipNone \"error\" ResponseError.enc x.error", "    ++ skipNone \"err\" ResponseError.enc x.error")],
  "Response.members", "misspelt member name", "C12,C26: responses survive the wire")
m("exit-needs-params", "Message.lean", [("      if method ≠ \"build/exit\" ∧ method ≠ \"build/initialized\" then none else some Value.null", "      if method ≠ \"build/initialized\" then none else some Value.null")],
  "Notification.finish", "exit without params is rejected", "C27,C28: exit is recognised without params")
m("notif-default-params", "Message.lean", [("      if method ≠ \"build/exit\" ∧ method ≠ \"build/initialized\" then none else some Value.null", "      some Value.null")],
  "Notification.finish", "missing params count as null for every notification", "C28: other methods without params are rejected")
m("ofstr-default", "Message.lean", [("  if s = \"build/exit\" then some .exit\n  else if s = \"build/initialized\" then some .initialized\n  else none", "  if s = \"build/exit\" then some .exit\n  else if s = \"build/initialized\" then some .initialized\n  else some (.custom s .null)")],
  "Notification.ofStr", "other strings become custom notifications", "C61: other strings panic")

# --- payloads ------------------------------------------------------------------------------------------
m("wire-rename", "Types.lean", [("def fields : List String := [\"displayName\", \"version\", \"bspVersion\", \"rootUri\", \"capabilities\", \"data\"]\n\n/-- Derived `Serialize`. bsp-types/src/initialize_params.rs:8-39. -/", "def fields : List String := [\"name\", \"version\", \"bspVersion\", \"rootUri\", \"capabilities\", \"data\"]\n\n/-- Derived `Serialize`. bsp-types/src/initialize_params.rs:8-39. -/"),
   ("def enc [Ext] (x : InitializeBuild) : Json :=\n  .obj (fld \"displayName\" (Json.str x.displayName)", "def enc [Ext] (x : InitializeBuild) : Json :=\n  .obj (fld \"name\" (Json.str x.displayName)"),
   ("def dec [Ext] (j : Json) : Option InitializeBuild := do\n  let s ← structSrc fields j\n  let displayName ← s.req 0 \"displayName\" decStr", "def dec [Ext] (j : Json) : Option InitializeBuild := do\n  let s ← structSrc fields j\n  let displayName ← s.req 0 \"name\" decStr")],
  "InitializeBuild.fields, enc, dec", "displayName called name on the wire, on both sides", "C33,C34: wire names of the schema")
m("u32-wrap", "Serde.lean", [("if 0 ≤ i ∧ i < 2 ^ 32 then some (UInt32.ofNat i.toNat) else none", "if 0 ≤ i then some (UInt32.ofNat i.toNat) else none")],
  "decU32", "large integers wrap around", "C35: rejected")
m("opt-null-error", "Serde.lean", [("def decOpt (dec : Json → Option α) : Json → Option (Option α)\n  | .null => some none\n  | j => (dec j).map some", "def decOpt (dec : Json → Option α) (j : Json) : Option (Option α) := (dec j).map some")],
  "decOpt", "null is not accepted for an optional member", "C26,C14: null counts as absent")
m("dup-allowed", "Serde.lean", [("  | .obj ms => if dupKnown fields ms then none else some (.map ms)", "  | .obj ms => some (.map ms)")],
  "structSrc", "duplicate members are accepted (first wins)", "C17: duplicates are rejected")
m("deny-unknown", "Serde.lean", [("  | .obj ms => if dupKnown fields ms then none else some (.map ms)", "  | .obj ms => if dupKnown fields ms || ms.any (fun x => !fields.contains x.1) then none else some (.map ms)")],
  "structSrc", "unknown members are rejected (deny_unknown_fields)", "C15,C32: unknown members are ignored")
m("msgtype-codes", "Enums.lean", [("    if i = 1 then some .error else if i = 2 then some .warning", "    if i = 0 then some .error else if i = 2 then some .warning"), ("def code : MessageType → Nat\n  | .error => 1", "def code : MessageType → Nat\n  | .error => 0")],
  "MessageType.code, dec", "codes start at 0 on both sides", "C36: exactly the codes of the table")
m("taskstatus-lenient", "Enums.lean", [("    else if i = 3 then some .cancelled else none\n  | _ => none\ntheorem dec_enc (x : TaskStatus)", "    else some .cancelled\n  | _ => none\ntheorem dec_enc (x : TaskStatus)")],
  "TaskStatus.dec", "any other integer counts as cancelled", "C36: exactly the codes of the table")
m("kind-fails", "Enums.lean", [("  match decStr j with\n  | some s => some (ofString s)\n  | Option.none => some .none", "  match decStr j with\n  | some s => some (ofString s)\n  | Option.none => if j = .null then some .none else Option.none")],
  "TaskDataKind.dec", "non-text kinds other than null are rejected", "C37: decoding never fails")
m("kind-rename", "Enums.lean", [("  | .testStart => .str \"test-start\"", "  | .testStart => .str \"test-started\""), ("  else if s = \"test-start\" then .testStart", "  else if s = \"test-started\" then .testStart")],
  "TaskDataKind.enc, ofString", "reserved name changed on both sides", "C37: reserved names")
m("tag-string", "Enums.lean", [("  | .custom s => .obj [(\"custom\", .str s)]", "  | .custom s => .str s"), ("  else if s = \"manual\" then some .manual\n  else none", "  else if s = \"manual\" then some .manual\n  else some (.custom s)")],
  "BuildTargetTag.enc, unitVariant", "free-form tags as the documentation promises", "C38: violated by the code")
m("skip-empty-kept", "Types.lean", [("    ++ skipIf (x.version == \"\") \"version\" (Json.str x.version)\n    ++ skipIf (x.bspVersion == \"\") \"bspVersion\" (Json.str x.bspVersion)\n    ++ fld \"rootUri\" (encUrl x.rootUri)", "    ++ fld \"version\" (Json.str x.version)\n    ++ skipIf (x.bspVersion == \"\") \"bspVersion\" (Json.str x.bspVersion)\n    ++ fld \"rootUri\" (encUrl x.rootUri)")],
  "InitializeBuild.enc", "an empty version is written", "C34: what is omitted")
m("required-defaulted", "Types.lean", [("def dec [Ext] (j : Json) : Option InitializeBuild := do\n  let s ← structSrc fields j\n  let displayName ← s.req 0 \"displayName\" decStr", "def dec [Ext] (j : Json) : Option InitializeBuild := do\n  let s ← structSrc fields j\n  let displayName ← s.dflt 0 \"displayName\" \"\" decStr")],
  "InitializeBuild.dec", "a required member gets a default", "C33: required members are required")

# --- conversions ---------------------------------------------------------------------------------------
m("from-swap", "Convert.lean", [("  | .run => .buildTargetRun\n", "  | .run => .buildTargetTest\n"), ("  | .run, id, x => .buildTargetRun id x", "  | .run, id, x => .buildTargetTest id x")],
  "ReqPayload.payload, Request.ofPayload", "run parameters converted to a test request", "C62: method of the payload type")
m("from-result-id", "Convert.lean", [("  .response (Response.ok id (Value.ofJson (k.payload.enc x)))", "  .response (Response.ok (.i32 0) (Value.ofJson (k.payload.enc x)))")],
  "Message.ofResult", "the id is lost", "C62: exactly that id")

# --- handshake and shutdown ----------------------------------------------------------------------------
m("hs-no-reply", "Conn.lean", [("    match _hs : send (.response (.serverNotInitialized req.id\n        (\"expected initialize request, got \" ++ Dbg.req req))) w1 with", "    match _hs : send (.response (.methodNotFound req.id\n        (\"expected initialize request, got \" ++ Dbg.req req))) w1 with")],
  "Conn.initializeStart", "early requests are refused with methodNotFound", "C42: code -32002")
m("hs-wrong-id", "Conn.lean", [("    match _hs : send (.response (.serverNotInitialized req.id\n", "    match _hs : send (.response (.serverNotInitialized (.i32 0)\n")],
  "Conn.initializeStart", "refusals carry id 0", "C42: its own id")
m("hs-drop-notifs", "Conn.lean", [("  | (.ok (some msg), w1) => (.err (\"expected initialize request, got \" ++ Dbg.msg msg), w1)\n", "  | (.ok (some (.notification .exit)), w1) => (.err \"exit\", w1)\n  | (.ok (some _), w1) => initializeStart w1\n"), ("decreasing_by rw [send_inp _hs]; exact recv_length _h", "decreasing_by\n  · rw [send_inp _hs]; exact recv_length _h\n  · exact recv_length _h")],
  "Conn.initializeStart", "early notifications are dropped except exit (what is documented)", "C41,C43,C46: violated by the code")
m("hs-second-init", "Conn.lean", [("    | (.ok (some (.notification .initialized)), w2) => (.ok (), w2)\n", "    | (.ok (some (.notification _)), w2) => (.ok (), w2)\n")],
  "Conn.initializeFinish", "any notification completes the handshake", "C41,C45: only initialized")
m("hs-extra-read", "Conn.lean", [("    | (.ok (some (.notification .initialized)), w2) => (.ok (), w2)\n", "    | (.ok (some (.notification .initialized)), w2) => (.ok (), (recv w2).2)\n")],
  "Conn.initializeFinish", "one message too many is consumed", "C46: no over-reading")
m("hs-handler-early", "Conn.lean", [("  match initializeStart w with\n  | (.ok (id, params), w1) =>\n    let w2 := { w1 with calls := w1.calls ++ [params] }", "  match initializeStart w with\n  | (.ok (id, params), w1) =>\n    let w2 := { w1 with calls := w1.calls ++ [params, params] }")],
  "Conn.handshake", "the handler is called twice", "C44: at most once")
m("hs-send-ignored", "Conn.lean", [("  | (.ok false, w1) => (.panic, w1)\n  | (_, w1) => (.blocked, w1)\n\n/-- `Connection::initialize`", "  | (.ok false, w1) => (.ok (), w1)\n  | (_, w1) => (.blocked, w1)\n\n/-- `Connection::initialize`")],
  "Conn.initializeFinish", "a failed send of the response counts as success", "C41,C47: panics iff it cannot send")
m("sd-any", "Conn.lean", [("  | .shutdown id =>\n    match send (.response (.ok id Value.null)) w with\n    | (.ok _, w1) => awaitExit w1\n    | (_, w1) => (.blocked, w1)\n  | _ => (.ok false, w)", "  | .shutdown id =>\n    match send (.response (.ok id Value.null)) w with\n    | (.ok _, w1) => awaitExit w1\n    | (_, w1) => (.blocked, w1)\n  | r => (.ok false, (send (.response (.methodNotFound r.id \"\")) w).2)")],
  "Conn.handleShutdown", "other requests are answered", "C48: sends nothing")
m("sd-timeout", "Conn.lean", [("  match recvTimeout 30000 w1 with", "  match recvTimeout 3000 w1 with")],
  "Conn.awaitExit", "three seconds instead of thirty", "C49: 30 seconds")
m("sd-lenient", "Conn.lean", [("  | (.msg msg, w2) => (.err (\"unexpected message during shutdown: \" ++ Dbg.msg msg), w2)", "  | (.msg _, w2) => (.ok true, w2)")],
  "Conn.awaitExit", "any message counts as exit", "C49: only exit")
m("sd-disconnect-ok", "Conn.lean", [("  | (.disconnected, w2) => (.err (\"unexpected error during shutdown: \" ++ Dbg.disconnected), w2)", "  | (.disconnected, w2) => (.ok true, w2)")],
  "Conn.awaitExit", "a hang-up counts as exit", "C49: a hang-up is an error")
m("sd-null", "Conn.lean", [("    match send (.response (.ok id Value.null)) w with", "    match send (.response (.ok id (.ofJson (.bool true)))) w with")],
  "Conn.handleShutdown", "the result is true instead of null", "C49: null result")

# --- in-memory pair ------------------------------------------------------------------------------------
m("mem-loopback", "Memory.lean", [("    | .left => { sender := false, receiver := true }\n    | .right => { sender := true, receiver := false }", "    | .left => { sender := false, receiver := false }\n    | .right => { sender := true, receiver := true }")],
  "Mem.memory", "each side gets both ends of the same channel", "C50: never its own messages")
m("mem-lifo", "Memory.lean", [("  else ({ x with queue := x.queue ++ [m] }, .sent m)", "  else ({ x with queue := m :: x.queue }, .sent m)")],
  "Mem.Chan.send", "last in, first out", "C50: in order")
m("mem-lossy", "Memory.lean", [("  else ({ x with queue := x.queue ++ [m] }, .sent m)", "  else ({ x with queue := if x.queue.length < 16 then x.queue ++ [m] else x.queue }, .sent m)")],
  "Mem.Chan.send", "messages beyond sixteen are dropped silently", "C50: without loss")
m("mem-disc-early", "Memory.lean", [("  else match x.queue with\n    | m :: r => ({ x with queue := r }, .received m)\n    | [] => (x, if x.senders = 0 then .disconnected else .empty)", "  else if x.senders = 0 then (x, .disconnected) else match x.queue with\n    | m :: r => ({ x with queue := r }, .received m)\n    | [] => (x, .empty)")],
  "Mem.Chan.recv", "disconnection is reported before the queue is empty", "C50: without loss")

# --- request queue -------------------------------------------------------------------------------------
m("rq-reuse", "ReqQueue.lean", [("  else some (id, { next := q.next + 1, pending })", "  else some (id, { next := q.next, pending })")],
  "Queue.Outgoing.register", "the counter is not advanced", "C59: fresh ids")
m("rq-keep", "ReqQueue.lean", [("  let r := q.pending.remove id\n  (r.1, { q with pending := r.2 })", "  let r := q.pending.remove id\n  (r.1, q)")],
  "Queue.Outgoing.complete", "the entry is kept", "C59: exactly once")
m("rq-cancel-result", "ReqQueue.lean", [("      result := none\n      error := some { code := ErrorCode.requestCanceled.code", "      result := some .null\n      error := some { code := ErrorCode.requestCanceled.code")],
  "Queue.Incoming.cancel", "cancel answers with a null result as well", "C60: no result")
m("rq-cancel-keep", "ReqQueue.lean", [("  let r := q.pending.remove id\n  (r.1, { pending := r.2 })", "  let r := q.pending.remove id\n  (r.1, q)")],
  "Queue.Incoming.complete", "the entry is kept", "C60: at most once")

# --- documented main loop ------------------------------------------------------------------------------
m("loop-skip", "Readme.lean", [("  | req => .response (.methodNotFound req.id \"\")", "  | req => .response (.methodNotFound (.i32 0) \"\")")],
  "Conn.reply", "unknown requests are answered with id 0", "C63: its id")
m("loop-notif-reply", "Readme.lean", [("  | (.ok (some _), w1) => block w1", "  | (.ok (some (.notification _)), w1) => (.ok (), w1)\n  | (.ok (some _), w1) => block w1")],
  "Conn.block", "a notification ends the loop", "C63: every received request is answered")

# --- I/O threads ---------------------------------------------------------------------------------------
m("tr-no-exit-stop", "Transport.lean", [("def afterSend (m : Message) : Reader := if isExit m then .done else .reading", "def afterSend (_ : Message) : Reader := .reading")],
  "Transport.afterSend", "the reader goes on after exit", "C52: reading stops at exit")
m("tr-stop-any", "Transport.lean", [("  | .notification .exit => true\n  | _ => false\n\n/-- The reader after", "  | .notification _ => true\n  | _ => false\n\n/-- The reader after")],
  "Transport.isExit", "the reader stops at any notification", "C55: it ends only after exit or at the end of the input")
m("tr-exit-early", "Transport.lean", [("      Step k s (.deliver m) { s with reader := afterSend m, delivered := s.delivered ++ [m] }", "      Step k s (.deliver m) { s with reader := afterSend m, delivered := if isExit m then s.delivered else s.delivered ++ [m] }")],
  "Transport.Step.deliver", "exit is not delivered", "C55,C56: all messages up to exit are delivered")
m("tr-skip-bad", "Transport.lean", [("  | .invalidData => { s with reader := readError k }", "  | .invalidData => { s with reader := .reading, unread := [] }")],
  "Transport.afterRead", "the reader skips malformed input", "C51,C55: malformed input ends the reader")
m("tr-eof-error", "Transport.lean", [("  | .eof => { s with reader := .done }", "  | .eof => { s with reader := readError k }")],
  "Transport.afterRead", "a clean end of input is an error", "C55: the reader ends successfully at a clean end")
m("tr-stdio-panic", "Transport.lean", [("def readError : Kind → Reader\n  | .stdio => .failed", "def readError : Kind → Reader\n  | .stdio => .panicked")],
  "Transport.readError", "the stdio reader panics on malformed input", "C55: it returns an error")
m("tr-drop-undeliverable", "Transport.lean", [("      Step k s .undeliverable { s with reader := .panicked }", "      Step k s .undeliverable { s with reader := .done }")],
  "Transport.Step.undeliverable", "a failed send ends the reader quietly", "C55: it panics; it ends successfully only after exit or a clean end")
m("tr-interleave", "Transport.lean", [("  | accept (s : State) (m) : s.writer = .idle → s.txAlive = true →", "  | accept (s : State) (m) : s.writer.ended = false → s.txAlive = true →"),
   ("/-- Whether a thread has ended. -/\ndef Reader.ended", "/-- Whether the reader has ended. -/\ndef Reader.ended"),
   ("omit [FloatText] in\n/-- Whether a thread has ended. -/\ndef Writer.ended : Writer → Bool\n  | .idle | .writing _ => false\n  | _ => true\n", ""),
   ("/-- What can happen. -/", "omit [FloatText] in\ndef Writer.ended : Writer → Bool\n  | .idle | .writing _ => false\n  | _ => true\n\n/-- What can happen. -/")],
  "Transport.Step.accept", "a message is taken while another is being written (its rest is lost)", "C53: never interleaved")
m("tr-write-retry", "Transport.lean", [("      Step k s .writeFails { s with writer := writeError k }", "      Step k s .writeFails { s with writer := .idle }")],
  "Transport.Step.writeFails", "the writer goes on after a failed write", "C53: nothing follows a partial message")
m("tr-close-early", "Transport.lean", [("  | close (s : State) : s.writer = .idle → s.txAlive = false →", "  | close (s : State) : s.writer.ended = false → s.txAlive = false →"),
   ("omit [FloatText] in\n/-- Whether a thread has ended. -/\ndef Writer.ended : Writer → Bool\n  | .idle | .writing _ => false\n  | _ => true\n", ""),
   ("/-- What can happen. -/", "omit [FloatText] in\ndef Writer.ended : Writer → Bool\n  | .idle | .writing _ => false\n  | _ => true\n\n/-- What can happen. -/")],
  "Transport.Step.close", "the writer ends in the middle of a message when the connection is dropped", "C54: everything accepted is written")
m("tr-close-alive", "Transport.lean", [("  | close (s : State) : s.writer = .idle → s.txAlive = false →", "  | close (s : State) : s.writer = .idle →")],
  "Transport.Step.close", "the writer may end while senders are left", "C54: only after all senders are dropped")
m("tr-out-of-order", "Transport.lean", [("  | toRight {p b' bs} : p.b.arrived ++ bs <+: p.a.out →", "  | toRight {p b' bs} : p.b.arrived ++ bs <:+: p.a.out →")],
  "Transport.PairStep.toRight", "bytes may arrive starting in the middle of the stream", "C56: prefix of what was sent")
m("join-writer-first", "Transport.lean", [("  | .failed => .err\n  | .panicked =>\n    if k = .stdio", "  | .failed => if s.writer.ended = false then .waiting else .err\n  | .panicked =>\n    if k = .stdio")],
  "Transport.join", "join waits for the writer before it reports a reader error", "C58: returned at once")
m("join-swallow", "Transport.lean", [("    | .failed => .err\n    | .panicked => .panic (utf8 \"writer panicked!\\n\".toList)", "    | .failed => .ok\n    | .panicked => .panic (utf8 \"writer panicked!\\n\".toList)")],
  "Transport.join", "a writer error is swallowed", "C57,C58: Ok iff both threads ended successfully")
m("join-no-lock", "Transport.lean", [("    if k = .stdio ∧ s.writer.ended = false then .waiting\n    else .panic", "    if False then .waiting\n    else .panic")],
  "Transport.join", "the lock of the standard output is forgotten", "C58: reported only once the writer has released stdout")
m("join-line", "Transport.lean", [("    else .panic (utf8 \"reader panicked!\\n\".toList)", "    else .panic (utf8 \"Reader: panicked!\\r\\n\".toList)")],
  "Transport.join", "the line printed is a well-formed header line", "C58: the peer rejects the line")

# --- builders --------------------------------------------------------------------------------------------
m("api-set-other", "Api.lean", [("def BuildTargetCompileResult.set_data (x : BuildTargetCompileResult) (data : Option Value) : BuildTargetCompileResult :=\n  { x with data := data }", "def BuildTargetCompileResult.set_data (x : BuildTargetCompileResult) (data : Option Value) : BuildTargetCompileResult :=\n  { x with data := data, dataKind := none }")],
  "Api.BuildTargetCompileResult.set_data", "the setter also clears dataKind", "C65: every other member stays as it was")
m("api-set-noop", "Api.lean", [("def DependencyModule.set_version (x : DependencyModule) (version : String) : DependencyModule :=\n  { x with version := version }", "def DependencyModule.set_version (x : DependencyModule) (version : String) : DependencyModule :=\n  { x with name := version }")],
  "Api.DependencyModule.set_version", "the setter sets the name", "C65: the member the setter is named after")
m("api-get-other", "Api.lean", [("def InitializeBuildResult.version (x : InitializeBuildResult) : String :=\n  x.version", "def InitializeBuildResult.version (x : InitializeBuildResult) : String :=\n  x.bspVersion")],
  "Api.InitializeBuildResult.version", "the getter returns bspVersion", "C66: the getter returns the member it is named after")
m("api-is-empty", "Api.lean", [("def BuildTargetCleanCache.is_empty [Ext] (x : BuildTargetCleanCache) : Bool :=\n  x.targets.isEmpty", "def BuildTargetCleanCache.is_empty [Ext] (x : BuildTargetCleanCache) : Bool :=\n  decide (x.targets.length ≤ 1)")],
  "Api.BuildTargetCleanCache.is_empty", "one target counts as empty", "C66: is_empty tells whether the targets are empty")
m("api-new-swap", "Api.lean", [("  ⟨display_name, version, bsp_version, capabilities, none⟩", "  ⟨display_name, bsp_version, version, capabilities, none⟩")],
  "Api.InitializeBuildResult.new_simple", "version and bsp_version swapped", "C67: every argument under its own name")
m("api-new-drop", "Api.lean", [("(data : Option Value) : BuildTargetRun :=\n  ⟨target, origin_id, arguments, data_kind, data⟩", "(data : Option Value) : BuildTargetRun :=\n  ⟨target, origin_id, arguments, data_kind, if data_kind = none then none else data⟩")],
  "Api.BuildTargetRun.new", "data is dropped without a dataKind", "C67: every argument is written")
m("api-parent-first", "Api.lean", [("  { x with parents := x.parents ++ [value] }", "  { x with parents := value :: x.parents }")],
  "Api.TaskId.add_parent", "the parent is put in front", "C65: appended")
m("api-status-error", "Api.lean", [("def TaskStatus.is_error (x : TaskStatus) : Bool := x == .error", "def TaskStatus.is_error (x : TaskStatus) : Bool := x != .ok")],
  "Api.TaskStatus.is_error", "cancelled counts as error", "C66: predicates are about the code written")
m("api-default-kind", "Api.lean", [("def default_ShowMessage : ShowMessage :=\n  ⟨MessageType.log, \"\", none, none⟩", "def default_ShowMessage : ShowMessage :=\n  ⟨MessageType.error, \"\", none, none⟩")],
  "Api.default_ShowMessage", "the default message type is error", "C67: the default")
# --- server trait ------------------------------------------------------------------------------------------
m("srv-shutdown-panic", "Server.lean", [("def build_shutdown : Out := .ok Value.null", "def build_shutdown : Out := .panic")],
  "Server.build_shutdown", "the default shutdown panics", "C69: shutdown is answered")
m("srv-compile-ok", "Server.lean", [("def bt_compile (_ : BuildTargetCompile) : Out := .panic", "def bt_compile (_ : BuildTargetCompile) : Out := .ok Value.null")],
  "Server.bt_compile", "the default compile returns null", "C69: exactly which methods panic, and results that fit their type")
m("srv-wrong-result", "Server.lean", [("  .ok (Value.ofJson Api.default_BuildTargetResourcesResult.enc)", "  .ok Value.null")],
  "Server.bt_resources", "the default resources result is null", "C69: an empty result of its type")
m("srv-dispatch", "Server.lean", [("  | .buildTargetSources _ p => some (bt_sources p)", "  | .buildTargetSources _ _ => some build_shutdown")],
  "Server.dispatch", "sources is answered by the shutdown method", "C69: the result is one of the type of the request")
# --- the process -------------------------------------------------------------------------------------------
m("se-init-again", "Session.lean", [("  | .idle, some (.request (.shutdown id)) => .stopping id\n", "  | .idle, some (.request (.shutdown id)) => .stopping id\n  | .idle, some (.request (.initializeBuild id p)) =>\n    match process p with\n    | none => .ended .panic\n    | some v => .replying id v\n")],
  "Session.onRecv", "a second initialize is processed again", "C70,C73: answered as any other request")
m("se-early-exit", "Session.lean", [("  | .idle, some _ => .idle\n", "  | .idle, some (.notification .exit) => .ended (.err \"exit\")\n  | .idle, some _ => .idle\n")],
  "Session.onRecv", "exit without shutdown is an error", "C74: the process exits with success")
m("se-no-refuse", "Session.lean", [("  | .start, some (.request req) => .refusing req", "  | .start, some (.request _) => .start")],
  "Session.onRecv", "requests before initialize are dropped", "C70,C73: they are refused")
m("se-refuse-notif", "Session.lean", [("  | .start, some msg => .ended (.err (\"expected initialize request, got \" ++ Dbg.msg msg))", "  | .start, some _ => .start")],
  "Session.onRecv", "notifications before initialize are ignored", "C70: the process behaves as the sequential program")
m("se-answer-lost", "Session.lean", [("  | .answering _, true => .idle\n  | .answering _, false => .ended (.err \"sending on a disconnected channel\")", "  | .answering _, _ => .idle")],
  "Session.onSent", "failed sends of answers are ignored", "C82,C70: a failed write is not a success")
m("se-stop-strict", "Session.lean", [("  | .stopping _, _ => .leaving\n", "  | .stopping _, true => .leaving\n  | .stopping _, false => .ended (.ok ())\n")],
  "Session.onSent", "a failed send of the shutdown answer ends the loop with success", "C82: a failed write is not a success")
m("se-shutdown-first", "Session.lean", [("  | .idle, some (.request (.shutdown id)) => .stopping id\n", "  | .idle, some (.request (.shutdown _)) => .leaving\n")],
  "Session.onRecv", "shutdown is not answered", "C73,C81: null is sent for shutdown")
m("se-leave-any", "Session.lean", [("  | .leaving, some msg => .ended (.err (\"unexpected message during shutdown: \" ++ Dbg.msg msg))", "  | .leaving, some _ => .ended (.ok ())")],
  "Session.onRecv", "any message after shutdown ends the process with success", "C70,C79: only exit does")
m("se-leave-closed", "Session.lean", [("  | .leaving, none => .ended (.err (\"unexpected error during shutdown: \" ++ Dbg.disconnected))", "  | .leaving, none => .ended (.ok ())")],
  "Session.onRecv", "the end of input after shutdown counts as exit", "C70,C79: an error")
m("se-closed-early", "Session.lean", [("  | closed {p : Proc} : p.exit = none → p.app.receives = true → p.io.reader.ended = true →", "  | closed {p : Proc} : p.exit = none → p.app.receives = true → p.io.inEnd ≠ none →")],
  "Session.Step.closed", "the receive fails as soon as the peer has hung up, dropping what is still queued", "C70,C74: everything that arrived is received first")
m("se-timeout-idle", "Session.lean", [("  | timeout {p : Proc} : p.exit = none → p.app = .leaving →", "  | timeout {p : Proc} : p.exit = none → p.app.receives = true →")],
  "Session.Step.timeout", "the time limit also applies while waiting for requests", "C70,C74: a session without shutdown lasts as long as the connection")
m("se-timeout-ok", "Session.lean", [("        { p with app := .ended (.err (\"unexpected error during shutdown: \" ++ Dbg.timeout)) }", "        { p with app := .ended (.ok ()) }")],
  "Session.Step.timeout", "when the time limit passes the process ends with success", "C81: an error")
m("se-join-error", "Session.lean", [("      p.io.rxAlive = false → p.io.txAlive = false → Step k process p .exit { p with exit := some false }", "      p.io.rxAlive = false → p.io.txAlive = false → join k p.io ≠ .waiting → Step k process p .exit { p with exit := some false }")],
  "Session.Step.abort", "the threads are joined on the error path too (what the code should do)", "C76: a sent message can be lost on the error path")
m("se-no-join", "Session.lean", [("      p.io.rxAlive = false → p.io.txAlive = false → join k p.io ≠ .waiting →\n      Step k process p .exit { p with exit := some (decide (join k p.io = .ok)) }", "      p.io.rxAlive = false → p.io.txAlive = false →\n      Step k process p .exit { p with exit := some true }")],
  "Session.Step.finish", "main does not join the threads", "C75: success means that everything has been written")
m("se-join-swallow", "Session.lean", [("{ p with exit := some (decide (join k p.io = .ok)) }", "{ p with exit := some true }")],
  "Session.Step.finish", "the result of join is ignored", "C75,C79,C82: thread errors make the process fail")
m("se-keep-sender", "Session.lean", [("  | dropTx {p : Proc} {r} : p.exit = none → p.app = .ended r → p.io.txAlive = true →", "  | dropTx {p : Proc} {r} : p.exit = none → p.app = .ended r → r ≠ .ok () → p.io.txAlive = true →")],
  "Session.Step.dropTx", "the connection is kept alive until after join (deadlock)", "C71,C73: no process is stuck")
m("se-drop-order", "Session.lean", [("  | finish {p : Proc} : p.exit = none → p.app = .ended (.ok ()) →\n      p.io.rxAlive = false → p.io.txAlive = false → join", "  | finish {p : Proc} : p.exit = none → p.app = .ended (.ok ()) →\n      p.io.rxAlive = false → p.io.txAlive = false → p.io.inEnd ≠ none → join")],
  "Session.Step.finish", "the process waits until the peer closes the connection", "C71,C73: at rest it has exited")
m("se-busy-send", "Session.lean", [("  | unsent {p : Proc} {m} : p.exit = none → toSend p.app = some m → p.io.writer.ended = true →", "  | unsent {p : Proc} {m} : p.exit = none → toSend p.app = some m → p.io.writer ≠ .idle →")],
  "Session.Step.unsent", "a send fails while the writer is busy", "C70,C71,C73: sends wait for the writer")
m("se-recv-while-sending", "Session.lean", [("  | .start | .confirming | .idle | .leaving => true\n", "  | .start | .confirming | .idle | .leaving | .answering _ => true\n")],
  "Session.App.receives", "the loop may receive before its answer is sent (dropping nothing)", "C70,C72: messages are handled one at a time")
# texts
m("db-raw-string", "Debug.lean", [("  | .str s => strDebug odd s\n\n/-- Derived `Debug`. request/id.rs", "  | .str s => s.toList\n\n/-- Derived `Debug`. request/id.rs")],
  "RequestId.display", "text ids are shown without quotes", "C86: the number 5 and the text 5 have different texts")
m("db-no-quote-escape", "Debug.lean", [("  else if c = '\"' then ['\\\\', '\"']\n", "")],
  "escDebug", "quotes inside are not escaped", "C86: the text of an id determines it, also when something follows")
m("db-no-backslash-escape", "Debug.lean", [("  else if c = '\\\\' then ['\\\\', '\\\\']\n", "")],
  "escDebug", "backslashes are not escaped", "C86: a tab and a backslash with t have different texts")
m("db-unicode-open", "Debug.lean", [("(Nat.toDigits 16 c.toNat ++ ['}'])", "Nat.toDigits 16 c.toNat")],
  "escDebug", "the escape with hexadecimal digits has no closing brace", "C86: where the digits end is seen")
m("db-order-mixed", "Debug.lean", [("  | .i32 _, .str _ => true\n  | .str _, .i32 _ => false\n", "  | .i32 _, .str _ => true\n  | .str _, .i32 _ => true\n")],
  "RequestId.less", "texts are less than numbers too", "C86: antisymmetric order")
m("db-order-length", "Debug.lean", [("  | .str a, .str b => decide (utf8 a.toList < utf8 b.toList)", "  | .str a, .str b => decide (a.length < b.length)")],
  "RequestId.less", "texts are compared by length", "C86: of two different ids one is less")
m("db-no-id", "Debug.lean", [("def reqText (r : Request) : List Char := r.id.display odd ++ \", \".toList ++ afterId r", "def reqText (r : Request) : List Char := afterId r")],
  "Dbg.reqText", "the Debug of a request leaves out the id", "C87: error texts and refusals tell the id")
m("db-no-sep", "Debug.lean", [("def reqText (r : Request) : List Char := r.id.display odd ++ \", \".toList ++ afterId r", "def reqText (r : Request) : List Char := r.id.display odd ++ afterId r")],
  "Dbg.reqText", "nothing separates the id from the params", "C87: refusals tell the id (params may start with a digit)")
m("db-note-name", "Debug.lean", [("  | .taskProgress p => \"TaskProgress(\".toList", "  | .taskProgress p => \"TaskFinish(\".toList")],
  "Dbg.noteText", "taskProgress is shown as TaskFinish", "C87: error texts tell the method of a notification")
m("db-msg-kind", "Debug.lean", [("  | .request r => String.ofList (\"Request(\".toList ++ reqText r ++ \")\".toList)", "  | .request r => String.ofList (reqText r)")],
  "Dbg.msg", "a request is shown without its kind", "C87: error texts tell the kind of a message")
m("db-resp-id", "Debug.lean", [("  \"Response { id: \".toList ++ r.id.debug odd ++ \", result: \".toList", "  \"Response { id: ..\".toList ++ \", result: \".toList")],
  "Dbg.respText", "the id of a response is not shown", "C87: error texts tell the id of a response")
m("db-extract-same", "Debug.lean", [("  | .methodMismatch n => \"Method mismatch for notification '\" ++ n.method", "  | .methodMismatch n => \"Method mismatch for request '\" ++ n.method")],
  "ExtractError.ofNotification", "copied text", "C87: a request and a notification have different texts")
m("db-extract-method", "Debug.lean", [("  | .jsonError m e => \"Invalid request\\nMethod: \" ++ m ++ \"\\n error: \" ++ e", "  | .jsonError _ e => \"Invalid request\\n error: \" ++ e")],
  "ExtractError.ofRequest", "the method is left out", "C87: the text tells the method")
m("db-wrong-prefix", "Conn.lean", [("(.err (\"expected Message::Notification, got: \" ++ Dbg.msg msg), w2)", "(.err (\"expected initialize request, got \" ++ Dbg.msg msg), w2)")],
  "initializeFinish", "the text of the first phase is used in the second", "C87: the text tells the phase")
m("db-shutdown-text", "Conn.lean", [("(.err (\"unexpected message during shutdown: \" ++ Dbg.msg msg), w2)", "(.err \"unexpected message during shutdown\", w2)")],
  "awaitExit", "the error does not quote the message", "C87: the text tells the message")
m("db-refusal-text", "Conn.lean", [("        (\"expected initialize request, got \" ++ Dbg.req req))) w1 with", "        \"expected initialize request\")) w1 with")],
  "initializeStart", "the refusal does not quote the request", "C87: a refusal tells the id in its text")
# the four ways to send
m("sn-full-ok", "Sending.lean", [("  | full : c.how = .trySend → s.writer.ended = false → Returns k s c (.full c.msg) s", "  | full : c.how = .trySend → s.writer.ended = false → Returns k s c .ok s")],
  "Sending.Returns.full", "try_send drops the message and returns Ok if the writer is busy", "C85: Ok means that the message is written")
m("sn-timeout-late", "Sending.lean", [("  | timeout : c.how = .sendTimeout → s.writer.ended = false → Returns k s c (.timeout c.msg) s", "  | timeout {s'} : c.how = .sendTimeout → Transport.Step k s (.accept c.msg) s' → Returns k s c (.timeout c.msg) s'")],
  "Sending.Returns.timeout", "send_timeout reports a time-out although the message was taken", "C85: an error means that nothing is written; a call with a time limit can always return")
m("sn-send-full", "Sending.lean", [("  | full : c.how = .trySend → s.writer.ended = false →", "  | full : c.how = .send ∨ c.how = .trySend → s.writer.ended = false →")],
  "Sending.Returns.full", "send does not wait", "C85: send returns Ok or Disconnected")
m("sn-gone-busy", "Sending.lean", [("  | gone : s.writer.ended = true → Returns", "  | gone : s.writer ≠ .idle → Returns")],
  "Sending.Returns.gone", "Disconnected is returned while the writer is busy", "C85: Disconnected only after a write has failed")
m("sn-try-blocks", "Sending.lean", [("  /-- lib.rs:209 -/\n  | full : c.how = .trySend → s.writer.ended = false → Returns k s c (.full c.msg) s\n", "")],
  "Sending.Returns", "try_send waits like send", "C85: try_send can always return")
m("sn-deadline-kind", "Sending.lean", [("  | deadline : c.how = .sendDeadline → s.writer.ended = false → Returns k s c (.timeout c.msg) s", "  | deadline : c.how = .sendDeadline → s.writer.ended = false → Returns k s c (.full c.msg) s")],
  "Sending.Returns.deadline", "send_deadline returns Full", "C85: an error of its method")
m("sn-wrong-message", "Sending.lean", [("  | returns {u : Use} {c a b r io} : u.waiting = a ++ c :: b → Returns k u.io c r io →\n      Step k u { u with io := io, waiting := a ++ b,", "  | returns {u : Use} {c d a b r io} : u.waiting = a ++ c :: b → d ∈ u.waiting → Returns k u.io { c with msg := d.msg } r io →\n      Step k u { u with io := io, waiting := a ++ b,")],
  "Sending.Step.returns", "a call sends the message of another call", "C85: its own message")
m("sn-twice", "Sending.lean", [("      Step k u { u with io := io, waiting := a ++ b, returned", "      Step k u { u with io := io, waiting := a ++ c :: b, returned")],
  "Sending.Step.returns", "a call that has returned is still in progress", "C85: every call returns once")
m("sn-mem-full", "Sending.lean", [("  | (s', .sent _) => (s', some .ok)\n", "  | (s', .sent _) => if (s.chan (s.conn side).sender).queue.length < 1 then (s', some .ok) else (s, some (.full c.msg))\n")],
  "Sending.inMemory", "the channels in memory have capacity 1", "C85: in memory every call returns Ok while the other side has a receiver")
m("sn-mem-lost", "Sending.lean", [("  | (s', .sendFailed m) => (s', some (.disconnected m))", "  | (s', .sendFailed _) => (s', some .ok)")],
  "Sending.inMemory", "a failed send returns Ok", "C85: an error if the other side has no receiver")
# a server in memory
m("ms-empty-closed", "MemSession.lean", [("  | closed {p : Proc} : p.app.receives = true → p.outcome side .recv = .disconnected →", "  | closed {p : Proc} : p.app.receives = true → (p.outcome side .recv = .disconnected ∨ p.outcome side .recv = .empty) →")],
  "MemSession.Step.closed", "an empty channel counts as closed", "C84: a server waits as long as the tester talks")
m("ms-stuck-end", "MemSession.lean", [("  | closed {p : Proc} : p.app.receives = true → p.outcome side .recv = .disconnected →", "  | closed {p : Proc} : p.app.receives = true → p.app ≠ .idle → p.outcome side .recv = .disconnected →")],
  "MemSession.Step.closed", "the loop does not notice that the tester is gone", "C84: it comes to rest as the process does")
m("ms-timeout-any", "MemSession.lean", [("  | timeout {p : Proc} : p.app = .leaving →", "  | timeout {p : Proc} : p.app.receives = true →")],
  "MemSession.Step.timeout", "the time limit also applies while waiting for requests", "C84: as the process")
m("ms-send-lost", "MemSession.lean", [("  | send {p : Proc} {m} : toSend p.app = some m → p.outcome side (.send m) = .sent m →\n      Step side process p .main { p.does side (.send m) with app := onSent p.app true }", "  | send {p : Proc} {m} : toSend p.app = some m → p.outcome side (.send m) = .sent m →\n      Step side process p .main { p with app := onSent p.app true }")],
  "MemSession.Step.send", "answers are not put into the channel", "C84: it has answered everything it received")
m("ms-own-end", "MemSession.lean", [("  | tester (p : Proc) (op : Op) : Step side process p .tester (p.does side.other op)", "  | tester (p : Proc) (op : Op) : Step side process p .tester (p.does side op)")],
  "MemSession.Step.tester", "the tester uses the server's end", "C84: the server receives what the tester sends")
# texts without control characters, batches, bytes determine messages
m("ln-raw-control", "JsonText.lean", [("  else if c.toNat < 0x20 then ['\\\\', 'u', '0', '0', hexDigit (c.toNat / 16), hexDigit (c.toNat % 16)]\n  else [c]", "  else if c.toNat < 0x1f then ['\\\\', 'u', '0', '0', hexDigit (c.toNat / 16), hexDigit (c.toNat % 16)]\n  else [c]")],
  "Text.escChar", "the control character U+001F is printed as it is", "C89: no control characters in what is written")
m("ln-raw-newline", "JsonText.lean", [("  else if c = '\\n' then ['\\\\', 'n']\n", "  else if c = '\\n' then ['\\n']\n")],
  "Text.escChar", "line feeds are not escaped", "C89: no line feeds but those of the header")
m("ln-same-escape", "JsonText.lean", [("  else if c = '\\x0c' then ['\\\\', 'f']\n", "  else if c = '\\x0c' then ['\\\\', 'n']\n")],
  "Text.escChar", "form feed and line feed have the same escape", "C88: the bytes determine the messages")
m("ln-trailing-newline", "Framing.lean", [("  utf8 (\"Content-Length: \".toList ++ Nat.toDigits 10 (utf8 cs).length ++ ['\\r', '\\n', '\\r', '\\n']) ++\n    utf8 cs", "  utf8 (\"Content-Length: \".toList ++ Nat.toDigits 10 (utf8 cs).length ++ ['\\r', '\\n', '\\r', '\\n']) ++\n    utf8 cs ++ [10]")],
  "Frame.frame", "a line feed is written after the body", "C89, C03: nothing but header and body")
m("ln-short-array", "Serde.lean", [("  | .seq xs => xs[i]?\n", "  | .seq xs => some (xs[i]?.getD .null)\n")],
  "Src.get", "missing elements of an array count as null", "C90: an array is accepted only with three elements")
m("ln-batch-first", "Message.lean", [("def dec (j : Json) : Option Message :=\n  match Request.dec j with", "def dec (j : Json) : Option Message :=\n  match Request.dec (match j with | .arr (x :: _) => x | _ => j) with")],
  "Message.dec", "of a batch the first message is taken", "C90: batches are rejected")
m("ln-long-array", "Serde.lean", [("  | .arr xs => if fields.length < xs.length then none else some (.seq xs)", "  | .arr xs => some (.seq xs)")],
  "structSrc", "arrays may be longer than the struct", "C90: an array is accepted only with three elements")
# two processes on one connection
m("lk-half-close", "Link.lean", [("  x.gone || (k == .socket && x.io.reader.ended && x.io.writer.ended)", "  x.gone || (k == .socket && x.io.writer.ended)")],
  "Link.Side.closed", "the writer shuts the socket down when it ends", "C91: without exit no join returns")
m("lk-or-close", "Link.lean", [("  x.gone || (k == .socket && x.io.reader.ended && x.io.writer.ended)", "  x.gone || (k == .socket && (x.io.reader.ended || x.io.writer.ended))")],
  "Link.Side.closed", "either thread closes the socket", "C92, C91: nothing is lost")
m("lk-stdio-close", "Link.lean", [("  x.gone || (k == .socket && x.io.reader.ended && x.io.writer.ended)", "  x.gone || x.io.writer.ended")],
  "Link.Side.closed", "the standard output is closed when the writer ends", "C91: without exit no join returns")
m("lk-never-closed", "Link.lean", [("  x.gone || (k == .socket && x.io.reader.ended && x.io.writer.ended)", "  x.gone")],
  "Link.Side.closed", "a third descriptor is kept open", "C92: after exit both joins return")
m("lk-fin-early", "Link.lean", [("  | fin {x y io} : x.gone = false → y.closed k' = true → x.io.arrived = y.io.out →", "  | fin {x y io} : x.gone = false → y.closed k' = true →")],
  "Link.Move.fin", "closing cuts off what is on its way", "C92: each side has received everything")
m("lk-fin-open", "Link.lean", [("  | fin {x y io} : x.gone = false → y.closed k' = true → x.io.arrived = y.io.out →", "  | fin {x y io} : x.gone = false → x.io.arrived = y.io.out →")],
  "Link.Move.fin", "the input ends as soon as nothing is on its way", "C91, C92: an input ends when the other side is closed")
m("lk-reset-always", "Link.lean", [("      (y.io.unread ≠ [] ∨ y.io.arrived ≠ x.io.out) →\n", "")],
  "Link.Move.reset", "closing always resets the connection", "C92: the connection is not reset")
m("lk-reset-any", "Link.lean", [("  | reset {x y io} : x.gone = false → y.closed k' = true → k = .socket →", "  | reset {x y io} : x.gone = false → k = .socket →")],
  "Link.Move.reset", "the connection is reset although the other side is open", "C91: a reader fails only if the other side is closed")
m("lk-fails-empty", "Link.lean", [("      r ≠ [] → Step k x.io .writeFails io →", "      Step k x.io .writeFails io →")],
  "Link.Move.fails", "the flush fails when the other side is closed", "C92: no write fails")
m("lk-arrive-any", "Link.lean", [("  | arrive {x y bs io} : x.gone = false → bs ≠ [] → x.io.arrived ++ bs <+: y.io.out →", "  | arrive {x y bs io} : x.gone = false → bs ≠ [] →")],
  "Link.Move.arrive", "bytes arrive that were not written", "C92: each side has received what the other has sent")
m("lk-keep-stream", "Link.lean", [("      (.ok (.reader, .writer), w.drop)\n", "      (.ok (.reader, .writer), w)\n")],
  "Link.socket", "the original stream is not dropped", "C93: nobody but the threads has a descriptor")
m("lk-keep-listener", "Link.lean", [("      (r.1, { r.2 with listening := false })", "      r")],
  "Link.listen", "the listening socket stays open", "C93: the listening socket is closed")
m("lk-accept-leak", "Link.lean", [("    | some e => (.err e, { w with listening := false })", "    | some e => (.err e, w)")],
  "Link.listen", "the listening socket stays open if accept fails", "C93: nothing is left open")
m("lk-swap-handles", "Link.lean", [("      (.ok (.reader, .writer), w.drop)\n", "      (.ok (.writer, .reader), w.drop)\n")],
  "Link.socket", "the handles of the threads are swapped", "C93: reader and writer")
m("lk-connect-panics", "Link.lean", [("def connect {ε : Type} (os : Os ε) (w : World) : Outcome ε × World :=\n  match os.connect with\n  | some e => (.err e, w)", "def connect {ε : Type} (os : Os ε) (w : World) : Outcome ε × World :=\n  match os.connect with\n  | some _ => (.panic, w)")],
  "Link.connect", "connect unwraps", "C93: an error if the operating system refuses")
m("lk-wrong-error", "Link.lean", [("    match os.accept with\n    | some e => (.err e,", "    match os.accept with\n    | some e => (.err (os.connect.getD e),")],
  "Link.listen", "listen returns another error", "C93: with that error")
m("lk-one-thread", "Link.lean", [("      let w := w.clone.spawn .writer\n", "      let w := w.clone\n")],
  "Link.socket", "the writer thread is not started", "C93: both threads run")
# what reading costs in memory
m("rs-grow", "Resources.lean", [("          | some n => if isizeMax < n then 0 else n\n", "          | some n => if isizeMax < n then 0 else min n s'.bytes.length\n")],
  "Frame.headersRoom", "the buffer grows only as the body arrives", "C94: a short header makes the reader claim any amount")
m("rs-line-only", "Resources.lean", [("      max l.length (match fromUtf8 l with", "      (match fromUtf8 l with")],
  "Frame.headersRoom", "the room for the lines is forgotten", "C94: the exact size of the buffer")
m("rs-first-length", "Resources.lean", [("              | some n => headersRoom (some n) s'", "              | some n => headersRoom (some (size.getD n)) s'")],
  "Frame.headersRoom", "the first Content-Length counts for the room", "C94: exactly as large as declared")
m("rs-unchecked", "Resources.lean", [("          | some n => if isizeMax < n then 0 else n\n", "          | some n => n\n")],
  "Frame.headersRoom", "lengths beyond isize::MAX are allocated", "C94: at most isize::MAX")
m("rs-no-leak", "Resources.lean", [("  else method.utf8ByteSize\n", "  else 0\n")],
  "Request.leakOfMethod", "the method of a custom request is given back", "C95: every custom request loses its method name")
m("rs-char-leak", "Resources.lean", [("  else method.utf8ByteSize\n", "  else method.length\n")],
  "Request.leakOfMethod", "characters are counted, not bytes", "C95: the UTF-8 length")
m("rs-leak-builtin", "Resources.lean", [("  else if method = \"buildTarget/test\" then 0\n", "")],
  "Request.leakOfMethod", "a standard method is leaked too", "C95: nothing for standard requests")
m("rs-leak-early", "Resources.lean", [("        | some _, some _ => leakOfMethod method\n        | _, _ => 0", "        | _, _ => leakOfMethod method")],
  "Request.leak", "the method is leaked before id and params are checked", "C95: nothing for requests that fail to decode")
m("rs-leak-notification", "Resources.lean", [("      | _, _ => 0\n  | _ => 0", "      | some method, none => leakOfMethod method\n      | _, _ => 0\n  | _ => 0")],
  "Request.leak", "the method of a notification is leaked", "C95: nothing for notifications")
m("rs-leak-first", "Resources.lean", [("      | .item _ s' => leakAll s'\n", "      | .item _ _ => 0\n")],
  "Frame.leakAll", "only the first message counts", "C95: all over the stream")
# a client and a server with this library
m("ee-fixed-params", "Message.lean", [("    | none =>\n      if method ≠ \"build/shutdown\" ∨ method ≠ \"workspace/buildTargets\" ∨ method ≠ \"workspace/reload\"\n      then none\n      else some Value.null\n  ofMethod", "    | none => some Value.null\n  ofMethod")],
  "Request.finish", "absent params count as null", "C97, C13: shutdown arrives as an empty response")
m("ee-exit-fails", "Session.lean", [("  | .idle, some _ => .idle\n", "  | .idle, some (.notification .exit) => .ended (.err \"exit without shutdown\")\n  | .idle, some _ => .idle\n")],
  "Session.onRecv", "exit without shutdown makes the loop return an error", "C96, C74: the server exits with success")
m("ee-exit-late", "Transport.lean", [("def afterSend (m : Message) : Reader := if isExit m then .done else .reading", "def afterSend (_ : Message) : Reader := .reading")],
  "Transport.afterSend", "the reader goes on after exit", "C96, C92: both come to an end")
m("ee-keep-sender", "Session.lean", [("  | dropTx {p : Proc} {r} : p.exit = none → p.app = .ended r → p.io.txAlive = true →\n", "  | dropTx {p : Proc} {r} : p.exit = none → p.app = .ended r → r ≠ .ok () → p.io.txAlive = true →\n")],
  "Session.Step.dropTx", "the loop borrows the connection, main keeps it while joining", "C96, C73: the server exits")
m("ee-join-reader-only", "Session.lean", [("      p.io.rxAlive = false → p.io.txAlive = false → join k p.io ≠ .waiting →\n", "      p.io.rxAlive = false → p.io.txAlive = false → p.io.reader.ended = true →\n")],
  "Session.Step.finish", "main does not wait for the writer", "C96, C73: all answers are written")
m("ee-answer-any", "Session.lean", [("  | .idle, some _ => .idle\n", "  | .idle, some (.response r) => .answering (.shutdown r.id)\n  | .idle, some _ => .idle\n")],
  "Session.onRecv", "responses are answered too", "C97, C96: only requests are answered")
m("ee-hear-all", "EndToEnd.lean", [("  | client {w : World} {ev c} : Link.Move kc ks w.client (side w.server) ev c →", "  | client {w : World} {ev c} : Link.Move kc ks w.client { io := { (side w.server).io with reader := .done, writer := .done }, gone := true } ev c →")],
  "EndToEnd.Step.client", "the client sees the connection closed at any time", "C96, C97: nothing is lost")
m("ee-any-bytes", "EndToEnd.lean", [("      (a = .peer ∨ a = .writeFails →\n", "      (a = .writeFails →\n")],
  "EndToEnd.Step.server", "the server may receive anything", "C96, C97: it receives what the client has sent")
m("ee-writes-fail", "EndToEnd.lean", [("      (a = .peer ∨ a = .writeFails →\n", "      (a = .peer →\n")],
  "EndToEnd.Step.server", "writes of the server may fail at any time", "C96, C97: no write fails")
m("ee-drop-early", "Session.lean", [("  | dropRx {p : Proc} {r} : p.exit = none → p.app = .ended r → p.io.rxAlive = true →", "  | dropRx {p : Proc} : p.exit = none → p.app = .idle → p.io.rxAlive = true →")],
  "Session.Step.dropRx", "the receiver is dropped while the loop runs", "C96, C73: the server exits with success")
# diagnostics of lsp_types
m("dg-keep-null", "Types.lean", [("  { x with data := normData x.data }\n\ntheorem dec_enc [LawfulExt] (x : Diagnostic)", "  x\n\ntheorem dec_enc [LawfulExt] (x : Diagnostic)")],
  "Diagnostic.norm", "null data of a diagnostic is kept", "C30: what comes back from the wire")
m("dg-code-string", "Enums.lean", [("  | .number n => encI32 n\n  | .string s => .str s\n/-- `Deserialize`, untagged", "  | .number n => .str (toString n.toInt)\n  | .string s => .str s\n/-- `Deserialize`, untagged")],
  "NumberOrString.enc", "a numeric code is written as a string", "C30: diagnostics survive the wire")
m("dg-severity-enum", "Types.lean", [("  let severity ← s.opt 1 \"severity\" decI32\n", "  let severity ← s.opt 1 \"severity\" (fun j => (MessageType.dec j).map fun x => Int32.ofNat x.code)\n")],
  "Diagnostic.dec", "only the four severities with a name are accepted", "C30: diagnostics survive the wire, C68: others can be received")
m("dg-build-any", "Props/Api.lean", [("  | Diagnostic_literal (x : Diagnostic) : Spec.Named x → ", "  | Diagnostic_literal (x : Diagnostic) : ")],
  "Api.Built", "the field of DiagnosticSeverity is public", "C68: only severities with a name can be built")
# schemas
m('sc-tag-null','Enums.lean',[('      | .null => unitVariant k\n      | _ => none', '      | _ => none')],'BuildTargetTag.dec','a unit tag given as an object with null is rejected','C98, C99: exact acceptance of tags')
m('sc-tag-any','Enums.lean',[('      | .null => unitVariant k\n      | _ => none', '      | _ => unitVariant k')],'BuildTargetTag.dec','a unit tag given as an object with any content is accepted','C98: exact acceptance of tags')
m('sc-seq-extra','Serde.lean',[('  | .arr xs => if fields.length < xs.length then none else some (.seq xs)', '  | .arr xs => some (.seq xs)')],'structSrc','left-over elements of the positional form are ignored','C98: no extra elements')
m('sc-opt-seq','Serde.lean',[('    | .map _ => some none\n    | .seq _ => none', '    | .map _ => some none\n    | .seq _ => some none')],'Src.opt','a missing optional element of the positional form is accepted','C98: only defaulted elements may be missing')
m('sc-kind-reject','Enums.lean',[('  | Option.none => some .none', '  | Option.none => Option.none')],'TaskDataKind.dec','a kind that is not a string is an error','C98: any kind is accepted')
m('sc-usize-32','Serde.lean',[('if 0 ≤ i ∧ i < 2 ^ 64 then some (UInt64', 'if 0 ≤ i ∧ i < 2 ^ 32 then some (UInt64')],'decUsize','usize is 32 bits wide','C98: range of statusCode')
m('sc-opt-null','Serde.lean',[('  | .null => some none\n  | j => (dec j).map some', '  | j => (dec j).map some')],'decOpt','null is not accepted for an optional member','C98: null is as good as absent')
m('sc-list-lenient','Serde.lean',[('  | .arr xs => xs.mapM dec\n', '  | .arr xs => some (xs.filterMap dec)\n')],'decList','elements that do not decode are dropped','C98: every element must conform')
m('sc-codes-zero','Enums.lean',[('    if i = 1 then some .ok else if i = 2 then some .error\n    else if i = 3 then some .cancelled else none', '    if i = 1 then some .ok else if i = 2 then some .error\n    else some .cancelled')],'TaskStatus.dec','unknown status codes are read as cancelled','C98: only the codes of the table')
m('sc-url-str','Serde.lean',[('  | .str s => Ext.parseUrl s\n  | _ => none', '  | .str s => Ext.parseUrl s\n  | .arr [.str s] => Ext.parseUrl s\n  | _ => none')],'decUrl','a URL may also be given as a one-element array','C98: a URL is a string')
m('sc-custom-null','Message.lean',[('(if !v.isNull then [("params", v.json)] else [])', '[("params", v.json)]')],'Request.members','a custom request with null params is written with them','C100: what a custom request becomes')
m('sc-exit-params','Message.lean',[('  | .exit => []\n  | .initialized => []\n  | .showMessage p', '  | .exit => [("params", .null)]\n  | .initialized => []\n  | .showMessage p')],'Notification.members','exit is written with null params','C100: what exit becomes')
m('sc-bare-check','Message.lean',[('else if method = "build/shutdown" then some (.shutdown id)', 'else if method = "build/shutdown" then (if params.isNull then some (.shutdown id) else none)')],'Request.ofMethod','shutdown is accepted only with null params','C100: the params of bare requests are not looked at')
m('sc-response-first','Message.lean',[('  match Request.dec j with\n  | some r => some (.request r)\n  | none => match Response.dec j with\n    | some r => some (.response r)\n    | none =>', '  match Response.dec j with\n  | some r => some (.response r)\n  | none => match Request.dec j with\n    | some r => some (.request r)\n    | none =>')],'Message.dec','responses are tried before requests','C100: order of preference')
m('db-tie-up','Double.lean',[('  else a / b + (a / b) % 2', '  else a / b + 1')],'Double.roundInt','ties are rounded up','C102: read as the nearest double, ties to even')
m('db-trunc','Double.lean',[('  else if b < 2 * (a % b) then a / b + 1\n', '  else if b < 2 * (a % b) then a / b\n')],'Double.roundInt','results are truncated','C102: read as the nearest double')
m('db-no-overflow','Double.lean',[('        if infinity ≤ mul f (pow10 e.natAbs) then none else some (mul f (pow10 e.natAbs))', '        some (mul f (pow10 e.natAbs))')],'Double.scale','an infinite product is not an error','C103: what is read is finite')
m('db-step-307','Double.lean',[('scale c (div f (pow10 308)) (e + 308)', 'scale c (div f (pow10 308)) (e + 307)')],'Double.scale','the exponent is adjusted by 307 after a division by 1e308','C106: at most three steps for the smallest doubles')
m('db-pow-limit','Double.lean',[('    if e.natAbs ≤ 308 then\n', '    if e.natAbs ≤ 307 then\n')],'Double.scale','POW10 ends at 1e307','C103: the text of every double is accepted')
m('db-small-zero','Double.lean',[('    else if 0 ≤ e then none\n    else scale c (div f (pow10 308)) (e + 308)', '    else if 0 ≤ e then none\n    else some 0')],'Double.scale','everything with an exponent below -308 is read as zero','C106: the smallest doubles move by at most three steps')
m('db-mul-for-div','Double.lean',[('      else some (div f (pow10 e.natAbs))', '      else some (mul f (div (ofNat 1) (pow10 e.natAbs)))')],'Double.scale','negative exponents multiply with the reciprocal','C102: short decimals are read as the nearest double')
m('db-frac-exp','Double.lean',[('sigFrac (s * 10 + dig c) (e - 1) cs else (s, e)', 'sigFrac (s * 10 + dig c) (e - 1) cs else (s, e - 1)')],'Double.sigFrac','a digit that does not fit still moves the point','C107: how far a literal with any number of digits can be off')
m('db-int-drop','Double.lean',[('cs else (s, cs.length + 1)', 'cs else (s, cs.length)')],'Double.sigInt','the first digit that does not fit is not counted','C107: how far a literal with any number of digits can be off')
m('db-exp-sat','Double.lean',[('fromParts s (saturate (if pos then e + x else e - x))', 'fromParts s (saturate (if pos then e + x else e + x))')],'Double.readExp','the sign of the exponent is ignored','C102: a literal is read as the nearest double')
m('db-overflow-exp','Double.lean',[('  | none => if s ≠ 0 ∧ pos then none else some 0', '  | none => some 0')],'Double.readExp','a huge exponent is read as zero','C107: which literals are out of range')
m('db-sign-lost','Double.lean',[('(readMag cs.tail).map (F64.make true)', '(readMag cs.tail).map (F64.make false)')],'Double.read','the sign is lost','C103: same sign')
m('db-bounds','Double.lean',[('  (2 * a < (value n + value (n + 1)) * b ∨ (2 * a = (value n + value (n + 1)) * b ∧ n % 2 = 0))', '  (2 * a ≤ (value n + value (n + 1)) * b)')],'Double.Near','the upper bound is accepted for odd patterns as well','C101: the double is the one nearest to the number written')
m('db-bounds-strict','Double.lean',[('    ((value (n - 1) + value n) * b = 2 * a ∧ n % 2 = 0)) ∧\n  (2 * a < (value n + value (n + 1)) * b ∨ (2 * a = (value n + value (n + 1)) * b ∧ n % 2 = 0))', '    False) ∧\n  (2 * a < (value n + value (n + 1)) * b)')],'Double.Near','the bounds are never accepted','C101: shortest (a bound may be shorter)')
m('db-pick-floor','Double.lean',[('  if Inside n q i ∧ (¬ Inside n (q + 1) i ∨ 2 * r < 10 ^ i ∨ (2 * r = 10 ^ i ∧ q % 2 = 0)) then some q', '  if Inside n q i then some q')],'Double.pick','the lower candidate is preferred','C101: nearest among the shortest')
m('db-search-one','Double.lean',[('def shortest (n : Nat) : Nat × Int := ((search n 1400).1, ((search n 1400).2 : Int) - 1074)', 'def shortest (n : Nat) : Nat × Int := ((search n 1074).1, ((search n 1074).2 : Int) - 1074)')],'Double.shortest','no positive exponents','C101: shortest')
m('db-layout-15','Double.lean',[("  if 0 ≤ k ∧ kk ≤ 16 then ds ++ List.replicate k.toNat '0' ++ ['.', '0']", "  if 0 ≤ k ∧ kk ≤ 16 then ds ++ List.replicate k.toNat '0'")],'Double.layout','whole numbers are written without a point','C101: a point or an exponent')
m('db-layout-zeros','Double.lean',[("(List.replicate (-kk).toNat '0' ++ ds)", "(List.replicate ((-kk).toNat + 1) '0' ++ ds)")],'Double.layout','one zero too many after the point','C101: nearest to the number written')
m('db-layout-exp','Double.lean',[("  else ds.take 1 ++ '.' :: (ds.drop 1 ++ 'e' :: printExp (kk - 1))", "  else ds.take 1 ++ '.' :: (ds.drop 1 ++ 'e' :: printExp kk)")],'Double.layout','exponent off by one','C101: nearest to the number written')
m('un-recv-clock','Conn.lean',[('  | (t, m) :: r => (.ok (some m), { w with inp := r, now := max w.now t })\n  | [] =>\n    match w.fin with\n    | .closedAt t => (.ok none, { w with now := max w.now t })', '  | (t, m) :: r => (.ok (some m), { w with inp := r, now := w.now })\n  | [] =>\n    match w.fin with\n    | .closedAt t => (.ok none, { w with now := max w.now t })')],'Conn.recv','receiving does not wait for the arrival time','C49,C81: the time limit counts from the acknowledgement')
m('un-recv-keep','Conn.lean',[('  | (t, m) :: r => (.ok (some m), { w with inp := r, now := max w.now t })\n  | [] =>\n    match w.fin with\n    | .closedAt t => (.ok none', '  | (t, m) :: r => (.ok (some m), { w with inp := r.drop 1, now := max w.now t })\n  | [] =>\n    match w.fin with\n    | .closedAt t => (.ok none')],'Conn.recv','a receive also loses the next message','C46,C42: nothing is over-read')
m('un-timeout-less','Conn.lean',[('    if t ≤ w.now + limit then (.msg m,', '    if t < w.now + limit then (.msg m,')],'Conn.recvTimeout','an exit exactly at the limit is too late','C49: exit within the limit succeeds')
m('un-timeout-late','Conn.lean',[('    | .silent => (.timeout, { w with now := w.now + limit })', '    | .silent => (.disconnected, { w with now := w.now + limit })')],'Conn.recvTimeout','silence is reported as disconnection','C49: which error')
m('un-send-order','Conn.lean',[('sent := w.sent ++ [m] })', 'sent := m :: w.sent })')],'Conn.send','the record of sent messages is reversed','C42: refused in order')
m('un-send-closed','Conn.lean',[('    | .closed => (.ok false, w)\n    | .stuck => (.blocked, w)', '    | .closed => (.ok true, w)\n    | .stuck => (.blocked, w)')],'Conn.send','sending on a closed channel seems to succeed','C47: panics when it cannot send')
m('un-conv-run','Convert.lean',[('  | .run => .buildTargetRun\n', '  | .run => .buildTargetTest\n'), ('  | .run, id, x => .buildTargetRun id x', '  | .run, id, x => .buildTargetTest id x')],'ReqPayload.payload, Request.ofPayload','run parameters become a test request','C62: conversions keep id and payload')
m('un-conv-custom-req','Convert.lean',[('  .request (.custom id m v)', '  .notification (.custom m v)')],'Message.ofCustomRequest','becomes a notification','C62: conversions keep id and payload')
m('un-conv-custom-not','Convert.lean',[('  .notification (.custom m v)', '  .notification (.custom m .null)')],'Message.ofCustomNotification','params are lost','C62: conversions keep id and payload')
m('un-conv-not','Convert.lean',[('  .notification (Notification.ofPayload k x)', '  .notification .initialized')],'Message.ofNotificationPayload','every payload becomes initialized','C62: conversions keep id and payload')
m('un-conv-start-finish','Convert.lean',[('  | .taskStart => .taskStart\n  | .taskFinish => .taskFinish\n', '  | .taskStart => .taskFinish\n  | .taskFinish => .taskStart\n'), ('  | .taskStart, x => .taskStart x\n  | .taskFinish, x => .taskFinish x\n', '  | .taskStart, x => .taskFinish x\n  | .taskFinish, x => .taskStart x\n')],'NotPayload.payload, Notification.ofPayload','task start and finish exchanged under their names','C62: conversions keep id and payload')
m('un-conv-string','Convert.lean',[('  .response (Response.ok id (Value.ofJson (.str s)))', '  .response (Response.ok id (Value.ofJson (.arr [.str s])))')],'Message.ofStringResult','the string is wrapped in an array','C62: conversions keep id and payload')
m('un-conv-value','Convert.lean',[('  .response (Response.ok id v)\n', '  .response (Response.err id 0 "")\n')],'Message.ofValueResult','an error instead of the value','C62: conversions keep id and payload')
m('un-enum-event','Enums.lean',[('  | .created => 1\n  | .changed => 2\n', '  | .created => 2\n  | .changed => 1\n'), ('    if i = 1 then some .created else if i = 2 then some .changed\n', '    if i = 2 then some .created else if i = 1 then some .changed\n')],'BuildTargetEventKind.code, dec','created and changed exchanged on the wire','C36: exactly their codes')
m('un-enum-source','Enums.lean',[('  | .file => 1\n  | .directory => 2\n', '  | .file => 0\n  | .directory => 1\n'), ('  | .int i => if i = 1 then some .file else if i = 2 then some .directory else none', '  | .int i => if i = 0 then some .file else if i = 1 then some .directory else none')],'SourceKind.code, dec','codes counted from 0','C36: exactly their codes')
m('un-enum-status','Enums.lean',[('  | .ok => 1\n  | .error => 2\n', '  | .ok => 2\n  | .error => 1\n'), ('    if i = 1 then some .ok else if i = 2 then some .error\n', '    if i = 2 then some .ok else if i = 1 then some .error\n')],'TaskStatus.code, dec','ok and error exchanged on the wire','C36: exactly their codes')
m('un-enum-mt-default','Enums.lean',[('def default : MessageType := .log', 'def default : MessageType := .info')],'MessageType.default','info','C98: what an absent type means')
m('un-enum-kind-isnone','Enums.lean',[('def isNone : TaskDataKind → Bool\n  | .none => true\n', 'def isNone : TaskDataKind → Bool\n  | .none => true\n  | .custom "" => true\n')],'TaskDataKind.isNone','also for an empty custom kind','C34,C37: what is omitted')
m('un-nos-order','Enums.lean',[('  match decI32 j with\n  | some n => some (.number n)\n  | none => (decStr j).map .string', '  match decI32 j with\n  | some n => some (.number n)\n  | none => some (.string "")')],'NumberOrString.dec','anything else is the empty string','C98: which trees are accepted')
m('un-tag-null','Enums.lean',[('      | .null => unitVariant k\n', '      | _ => unitVariant k\n'), ('      | _ => none\n  | _ => none\n/-- `Default`. bt_tag', '  | _ => none\n/-- `Default`. bt_tag')],'BuildTargetTag.dec','a unit variant may have any content','C98,C38: which trees are accepted')
m('un-fr-isize','Framing.lean',[('def isizeMax : Nat := 2 ^ 63 - 1', 'def isizeMax : Nat := 2 ^ 64')],'Frame.isizeMax','no capacity limit','C94,C06: the capacity overflow')
m('un-fr-cl','Framing.lean',[('def contentLength : List Char := "Content-Length".toList', 'def contentLength : List Char := "Content-length".toList')],'Frame.contentLength','header name spelt differently when reading','C01,C04: framed text is read back')
m('un-fr-exact','Framing.lean',[('  if n ≤ s.bytes.length then .ok (s.bytes.take n) ⟨s.bytes.drop n, s.broken⟩\n', '  if n < s.bytes.length then .ok (s.bytes.take n) ⟨s.bytes.drop n, s.broken⟩\n')],'Flat.readExact','one byte more is needed','C01: framed text is read back')
m('un-fr-exact-eof','Framing.lean',[('  else if s.broken then .ioError else .eof\n\ninstance : Source Flat', '  else .eof\n\ninstance : Source Flat')],'Flat.readExact','an I/O error is reported as end of file','C55,C09: why the reader fails')
m('un-fr-until-broken','Framing.lean',[('  | none => if s.broken then none else some (s.bytes, ⟨[], false⟩)', '  | none => some (s.bytes, ⟨[], s.broken⟩)')],'Flat.readUntil','a broken connection looks like end of file','C07: only a clean end is a clean end')
m('un-fr-split-incl','Framing.lean',[('if b = 10 then some ([b], r) else', 'if b = 13 then some ([b], r) else')],'splitLine','lines end at carriage return','C01: framed text is read back')
m('un-fr-readall','Framing.lean',[('  | .eof => ([], .eof)\n  | .invalidData => ([], .invalidData)', '  | .eof => ([], .eof)\n  | .invalidData => ([], .eof)')],'readAll','malformed input counts as a clean end','C03,C88: what stops reading')
m('un-fr-chunk-zero','Framing.lean',[('      if c = [] then some (buf, ⟨[], cs, broken⟩)\n', '      if c = [] then none\n')],'Chunked.readUntilLoop','an empty read is an I/O error','C09: independent of the split into chunks')
m('un-fr-chunk-lost','Framing.lean',[('      | .ok b r => .ok (buf ++ b) r\n', '      | .ok b r => .ok (b ++ buf) r\n')],'Chunked.readExactLoop','the parts of a content are joined in the wrong order','C09: independent of the split into chunks')
m('un-js-first','Json.lean',[("    else if k = k' then (k, v) :: ms\n", "    else if k = k' then (k', v') :: ms\n")],'Json.insertKV','the first of two equal names counts','C17,C98,C99: duplicates in free-form values')
m('un-js-unsorted','Json.lean',[("    if k < k' then (k, v) :: (k', v') :: ms\n    else if k = k'", "    if k = k'"), ("then (k, v) :: ms\n    else (k', v') :: insertKV k v ms", "then (k, v) :: ms\n    else (k', v') :: insertKV k v ms")],'Json.insertKV','members keep their order','C83,C99: what is left of a value')
m('un-js-canon-deep','Json.lean',[('  | .arr xs => .arr (canonList xs)\n', '  | .arr xs => .arr xs\n')],'Json.canon','arrays are not converted','C99,C83: what is left of a value')
m('un-js-acc','Json.lean',[('canonMembers ms (insertKV k (canon v) acc)', 'canonMembers ms (insertKV k v acc)')],'Json.canonMembers','member values are not converted','C99,C83: what is left of a value')
m('un-jt-noquote','JsonText.lean',[('def printStr (s : String) : List Char := \'"\' :: (s.toList.flatMap escChar ++ [\'"\'])', 'def printStr (s : String) : List Char := \'"\' :: (s.toList ++ [\'"\'])')],'Text.printStr','no escaping','C39,C89: text round trip')
m('un-jt-intplus','JsonText.lean',[("  if i < 0 then '-' :: Nat.toDigits 10 i.natAbs else Nat.toDigits 10 i.natAbs", "  if i < 0 then '-' :: Nat.toDigits 10 i.natAbs else if i = 0 then [] else Nat.toDigits 10 i.natAbs")],'Text.printInt','zero is printed as nothing','C39: text round trip')
m('un-jt-space','JsonText.lean',[("  | x :: y :: xs => print x ++ ',' :: printElems (y :: xs)", "  | x :: y :: xs => print x ++ ',' :: '\\n' :: printElems (y :: xs)")],'Text.printElems','line breaks between elements','C89: no control characters')
m('un-jt-colon','JsonText.lean',[("  | [(k, x)] => printStr k ++ ':' :: print x\n", "  | [(k, x)] => printStr k ++ ' ' :: ':' :: ' ' :: print x\n")],'Text.printMembers','blanks around the last colon','C11: shape of what is written')
m('un-jt-ws','JsonText.lean',[("def isWs (c : Char) : Bool := c = ' ' || c = '\\n' || c = '\\t' || c = '\\r'", "def isWs (c : Char) : Bool := c = ' ' || c = '\\n' || c = '\\t' || c = '\\r' || c = '\\x0c'")],'Text.isWs','form feed is white space','C100: which texts are messages')
m('un-jt-hex-upper','JsonText.lean',[("  else if 'A' ≤ c ∧ c ≤ 'F' then some (c.toNat - 55)\n", '')],'Text.hexVal','upper case hexadecimal digits rejected','C100: which texts are messages')
m('un-jt-slash','JsonText.lean',[("  else if c = '/' then some '/'\n", '')],'Text.simpleEscape','escaped slash rejected','C100: which texts are messages')
m('un-jt-ctrl','JsonText.lean',[('    else if c.toNat < 0x20 then none\n    else some (c, r)', '    else some (c, r)')],'Text.strItem','raw control characters accepted','C100: which texts are messages')
m('un-jt-dot','JsonText.lean',[("      if r.takeWhile isDigit = [] then none\n      else some ('.'", "      if r.takeWhile isDigit = [] then some ([], r)\n      else some ('.'")],'Text.lexFrac','a dot without digits accepted','C100: which texts are messages')
m('un-jt-expE','JsonText.lean',[("    if c = 'e' ∨ c = 'E' then", "    if c = 'e' then")],'Text.lexExp','upper case exponent rejected','C100: which texts are messages')
m('un-jt-expplus','JsonText.lean',[("if c = '+' ∨ c = '-' then ([c], r) else ([], c :: r)", "if c = '-' then ([c], r) else ([], c :: r)")],'Text.lexSign','plus sign in exponents rejected','C100: which texts are messages')
m('un-jt-minus','JsonText.lean',[("  | c :: r => if c = '-' then ([c], r) else ([], c :: r)", "  | c :: r => if c = '-' ∨ c = '+' then ([c], r) else ([], c :: r)"), ("      else if c = '-' ∨ isDigit c = true then parseNum (c :: r)", "      else if c = '-' ∨ c = '+' ∨ isDigit c = true then parseNum (c :: r)")],'Text.lexMinus, parseValue','numbers may begin with a plus sign','C100: which texts are messages')
m('un-jt-ident','JsonText.lean',[('  | c :: cs, d :: r => if c = d then ident cs r else none', '  | c :: cs, d :: r => if c.toLower = d.toLower then ident cs r else none')],'Text.ident','null, true and false in any case','C100: which texts are messages')
m('un-jt-key','JsonText.lean',[("          if c = ':' then (pv r).map fun p => ((k, p.1), p.2)", "          if c = ':' ∨ c = '=' then (pv r).map fun p => ((k, p.1), p.2)")],'Text.member','equals sign accepted for colon','C100: which texts are messages')
m('un-jt-objcomma','JsonText.lean',[("else if c = ',' then some (skipWs r) else none) with", "else if c = ',' then some (skipWs r) else some (c :: r)) with")],'Text.mems','commas between members may be left out','C100: which texts are messages')
m('un-jt-tail','JsonText.lean',[('if skipWs r = [] then some j else none', 'some j')],'Text.parse','anything may follow the value','C100,C88: which texts are messages')
m('un-mem-other','Memory.lean',[('    | .left => { sender := false, receiver := true }\n', '    | .left => { sender := false, receiver := false }\n')],'Mem.memory','the left side receives what it sends','C50: two independent channels')
m('un-mem-clone','Memory.lean',[('({ x with senders := x.senders + 1 }, .clonedSender)', '(x, .clonedSender)')],'Chan.cloneSender','clones are not counted','C50: disconnection after the last handle')
m('un-mem-clone-rx','Memory.lean',[('({ x with receivers := x.receivers + 1 }, .clonedReceiver)', '(x, .clonedReceiver)')],'Chan.cloneReceiver','clones are not counted','C50: sending fails only without receivers')
m('un-mem-drop-rx','Memory.lean',[('    queue := if x.receivers = 1 then [] else x.queue }, .droppedReceiver)', '    queue := x.queue }, .droppedReceiver)')],'Chan.dropReceiver','the queue outlives the last receiver','C50: nothing is queued without receivers')
m('un-mem-drop-rx2','Memory.lean',[('    queue := if x.receivers = 1 then [] else x.queue }, .droppedReceiver)', '    queue := [] }, .droppedReceiver)')],'Chan.dropReceiver','dropping any receiver discards the queue','C50: no loss')
m('un-mem-disc','Memory.lean',[('    | [] => (x, if x.senders = 0 then .disconnected else .empty)', '    | [] => (x, .empty)')],'Chan.recv','disconnection is never reported','C50: disconnection is reported')
m('un-mem-end','Memory.lean',[('  | .send _ | .cloneSender | .dropSender => c.sender\n  | .recv | .cloneReceiver | .dropReceiver => c.receiver', '  | .send _ | .cloneSender => c.sender\n  | .recv | .cloneReceiver | .dropReceiver | .dropSender => c.receiver')],'Op.end','dropping the sender drops that of the other channel','C50: two independent channels')
m('un-code-parseError','Message.lean',[('  | .parseError => -32700\n', '  | .parseError => -32701\n')],'ErrorCode.code','parseError has another code','C25: right code')
m('un-code-internalError','Message.lean',[('  | .internalError => -32603\n', '  | .internalError => -32604\n')],'ErrorCode.code','internalError has another code','C25: right code')
m('un-code-serverErrorStart','Message.lean',[('  | .serverErrorStart => -32099\n', '  | .serverErrorStart => -32098\n')],'ErrorCode.code','serverErrorStart has another code','C25: right code')
m('un-code-serverErrorEnd','Message.lean',[('  | .serverErrorEnd => -32000\n', '  | .serverErrorEnd => -32001\n')],'ErrorCode.code','serverErrorEnd has another code','C25: right code')
m('un-code-contentModified','Message.lean',[('  | .contentModified => -32801\n', '  | .contentModified => -32803\n')],'ErrorCode.code','contentModified has another code','C25: right code')
m('un-code-invalidParams','Message.lean',[('  | .invalidParams => -32602\n', '  | .invalidParams => -32605\n')],'ErrorCode.code','invalidParams has another code','C25: right code')
m('un-ctor-cancel','Message.lean',[('def requestCanceled (id : RequestId) (m : String) := err id ErrorCode.requestCanceled.code m', 'def requestCanceled (id : RequestId) (m : String) := err id ErrorCode.serverCancelled.code m')],'Response.requestCanceled','uses the code of the other cancellation','C25: right code')
m('un-ctor-ok','Message.lean',[('  { id, result := some result, error := none }', '  { id, result := if result.isNull then none else some result, error := none }')],'Response.ok','a null result is left out','C25,C49: result member present')
m('un-id-strnum','Message.lean',[('  | some i => some (.i32 i)\n  | none => (decStr j).map .str\ntheorem dec_enc (x : RequestId)', '  | some i => some (.str (toString i.toInt))\n  | none => (decStr j).map .str\ntheorem dec_enc (x : RequestId)')],'RequestId.dec','numbers become strings','C18: never confused')
m('un-msg-acc-id','Message.lean',[('      if a.id.isSome then none\n      else visitLoop mode ms { a with id := some', '      if a.id.isSome then visitLoop mode ms a\n      else visitLoop mode ms { a with id := some')],'Request.visitLoop','a second id is ignored','C17: duplicates are never merged')
m('un-msg-err-pos','Message.lean',[('  let message ← s.req 1 "message" decStr\n  let data ← s.opt 2', '  let message ← s.dflt 1 "message" "" decStr\n  let data ← s.opt 2')],'ResponseError.dec','message may be absent','C98,C100: which trees are responses')
m('un-msg-notmethod','Message.lean',[('  | .taskProgress _ => "build/taskProgressing"', '  | .taskProgress _ => "build/taskProgress"'), ('  else if method = "build/taskProgressing" then', '  else if method = "build/taskProgress" then')],'Notification.method, ofMethod','the method of task progress as in the protocol','C22: method names')
m('un-sd-named','Serde.lean',[('  fields.any (fun k => 1 < (named k ms).length)', '  fields.any (fun k => 2 < (named k ms).length)')],'dupKnown','a member may occur twice','C17,C98: duplicates')
m('un-sd-seq-long','Serde.lean',[('  | .arr xs => if fields.length < xs.length then none else some (.seq xs)', '  | .arr xs => some (.seq xs)')],'structSrc','left-over elements are ignored','C98: which trees are accepted')
m('un-sd-dflt-null','Serde.lean',[('def Src.dflt (s : Src) (i : Nat) (k : String) (d : α) (dec : Json → Option α) : Option α :=\n  match s.get i k with\n  | some j => dec j\n', 'def Src.dflt (s : Src) (i : Nat) (k : String) (d : α) (dec : Json → Option α) : Option α :=\n  match s.get i k with\n  | some .null => some d\n  | some j => dec j\n')],'Src.dflt','null is the default','C98: which trees are accepted')
m('un-sd-opt-bad','Serde.lean',[('  | .null => some none\n  | j => (dec j).map some', '  | .null => some none\n  | j => some (dec j)')],'decOpt','an unsuitable optional value is ignored','C98,C33: which trees are accepted')
m('un-sd-list','Serde.lean',[('  | .arr xs => xs.mapM dec\n', '  | .arr xs => some (xs.filterMap dec)\n')],'decList','unsuitable elements are left out','C98: which trees are accepted')
m('un-sd-url','Serde.lean',[('  | .str s => Ext.parseUrl s\n', '  | .str s => (Ext.parseUrl s).bind fun u => if Ext.urlStr u = s then some u else none\n')],'decUrl','only normalised URLs accepted','C98: which trees are accepted')
m('un-sd-u32','Serde.lean',[('def encU32 (x : UInt32) : Json := .int x.toNat', 'def encU32 (x : UInt32) : Json := .str (toString x.toNat)')],'encU32','written as a string','C98,C30: what is written')
m('un-sv-bts','Server.lean',[('def workspace_bts : Out := .ok (Value.ofJson Api.default_WorkspaceBuildTargetsResult.enc)', 'def workspace_bts : Out := .panic')],'Server.workspace_bts','panics','C69: answers')
m('un-sv-run','Server.lean',[('def bt_run (_ : BuildTargetRun) : Out := .panic', 'def bt_run (_ : BuildTargetRun) : Out := .ok Value.null')],'Server.bt_run','answers null','C69: answers')
m('un-sv-sources','Server.lean',[('def bt_sources (_ : BuildTargetSources) : Out := .ok (Value.ofJson Api.default_BuildTargetSourcesResult.enc)', 'def bt_sources (_ : BuildTargetSources) : Out := .ok Value.null')],'Server.bt_sources','answers null, which is no sources result','C69: answers with a result of the right type')
m('un-sv-inverse','Server.lean',[('Api.default_BuildTargetInverseSourcesResult.enc', 'Api.default_BuildTargetResourcesResult.enc')],'Server.bt_inverse_sources','result of another type','C69: answers with a result of the right type')
m('un-sv-reload','Server.lean',[('def workspace_reload : Out := .ok Value.null', 'def workspace_reload : Out := .ok (Value.ofJson (.bool true))')],'Server.workspace_reload','answers true','C69: answers')
m('un-tr-write-err','Transport.lean',[('def writeError : Kind → Writer\n  | .stdio => .failed', 'def writeError : Kind → Writer\n  | .stdio => .done')],'writeError','a failed write on stdio ends the writer without error','C58,C82: what join reports')
m('un-tr-joined-stdio','Transport.lean',[('    if k = .stdio ∧ s.writer.ended = false then .waiting\n    else .panic', '    if s.writer.ended = false then .waiting\n    else .panic')],'join','waits for the writer on sockets too','C58: what join reports')
m('un-tr-toright','Transport.lean',[("  | toRight {p b' bs} : p.b.arrived ++ bs <+: p.a.out →", "  | toRight {p b' bs} : bs <:+: p.a.out →")],'PairStep','bytes may arrive out of order','C56: what is received is what was sent')
m('un-tr-ended','Transport.lean',[('def Writer.ended : Writer → Bool\n  | .idle | .writing _ => false', 'def Writer.ended : Writer → Bool\n  | .writing _ => false')],'Writer.ended','an idle writer counts as ended','C58: what join reports')
m('un-rq-remove','ReqQueue.lean',[('  (t id, fun i => if i = id then none else t i)', '  (t id, t)')],'Table.remove','the entry stays','C60: at most once')
m('un-rq-insert','ReqQueue.lean',[('fun i => if i = id then some a else t i', 'fun i => if i = id then (t i).or (some a) else t i')],'Table.insert','does not replace','C60: the data registered last')
m('un-rq-next','ReqQueue.lean',[('def Outgoing.new : Outgoing α := { next := 0,', 'def Outgoing.new : Outgoing α := { next := 1,')],'Outgoing.new','first id is 1','C59: ids are counted from 0')

# --- definitions that no other wrong program touches ------------------------------------------------------
m('vz-utf8-latin','Framing.lean',[('def utf8 (cs : List Char) : Bytes := cs.flatMap String.utf8EncodeChar', 'def utf8 (cs : List Char) : Bytes := cs.map fun c => UInt8.ofNat c.toNat')],'Frame.utf8','characters are written as Latin-1','C11: the body is UTF-8; C12: text survives')
m('vz-readmsg-skip','Framing.lean',[('    match (Text.parse cs).bind Message.dec with\n    | none => .invalidData', '    match (Text.parse cs).bind Message.dec with\n    | none => .eof')],'Frame.readMsg','a body that is no message counts as a clean end','C79,C55: malformed input is an error')
m('vz-readmsg-keep','Framing.lean',[("    | some m => .item m s'\n  | .eof => .eof", '    | some m => .item m s\n  | .eof => .eof')],'Frame.readMsg','the frame is not consumed','C02: none duplicated')
m('vz-readmsg-eof','Framing.lean',[("    | some m => .item m s'\n  | .eof => .eof\n  | .invalidData => .invalidData\n  | .unexpectedEof => .unexpectedEof\n  | .ioError => .ioError\n  | .panic => .panic\n\n", "    | some m => .item m s'\n  | .eof => .eof\n  | .invalidData => .invalidData\n  | .unexpectedEof => .eof\n  | .ioError => .ioError\n  | .panic => .panic\n\n")],'Frame.readMsg','an input cut inside a body counts as a clean end','C03: how reading ends at a cut')
m('vz-readmsg-io','Framing.lean',[("    | some m => .item m s'\n  | .eof => .eof\n  | .invalidData => .invalidData\n  | .unexpectedEof => .unexpectedEof\n  | .ioError => .ioError\n  | .panic => .panic\n\n", "    | some m => .item m s'\n  | .eof => .eof\n  | .invalidData => .invalidData\n  | .unexpectedEof => .unexpectedEof\n  | .ioError => .eof\n  | .panic => .panic\n\n")],'Frame.readMsg','a broken connection counts as a clean end','C03: how reading ends at a cut')
m('vz-write-pad','Framing.lean',[('Bytes := frame (msgText m)', "Bytes := frame (msgText m ++ ['\\n'])")],'Frame.write','a newline is appended to the body','C11: the body is the text of one object')
m('vz-print-null','JsonText.lean',[("  | .null => ['n', 'u', 'l', 'l']", "  | .null => ['N', 'o', 'n', 'e']")],'Text.print','null is printed as None','C39: JSON text')
m('vz-print-bool','JsonText.lean',[("  | .bool false => ['f', 'a', 'l', 's', 'e']", "  | .bool false => ['t', 'r', 'u', 'e']")],'Text.print','false printed as true','C39: printing is read back')
m('vz-print-trailing','JsonText.lean',[("  | .arr xs => '[' :: (printElems xs ++ [']'])", "  | .arr xs => '[' :: (printElems xs ++ [',', ']'])")],'Text.print','trailing comma in arrays','C39: RFC 8259')
m('vz-digit','JsonText.lean',[("def isDigit (c : Char) : Bool := '0' ≤ c && c ≤ '9'", "def isDigit (c : Char) : Bool := '0' ≤ c && c < '9'")],'Text.isDigit','9 is no digit','C39: numbers are read')
m('vz-hex4-order','JsonText.lean',[('some (((a * 16 + b) * 16 + c) * 16 + d, r)', 'some (((c * 16 + d) * 16 + a) * 16 + b, r)')],'Text.hex4','bytes of a unicode escape swapped','C39: escapes mean what RFC 8259 says')
m('vz-str-open','JsonText.lean',[('    match cs with\n    | [] => none\n    | c :: r =>\n      if c = \'"\' then some ([], r)', '    match cs with\n    | [] => some ([], [])\n    | c :: r =>\n      if c = \'"\' then some ([], r)')],'Text.strLoop','an unterminated string is accepted','C39: only RFC 8259 texts are accepted')
m('vz-ws-none','JsonText.lean',[('def skipWs (cs : List Char) : List Char := cs.dropWhile isWs', 'def skipWs (cs : List Char) : List Char := cs')],'Text.skipWs','no white space is allowed','C39: every RFC 8259 text is accepted')
m('vz-sorted-le','Json.lean',[("  | (k, _) :: (k', v') :: ms => k < k' && sortedKeys", "  | (k, _) :: (k', v') :: ms => k ≤ k' && sortedKeys")],'Json.sortedKeys','a Value may have a key twice','C67,C100: values have unique keys')
m('vz-lookup-first','Json.lean',[("  | (k', v) :: ms => (lookupLast k ms).or (if k = k' then some v else none)", "  | (k', v) :: ms => (if k = k' then some v else none).or (lookupLast k ms)")],'Json.lookupLast','the first of two members counts','C32: the last member of a name counts')
m('vz-isnull','Json.lean',[('def isNull (v : Value) : Bool := v.json == .null', 'def isNull (v : Value) : Bool := v.json == .null || v.json == .obj []')],'Value.isNull','an empty object counts as null','C12,C34: only null is omitted')
m('vz-link-nodrop','Link.lean',[('def World.drop (w : World) : World := { w with fds := w.fds.erase .main }', 'def World.drop (w : World) : World := w')],'Link.World.drop','the descriptor is leaked','C93: no descriptor is left behind')
m('vz-link-clone2','Link.lean',[('def World.clone (w : World) : World := { w with fds := .main :: w.fds }', 'def World.clone (w : World) : World := { w with fds := .main :: .main :: w.fds }')],'Link.World.clone','cloned twice','C93: each thread holds one descriptor')
m('vz-link-spawn','Link.lean',[('  { w with fds := w.fds.erase .main ++ [o], threads := w.threads ++ [o] }', '  { w with fds := w.fds ++ [o], threads := w.threads ++ [o] }')],'Link.World.spawn','main keeps the descriptor it has given away','C93: no descriptor is left behind')
m('vz-link-stdio','Link.lean',[('{ w with threads := w.threads ++ [.writer, .reader] })', '{ w with threads := w.threads ++ [.writer] })')],'Link.stdio','the reader thread is not started','C93: two threads')
m('vz-link-gone-acts','Link.lean',[('  | own {x y act io} : x.gone = false → Step', '  | own {x y act io} : Step')],'Link.Move','a process that has exited goes on','C92,C108: a process that is gone does nothing')
m('vz-link-gone-fails','Link.lean',[("  | fails {x y r io} : x.gone = false → y.closed k' = true → x.io.writer", '  | fails {x y r io} : x.gone = false → x.io.writer')],'Link.Move','writes fail although the other side reads','C91,C92: nothing is lost while both sides go on')
m('vz-link-app-fails','Link.lean',[('  | .act (.accept _) | .act .dropRx | .act .dropTx | .exit => true', '  | .act (.accept _) | .act .dropRx | .act .dropTx | .act .read | .exit => true')],'Link.Ev.app','reading is up to the application','C92: at rest everything has been read')
m('vz-link-oneway','Link.lean',[('  | right {l ev b} : Move kb ka l.b l.a ev b → LinkStep ka kb l ev { l with b }\n', '')],'Link.LinkStep','the right side never moves','C91,C92: what arrives')
m('vz-e2e-side','EndToEnd.lean',[('⟨p.io, p.exit.isSome⟩', '⟨p.io, false⟩')],'EndToEnd.side','the client does not notice that the server has exited','C96,C108: both sides come to an end')
m('vz-e2e-side-true','EndToEnd.lean',[('⟨p.io, p.exit.isSome⟩', '⟨p.io, p.exit == some true⟩')],'EndToEnd.side','a server that fails keeps its descriptors open',"C109: the client's join returns")
m('vz-e2e-free','EndToEnd.lean',[('  | .server .timeout => true\n  | .server _ => false', '  | .server _ => true')],'EndToEnd.Ev.free','the server may stop anywhere','C96: the session is served')
m('vz-e2e-unplugged','EndToEnd.lean',[('      (a = .peer ∨ a = .writeFails →', '      (a = .peer →')],'EndToEnd.Step','writes of the server may fail at any time','C96: the session is served')
m('vz-ms-seen','MemSession.lean',[('seen := p.seen ++ [(side, (Mem.step p.mem side op).2)] }', 'seen := (side, (Mem.step p.mem side op).2) :: p.seen }')],'MemSession.Proc.does','the record is written backwards','C84: what the tester receives, in order')
m('vz-ms-quiet','MemSession.lean',[('  ∀ a q, Step side process p a q → a = .tester ∨ a = .timeout', '  ∀ a q, Step side process p a q → a ≠ .timeout')],'MemSession.Quiet','never at rest','C84: the server answers everything before it rests')
m('vz-mem-other','Memory.lean',[('def Side.other : Side → Side\n  | .left => .right\n  | .right => .left', 'def Side.other : Side → Side\n  | .left => .right\n  | .right => .right')],'Mem.Side.other','the right side talks to itself','C50: never its own')
m('vz-mem-set','Memory.lean',[('fun d => if d = c then x else s.chan d', 'fun _ => x')],'Mem.State.set','both channels are changed','C50: two independent channels')
m('vz-mem-dropsender','Memory.lean',[('({ x with senders := x.senders - 1 }, .droppedSender)', '({ x with senders := 0 }, .droppedSender)')],'Mem.Chan.dropSender','dropping one sender closes the channel','C50: disconnection exactly when no sender is left')
m('vz-mem-on','Memory.lean',[('  | .dropReceiver => x.dropReceiver', '  | .dropReceiver => x.dropSender')],'Mem.Op.on','dropping a receiver drops a sender','C50: when sending succeeds')
m('vz-mem-lost','Memory.lean',[('  (s.set c r.1, r.2)', '  (s, r.2)')],'Mem.step','the operation has no effect','C50: FIFO')
m('vz-rm-targets','Readme.lean',[('Message.ofResult .workspaceBuildTargets id { targets := [] }', 'Message.ofResult .sources id { items := [] }')],'Readme.noTargets','answers build targets with sources','C63,C73: the answer of its own type')
m('vz-rm-sources','Readme.lean',[('Message.ofResult .sources id { items := [] }', 'Message.ofResult .sources (.i32 0) { items := [] }')],'Readme.noSources','answers with a fixed id','C63: answers carry the id of the request')
m('vz-rm-serve-err','Readme.lean',[('  | (.err e, w1) => (.err e, w1)\n  | (.panic, w1) => (.panic, w1)\n  | (.blocked, w1) => (.blocked, w1)\n\n', '  | (.err _, w1) => block w1\n  | (.panic, w1) => (.panic, w1)\n  | (.blocked, w1) => (.blocked, w1)\n\n')],'Readme.serve','goes on to serve after a failed handshake','C70: process refines program; C109')
m('vz-se-refuse-id','Session.lean',[('  | .refusing req => some (.response (.serverNotInitialized req.id', '  | .refusing req => some (.response (.serverNotInitialized (.i32 0)')],'Session.toSend','refusals carry id 0','C70,C73: refusals carry the id of the request')
m('vz-se-reply','Session.lean',[('  | .replying id v => some (.response (.ok id v))', '  | .replying id _ => some (.response (.ok id Value.null))')],'Session.toSend','the value of the handler is lost',"C70,C73: the response carries the handler's value")
m('vz-se-stop','Session.lean',[('  | .stopping id => some (.response (.ok id Value.null))', '  | .stopping _ => none')],'Session.toSend','shutdown is not acknowledged','C70,C73: shutdown is acknowledged')
m('vz-se-handled','Session.lean',[('  | .start, .request (.initializeBuild _ p) => [p]', '  | .start, .request (.initializeBuild _ p) => [p, p]')],'Session.handled','the handler is called twice','C70: handler runs once')
m('vz-se-kind','Session.lean',[('  | .writeFails => some .writeFails\n', '  | .writeFails => some .thread\n')],'Session.kindOf','a failing write is up to the writer','C72,C74: steps of the process itself')
m('vz-tr-settled','Transport.lean',[('    | r => ∀ more b, readMsg (⟨s.unread ++ more, b⟩ : Flat) = r\n', '    | r => readMsg (⟨s.unread, false⟩ : Flat) = r\n')],'Transport.Settled','an empty open input counts as ended','C55,C91: a reader on an open input waits')
m('vz-tr-settled-item','Transport.lean',[('    | .item m rest => ∀ more b, readMsg (⟨s.unread ++ more, b⟩ : Flat) = .item m ⟨rest.bytes ++ more, b⟩', '    | .item _ _ => False')],'Transport.Settled','a message is handed on only when the input has ended','C51: progress')
m('vz-tr-reader-ended','Transport.lean',[('def Reader.ended : Reader → Bool\n  | .reading | .sending _ => false', 'def Reader.ended : Reader → Bool\n  | .reading => false')],'Transport.Reader.ended','a reader that delivers counts as ended','C57,C58: join')
m('vz-tr-thread','Transport.lean',[('  | .read | .undeliverable | .write _ | .written | .writeFails | .close => true', '  | .read | .write _ | .written | .writeFails | .close => true')],'Transport.Act.thread','an undeliverable message does not count as a step of the threads','C57: join returns')
m('vz-sd-decstr','Serde.lean',[('def decStr : Json → Option String\n  | .str s => some s\n', 'def decStr : Json → Option String\n  | .str s => some s\n  | .null => some ""\n')],'decStr','null is taken for an empty text','C98: exactly what is accepted')
m('vz-sd-decbool','Serde.lean',[('def decBool : Json → Option Bool\n  | .bool b => some b\n', 'def decBool : Json → Option Bool\n  | .bool b => some b\n  | .int 0 => some false\n')],'decBool','0 is taken for false','C98: exactly what is accepted')
m('vz-sd-i32','Serde.lean',[('def encI32 (x : Int32) : Json := .int x.toInt', 'def encI32 (x : Int32) : Json := .int x.toUInt32.toNat')],'encI32','negative numbers are written as unsigned','C29-C31: payloads survive')
m('vz-sd-usize','Serde.lean',[('def encUsize (x : UInt64) : Json := .int x.toNat', 'def encUsize (x : UInt64) : Json := .int x.toUInt32.toNat')],'encUsize','truncated to 32 bits','C31: payloads survive')
m('vz-sd-value','Serde.lean',[('def decValue (j : Json) : Option Value := some (Value.ofJson j)', 'def decValue (j : Json) : Option Value := if j == .null then none else some (Value.ofJson j)')],'decValue','null is no datum','C98: exactly what is accepted')
m('vz-sd-opt','Serde.lean',[('def encOpt (enc : α → Json) : Option α → Json\n  | none => .null', 'def encOpt (enc : α → Json) : Option α → Json\n  | none => .obj []')],'encOpt','an absent value is written as {}','C99: what is written')
m('vz-sd-list','Serde.lean',[('Json := .arr (xs.map enc)', 'Json := .arr (xs.reverse.map enc)')],'encList','lists are written backwards','C29-C31: payloads survive')
m('vz-sd-req','Serde.lean',[('  (s.get i k).bind dec\n', '  ((s.get i k).or (some .null)).bind dec\n')],'Src.req','a missing required member is read as null','C33: required members are required')
m('vz-sd-skipif','Serde.lean',[('Members := if c then [] else [(k, j)]', 'Members := if c then [(k, .null)] else [(k, j)]')],'skipIf','written as null instead of omitted','C34: what is omitted')
m('vz-sd-skipnone','Serde.lean',[('def skipNone (k : String) (enc : α → Json) : Option α → Members\n  | none => []', 'def skipNone (k : String) (enc : α → Json) : Option α → Members\n  | none => [(k, .null)]')],'skipNone','absent members are written as null','C34: what is omitted')
m('vz-rq-in-register','ReqQueue.lean',[('  { pending := q.pending.insert id data }\n', '  { pending := q.pending.insert id data |>.insert (.i32 0) data }\n')],'Incoming.register','id 0 is registered as well','C60: only registered ids')
m('vz-dbg-str','Debug.lean',[('def strDebug (odd : Char → Bool) (s : String) : List Char := \'"\' :: (s.toList.flatMap (escDebug odd) ++ [\'"\'])', 'def strDebug (odd : Char → Bool) (s : String) : List Char := s.toList.flatMap (escDebug odd)')],'strDebug','strings are shown without quotes','C86: an id is told from its text')
m('vz-dbg-debug','Debug.lean',[('  | .str s => "RequestId(String(".toList ++ strDebug odd s ++ "))".toList', '  | .str _ => "RequestId(String(".toList ++ "..".toList ++ "))".toList')],'RequestId.debug','the text of an id is not shown','C87: texts tell causes apart')
m('vz-dbg-after','Debug.lean',[('  | .custom _ m v => strDebug odd m ++ ",\\n".toList ++ value v', '  | .custom _ m v => strDebug odd m ++ value v')],'afterId','no separator after the method of a custom request','C87: a refusal tells the method of a custom request')
m('vz-dbg-opt','Debug.lean',[('  | some x => "Some(".toList ++ f x ++ ")".toList', '  | some x => f x')],'optText','Some is not shown','C87: texts tell causes apart')
m('vz-dbg-err','Debug.lean',[('"ResponseError { code: ".toList ++ Text.printInt e.code.toInt ++ ", message: ".toList', '"ResponseError { code: ..".toList ++ ", message: ".toList')],'errText','the code is not shown','C87: texts tell causes apart')
m('vz-dd-tie','Double.lean',[('  if 2 * (a % b) < b then a / b\n', '  if 2 * (a % b) ≤ b then a / b\n')],'Double.roundInt','ties are rounded down','C101: rounding is to nearest, ties to even')
m('vz-dd-inf','Double.lean',[('def rnd (a b : Nat) : Nat := min infinity (roundPat a b)', 'def rnd (a b : Nat) : Nat := min (infinity - 1) (roundPat a b)')],'Double.rnd','overflow gives the largest double','C102, C103: overflow')
m('vz-dd-div','Double.lean',[('def div (x y : Nat) : Nat := rnd (value x * unit) (value y)', 'def div (x y : Nat) : Nat := rnd (value x) (value y)')],'Double.div','the quotient is not scaled','C101, C102, C103, C104: what is read')
m('vz-dd-pow','Double.lean',[('    else scale c (div f (pow10 308)) (e + 308)', '    else scale c (div f (pow10 307)) (e + 308)')],'Double.scale','divides by 1e307','C106, C107: what is read')
m('vz-dd-dig','Double.lean',[('def dig (c : Char) : Nat := c.toNat - 48', 'def dig (c : Char) : Nat := c.toNat - 49')],'Double.dig','digits are off by one','C101, C102, C103, C104: what is read')
m('vz-dd-sat','Double.lean',[('def saturate (e : Int) : Int := max (-2 ^ 31) (min (2 ^ 31 - 1) e)', 'def saturate (e : Int) : Int := max (-2 ^ 15) (min (2 ^ 15 - 1) e)')],'Double.saturate','the exponent saturates at 16 bits','C107: any literal (zeros only make a difference beyond)')
m('vz-dd-tail','Double.lean',[('def readTail (s : Nat) (e : Int) : List Char → Option Nat\n  | [] => fromParts s e', 'def readTail (s : Nat) (e : Int) : List Char → Option Nat\n  | [] => fromParts s 0')],'Double.readTail','the digits after the point shift nothing','C101, C102, C103, C104: what is read')
m('vz-dd-sign','Double.lean',[("  if cs.head? = some '-' then (readMag cs.tail).map (F64.make true)", "  if cs.head? = some '-' then (readMag cs.tail).map (F64.make false)")],'Double.read','the sign is lost','C102, C103: what is read')
m('vz-dd-search','Double.lean',[('((search n 1400).1, ((search n 1400).2 : Int) - 1074)', '((search n 1300).1, ((search n 1300).2 : Int) - 1074)')],'Double.shortest','large doubles are not printed shortest','C101: shortest')
m('vz-dd-print-neg','Double.lean',[("(if f.neg then '-' :: printMag f.mag else printMag f.mag)", 'printMag f.mag')],'Double.print','the sign is not printed','C101: printing is read back')
m('vz-dd-print-inf','Double.lean',[("  else ['n', 'u', 'l', 'l']\n\nend Double", "  else ['i', 'n', 'f']\n\nend Double")],'Double.print','infinity is printed as inf','C101: none of the claims, since no value holds an infinity')
m('vz-dd-layout','Double.lean',[("  else if -5 < kk ∧ kk ≤ 0 then '0' :: '.' :: (List.replicate (-kk).toNat '0' ++ ds)", "  else if -5 < kk ∧ kk ≤ 0 then '0' :: '.' :: ds")],'Double.layout','zeros after the point are lost','C101: printing is read back')

# --- the protocol (C110-C112) -----------------------------------------------------------------------------
m('pr-method-resources','Message.lean',[('  | .buildTargetResources _ _ => "buildTarget/resources"', '  | .buildTargetResources _ _ => "buildTarget/resource"'),('  else if method = "buildTarget/resources" then', '  else if method = "buildTarget/resource" then')],'Request.method, Request.de','the method is called buildTarget/resource on both sides','C110,C112: method names of the protocol')
m('pr-method-finish','Message.lean',[('  | .taskFinish _ => "build/taskFinish"', '  | .taskFinish _ => "build/taskFinished"'),('  else if method = "build/taskFinish" then', '  else if method = "build/taskFinished" then')],'Notification.method, Notification.de','the method is called build/taskFinished on both sides','C110,C112: method names of the protocol')
m('pr-progress-fixed','Message.lean',[('  | .taskProgress _ => "build/taskProgressing"', '  | .taskProgress _ => "build/taskProgress"'),('  else if method = "build/taskProgressing" then', '  else if method = "build/taskProgress" then')],'Notification.method, Notification.de','the method is called build/taskProgress, as in the protocol','C110_violated, C112_violated: reports of progress are not those of the protocol')
m('pr-generated','Types.lean',[('    ++ fld "generated" (Json.bool x.generated))', '    ++ fld "isGenerated" (Json.bool x.generated))'),('  let generated ← s.req 2 "generated" decBool', '  let generated ← s.req 2 "isGenerated" decBool')],'Sources.enc, Sources.dec','the member is called isGenerated on both sides','C111,C112: results of the protocol')
m('pr-cleaned','Types.lean',[('    ++ fld "cleaned" (Json.bool x.cleaned))', '    ++ skipIf (!x.cleaned) "cleaned" (Json.bool x.cleaned))'),('  let cleaned ← s.req 1 "cleaned" decBool', '  let cleaned ← s.dflt 1 "cleaned" false decBool')],'BuildTargetCleanCacheResult.enc, .dec','cleaned is omitted when false','C112: a required member is written')
m('pr-reset-opt','Types.lean',[('    ++ fld "reset" (Json.bool x.reset))', '    ++ skipIf (!x.reset) "reset" (Json.bool x.reset))'),('  let reset ← s.req 4 "reset" decBool', '  let reset ← s.dflt 4 "reset" false decBool')],'PublishDiagnostics.enc, .dec','reset is omitted when false','C112: a required member is written')
m('pr-origin-skip','Types.lean',[('    ++ fld "originId" (encOpt Json.str x.originId)\n    ++ fld "diagnostics"', '    ++ skipNone "originId" Json.str x.originId\n    ++ fld "diagnostics"')],'PublishDiagnostics.enc','an absent originId is omitted (what the protocol asks for)','C112_violated: diagnostics without an originId')
m('pr-finish-status','Types.lean',[('    ++ fld "status" (TaskStatus.enc x.status)', '    ++ skipIf (x.status == TaskStatus.ok) "status" (TaskStatus.enc x.status)')],'TaskFinish.enc','a status of 1 is omitted (the reader assumes it)','C112: a required member is written')
m('pr-parents-req','Types.lean',[('  let parents ← s.dflt 1 "parents" [] (decList decStr)', '  let parents ← s.req 1 "parents" (decList decStr)')],'TaskId.dec','parents is required','C110: an optional member may be absent')
m('pr-taskid-null','Types.lean',[('    ++ skipIf x.parents.isEmpty "parents" (encList Json.str x.parents))', '    ++ fld "parents" (if x.parents.isEmpty then .null else encList Json.str x.parents))')],'TaskId.enc','no parents are written as null','C112: an optional member is absent or has its type')
m('pr-clean-msg','Types.lean',[('  .obj (skipNone "message" Json.str x.message\n    ++ fld "cleaned"', '  .obj (fld "message" (encOpt Json.str x.message)\n    ++ fld "cleaned"')],'BuildTargetCleanCacheResult.enc','an absent message is written as null','C112: an optional member is absent or has its type')
m('pr-initresult-data','Types.lean',[('  let capabilities ← s.req 3 "capabilities" ServerCapabilities.dec\n  let data ← s.opt 4 "data" decValue', '  let capabilities ← s.req 3 "capabilities" ServerCapabilities.dec\n  let data ← (s.req 4 "data" decValue).map some')],'InitializeBuildResult.dec','data is required','C111: an optional member may be absent')
m('pr-jsonrpc','Message.lean',[('("jsonrpc", .str "2.0")', '("jsonrpc", .str "2")')],'Message.enc','version 2 is written','C112: jsonrpc 2.0')
m('rp-result-null','Message.lean',[('fld "id" x.id.enc ++ skipNone "result" Value.json x.result', 'fld "id" x.id.enc ++ fld "result" (encOpt Value.json x.result)')],'Response.members','an absent result is written as null','C113,C114: an error response has no result')
m('rp-error-null','Message.lean',[('    ++ skipNone "error" ResponseError.enc x.error', '    ++ fld "error" (encOpt ResponseError.enc x.error)')],'Response.members','an absent error is written as null','C113,C114: a response with a result has no error')
m('rp-id-str','Message.lean',[('fld "id" x.id.enc ++ skipNone "result"', 'fld "id" (.str "1") ++ skipNone "result"')],'Response.members','every response is written with the id "1"','C113,C114: the response has the id of the request')
m('rp-code-str','Message.lean',[('  .obj (fld "code" (encI32 x.code) ++ fld "message"', '  .obj (fld "code" (.str (toString x.code)) ++ fld "message"')],'ResponseError.enc','the code of an error is written as a string','C113,C114: the code of an error is an integer')
m('rp-message-skip','Message.lean',[('++ fld "message" (.str x.message)\n', '++ skipIf (x.message == "") "message" (.str x.message)\n')],'ResponseError.enc',"an empty message is left out (the README's server sends one)",'C113,C114: an error has a message')
m('rp-null-kept','Message.lean',[('  let result ← s.opt 1 "result" decValue\n  let error', '  let result ← (match s.get 1 "result" with | some j => (decValue j).map some | none => some none)\n  let error')],'Response.dec','a null result is kept','C113_violated_null: a null result is taken for none')
m('rp-error-ignored','Message.lean',[('  let error ← s.opt 2 "error" ResponseError.dec', '  let error := (s.opt 2 "error" ResponseError.dec).getD none')],'Response.dec','an error that cannot be read is ignored','C14,C113: what is read as a response')
m('rp-readme-targets','Readme.lean',[('  | .workspaceBuildTargets id => noTargets id', '  | .workspaceBuildTargets id => noSources id')],'reply','a request for the targets is answered with a list of sources','C114: the result has the type for the method')
m('rp-readme-null','Readme.lean',[('  | req => .response (.methodNotFound req.id "")', '  | req => .response (.ok req.id Value.null)')],'reply','requests it cannot handle are answered with null','C114: the result has the type for the method')
m('rp-readme-own-id','Readme.lean',[('  | req => .response (.methodNotFound req.id "")', '  | req => .response (.methodNotFound (.str req.method) "")')],'reply','the answer has the method for its id','C114: the response has the id of the request')
m('rp-shutdown-obj','Session.lean',[('  | .stopping id => some (.response (.ok id Value.null))', '  | .stopping id => some (.response (.ok id (Value.ofJson (.obj []))))')],'toSend','shutdown is answered with an empty object','C114: the result of shutdown is null')
m('rp-shutdown-none','Session.lean',[('  | .stopping id => some (.response (.ok id Value.null))', '  | .stopping id => some (.response ⟨id, none, none⟩)')],'toSend','shutdown is answered with neither result nor error','C114: one of result and error')
m('rp-init-err','Session.lean',[('  | .replying id v => some (.response (.ok id v))', '  | .replying id v => some (.response ⟨id, none, some ⟨0, "", some v⟩⟩)')],'toSend','the value of the handler is sent as the data of an error','C73,C74,C114_violated_documented: the value of the handler is the result')
m('rp-order','Message.lean',[('  match Request.dec j with\n  | some r => some (.request r)\n  | none => match Response.dec j with\n    | some r => some (.response r)\n    | none => match Notification.dec j with\n      | some n => some (.notification n)\n      | none => none', '  match Response.dec j with\n  | some r => some (.response r)\n  | none => match Request.dec j with\n    | some r => some (.request r)\n    | none => match Notification.dec j with\n      | some n => some (.notification n)\n      | none => none')],'Message.dec','responses are tried before requests','C14,C114: requests are taken for requests')
m('rp-time-drop','Types.lean',[('  let eventTime ← s.dflt 1 "eventTime" none (decOpt decU32)\n  let message ← s.dflt 2 "message" "" decStr\n  let status', '  let eventTime ← s.dflt 1 "eventTime" none (fun j => some ((decOpt decU32 j).getD none))\n  let message ← s.dflt 2 "message" "" decStr\n  let status')],'TaskFinish.dec','an event time that does not fit is dropped','C35,C115_violated: an event time that does not fit is an error')
m('rp-documented','Rpc.lean',[('  some (Value.ofJson (.obj [("Ok", (Api.InitializeBuildResult.new_simple "MyBuildServer" "0.1" "2.0"\n    Api.default_ServerCapabilities).enc)]))', '  some (Value.ofJson (Api.InitializeBuildResult.new_simple "MyBuildServer" "0.1" "2.0"\n    Api.default_ServerCapabilities).enc)')],'documented','the documented handler returns the result itself (what was meant)','C114_violated_documented')
m('pl-broadcast','Pool.lean',[("Step k ⟨io, a ++ x :: b⟩ .worker ⟨io', a ++ onRecv x (some m) :: b⟩", "Step k ⟨io, a ++ x :: b⟩ .worker ⟨io', (a ++ x :: b).map fun y => if y.receives then onRecv y (some m) else y⟩")],'Pool.Step.recv','every waiting worker receives the message','C116_once: a request is answered once')
m('pl-recv-lost','Pool.lean',[("Step k ⟨io, a ++ x :: b⟩ .worker ⟨io', a ++ onRecv x (some m) :: b⟩", "Step k ⟨io, a ++ x :: b⟩ .worker ⟨io', a ++ x :: b⟩")],'Pool.Step.recv','the message received is dropped','C116_rest: every request is answered')
m('pl-recv-anyone','Pool.lean',[("  | recv {io io' : Transport.State} {a b : List App} {x : App} {m} : x.receives = true →\n", "  | recv {io io' : Transport.State} {a b : List App} {x : App} {m} : toSend x = none →\n")],'Pool.Step.recv','a worker that has ended still takes messages','C116_rest: every request is answered')
m('pl-send-again','Pool.lean',[("Step k ⟨io, a ++ x :: b⟩ .worker ⟨io', a ++ onSent x true :: b⟩", "Step k ⟨io, a ++ x :: b⟩ .worker ⟨io', a ++ x :: b⟩")],'Pool.Step.send','a worker does not notice that its message has been sent','C116_once, C116_terminates: an answer is sent once')
m('pl-send-any','Pool.lean',[("  | send {io io' : Transport.State} {a b : List App} {x : App} {m} : toSend x = some m →", "  | send {io io' : Transport.State} {a b : List App} {x : App} {m} : (toSend x).isSome = true →")],'Pool.Step.send','a worker with something to send sends something else','C116_once: what is sent is the answer to a request')
m('pl-unsent-open','Pool.lean',[('toSend x = some m → io.writer.ended = true →', 'toSend x = some m → io.writer ≠ .idle →')],'Pool.Step.unsent','a send fails while the writer is busy','C116_rest: every request is answered')
m('pl-closed-early','Pool.lean',[('x.receives = true → io.reader.ended = true →', 'x.receives = true → io.reader ≠ .reading →')],'Pool.Step.closed','a receive fails while the reader is about to hand over a message','C116_rest: workers end only with the input')
m('pl-drop-early','Pool.lean',[('  | dropTx {p : State} : (∀ x ∈ p.workers, ∃ r, x = .ended r)', '  | dropTx {p : State} : (∃ x ∈ p.workers, ∃ r, x = .ended r)')],'Pool.Step.dropTx','the first worker to end closes the channel to the writer','C116_rest: every request is answered')
m('pl-drop-rx-early','Pool.lean',[('  | dropRx {p : State} : (∀ x ∈ p.workers, ∃ r, x = .ended r)', '  | dropRx {p : State} : (∃ x ∈ p.workers, ∃ r, x = .ended r)')],'Pool.Step.dropRx','the first worker to end closes the channel from the reader','C116_rest, C117_partial: join succeeds')
m('pl-no-drop','Pool.lean',[('(∀ x ∈ p.workers, ∃ r, x = .ended r) → p.io.txAlive = true →', '(∀ x ∈ p.workers, ∃ r, x = .ended r) → p.io.txAlive = false →')],'Pool.Step.dropTx','a sender is leaked','C116_rest, C117_partial: the writer ends')
m('pl-timeout-idle','Pool.lean',[('Step k ⟨io, a ++ .leaving :: b⟩ .timeout', 'Step k ⟨io, a ++ .idle :: b⟩ .timeout')],'Pool.Step.timeout','the time limit is on the wrong receive','C116_rest: workers end only with the input')
m('pl-disc-ok','Pool.lean',[('Session.onRecv (fun _ => none) a m', 'match a, m with | .leaving, none => .ended (.ok ()) | a, m => Session.onRecv (fun _ => none) a m')],'Pool.onRecv','a closed channel during shutdown is no error','C117_violated')
m('pl-exit-err','Pool.lean',[('Session.onRecv (fun _ => none) a m', 'match a, m with | .leaving, some (.notification .exit) => .ended (.err "") | a, m => Session.onRecv (fun _ => none) a m')],'Pool.onRecv','exit during shutdown is an error','C117_partial, C117_alone: workers end well')
m('pl-exit-idle-err','Pool.lean',[('Session.onRecv (fun _ => none) a m', 'match a, m with | .idle, some (.notification .exit) => .ended (.err "") | a, m => Session.onRecv (fun _ => none) a m')],'Pool.onRecv','exit without shutdown is an error','C116_rest, C117_partial: workers end well')
m('pl-note-ends','Pool.lean',[('Session.onRecv (fun _ => none) a m', 'match a, m with | .idle, some (.notification _) => .ended (.ok ()) | a, m => Session.onRecv (fun _ => none) a m')],'Pool.onRecv','a worker ends with the first notification','C116_rest: workers wait for input until it is over')
m('pl-end-err','Pool.lean',[('Session.onRecv (fun _ => none) a m', 'match a, m with | .idle, none => .ended (.err "") | a, m => Session.onRecv (fun _ => none) a m')],'Pool.onRecv','the end of the input is an error','C116_rest, C117_partial: workers end well')
m('pl-ack-reply','Pool.lean',[('Session.onRecv (fun _ => none) a m', 'match a, m with | .idle, some (.request r) => .answering r | a, m => Session.onRecv (fun _ => none) a m')],'Pool.onRecv','shutdown is answered like any other request','C117_partial: shutdown is answered with null')
m('pl-stop-silent','Pool.lean',[('Session.onRecv (fun _ => none) a m', 'match a, m with | .idle, some (.request (.shutdown _)) => .leaving | a, m => Session.onRecv (fun _ => none) a m')],'Pool.onRecv','shutdown is not answered','C117_partial: every request is answered')
m('pl-resp-reply','Pool.lean',[('Session.onRecv (fun _ => none) a m', 'match a, m with | .idle, some (.response r) => .answering (.workspaceReload r.id) | a, m => Session.onRecv (fun _ => none) a m')],'Pool.onRecv','a response is answered','C116_once: what is sent is the answer to a request')
m('pl-start','Pool.lean',[('⟨io, List.replicate n .idle⟩', '⟨io, List.replicate n .start⟩')],'Pool.start','every worker begins with the handshake','C116_once: what is sent is the answer of the loop')
m('pl-start-one','Pool.lean',[('⟨io, List.replicate n .idle⟩', '⟨io, List.replicate (min n 1) .idle⟩')],'Pool.start','only one worker is started','C116_overtakes, C117_violated')
# a client with `Outgoing` (C118)
m('as-handle-first','Asking.lean',[('let x := c.queue.complete r.id\n    { c with queue := x.2, handled', 'let x := c.queue.complete (.i32 0)\n    { c with queue := x.2, handled')],'Asking.Client.handle','every response completes the first request','C118_matched: the queue returns the data of the request')
m('as-handle-keep','Asking.lean',[('{ c with queue := x.2, handled', '{ c with handled')],'Asking.Client.handle','the entry of an answered request stays in the queue','C118_matched: the data of the other requests stays pending, and only that')
m('as-handle-req','Asking.lean',[('  | m => { c with handled := c.handled ++ [(m, none)] }', '  | m => { c with queue := .new, handled := c.handled ++ [(m, none)] }')],'Asking.Client.handle','any other message empties the queue','C118_matched: only answers reach a client of the README server, so this one is not noticed unless other messages come')
m('as-handle-drop','Asking.lean',[('{ c with queue := x.2, handled := c.handled ++ [(m, x.1)] }', '{ c with queue := x.2, handled := if x.1.isSome then c.handled ++ [(m, x.1)] else c.handled }')],'Asking.Client.handle','an answer to nothing is dropped','C118_matched: harmless as long as every answer finds its entry')
m('as-ask-id','Asking.lean',[('w.client.queue.register checked d = some (id, q) → r.id = id →', 'w.client.queue.register checked d = some (id, q) → r.id ≠ id →')],'Asking.Step.ask','the request does not get the number','C118_matched: the queue returns the data of the request')
m('as-ask-anyid','Asking.lean',[('w.client.queue.register checked d = some (id, q) → r.id = id →', 'w.client.queue.register checked d = some (id, q) →')],'Asking.Step.ask','the request need not have the number','C118_matched: the queue returns the data of the request')
m('as-ask-old','Asking.lean',[('queue := q, outbox := w.client.outbox ++ [r]', 'outbox := w.client.outbox ++ [r]')],'Asking.Step.ask','the registration is lost','C118_matched: the queue returns the data of the request')
m('as-ask-unsent','Asking.lean',[('queue := q, outbox := w.client.outbox ++ [r], asked', 'queue := q, asked')],'Asking.Step.ask','a request is numbered but not sent','C118_rest: every request with params is answered')
m('as-send-again','Asking.lean',[('{ w.client with io := io, outbox := a ++ b }', '{ w.client with io := io }')],'Asking.Step.send','a request is sent again and again','C118_matched, C118_terminates: each answer is to a different request')
m('as-send-drop','Asking.lean',[('{ w.client with io := io, outbox := a ++ b }', '{ w.client with io := io, outbox := [] }')],'Asking.Step.send','what waits behind a request is lost','C118_rest: every request with params is answered')
m('as-recv-twice','Asking.lean',[('inbox := w.client.inbox ++ [m] }', 'inbox := w.client.inbox ++ [m, m] }')],'Asking.Step.recv','a message is handled twice','C118_matched: each answer is to a different request')
m('as-recv-lost','Asking.lean',[('{ w.client with io := io, inbox := w.client.inbox ++ [m] }', '{ w.client with io := io }')],'Asking.Step.recv','a message is dropped','C118_rest: every answer is handled')
m('as-handle-stay','Asking.lean',[('{ w.client.handle m with inbox := a ++ b }', 'w.client.handle m')],'Asking.Step.handle','a message stays in the inbox','C118_matched, C118_terminates: each answer is to a different request')
m('as-say-req','Asking.lean',[('(∀ r, m ≠ .request r) → Transport.Step kc w.client.io (.accept m) io', 'Transport.Step kc w.client.io (.accept m) io')],'Asking.Step.say','requests are sent past the queue','C118_matched: every message handled is the answer to a numbered request')
m('as-toclient-any','Asking.lean',[('bs ≠ [] → w.client.io.arrived ++ bs <+: w.pool.io.out →', 'bs ≠ [] →')],'Asking.Step.toClient','bytes arrive that nobody has written','C118_matched: every message handled is an answer')
m('as-toserver-any','Asking.lean',[('bs ≠ [] → w.pool.io.arrived ++ bs <+: w.client.io.out →', 'bs ≠ [] →')],'Asking.Step.toServer','bytes arrive that nobody has written','C118_matched: every message handled is an answer to a request of the client')
m('as-toclient-empty','Asking.lean',[('bs ≠ [] → w.client.io.arrived ++ bs <+: w.pool.io.out →', 'w.client.io.arrived ++ bs <+: w.pool.io.out →')],'Asking.Step.toClient','nothing at all may arrive, again and again','C118_terminates')
m('as-toserver-lost','Asking.lean',[('bs ≠ [] → w.pool.io.arrived ++ bs <+: w.client.io.out →', 'bs ≠ [] → bs.length < 4096 → w.pool.io.arrived ++ bs = w.client.io.out →')],'Asking.Step.toServer','what is long never arrives','C118_rest: every request is answered')
m('as-cut-move','Asking.lean',[('  | cutClient {w : World α} {b io} : Transport.Step kc w.client.io (.hangUp b) io →\n      Step checked kc ks w .hangUp', '  | cutClient {w : World α} {b io} : Transport.Step kc w.client.io (.hangUp b) io →\n      Step checked kc ks w .move')],'Asking.Step.cutClient','the connection is cut without anybody knowing','C118_rest: every answer is handled')
m('as-fails-move','Asking.lean',[('(.accept m) io →\n      Step checked kc ks w .say', '(.accept m) io →\n      Step checked kc ks w .move')],'Asking.Step.say','saying something counts as progress','C118_terminates')
m('as-evof','Asking.lean',[('  | .writeFails => .writeFails\n', '')],'Asking.evOf','a failing write of the server is not noticed','C118_rest')
m('as-peer','Asking.lean',[('Pool.Step ks w.pool a p → a ≠ .peer →', 'Pool.Step ks w.pool a p →')],'Asking.Step.server','anybody may write to the server','C118_matched: every message handled is an answer to a request of the client')
m('as-quiet','Asking.lean',[('Step checked kc ks w a v → a ≠ .move ∧ a ≠ .writeFails', 'Step checked kc ks w a v → a ≠ .move')],'Asking.Quiet','a state in which only a write can fail counts as quiet: harmless, as there is then a write that can succeed','C118_rest')
# a server with `Incoming` (C119)
m('sv-begin-none','Serving.lean',[('queue := s.queue.register r.id d\n    jobs', 'queue := s.queue\n    jobs')],'Serving.State.begin','requests are not registered','C119_rest: every request is answered')
m('sv-begin-keep','Serving.lean',[('queue := s.queue.register r.id d\n    jobs', 'queue := if (s.queue.pending r.id).isSome then s.queue else s.queue.register r.id d\n    jobs')],'Serving.State.begin','the first of two registrations is kept','C119_reused: the queue returns the data of the second')
m('sv-begin-nojob','Serving.lean',[('jobs := s.jobs ++ [(r, d)]', 'jobs := if (s.queue.pending r.id).isSome then s.jobs else s.jobs ++ [(r, d)]')],'Serving.State.begin','no work on a request whose id is pending','C119_rest: the jobs ended are those of the requests')
m('sv-begin-order','Serving.lean',[('again := if (s.queue.pending r.id).isSome then s.again ++ [r.id] else s.again', 'again := s.again')],'Serving.State.begin','registrations that replace an entry are not counted','C119_rest: as many responses as requests less those registered while pending')
m('sv-cancel-queue','Serving.lean',[('{ s with queue := x.2, outbox := s.outbox ++ x.1.toList }', '{ s with outbox := s.outbox ++ x.1.toList }')],'Serving.State.cancel','a cancelled request stays pending','C119_once: each request is answered once')
m('sv-cancel-silent','Serving.lean',[('{ s with queue := x.2, outbox := s.outbox ++ x.1.toList }', '{ s with queue := x.2 }')],'Serving.State.cancel','a cancelled request is not answered','C119_rest: every request is answered')
m('sv-cancel-always','Serving.lean',[('{ s with queue := x.2, outbox := s.outbox ++ x.1.toList }', '{ s with queue := x.2, outbox := s.outbox ++ [⟨id, none, some ⟨-32800, "canceled by client", none⟩⟩] }')],'Serving.State.cancel','a wish to cancel is answered even if nothing is pending','C119_once: each request is answered once')
m('sv-cancel-jobs','Serving.lean',[('{ s with queue := x.2, outbox := s.outbox ++ x.1.toList }', '{ s with queue := x.2, outbox := s.outbox ++ x.1.toList, jobs := s.jobs.filter fun j => j.1.id ≠ id }')],'Serving.State.cancel','the job is killed','C119_rest, C119_stale: jobs end by themselves')
m('sv-handle-forget','Serving.lean',[('    | some id => t.cancel id\n', '    | some id => t\n')],'Serving.State.handle','wishes to cancel are ignored','C119_stale: a cancelled request is answered with the code of a cancelled request')
m('sv-handle-both','Serving.lean',[('  | .request r => t.begin r d\n', '  | .request r => (t.begin r d).cancel r.id\n')],'Serving.State.handle','every request is cancelled at once','C119_distinct, C119_once: responses come from jobs or wishes')
m('sv-finish-always','Serving.lean',[('outbox := if y.1.isSome then s.outbox ++ [x] else s.outbox', 'outbox := s.outbox ++ [x]')],'Serving.State.finish','the outcome of a cancelled job is sent','C119_once: each request is answered once')
m('sv-finish-never','Serving.lean',[('outbox := if y.1.isSome then s.outbox ++ [x] else s.outbox', 'outbox := if y.1.isSome then s.outbox else s.outbox ++ [x]')],'Serving.State.finish','only the outcome of cancelled jobs is sent','C119_rest: each request is answered')
m('sv-finish-keep','Serving.lean',[('    queue := y.2\n    outbox', '    queue := s.queue\n    outbox')],'Serving.State.finish','the entry stays when a job ends','C119_once: each request is answered once')
m('sv-finish-anyid','Serving.lean',[('s.jobs = a ++ (r, d) :: b → x.id = r.id →', 's.jobs = a ++ (r, d) :: b →')],'Serving.Step.finish','the outcome need not have the id of the request','C119_once')
m('sv-finish-again','Serving.lean',[('{ s.finish r d x with jobs := a ++ b }', 's.finish r d x')],'Serving.Step.finish','a job ends again and again','C119_rest, C119_terminates')
m('sv-finish-drop','Serving.lean',[('{ s.finish r d x with jobs := a ++ b }', '{ s.finish r d x with jobs := b }')],'Serving.Step.finish','the older jobs are killed','C119_rest: all jobs end')
m('sv-recv-lost','Serving.lean',[('{ s with io := io\', inbox := s.inbox ++ [m] }', '{ s with io := io\' }')],'Serving.Step.recv','a message is dropped','C119_rest: each request is answered')
m('sv-recv-twice','Serving.lean',[('{ s with io := io\', inbox := s.inbox ++ [m] }', '{ s with io := io\', inbox := s.inbox ++ [m, m] }')],'Serving.Step.recv','a message is handled twice','C119_once')
m('sv-handle-stay','Serving.lean',[('{ s.handle wish m d with inbox := a ++ b }', 's.handle wish m d')],'Serving.Step.handle','a message stays in the inbox','C119_once, C119_terminates')
m('sv-send-stay','Serving.lean',[('{ s with io := io\', outbox := a ++ b }', '{ s with io := io\' }')],'Serving.Step.send','a response is sent again and again','C119_once, C119_terminates')
m('sv-send-drop','Serving.lean',[('{ s with io := io\', outbox := a ++ b }', '{ s with io := io\', outbox := b }')],'Serving.Step.send','what waits before a response is lost','C119_rest')
m('sv-quiet','Serving.lean',[('Quiet (k : Kind) (wish : Message → Option RequestId) (s : State α) : Prop :=\n  ∀ a t, Step k wish s a t → a = .peer', 'Quiet (k : Kind) (wish : Message → Option RequestId) (s : State α) : Prop :=\n  ∀ a t, Step k wish s a t → a = .peer ∨ a = .worker')],'Serving.Quiet','a state in which the server still has work counts as quiet','C119_rest')
m('sv-queue-cancel-code','ReqQueue.lean',[('code := ErrorCode.requestCanceled.code', 'code := ErrorCode.serverCancelled.code')],'Incoming.cancel','another code','C119_once, C119_stale')
# both queues (C120)
m('de-ask-anyid','Deal.lean',[('w.client.queue.register checked d = some (id, q) → r.id = id →', 'w.client.queue.register checked d = some (id, q) →')],'Deal.Step.ask','the request need not have the number','C120_matched: the queue returns the data of the request')
m('de-ask-old','Deal.lean',[('queue := q, outbox := w.client.outbox ++ [r]', 'outbox := w.client.outbox ++ [r]')],'Deal.Step.ask','the registration is lost','C120_matched: the queue returns the data of the request')
m('de-send-again','Deal.lean',[('{ w.client with io := io, outbox := a ++ b }', '{ w.client with io := io }')],'Deal.Step.send','a request is sent again and again','C120_matched, C120_terminates')
m('de-send-drop','Deal.lean',[('{ w.client with io := io, outbox := a ++ b }', '{ w.client with io := io, outbox := b }')],'Deal.Step.send','what waits before a request is lost','C120_rest')
m('de-recv-lost','Deal.lean',[('{ w.client with io := io, inbox := w.client.inbox ++ [m] }', '{ w.client with io := io }')],'Deal.Step.recv','an answer is dropped','C120_rest: every answer is handled')
m('de-recv-twice','Deal.lean',[('inbox := w.client.inbox ++ [m] }', 'inbox := w.client.inbox ++ [m, m] }')],'Deal.Step.recv','an answer is handled twice','C120_matched: each answer is to a different request')
m('de-handle-stay','Deal.lean',[('{ w.client.handle m with inbox := a ++ b }', 'w.client.handle m')],'Deal.Step.handle','an answer stays in the inbox','C120_matched, C120_terminates')
m('de-say-req','Deal.lean',[('(∀ r, m ≠ .request r) → Transport.Step kc w.client.io (.accept m) io', 'Transport.Step kc w.client.io (.accept m) io')],'Deal.Step.say','requests are sent past the queue','C120_matched: every message handled is the answer to a numbered request')
m('de-toclient-any','Deal.lean',[('bs ≠ [] → w.client.io.arrived ++ bs <+: w.server.io.out →', 'bs ≠ [] →')],'Deal.Step.toClient','bytes arrive that nobody has written','C120_matched: every message handled is an answer')
m('de-toserver-any','Deal.lean',[('bs ≠ [] → w.server.io.arrived ++ bs <+: w.client.io.out →', 'bs ≠ [] →')],'Deal.Step.toServer','bytes arrive that nobody has written','C120_matched: a request that is cancelled has been cancelled by the client')
m('de-toclient-lost','Deal.lean',[('bs ≠ [] → w.client.io.arrived ++ bs <+: w.server.io.out →', 'bs ≠ [] → bs.length < 4096 → w.client.io.arrived ++ bs = w.server.io.out →')],'Deal.Step.toClient','what is long never arrives','C120_rest: every request is answered')
m('de-peer','Deal.lean',[('Serving.Step ks wish w.server a s → a ≠ .peer →', 'Serving.Step ks wish w.server a s →')],'Deal.Step.server','anybody may write to the server','C120_matched: what the server answers are requests of the client')
m('de-cut-move','Deal.lean',[('Transport.Step ks w.server.io (.hangUp b) io →\n      Step checked kc ks wish w .hangUp', 'Transport.Step ks w.server.io (.hangUp b) io →\n      Step checked kc ks wish w .move')],'Deal.Step.cutServer','the connection is cut without anybody knowing','C120_rest: every request is answered')
m('de-server-wish','Deal.lean',[('  | server {w : World α β} {a s} : Serving.Step ks wish w.server a s', '  | server {w : World α β} {a s} {wish} : Serving.Step ks wish w.server a s')],'Deal.Step.server','the server cancels what it likes','C120_matched: a request that is cancelled has been cancelled by the client')
m('de-server-anyid','Serving.lean',[('s.jobs = a ++ (r, d) :: b → x.id = r.id →', 's.jobs = a ++ (r, d) :: b →')],'Serving.Step.finish','the outcome need not have the id of the request','C120_matched: an answer is to a request of the client')
m('de-server-always','Serving.lean',[('outbox := if y.1.isSome then s.outbox ++ [x] else s.outbox', 'outbox := s.outbox ++ [x]')],'Serving.State.finish','the outcome of a cancelled job is sent too','C120_matched: each answer is to a different request')
m('de-server-silent','Serving.lean',[('{ s with queue := x.2, outbox := s.outbox ++ x.1.toList }', '{ s with queue := x.2 }')],'Serving.State.cancel','a cancelled request is not answered','C120_rest: every request is answered')
m('de-client-keep','Asking.lean',[('{ c with queue := x.2, handled', '{ c with handled')],'Asking.Client.handle','the entry of an answered request stays in the queue','C120_matched: the data of the other requests stays pending, and only that')
m('de-client-first','Asking.lean',[('let x := c.queue.complete r.id\n    { c with queue := x.2, handled', 'let x := c.queue.complete (.i32 0)\n    { c with queue := x.2, handled')],'Asking.Client.handle','every response completes the first request','C120_matched: the queue returns the data of the request')

# One thread receives, others send (C121)
m('cr-hire-drop','Crew.lean',[('jobs := p.jobs ++ [{ req := r, left := ms }] }', 'jobs := p.jobs }')],'Crew.Step.hire','a request is dropped','C121_rest, C121_shutdown: each request has had its thread')
m('cr-hire-twice','Crew.lean',[('jobs := p.jobs ++ [{ req := r, left := ms }] }', 'jobs := p.jobs ++ [{ req := r, left := ms }, { req := r, left := ms }] }')],'Crew.Step.hire','two threads for a request','C121_sent, C121_once: one thread for each request')
m('cr-hire-only','Crew.lean',[('jobs := p.jobs ++ [{ req := r, left := ms }] }', 'jobs := [{ req := r, left := ms }] }')],'Crew.Step.hire','a new thread takes the place of the others','C121_sent, C121_shutdown')
m('cr-hire-any','Crew.lean',[('onRecv p.main (some m) = .answering r → work r ms →', 'onRecv p.main (some m) = .answering r →')],'Crew.Step.hire','a thread may send anything','C121_sent, C121_once')
m('cr-hire-front','Crew.lean',[('jobs := p.jobs ++ [{ req := r, left := ms }] }', 'jobs := { req := r, left := ms } :: p.jobs }')],'Crew.Step.hire','the threads are kept in the opposite order','C121_sent: the threads are in the order of the requests')
m('cr-recv-answer','Crew.lean',[('      (∀ r, onRecv p.main (some m) ≠ .answering r) →\n', '')],'Crew.Step.recv','the main thread may answer itself','C121_sent, C121_once')
m('cr-recv-stay','Crew.lean',[("Step k work p .worker { p with io := io', main := onRecv p.main (some m) }", "Step k work p .worker { p with io := io' }")],'Crew.Step.recv','the main thread takes no notice of shutdown','C121_shutdown, C121_sent')
m('cr-closed-stay','Crew.lean',[('Step k work p .worker { p with main := onRecv p.main none }', 'Step k work p .worker p')],'Crew.Step.closed','the main thread does not notice the end of the input','C121_rest, C121_terminates')
m('cr-reply-again','Crew.lean',[('main := onSent p.main true, mine := p.mine ++ [m] }', 'mine := p.mine ++ [m] }')],'Crew.Step.reply','shutdown is answered again and again','C121_sent, C121_terminates')
m('cr-send-again','Crew.lean',[('a ++ ⟨r, s ++ [m], l, z⟩ :: b⟩', 'a ++ ⟨r, s ++ [m], m :: l, z⟩ :: b⟩')],'Crew.Step.send','a message is sent again and again','C121_terminates, C121_sent')
m('cr-send-end','Crew.lean',[("⟨io', main, mine, a ++ ⟨r, s ++ [m], l, z⟩ :: b⟩", "⟨io', main, mine, a ++ b ++ [⟨r, s ++ [m], l, z⟩]⟩")],'Crew.Step.send','a thread that has sent goes to the end of the list','C121_sent: the threads are in the order of the requests')
m('cr-send-last','Crew.lean',[("a ++ ⟨r, s, m :: l, z⟩ :: b⟩ .worker ⟨io', main, mine, a ++ ⟨r, s ++ [m], l, z⟩ :: b⟩", "a ++ ⟨r, s, l ++ [m], z⟩ :: b⟩ .worker ⟨io', main, mine, a ++ ⟨r, s ++ [m], l, z⟩ :: b⟩")],'Crew.Step.send','a thread sends its last message first','C121_sent: each in its order')
m('cr-send-other','Crew.lean',[("Transport.Step k io (.accept m) io' →\n      Step k work ⟨io, main, mine, a ++", "Transport.Step k io (.accept (Message.notification .exit)) io' →\n      Step k work ⟨io, main, mine, a ++")],'Crew.Step.send','something else is sent','C121_sent, C121_once')
m('cr-unsent-any','Crew.lean',[('{main mine a b r s m l z} : io.writer.ended = true →\n', '{main mine a b r s m l z} :\n')],'Crew.Step.unsent','a thread may give up at any time','C121_rest, C121_shutdown: all work is finished')
m('cr-unsent-stay','Crew.lean',[('a ++ ⟨r, s, [], m :: l⟩ :: b⟩', 'a ++ ⟨r, s, m :: l, z⟩ :: b⟩')],'Crew.Step.unsent','a thread tries again and again','C121_terminates')
m('cr-unsent-done','Crew.lean',[('a ++ ⟨r, s, [], m :: l⟩ :: b⟩', 'a ++ ⟨r, s ++ [m], l, z⟩ :: b⟩')],'Crew.Step.unsent','what could not be sent counts as sent','C121_sent: what has been sent is what the threads have sent')
m('cr-droprx-early','Crew.lean',[('  | dropRx {p : State} : (∃ r, p.main = .ended r) → p.io.rxAlive = true →', '  | dropRx {p : State} : p.io.rxAlive = true →')],'Crew.Step.dropRx','the receiver is dropped while it is used','C121_shutdown: the main thread ends well')
m('cr-droptx-early','Crew.lean',[('(∃ r, p.main = .ended r) → (∀ j ∈ p.jobs, j.left = []) → p.io.txAlive = true →', '(∃ r, p.main = .ended r) → p.io.txAlive = true →')],'Crew.Step.dropTx','the sender is dropped with the main thread','C121_shutdown: work that was pending at exit is finished')
m('cr-droptx-main','Crew.lean',[('(∃ r, p.main = .ended r) → (∀ j ∈ p.jobs, j.left = []) → p.io.txAlive = true →', '(∀ j ∈ p.jobs, j.left = []) → p.io.txAlive = true →')],'Crew.Step.dropTx','the sender is dropped while the main thread uses it','C121_shutdown: shutdown is answered')
m('cr-droptx-never','Crew.lean',[('(∃ r, p.main = .ended r) → (∀ j ∈ p.jobs, j.left = []) → p.io.txAlive = true →', '(∃ r, p.main = .ended r) → p.jobs = [] → p.io.txAlive = true →')],'Crew.Step.dropTx','threads never give back their senders','C121_shutdown, C121_rest: join ends')
m('cr-timeout-ok','Crew.lean',[('main := .ended (.err ("unexpected error during shutdown: " ++ Dbg.timeout)) }', 'main := .ended (.ok ()) }')],'Crew.Step.timeout','a missing exit is fine','C121_ok: the main thread ends well only after exit')
m('cr-timeout-idle','Crew.lean',[('  | timeout {p : State} : p.main = .leaving →', '  | timeout {p : State} : p.main = .leaving ∨ p.main = .idle →')],'Crew.Step.timeout','the time limit applies to the loop too','C121_rest: the main thread waits for input')
m('cr-quiet-worker','Crew.lean',[('∀ a q, Step k work p a q → a = .peer ∨ a = .timeout', '∀ a q, Step k work p a q → a = .peer ∨ a = .timeout ∨ a = .worker')],'Crew.Quiet','rest although there is something to send','C121_rest, C121_shutdown')
m('cr-onrecv-exit','Crew.lean',[('def onRecv (a : App) (m : Option Message) : App := Session.onRecv (fun _ => none) a m', 'def onRecv (a : App) (m : Option Message) : App :=\n  match a, m with\n  | .idle, some (.notification .exit) => .ended (.err "exit without shutdown")\n  | a, m => Session.onRecv (fun _ => none) a m')],'Crew.onRecv','exit without shutdown ends the loop with an error','C121_rest: the main thread has ended well')

# C122: finite buffers
m('fl-right-free','Flow.lean',[("∨ l'.a.io.out.length ≤ l.b.io.arrived.length + c.toRight", "∨ True")],'Flow.Lets.right','a writer never waits for room','C122_ahead, C122_never, C122_stuck')
m('fl-left-free','Flow.lean',[("∨ l'.b.io.out.length ≤ l.a.io.arrived.length + c.toLeft", "∨ True")],'Flow.Lets.left','the server never waits for room','C122_ahead, C122_never, C122_stuck')
m('fl-right-other','Flow.lean',[("l.b.io.arrived.length + c.toRight", "l.b.io.arrived.length + c.toLeft")],'Flow.Lets.right','the size of the buffer in the other direction','C122_ahead')
m('fl-right-before','Flow.lean',[("∨ l'.a.io.out.length ≤ l.b.io.arrived.length + c.toRight", "∨ l.a.io.out.length ≤ l.b.io.arrived.length + c.toRight")],'Flow.Lets.right','a write goes through as a whole once there is room for some of it','C122_ahead')
m('fl-right-strict','Flow.lean',[("∨ l'.a.io.out.length ≤ l.b.io.arrived.length + c.toRight", "∨ l'.a.io.out.length < l.b.io.arrived.length + c.toRight")],'Flow.Lets.right','the last byte of the buffer is not used','C122_served, C122_rest, C122_takes, C122_ends, C122_fits')
m('fl-left-strict','Flow.lean',[("∨ l'.b.io.out.length ≤ l.a.io.arrived.length + c.toLeft", "∨ l'.b.io.out.length < l.a.io.arrived.length + c.toLeft")],'Flow.Lets.left','the last byte of the buffer is not used','C122_served, C122_rest, C122_takes, C122_ends')
m('fl-takes-any','Flow.lean',[("takesB : l'.b.io.arrived = l.b.io.arrived ∨ Asks l.b.io", "takesB : l'.b.io.arrived = l.b.io.arrived ∨ l.b.io.reader.ended = false")],'Flow.Lets.takesB','bytes are taken although the reader thread waits for the application','C122_ahead, C122_never')
m('fl-takes-none','Flow.lean',[("takesA : l'.a.io.arrived = l.a.io.arrived ∨ Asks l.a.io", "takesA : l'.a.io.arrived = l.a.io.arrived")],'Flow.Lets.takesA','the client takes nothing','C122_served, C122_rest, C122_ends, C122_takes')
m('fl-asks-whole','Flow.lean',[("s.reader = .reading ∧ ∀ r, ¬ Settled s r", "s.reader = .reading")],'Flow.Asks','the reader thread takes more although it has a whole message','C122_ahead')
m('fl-asks-settled','Flow.lean',[("s.reader = .reading ∧ ∀ r, ¬ Settled s r", "s.reader = .reading ∧ ∃ r, Settled s r")],'Flow.Asks','the reader thread takes more only if it has a whole message','C122_served, C122_rest, C122_ends')
m('fl-turn-send','Flow.lean',[("| .client (.act (.accept m)) => w.client.io.accepted ++ [m] <+: script", "| .client (.act (.accept _)) => w.client.io.accepted.length < script.length")],'Flow.Turn','the client sends something else','C122_never, C122_stuck, C122_fits')
m('fl-turn-on','Flow.lean',[("| .client (.act (.accept m)) => w.client.io.accepted ++ [m] <+: script", "| .client (.act (.accept m)) => w.client.io.accepted ++ [m] <+: script ∨ w.client.io.accepted = script")],'Flow.Turn','the client sends on after the end','C122_fits, C122_terminates')
m('fl-turn-recv','Flow.lean',[("| .client (.act (.deliver _)) => w.client.io.accepted = script", "| .client (.act (.deliver _)) => True")],'Flow.Turn','the client receives between its sends','C122_never, C122_stuck')
m('fl-turn-deaf','Flow.lean',[("| .client (.act (.deliver _)) => w.client.io.accepted = script", "| .client (.act (.deliver _)) => False")],'Flow.Turn','the client never receives','C122_fits')
m('fl-turn-late','Flow.lean',[("| .client (.act (.deliver _)) => w.client.io.accepted = script", "| .client (.act (.deliver _)) => w.client.io.accepted = script ∧ w.client.io.writer = .done")],'Flow.Turn','the client receives only when its writer has ended','C122_fits')
m('fl-turn-cut','Flow.lean',[("| .client (.act (.accept m)) => w.client.io.accepted ++ [m] <+: script", "| .client (.act (.accept m)) => w.client.io.accepted ++ [m] <+: script.dropLast")],'Flow.Turn','the client does not send its last message','C122_fits, C122_stuck')
m('fl-stuck-write','Flow.lean',[("    a = .server .timeout ∨ a = .client (.act .dropRx)", "    a = .server .timeout ∨ a = .client (.act .written) ∨ a = .client (.act .dropRx)")],'Flow.Stuck','stuck although the writer of the client can go on','C122_stuck, C122_circle, C122_fits')
m('fl-stuck-thread','Flow.lean',[("    a = .server .timeout ∨ a = .client (.act .dropRx)", "    a = .server .timeout ∨ a = .server .thread ∨ a = .client (.act .dropRx)")],'Flow.Stuck','stuck although the threads of the server can go on','C122_stuck, C122_circle, C122_fits')
m('fl-stuck-recv','Flow.lean',[("    a = .server .timeout ∨ a = .client (.act .dropRx)", "    a = .server .timeout ∨ a = .server .main ∨ a = .client (.act .dropRx)")],'Flow.Stuck','stuck although the server can receive or send','C122_stuck, C122_circle, C122_fits')
m('fl-quiet-thread','Flow.lean',[("∀ a v, Step c kc ks process w a v → a.free = true", "∀ a v, Step c kc ks process w a v → a.free = true ∨ a = .server .thread")],'Flow.Quiet','rest although the threads of the server can go on','C122_served, C122_rest, C122_takes')
m('fl-quiet-peer','Flow.lean',[("∀ a v, Step c kc ks process w a v → a.free = true", "∀ a v, Step c kc ks process w a v → a.free = true ∨ a = .server .peer")],'Flow.Quiet','rest although bytes can arrive at the server','C122_served, C122_rest, C122_takes')
m('fl-turns-free','Flow.lean',[("  | snoc {w as v a u} : Turns c kc ks process script w as v → Step c kc ks process v a u → Turn script v a →\n", "  | snoc {w as v a u} : Turns c kc ks process script w as v → Step c kc ks process v a u →\n")],'Flow.Turns','the client does as it likes','C122_never, C122_stuck')
m('fl-reach-free','Flow.lean',[("Reachable c ka kb l → Link.LinkStep ka kb l ev l' → Lets c l l' → Reachable c ka kb l'", "Reachable c ka kb l → Link.LinkStep ka kb l ev l' → Reachable c ka kb l'")],'Flow.Reachable','no finite buffers','C122_ahead')

# C123: fair schedules
m('fa-run-any','Fair.lean',[("s (n + 1) = s n ∨ ∃ a, Flow.Step c kc ks process (s n) a (s (n + 1))", "True")],'Fair.Run.next','a run may jump','C123_heard, C123_answered, C123_sent')
m('fa-run-start','Fair.lean',[("  start : s 0 = {}", "  start : (s 0).client.io.accepted = []")],'Fair.Run.start','a run may begin anywhere','C123_heard, C123_answered')
m('fa-sched-once','Fair.lean',[("∃ m, n ≤ m ∧ Acts c kc ks process i (s m) (s (m + 1))", "∃ m, Acts c kc ks process i (s m) (s (m + 1))")],'Fair.Scheduled','whoever has acted once need not act again','C123_heard, C123_answered, C123_sent')
m('fa-sched-someone','Fair.lean',[("  ∀ i n, (∀ m, n ≤ m → ∃ w, Acts c kc ks process i (s m) w) →", "  ∃ i, ∀ n, (∀ m, n ≤ m → ∃ w, Acts c kc ks process i (s m) w) →")],'Fair.Scheduled','only one of them is scheduled fairly','C123_heard, C123_answered, C123_sent')
m('fa-sched-start','Fair.lean',[("(∀ m, n ≤ m → ∃ w, Acts c kc ks process i (s m) w)", "(∀ m, ∃ w, Acts c kc ks process i (s m) w)")],'Fair.Scheduled','only whoever could act from the start must act','C123_heard, C123_answered, C123_sent')
m('fa-sched-could','Fair.lean',[("∃ m, n ≤ m ∧ Acts c kc ks process i (s m) (s (m + 1))", "∃ m, n ≤ m ∧ ∃ w, Acts c kc ks process i (s m) w")],'Fair.Scheduled','who could act need not','C123_heard, C123_answered, C123_sent')
m('fa-sched-other','Fair.lean',[("∃ m, n ≤ m ∧ Acts c kc ks process i (s m) (s (m + 1))", "∃ m i, n ≤ m ∧ Acts c kc ks process i (s m) (s (m + 1))")],'Fair.Scheduled','it is enough that somebody acts','C123_heard, C123_answered, C123_sent')
m('fa-sched-always','Fair.lean',[("(∀ m, n ≤ m → ∃ w, Acts c kc ks process i (s m) w) →", "(∃ m, n ≤ m ∧ ∃ w, Acts c kc ks process i (s m) w) ∨ True →")],'Fair.Scheduled','everybody must act again and again, even if there is nothing to do','C123_exists: there is a fair run for every endless sequence of messages')
m('fa-cw-write','Fair.lean',[("  | .clientWriter => ∃ act, (act = .written ∨ ∃ bs, act = .write bs) ∧", "  | .clientWriter => ∃ act, (∃ bs, act = .write bs) ∧")],'Fair.Acts','the writer thread of the client need not go on to the next message','C123_sent, C123_heard')
m('fa-cw-written','Fair.lean',[("  | .clientWriter => ∃ act, (act = .written ∨ ∃ bs, act = .write bs) ∧", "  | .clientWriter => ∃ act, (act = .written) ∧")],'Fair.Acts','the writer thread of the client need not write','C123_heard, C123_answered, C123_sent')
m('fa-cr-none','Fair.lean',[("  | .clientReader => Flow.Step c kc ks process w (.client (.act .read)) w'", "  | .clientReader => False")],'Fair.Acts','the reader thread of the client need not read','C123_answered')
m('fa-ci-none','Fair.lean',[("  | .clientInput => ∃ bs, Flow.Step c kc ks process w (.client (.act (.arrive bs))) w'", "  | .clientInput => False")],'Fair.Acts','nothing need arrive at the client','C123_answered')
m('fa-cd-none','Fair.lean',[("  | .clientReceives => ∃ m, Flow.Step c kc ks process w (.client (.act (.deliver m))) w'", "  | .clientReceives => False")],'Fair.Acts','the client need not receive','C123_answered, C123_heard')
m('fa-sr-none','Fair.lean',[("  | .serverReader => Flow.Step c kc ks process w (.server .thread) w' ∧ ServerIo ks (· = .read) w w'", "  | .serverReader => False")],'Fair.Acts','the reader thread of the server need not read','C123_heard, C123_answered')
m('fa-sw-none','Fair.lean',[("ServerIo ks (fun act => act = .written ∨ ∃ bs, act = .write bs) w w'", "ServerIo ks (fun act => act = .written) w w'")],'Fair.Acts','the writer thread of the server need not write','C123_answered, C123_heard')
m('fa-sthread','Fair.lean',[("ServerIo ks (· = .read) w w'", "ServerIo ks (fun _ => True) w w'"), ("ServerIo ks (fun act => act = .written ∨ ∃ bs, act = .write bs) w w'", "ServerIo ks (fun _ => True) w w'")],'Fair.Acts','the two threads of the server count as one','C123_answered, C123_heard')
m('fa-si-empty','Fair.lean',[("ServerIo ks (fun act => ∃ bs, bs ≠ [] ∧ act = .arrive bs) w w'", "ServerIo ks (fun act => ∃ bs, act = .arrive bs) w w'")],'Fair.Acts','it is enough that no bytes arrive','C123_heard, C123_answered')
m('fa-sm-none','Fair.lean',[("  | .serverMain => Flow.Step c kc ks process w (.server .main) w'", "  | .serverMain => False")],'Fair.Acts','the main thread of the server need not receive','C123_heard, C123_answered')
m('fa-sm-any','Fair.lean',[("  | .serverMain => Flow.Step c kc ks process w (.server .main) w'", "  | .serverMain => ∃ a, Flow.Step c kc ks process w (.server a) w'")],'Fair.Acts','anybody of the server counts as its main thread','C123_heard, C123_answered')

# C124: lengths
m('sz-slash','JsonText.lean',[("  else if c = '\\x08' then ['\\\\', 'b']\n", "  else if c = '\\x08' then ['\\\\', 'b']\n  else if c = '/' then ['\\\\', '/']\n")],'Text.escChar','slashes are written with a backslash','C124_shortest, C124_no_doubles')
m('sz-del','JsonText.lean',[("  else if c.toNat < 0x20 then ['\\\\', 'u',", "  else if c.toNat < 0x20 ∨ c.toNat = 0x7f then ['\\\\', 'u',")],'Text.escChar','U+007F is written as an escape','C124_shortest, C124_no_doubles')
m('sz-tab','JsonText.lean',[("  else if c = '\\t' then ['\\\\', 't']\n", "")],'Text.escChar','tabs are written as \\\\u0009','C124_shortest, C124_no_doubles')
m('sz-comma','JsonText.lean',[("  | x :: y :: xs => print x ++ ',' :: printElems (y :: xs)", "  | x :: y :: xs => print x ++ ',' :: ' ' :: printElems (y :: xs)")],'Text.printElems','a blank after each comma of an array','C124_shortest, C124_no_doubles')
m('sz-plus','JsonText.lean',[("def printInt (i : Int) : List Char :=\n  if i < 0 then '-' :: Nat.toDigits 10 i.natAbs else Nat.toDigits 10 i.natAbs", "def printInt (i : Int) : List Char :=\n  if i < 0 then '-' :: Nat.toDigits 10 i.natAbs else if i = 0 then ['-', '0'] else Nat.toDigits 10 i.natAbs")],'Text.printInt','0 is written as -0','C124_shortest, C124_no_doubles')
m('sz-header','Framing.lean',[("  utf8 (\"Content-Length: \".toList ++ Nat.toDigits 10 (utf8 cs).length ++ ['\\r', '\\n', '\\r', '\\n']) ++\n", "  utf8 (\"Content-Type: utf-8\\r\\n\".toList ++ \"Content-Length: \".toList ++ Nat.toDigits 10 (utf8 cs).length ++ ['\\r', '\\n', '\\r', '\\n']) ++\n")],'Frame.frame','a second header line is written','C124_frame, C124_answer')
m('sz-zero','Framing.lean',[("  utf8 (\"Content-Length: \".toList ++ Nat.toDigits 10 (utf8 cs).length ++", "  utf8 (\"Content-Length: \".toList ++ '0' :: Nat.toDigits 10 (utf8 cs).length ++")],'Frame.frame','the length is written with a leading zero','C124_frame')
m('sz-text','Readme.lean',[('  | req => .response (.methodNotFound req.id "")', '  | req => .response (.methodNotFound req.id req.method)')],'Conn.reply','the answer names the method','C124_answer: a method of n bytes may take 6n bytes in the answer')
m('sz-word','Readme.lean',[('  | req => .response (.methodNotFound req.id "")', '  | req => .response (.methodNotFound req.id "?")')],'Conn.reply','the message of the error is not empty','C124_answer: 31 bytes')
m('sz-data','Message.lean',[("  { id, result := none, error := some { code, message, data := none } }", "  { id, result := none, error := some { code, message, data := some Value.null } }")],'Response.err','errors have data null','C124_answer')
m('sz-twice','Readme.lean',[("  Message.ofResult .sources id { items := [] }", "  Message.ofResult .sources id { items := [{ target := { uri := \"\" }, sources := [], roots := none }] }")],'Conn.noSources','an item for nothing','C124_answer')
m('sz-dbl','Props/Size.lean',[("  | .float _ => .int 0\n", "  | .float _ => .int 0\n  | .bool _ => .null\n")],'Spec.zeroed','booleans may be as short as null (harmless for the bound but not for NoDoubles)','C124_no_doubles')
m('sz-frame-free','FrameSpec.lean',[("  ∃ hs, GoodLines hs ∧ Declares hs (utf8 cs).length ∧ b = lines hs ++ blank ++ utf8 cs", "  ∃ hs, GoodLines hs ∧ b = lines hs ++ blank ++ utf8 cs")],'Spec.IsFrame','a frame need not declare its length','C124_frame, C124_answer')

# C125: clients that receive between their sends
m('wi-send-any','Window.lean',[("  | .client (.act (.accept m)) => w.client.io.accepted ++ [m] <+: script ∧\n      sends w.client.io.accepted w.client.io.delivered = true\n", "  | .client (.act (.accept m)) => w.client.io.accepted ++ [m] <+: script\n")],'Flow.Chooses','the client sends though it has decided to receive','C125_served, C125_in_step, C125_window, C125_lost')
m('wi-send-not','Window.lean',[("      sends w.client.io.accepted w.client.io.delivered = true\n", "      sends w.client.io.accepted w.client.io.delivered = false\n")],'Flow.Chooses','the decision is turned round for sending','C125_served, C125_in_step, C125_window, C125_lost')
m('wi-send-other','Window.lean',[("  | .client (.act (.accept m)) => w.client.io.accepted ++ [m] <+: script ∧\n", "  | .client (.act (.accept _)) => w.client.io.accepted.length < script.length ∧\n")],'Flow.Chooses','the client sends something else','C125_served, C125_lost')
m('wi-recv-never','Window.lean',[("  | .client (.act (.deliver _)) => w.client.io.accepted = script ∨\n      sends w.client.io.accepted w.client.io.delivered = false\n", "  | .client (.act (.deliver _)) => w.client.io.accepted = script\n")],'Flow.Chooses','the client receives only when all has been sent','C125_served, C125_reached, C125_in_step, C125_window, C125_lost_waits')
m('wi-recv-end','Window.lean',[("  | .client (.act (.deliver _)) => w.client.io.accepted = script ∨\n      sends w.client.io.accepted w.client.io.delivered = false\n", "  | .client (.act (.deliver _)) => sends w.client.io.accepted w.client.io.delivered = false\n")],'Flow.Chooses','the client need not receive when all has been sent','C125_served, C125_reached, C125_in_step, C125_window')
m('wi-dialog-free','Window.lean',[("Step c kc ks process v a u →\n      Chooses script sends v a → Dialog", "Step c kc ks process v a u →\n      Dialog")],'Flow.Dialog','the client does as it likes','C125_served, C125_in_step, C125_window, C125_lost')
m('wi-waits-written','Window.lean',[("    a = .server .timeout ∨ a = .client (.act .dropRx)", "    a = .server .timeout ∨ a = .client (.act .written) ∨ a = .client (.act .dropRx)")],'Flow.Waits','standing still although the writer of the client can go on','C125_served, C125_in_step, C125_window, C125_lost_waits')
m('wi-waits-main','Window.lean',[("    a = .server .timeout ∨ a = .client (.act .dropRx)", "    a = .server .timeout ∨ a = .server .main ∨ a = .client (.act .dropRx)")],'Flow.Waits','standing still although the server can receive or send','C125_served, C125_in_step, C125_window, C125_lost_waits')
m('wi-waits-recv','Window.lean',[("    a = .server .timeout ∨ a = .client (.act .dropRx)", "    a = .server .timeout ∨ (∃ m, a = .client (.act (.deliver m))) ∨ a = .client (.act .dropRx)")],'Flow.Waits','standing still although the client can receive','C125_served, C125_in_step, C125_window, C125_lost_waits')
m('wi-waits-send','Window.lean',[("    a = .server .timeout ∨ a = .client (.act .dropRx)", "    a = .server .timeout ∨ (∃ m, a = .client (.act (.accept m))) ∨ a = .client (.act .dropRx)")],'Flow.Waits','standing still although the client can send','C125_served, C125_in_step, C125_window, C125_lost_waits')
m('wi-fits-not','Props/Window.lean',[("sends a d = true → ((Spec.due process a d).flatMap Frame.write).length ≤ cap", "sends a d = true → (Spec.due process a d).length ≤ cap")],'Spec.Careful','the answers are counted, not their bytes','C125_served, C125_reached')
m('wi-some-not','Props/Window.lean',[("sends a d = false → Spec.due process a d ≠ []", "sends a d = false → a ≠ []")],'Spec.Careful','the client receives though nothing is due','C125_served, C125_reached')
m('wi-step-own','Props/Window.lean',[("def Spec.inStep : Policy := fun sent received =>\n  decide ((Spec.requests (sent.map Spec.heard)).length ≤ received.length)", "def Spec.inStep : Policy := fun sent received =>\n  decide ((Spec.requests sent).length ≤ received.length)")],'Spec.inStep','one that waits for answers to all its requests','C125_in_step')
m('wi-window-less','Props/Window.lean',[("((Frame.write m).length + 31) :: Spec.costs ms", "((Frame.write m).length + 30) :: Spec.costs ms")],'Spec.costs','30 bytes more for each request','C125_window (the bound of C124 is not shown sharp for all requests)')
m('wi-window-none','Props/Window.lean',[("((Frame.write m).length + 31) :: Spec.costs ms", "(Frame.write m).length :: Spec.costs ms")],'Spec.costs','as many bytes as the requests have','C125_window')
m('wi-window-early','Props/Window.lean',[("    (hn : early.length + 1 ≤ n) (hcap : cap ≤ c.toLeft) {w : World}", "    (hn : early.length ≤ n) (hcap : cap ≤ c.toLeft) {w : World}")],'C125_window','without waiting for the answer to build/initialize, whose size the client does not know','C125_window')
m('wi-window-cap','Props/Window.lean',[("(hcap : cap ≤ c.toLeft) {w : World}", "(hcap : cap ≤ c.toLeft + c.toRight) {w : World}")],'C125_window','the sizes of both buffers added','C125_window')

# C126: a server with threads behind finite buffers
m('hl-side-gone','Hall.lean',[("⟨p.io, false⟩", "⟨p.io, true⟩")],'Hall.side','the process of the server has exited','C126_served, C126_first')
m('hl-free','Hall.lean',[("      (a = .peer ∨ a = .writeFails →\n", "      (a = .writeFails →\n")],'Hall.Goes','bytes come from nowhere','C126_served, C126_first')
m('hl-fails','Hall.lean',[("      (a = .peer ∨ a = .writeFails →\n", "      (a = .peer →\n")],'Hall.Goes','writes fail for no reason','C126_served, C126_first')
m('hl-never','Hall.lean',[("  | .client (.act (.deliver _)) => w.client.io.accepted = script ∨\n      sends w.client.io.accepted w.client.io.delivered = false\n", "  | .client (.act (.deliver _)) => sends w.client.io.accepted w.client.io.delivered = false\n")],'Hall.Chooses','the client need not receive when all has been sent','C126_served, C126_first, C126_reached')
m('hl-order','Hall.lean',[("  | .client (.act (.accept m)) => w.client.io.accepted ++ [m] <+: script ∧\n", "  | .client (.act (.accept m)) => m ∈ script ∧\n")],'Hall.Chooses','the messages are sent in any order and any number of times','C126_served, C126_terminates')
m('hl-dialog-free','Hall.lean',[("Step c kc ks work v a u →\n      Chooses script sends v a → Dialog", "Step c kc ks work v a u →\n      Dialog")],'Hall.Dialog','the client does as it likes','C126_served, C126_first')
m('hl-waits-worker','Hall.lean',[("Leaves a ∨ a = .server .timeout", "Leaves a ∨ a = .server .worker ∨ a = .server .timeout")],'Hall.Waits','standing still although a thread of the server can go on','C126_served, C126_first')
m('hl-waits-thread','Hall.lean',[("Leaves a ∨ a = .server .timeout", "Leaves a ∨ a = .server .thread ∨ a = .server .timeout")],'Hall.Waits','standing still although an I/O thread of the server can go on','C126_served, C126_first')
m('hl-leaves-send','Hall.lean',[("  | .client (.act .dropRx) | .client (.act .dropTx) | .client .exit => True", "  | .client (.act .dropRx) | .client (.act .dropTx) | .client .exit | .client (.act (.accept _)) => True")],'Hall.Leaves','standing still although the client can send','C126_served, C126_first')
m('hl-leaves-write','Hall.lean',[("  | .client (.act .dropRx) | .client (.act .dropTx) | .client .exit => True", "  | .client (.act .dropRx) | .client (.act .dropTx) | .client .exit | .client (.act .written) => True")],'Hall.Leaves','standing still although the writer of the client can go on','C126_served, C126_first')
m('hl-leaves-not','Hall.lean',[("  | .client (.act .dropRx) | .client (.act .dropTx) | .client .exit => True", "  | .client (.act .dropRx) | .client .exit => True")],'Hall.Leaves','dropping the sender again and again counts as going on','C126_terminates')
m('hl-hire-idle','Crew.lean',[("  | hire {p : State} {m io' r ms} : p.main.receives = true →", "  | hire {p : State} {m io' r ms} : p.main.receives = true → p.io.writer = .idle →")],'Crew.Step','a thread is started only while nothing is being written','C126_served, C126_first: a client that sends all first waits for ever')
m('hl-recv-jobs','Crew.lean',[("  | recv {p : State} {m io'} : p.main.receives = true →", "  | recv {p : State} {m io'} : p.main.receives = true → (∀ j ∈ p.jobs, j.left = []) →")],'Crew.Step','the main thread waits for the others before it receives','C126_served, C126_first: a client that sends all first waits for ever')
m('hl-room','Flow.lean',[("  takesB : l'.b.io.arrived = l.b.io.arrived ∨ Asks l.b.io", "  takesB : l'.b.io.arrived = l.b.io.arrived ∨ Asks l.b.io ∧ l.b.io.writer = .idle")],'Flow.Lets','the server reads only while it has nothing to write','C126_served, C126_first')
m('hl-met-unread','Props/Hall.lean',[("  toClient : w.client.io.delivered = w.server.io.accepted.map Spec.heard\n", "")],'Spec.Met','the client has not received what was sent before','C126_served: nothing else is received')
m('hl-works-exit','Props/Hall.lean',[("  sayable : ∀ r ms, work r ms → ∀ m ∈ ms, Spec.Sayable m ∧ m ≠ .notification .exit\n", "  sayable : ∀ r ms, work r ms → ∀ m ∈ ms, Spec.Sayable m\n")],'Spec.Works','threads of the server may send exit','C126_served')
m('hl-works-none','Props/Hall.lean',[("  some : ∀ r, ∃ ms, work r ms\n", "  some : ∃ r ms, work r ms\n")],'Spec.Works','there are requests for which no thread can be started','C126_served')
m('hl-patient-le','Props/Hall.lean',[("      d.length < (l.map (·.2)).flatten.length\n", "      d.length ≤ (l.map (·.2)).flatten.length\n")],'Spec.Patient','the client may wait for one message too many','C126_served, C126_reached')
m('hl-inturn','Props/Hall.lean',[("  decide ((Spec.requests ((sent.drop a0.length).map Spec.heard)).length ≤ received.length - d0.length)", "  decide ((Spec.requests (sent.drop a0.length)).length ≤ received.length - d0.length)")],'Spec.inTurn','one that waits for each of its requests, also those without params','C126_patient')

# C127: leaving a server with threads behind finite buffers
m('pt-drop-early','Crew.lean',[("(∃ r, p.main = .ended r) → (∀ j ∈ p.jobs, j.left = []) → p.io.txAlive = true →", "(∃ r, p.main = .ended r) → p.io.txAlive = true →")],'Crew.Step','the sender is gone as soon as the main thread is done, whatever the other threads have left','C127_parted: the client receives all')
m('pt-droprx-any','Crew.lean',[("  | dropRx {p : State} : (∃ r, p.main = .ended r) → p.io.rxAlive = true →", "  | dropRx {p : State} : p.io.rxAlive = true →")],'Crew.Step','the main thread may stop receiving at any time','C127_parted: the reader thread panics')
m('pt-closed-loop','Crew.lean',[("  | closed {p : State} : p.main.receives = true → p.io.reader.ended = true →\n      Step k work p .worker { p with main := onRecv p.main none }", "  | closed {p : State} : p.main.receives = true → p.io.reader.ended = true →\n      Step k work p .worker p")],'Crew.Step','the main thread goes on after the channel is closed','C127_parted, C126_terminates: it never ends')
m('pt-closed-jobs','Crew.lean',[("  | closed {p : State} : p.main.receives = true → p.io.reader.ended = true →\n      Step k work p .worker { p with main := onRecv p.main none }", "  | closed {p : State} : p.main.receives = true → p.io.reader.ended = true →\n      Step k work p .worker { p with main := onRecv p.main none, jobs := [] }")],'Crew.Step','the end of the main thread is the end of the process: the other threads are lost','C127_parted: the client receives all')
m('pt-exit-goes-on','Transport.lean',[("def afterSend (m : Message) : Reader := if isExit m then .done else .reading", "def afterSend (_ : Message) : Reader := .reading")],'Transport.afterSend','the reader thread reads on after exit','C127_parted: the main thread ends')
m('pt-close-writing','Transport.lean',[("  | close (s : State) : s.writer = .idle → s.txAlive = false →", "  | close (s : State) : s.txAlive = false →")],'Transport.Step','the writer thread ends in the middle of a message when the sender is dropped','C127_parted: the client receives all')
m('pt-fin-early','Link.lean',[("  | fin {x y io} : x.gone = false → y.closed k' = true → x.io.arrived = y.io.out →", "  | fin {x y io} : x.gone = false → y.closed k' = true →")],'Link.Move','the end of the stream overtakes what is in the buffer','C127_parted: the client receives all')
m('pt-reset-any','Link.lean',[("  | reset {x y io} : x.gone = false → y.closed k' = true → k = .socket →\n      (y.io.unread ≠ [] ∨ y.io.arrived ≠ x.io.out) →", "  | reset {x y io} : x.gone = false → y.closed k' = true → k = .socket →")],'Link.Move','a socket that is closed is always reset','C127_parted: join returns Ok for the client')
m('pt-waits-drop','Hall.lean',[("Leaves a ∨ a = .server .timeout", "Leaves a ∨ a = .server .drop ∨ a = .server .timeout")],'Hall.Waits','standing still although the server can drop its sender','C127_parted: join returns Ok for the server')
m('pt-waits-peer','Hall.lean',[("Leaves a ∨ a = .server .timeout", "Leaves a ∨ (∃ b, a = .client (.act (.hangUp b))) ∨ a = .server .timeout")],'Hall.Waits','standing still although the end of the stream is on its way','C127_parted: the reader thread of the client ends')
m('pt-exit-not-last','Props/Parting.lean',[("(hok : ∀ m ∈ said, Spec.Sayable m ∧ m ≠ .notification .exit)\n    (hp : Spec.Patient work w0.client.io.accepted w0.client.io.delivered (said ++ [.notification .exit]) sends)\n    (h : Hall.Dialog", "(hok : ∀ m ∈ said, Spec.Sayable m)\n    (hp : Spec.Patient work w0.client.io.accepted w0.client.io.delivered (said ++ [.notification .exit]) sends)\n    (h : Hall.Dialog")],'C127_parted','exit may come before other messages','C127_parted')
m('pt-stdio','Props/Parting.lean',[("    (ks = .socket → w.client.io.reader = .done ∧ (w.client.io.txAlive = false → join kc w.client.io = .ok)) ∧\n    ∃ (l", "    (w.client.io.reader = .done ∧ (w.client.io.txAlive = false → join kc w.client.io = .ok)) ∧\n    ∃ (l")],'C127_parted','also for a server on stdio whose process goes on','C127_parted')

# C128: the exit of a process with threads
m('fm-nojoin','Firm.lean',[("      join k p.crew.io ≠ .waiting → Step k work p .exit { p with exit := some (decide (join k p.crew.io = .ok)) }", "      Step k work p .exit { p with exit := some true }")],'Firm.Step','main returns without join','C128_success, C128_parted: the other threads are killed before they are through')
m('fm-ok-anyway','Firm.lean',[("exit := some (decide (join k p.crew.io = .ok)) }", "exit := some true }")],'Firm.Step','the result of join is not looked at','C128_success: all has been written')
m('fm-abort-ok','Firm.lean',[("      Step k work p .exit { p with exit := some false }", "      Step k work p .exit { p with exit := some true }")],'Firm.Step','an error of the loop is not looked at, but join is not called','C128_success: all threads are through')
m('fm-abort-join','Firm.lean',[("r ≠ .ok () → p.crew.io.rxAlive = false →\n", "r ≠ .ok () → p.crew.io.rxAlive = false → join k p.crew.io ≠ .waiting →\n")],'Firm.Step','join is called also after an error','C128_lost: main returns at once')
m('fm-any-main','Firm.lean',[("  | finish {p : Proc} : p.exit = none → p.crew.main = .ended (.ok ()) → ", "  | finish {p : Proc} : p.exit = none → ")],'Firm.Step','main calls join whether or not the loop has ended well','C128_success: if asked to shut down, the server has answered')
m('fm-undead','Firm.lean',[("  | run {p : Proc} {a c} : p.exit = none → Crew.Step", "  | run {p : Proc} {a c} : Crew.Step")],'Firm.Step','threads go on after the exit','C128_success, C128_parted')
m('fm-twice','Firm.lean',[("  | finish {p : Proc} : p.exit = none → ", "  | finish {p : Proc} : ")],'Firm.Step','the process may exit again and again','C128_terminates')
m('fm-never','Firm.lean',[("  | finish {p : Proc} : p.exit = none → ", "  | finish {p : Proc} : p.crew.io.writer = .failed → p.exit = none → ")],'Firm.Step','main returns only if a write has failed','C128_parted: the process has exited with success')
m('fm-open','Firm.lean',[("⟨p.crew.io, p.exit.isSome⟩", "⟨p.crew.io, false⟩")],'Firm.side','the exit does not close the streams','C128_parted: the reader of the client ends, for stdio too')
m('fm-waits-exit','Firm.lean',[("Leaves a ∨ a = .server (.crew .timeout)", "Leaves a ∨ a = .server .exit ∨ a = .server (.crew .timeout)")],'Firm.Waits','standing still although the server can exit','C128_parted: the process has exited')
m('fm-free','Firm.lean',[("b = .peer ∨ b = .writeFails →\n", "b = .writeFails →\n")],'Firm.Goes','bytes come from nowhere','C128_parted')
m('fm-fails','Firm.lean',[("b = .peer ∨ b = .writeFails →\n", "b = .peer →\n")],'Firm.Goes','writes fail for no reason','C128_parted: the process exits with success')
m('fm-late','Crew.lean',[("(∃ r, p.main = .ended r) → (∀ j ∈ p.jobs, j.left = []) → p.io.txAlive = true →", "(∃ r, p.main = .ended r) → p.io.txAlive = true →")],'Crew.Step','the sender is gone as soon as the main thread is done, whatever the other threads have left','C128_success, C128_parted: all threads are through')
m('fm-thread-undeliv','Transport.lean',[('  | .read | .undeliverable | .write _ | .written | .writeFails | .close => true', '  | .read | .write _ | .written | .writeFails | .close => true')],'Transport.Act.thread','an undeliverable message does not count as a step of the threads','C57_dropped: the threads never get stuck')
m('fm-undeliv-wait','Transport.lean',[("  | undeliverable (s : State) (m) : s.reader = .sending m → s.rxAlive = false →", "  | undeliverable (s : State) (m) : s.reader = .sending m → s.rxAlive = false → s.txAlive = true →")],'Transport.Step','the send of the reader does not fail when the connection is dropped','C57_dropped: the threads never get stuck')
m('dk-lets','Desk.lean',[("  lets : Flow.Lets c (sides w) (sides w')", "  lets : Flow.Lets ⟨c.toLeft, c.toRight⟩ (sides w) (sides w')")],'Desk.Step','the two buffers are mixed up','C129_never, C129_stuck, C129_circle, C129_served: the sizes of the buffers')
m('dk-nolets','Desk.lean',[("  lets : Flow.Lets c (sides w) (sides w')", "  lets : c = c")],'Desk.Step','the buffers let everything happen','C129_never, C129_stuck, C129_circle')
m('dk-free','Desk.lean',[("(a = .peer ∨ a = .writeFails →", "(a = .writeFails →")],'Desk.Goes','bytes come from nowhere','C129_served, C129_rest')
m('dk-fails','Desk.lean',[("(a = .peer ∨ a = .writeFails →", "(a = .peer →")],'Desk.Goes','writes fail for no reason','C129_served, C129_rest')
m('dk-send-any','Desk.lean',[("w.client.io.accepted ++ [m] <+: script ∧\n", "True ∧\n")],'Desk.Chooses','the client sends what is not in its script','C129_served, C129_terminates')
m('dk-recv-any','Desk.lean',[("  | .client (.act (.deliver _)) => w.client.io.accepted = script ∨\n      sends w.client.io.accepted w.client.io.delivered = false\n", "  | .client (.act (.deliver _)) => True\n")],'Desk.Chooses','the client receives whatever it has decided','C129_never: it never receives anything')
m('dk-recv-less','Desk.lean',[("  | .client (.act (.deliver _)) => w.client.io.accepted = script ∨\n      sends", "  | .client (.act (.deliver _)) =>\n      sends")],'Desk.Chooses','the client does not receive once it has sent all','C129_served, C129_first')
m('dk-recv-end','Desk.lean',[("  | .client (.act (.deliver _)) => w.client.io.accepted = script ∨\n      sends w.client.io.accepted w.client.io.delivered = false\n", "  | .client (.act (.deliver _)) => w.client.io.accepted = script\n")],'Desk.Chooses','the client receives only when it has sent all','C129_served, C129_window')
m('dk-waits-server','Desk.lean',[("Chooses script sends w a → Leaves a ∨ a = .server .timeout", "Chooses script sends w a → Leaves a ∨ ∃ b, a = .server b")],'Desk.Waits','where the client waits the server may still have something to do','C129_served, C129_stuck')
m('dk-quiet-any','Desk.lean',[("(∃ m, a = .client (.act (.accept m))) ∨ Leaves a ∨ a = .server .timeout", "(∃ e, a = .client e) ∨ Leaves a ∨ a = .server .timeout")],'Desk.Quiet','at rest the client may still have something to receive','C129_rest')
m('dk-pool-none','Pool.lean',[("def start (io : Transport.State) (n : Nat) : State := ⟨io, List.replicate n .idle⟩", "def start (io : Transport.State) (_ : Nat) : State := ⟨io, [.idle]⟩")],'Pool.start','there is one worker however many have been asked for','C129_first, C129_window: n + 2 requests under way')
m('dk-pool-all','Pool.lean',[("def start (io : Transport.State) (n : Nat) : State := ⟨io, List.replicate n .idle⟩", "def start (io : Transport.State) (n : Nat) : State := ⟨io, List.replicate (2 * n) .idle⟩")],'Pool.start','there are twice as many workers','C129_never: after so many requests it is stuck')
m('dk-pool-first','Pool.lean',[("  | recv {io io' : Transport.State} {a b : List App} {x : App} {m} : x.receives = true →\n", "  | recv {io io' : Transport.State} {a b : List App} {x : App} {m} : x.receives = true → a = [] →\n")],'Pool.Step','only the first worker receives','C129_first, C129_window, C129_served')
m('dk-pool-turn','Pool.lean',[("  | recv {io io' : Transport.State} {a b : List App} {x : App} {m} : x.receives = true →\n", "  | recv {io io' : Transport.State} {a b : List App} {x : App} {m} : x.receives = true → (∀ y ∈ a ++ b, toSend y = none) →\n")],'Pool.Step','a worker receives only while no other has an answer to send (a lock around the loop)','C129_first, C129_window: n + 2 requests under way')
m('dk-pool-spawn','Pool.lean',[("⟨io', a ++ onRecv x (some m) :: b⟩", "⟨io', a ++ onRecv x (some m) :: .idle :: b⟩")],'Pool.Step','a worker starts another one when it has received','C129_never, C129_circle: more workers only put it off')
m('ef-write-empty','Transport.lean',[("  | write (s : State) (a b) : s.writer = .writing (a ++ b) → a ≠ [] →\n", "  | write (s : State) (a b) : s.writer = .writing (a ++ b) →\n")],'Transport.Step','a write may write nothing and be tried again','C130_steps: no spinning')
m('ef-write-retry','Transport.lean',[("      Step k s .writeFails { s with writer := writeError k }", "      Step k s .writeFails { s with writer := .writing b }")],'Transport.Step','a write that fails is tried again','C130_steps: no spinning')
m('ef-read-retry','Transport.lean',[("def readError : Kind → Reader\n  | .stdio => .failed\n", "def readError : Kind → Reader\n  | .stdio => .reading\n")],'Transport.readError','the stdio reader goes on reading after an error','C130_steps: no spinning')
m('ef-closed-poll','Session.lean',[("  | .idle, none => .ended (.ok ())", "  | .idle, none => .idle")],'Session.onRecv','the loop goes on receiving from a closed channel','C130_steps: no spinning')
m('ef-unsent-retry','Session.lean',[('  | .answering _, false => .ended (.err "sending on a disconnected channel")', "  | .answering r, false => .answering r")],'Session.onSent','a send that fails is tried again','C130_steps: no spinning')
m('ef-answers-twice','Session.lean',[("  | .answering _, true => .idle", "  | .answering r, true => .stopping r.id")],'Session.onSent','each request is answered twice','C130_bounded')
m('ef-timeout-again','Session.lean',[('        { p with app := .ended (.err ("unexpected error during shutdown: " ++ Dbg.timeout)) }', "        { p with app := .leaving }")],'Session.Step','the time limit starts again when it is over','C130_steps: no spinning')
m('ef-join-poll','Session.lean',[("      Step k process p .exit { p with exit := some (decide (join k p.io = .ok)) }", "      Step k process p .exit { p with exit := if join k p.io = .ok then some true else none }")],'Session.Step','join is called again if it has failed','C130_steps: no spinning')
m('ef-drop-again','Session.lean',[("  | dropRx {p : Proc} {r} : p.exit = none → p.app = .ended r → p.io.rxAlive = true →", "  | dropRx {p : Proc} {r} : p.exit = none → p.app = .ended r →")],'Session.Step','the receiver is dropped again and again','C130_steps: no spinning')
m('ef-peek','Transport.lean',[("      Step k s (.deliver m) { s with reader := afterSend m, delivered := s.delivered ++ [m] }", "      Step k s (.deliver m) { s with reader := .sending m, delivered := s.delivered ++ [m] }")],'Transport.Step','a message is delivered again and again','C130_messages: 21 bytes each')
m('ef-pool-poll','Pool.lean',[("      Step k ⟨io, a ++ x :: b⟩ .worker ⟨io, a ++ onRecv x none :: b⟩", "      Step k ⟨io, a ++ x :: b⟩ .worker ⟨io, a ++ x :: b⟩")],'Pool.Step','a worker goes on receiving from a closed channel','C130_pool: no spinning')
m('ef-pool-retry','Pool.lean',[("      Step k ⟨io, a ++ x :: b⟩ .worker ⟨io, a ++ onSent x false :: b⟩", "      Step k ⟨io, a ++ x :: b⟩ .worker ⟨io, a ++ x :: b⟩")],'Pool.Step','a worker tries again a send that has failed','C130_pool: no spinning')
m('ef-pool-forks','Pool.lean',[("  | dropRx {p : State} : (∀ x ∈ p.workers, ∃ r, x = .ended r) → p.io.rxAlive = true →", "  | dropRx {p : State} : (∀ x ∈ p.workers, ∃ r, x = .ended r) →")],'Pool.Step','the receiver is dropped again and again','C130_pool: no spinning')
m('bk-read-ahead','Transport.lean',[("      Step k s (.deliver m) { s with reader := afterSend m, delivered := s.delivered ++ [m] }", "      Step k s (.deliver m) { s with reader := .sending m, delivered := s.delivered ++ [m] }")],'Transport.Step','the reader keeps what it has delivered and delivers it again','C131_loop: at most three')
m('bk-accept-busy','Transport.lean',[("  | accept (s : State) (m) : s.writer = .idle → s.txAlive = true →\n      Step k s (.accept m) { s with writer := .writing (Frame.write m), accepted := s.accepted ++ [m] }", "  | accept (s : State) (m) (b) : s.writer = .writing b ∨ s.writer = .idle ∧ b = [] → s.txAlive = true →\n      Step k s (.accept m) { s with writer := .writing (b ++ Frame.write m), accepted := s.accepted ++ [m] }")],'Transport.Step','the channel to the writer is unbounded','C131_loop, C131_pool: at most three, one each and two')
m('bk-recv-sending','Session.lean',[("  | recv {p : Proc} {m io'} : p.exit = none → p.app.receives = true → Transport.Step", "  | recv {p : Proc} {m io'} : p.exit = none → Transport.Step")],'Session.Step','the program receives while it is about to send','C131_loop: at most three')
m('bk-skip-answer','Session.lean',[("  | .idle, some (.request req) => .answering req", "  | .idle, some (.request (.workspaceReload _)) => .idle\n  | .idle, some (.request req) => .answering req")],'Session.onRecv','one kind of request is not answered','C131_pool: every request taken is answered or held')
m('bk-unsent-goes-on','Session.lean',[('  | .answering _, false => .ended (.err "sending on a disconnected channel")', "  | .answering _, false => .idle")],'Session.onSent','the loop goes on after a send that has failed','C131_loop, C131_pool: whatever goes wrong')
m('bk-refuse-goes-on','Session.lean',[("  | .refusing _, false => .ended .panic", "  | .refusing _, false => .start")],'Session.onSent','the handshake goes on after a refusal that could not be sent','C131_loop: whatever goes wrong')
m('bk-leave-goes-on','Session.lean',[('  | .leaving, some msg => .ended (.err ("unexpected message during shutdown: " ++ Dbg.msg msg))', '  | .leaving, some (.request _) => .leaving\n  | .leaving, some msg => .ended (.err ("unexpected message during shutdown: " ++ Dbg.msg msg))')],'Session.onRecv','requests after shutdown are ignored','C131_pool: one each')
m('bk-peek','Transport.lean',[("  | .item m rest => { s with reader := .sending m, unread := rest.bytes }", "  | .item m rest => { s with reader := .sending m, unread := rest.bytes.drop 1 }")],'Transport.afterRead','one byte is lost after each message','C131_loop: what has been taken are whole frames')
m('bk-spawn','Pool.lean',[("⟨io', a ++ onRecv x (some m) :: b⟩", "⟨io', a ++ onRecv x (some m) :: .idle :: b⟩")],'Pool.Step','a worker starts another one when it has received','C131_pool: one each')
m('bk-crew-one','Crew.lean',[("      onRecv p.main (some m) = .answering r → work r ms →\n", "      onRecv p.main (some m) = .answering r → work r ms → (∀ j ∈ p.jobs, j.left = []) →\n")],'Crew.Step','a thread is started only when the others are through','C131_crew: any number')
m('bk-send-first','Pool.lean',[("  | recv {io io' : Transport.State} {a b : List App} {x : App} {m} : x.receives = true →\n", "  | recv {io io' : Transport.State} {a b : List App} {x : App} {m} : x.receives = true → io.writer = .idle →\n")],'Pool.Step','nothing is received while something is being written','C131_pool_full: the bound is reached')
m('en-weak','Endless.lean',[("  ∀ i n, (∀ m, n ≤ m → ∃ m', m ≤ m' ∧ ∃ q, Acts k (.sends i) (s m') q) →\n    ∃ m, n ≤ m ∧ Acts k (.sends i) (s m) (s (m + 1))", "  ∀ i n, (∀ m, n ≤ m → ∃ q, Acts k (.sends i) (s m) q) →\n    ∃ m, n ≤ m ∧ Acts k (.sends i) (s m) (s (m + 1))")],'Pool.Queued','the channel serves only those who could be served all the time','C132_answered: nobody waits for ever')
m('en-anyone','Endless.lean',[("    ∃ m, n ≤ m ∧ Acts k (.sends i) (s m) (s (m + 1))\n\nend", "    ∃ m, n ≤ m ∧ ∃ j, Acts k (.sends j) (s m) (s (m + 1))\n\nend")],'Pool.Queued','the channel serves someone','C132_answered: every request')
m('en-nowriter','Endless.lean',[("  ∀ i n, (∀ m, n ≤ m → ∃ q, Acts k i (s m) q) → ∃ m", "  ∀ i n, i ≠ .writer → (∀ m, n ≤ m → ∃ q, Acts k i (s m) q) → ∃ m")],'Pool.Scheduled','the writer thread need not be scheduled','C132_answered: the answers are written')
m('en-noreader','Endless.lean',[("  ∀ i n, (∀ m, n ≤ m → ∃ q, Acts k i (s m) q) → ∃ m", "  ∀ i n, i ≠ .reader → (∀ m, n ≤ m → ∃ q, Acts k i (s m) q) → ∃ m")],'Pool.Scheduled','the reader thread need not be scheduled','C132_heard')
m('en-noworkers','Endless.lean',[("  ∀ i n, (∀ m, n ≤ m → ∃ q, Acts k i (s m) q) → ∃ m", "  ∀ i n, i = .reader ∨ i = .writer → (∀ m, n ≤ m → ∃ q, Acts k i (s m) q) → ∃ m")],'Pool.Scheduled','the workers need not be scheduled','C132_heard')
m('en-strong','Endless.lean',[("  ∀ i n, (∀ m, n ≤ m → ∃ q, Acts k i (s m) q) → ∃ m", "  ∀ i n, (∀ m, n ≤ m → ∃ m', m ≤ m' ∧ ∃ q, Acts k i (s m') q) → ∃ m")],'Pool.Scheduled','the scheduler alone is fair to those who can act again and again','C132_starves: the scheduler alone is not enough')
m('en-notify-hang','Session.lean',[("  | .idle, some _ => .idle", "  | .idle, some _ => .leaving")],'Session.onRecv','a worker leaves the loop on a notification','C132_heard, C132_answered')
m('en-once','Session.lean',[("  | .answering _, true => .idle", "  | .answering _, true => .ended (.ok ())")],'Session.onSent','a worker ends after its first answer','C132_heard, C132_exists')
m('en-lifo','Pool.lean',[("  | send {io io' : Transport.State} {a b : List App} {x : App} {m} : toSend x = some m →\n", "  | send {io io' : Transport.State} {a b : List App} {x : App} {m} : toSend x = some m → (∀ y ∈ b, toSend y = none) →\n")],'Pool.Step','of those who wait the last is served first','C132_answered, C132_exists')
m('en-writer-stays','Transport.lean',[("      Step k s .written { s with writer := .idle }", "      Step k s .written { s with writer := .writing [] }")],'Transport.Step','the writer does not get done with a message','C132_answered, C132_exists')
m('en-keeps','Pool.lean',[("⟨io', a ++ onSent x true :: b⟩", "⟨io', a ++ x :: b⟩")],'Pool.Step','a worker sends its answer again and again','C132_answered, C132_heard: one for each')
m('wy-notify-ends','Pool.lean',[("def onRecv (a : App) (m : Option Message) : App := Session.onRecv (fun _ => none) a m", "def onRecv (a : App) (m : Option Message) : App :=\n  match a, m with\n  | .idle, some (.notification _) => .ended (.ok ())\n  | a, m => Session.onRecv (fun _ => none) a m")],'Pool.onRecv','a worker ends on a notification','C133_one, C133_loop: a worker is the loop')
m('wy-lock','Pool.lean',[("  | recv {io io' : Transport.State} {a b : List App} {x : App} {m} : x.receives = true →\n", "  | recv {io io' : Transport.State} {a b : List App} {x : App} {m} : x.receives = true → (∀ y ∈ a ++ b, y.receives = true) →\n")],'Pool.Step','a lock is held from the receive to the send','C133_enough: workers do what threads do')
m('wy-busy','Pool.lean',[("  | send {io io' : Transport.State} {a b : List App} {x : App} {m} : toSend x = some m →\n", "  | send {io io' : Transport.State} {a b : List App} {x : App} {m} : toSend x = some m → io.unread = [] →\n")],'Pool.Step','a worker sends only when there is nothing to read','C133_one, C133_enough: workers do what the loop and threads do')
m('wy-poll','Pool.lean',[("      Step k ⟨io, a ++ x :: b⟩ .worker ⟨io, a ++ onRecv x none :: b⟩", "      Step k ⟨io, a ++ x :: b⟩ .worker ⟨io, a ++ x :: b⟩")],'Pool.Step','a worker goes on receiving from a closed channel','C133_loop: the loop does what a worker does')
m('wy-time','Pool.lean',[("        ⟨io, a ++ .ended (.err (\"unexpected error during shutdown: \" ++ Dbg.timeout)) :: b⟩", "        ⟨io, a ++ .idle :: b⟩")],'Pool.Step','a worker goes back to the loop after 30 s','C133_loop: the loop does what a worker does')
m('wy-all','Pool.lean',[("⟨io', a ++ onRecv x (some m) :: b⟩", "⟨io', a ++ onRecv x (some m) :: b.map fun y => onRecv y (some m)⟩")],'Pool.Step','the workers behind the one that receives get the message as well','C133_more, C133_threads: one of them doing nothing')
m('wy-thread-mute','Crew.lean',[("jobs := p.jobs ++ [{ req := r, left := ms }] }", "jobs := p.jobs ++ [{ req := r, left := ms.drop 1 }] }")],'Crew.Step','a thread does not send the first of its messages','C133_threads: threads do what workers do')
m('wy-thread-queue','Crew.lean',[("  | send {io io' : Transport.State} {main mine a b r s m l z} : Transport.Step k io (.accept m) io' →\n", "  | send {io io' : Transport.State} {main mine a b r s m l z} : Transport.Step k io (.accept m) io' → (∀ j ∈ a, j.left = []) →\n")],'Crew.Step','the threads send in the order in which they were started','C133_threads: threads do what workers do')
m('wy-thread-limit','Crew.lean',[("      onRecv p.main (some m) = .answering r → work r ms →\n", "      onRecv p.main (some m) = .answering r → work r ms → p.jobs.length < 16 →\n")],'Crew.Step','no more than 16 threads are started','C133_threads: threads do what workers do')
m('wy-thread-join','Crew.lean',[("  | recv {p : State} {m io'} : p.main.receives = true → Transport.Step k p.io (.deliver m) io' →\n      (∀ r", "  | recv {p : State} {m io'} : p.main.receives = true → Transport.Step k p.io (.deliver m) io' → (∀ j ∈ p.jobs, j.left = []) →\n      (∀ r")],'Crew.Step','the main thread waits for the others before it receives a notification','C133_threads: threads do what workers do')
m('wy-loop-ends','Session.lean',[("  | .answering _, true => .idle", "  | .answering _, true => .ended (.ok ())")],'Session.onSent','the loop ends after the first answer','C133_enough: workers do what threads do')
m('wy-two-hands','Pool.lean',[("  | recv {io io' : Transport.State} {a b : List App} {x : App} {m} : x.receives = true →\n", "  | recv {io io' : Transport.State} {a b : List App} {x : App} {m} : (x.receives = true ∨ ∃ r, x = .answering r) →\n")],'Pool.Step','a worker that has a request in hand receives as well','C133_room: a worker receives only when fewer requests are unanswered than there are workers')
m('wy-gives-up','Session.lean',[("  | .answering _, false => .ended (.err \"sending on a disconnected channel\")", "  | .answering _, false => .idle")],'Session.onSent','a worker whose answer cannot be sent goes back to the loop','C133_room: a worker receives only when fewer requests are unanswered than there are workers')
m('wy-drops','Session.lean',[("  | .idle, some (.request req) => .answering req", "  | .idle, some (.request (.workspaceReload _)) => .idle\n  | .idle, some (.request req) => .answering req")],'Session.onRecv','a reload request is left without an answer','C133_room: a worker receives only when fewer requests are unanswered than there are workers')
m('wy-hire-one','Crew.lean',[("      onRecv p.main (some m) = .answering r → work r ms →\n", "      onRecv p.main (some m) = .answering r → work r ms → (∀ j ∈ p.jobs, j.left = []) →\n")],'Crew.Step','a thread is started only when those before are done','C133_needed: threads receive n requests and a notification before anything is sent')
m('wy-recv-one','Crew.lean',[("  | recv {p : State} {m io'} : p.main.receives = true → Transport.Step k p.io (.deliver m) io' →\n      (∀ r", "  | recv {p : State} {m io'} : p.main.receives = true → Transport.Step k p.io (.deliver m) io' → p.jobs.length < 4 →\n      (∀ r")],'Crew.Step','nothing but requests is received while there are many threads','C133_needed: threads receive n requests and a notification before anything is sent')
m('wy-spare','Pool.lean',[("def start (io : Transport.State) (n : Nat) : State := ⟨io, List.replicate n .idle⟩", "def start (io : Transport.State) (n : Nat) : State := ⟨io, List.replicate (n + 1) .idle⟩")],'Pool.start','one worker more than asked for','C133_needed: n workers cannot')
m('nm-pat-51','Double.lean',[("  (Nat.log2 (a / b) - 52) * 2 ^ 52 + roundInt a (b * 2 ^ (Nat.log2 (a / b) - 52))", "  (Nat.log2 (a / b) - 51) * 2 ^ 52 + roundInt a (b * 2 ^ (Nat.log2 (a / b) - 51))")],'Double.roundPat','one bit of precision is lost','C102_read, C104_decimal')
m('nm-mul-half','Double.lean',[("def mul (x y : Nat) : Nat := rnd (value x * value y) unit", "def mul (x y : Nat) : Nat := rnd (value x * value y) (2 * unit)")],'Double.mul','a product comes out halved','C102_read, C106_read: at most two steps')
m('nm-table-short','Double.lean',[("def pow10 (k : Nat) : Nat := rnd (10 ^ k * unit) 1", "def pow10 (k : Nat) : Nat := rnd (10 ^ (min k 22) * unit) 1")],'Double.pow10','the table of powers ends at 1e22','C106_read: at most two steps')
m('nm-table-wrong','Double.lean',[("def pow10 (k : Nat) : Nat := rnd (10 ^ k * unit) 1", "def pow10 (k : Nat) : Nat := rnd (10 ^ k * unit) 1 + (if k = 23 then 8 else 0)")],'Double.pow10','one entry of the table of powers is wrong','C106_read: at most two steps')
m('nm-rounds','Double.lean',[("scale (e.natAbs / 308 + 1) (ofNat s) e", "scale (e.natAbs / 308) (ofNat s) e")],'Double.fromParts','one round too few','C107_rejected, C103_read: rejected only if out of range')
m('nm-exp-byte','Double.lean',[("if x * 10 + dig c < 2 ^ 31 then expVal", "if x * 10 + dig c < 2 ^ 8 then expVal")],'Double.expVal','the exponent is a byte','C103_read, C107_rejected: the text of every double is accepted')
m('nm-exp-first','Double.lean',[("if x * 10 + dig c < 2 ^ 31 then expVal (x * 10 + dig c) cs else none", "if x * 10 + dig c < 2 ^ 31 then expVal (dig c) cs else none")],'Double.expVal','only the last digit of the exponent counts','C107_read: at most five steps')
m('nm-int-rest','Double.lean',[("      let q := sigFrac p.1 p.2 (r.takeWhile Text.isDigit)", "      let q := sigFrac p.1 0 (r.takeWhile Text.isDigit)")],'Double.readMag','digits before the point that do not fit are forgotten','C107_read: at most five steps')
m('nm-frac-exp','Double.lean',[("      readTail q.1 q.2 (r.dropWhile Text.isDigit)", "      fromParts q.1 q.2")],'Double.readMag','an exponent after a point is ignored','C107_read, C102_read')
m('nm-neg-zero','Double.lean',[("def F64.neg (f : F64) : Bool := 2 ^ 63 ≤ f.bits.toNat", "def F64.neg (f : F64) : Bool := 2 ^ 63 < f.bits.toNat")],'F64.neg','the sign of zero is not seen','C101_injective: no two doubles have the same text')
m('nm-sign-lost','Double.lean',[("⟨UInt64.ofNat ((if neg then 2 ^ 63 else 0) + n)⟩", "⟨UInt64.ofNat n⟩")],'F64.make','the sign is lost','C103_read, C107_read: of its sign')
m('nm-search-low','Double.lean',[("((search n 1400).1, ((search n 1400).2 : Int) - 1074)", "((search n 1074).1, ((search n 1074).2 : Int) - 1074)")],'Double.shortest','numbers are never written with a positive exponent','C101_shortest: as short as possible')
m('nm-exp-unsigned','Double.lean',[("def printExp (e : Int) : List Char := Text.printInt e", "def printExp (e : Int) : List Char := Nat.toDigits 10 e.natAbs")],'Double.printExp','the sign of the exponent is not written','C101_text: nearest to the number written')
m('nm-zero-int','Double.lean',[("  if n = 0 then ['0', '.', '0'] else layout", "  if n = 0 then ['0'] else layout")],'Double.printMag','zero is written as an integer','C101_text: with a point or an exponent')
m('nm-bounds','Double.lean',[("  (2 * a < (value n + value (n + 1)) * b ∨ (2 * a = (value n + value (n + 1)) * b ∧ n % 2 = 0))", "  (2 * a ≤ (value n + value (n + 1)) * b)")],'Double.Near','the upper bound is included for odd doubles too','C101_text: the double is nearest')
m('nm-floor','Double.lean',[("  if Inside n q i ∧ (¬ Inside n (q + 1) i ∨ 2 * r < 10 ^ i ∨ (2 * r = 10 ^ i ∧ q % 2 = 0)) then some q", "  if Inside n q i then some q")],'Double.pick','the shortest decimal below is written though the one above is closer','C101_shortest: none is nearer')
m('nm-inf-text','Double.lean',[("  parse := Double.read", "  parse := fun cs => (Double.read cs).map fun f => ⟨f.bits &&& 0xfffffffffffffffe⟩")],'FloatText.serdeJson','the last bit is cleared on reading','C105_text, C105_tame')
m('er-start-end','Message.lean',[("def serverErrorStart (id : RequestId) (m : String) := err id ErrorCode.serverErrorStart.code m", "def serverErrorStart (id : RequestId) (m : String) := err id ErrorCode.serverErrorEnd.code m")],'Response.serverErrorStart','the code of another error','C25_constructors: the right code')
m('er-modified','Message.lean',[("def contentModified (id : RequestId) (m : String) := err id ErrorCode.contentModified.code m", "def contentModified (id : RequestId) (m : String) := err id ErrorCode.requestCanceled.code m")],'Response.contentModified','the code of another error','C25_constructors: the right code')
m('er-internal','Message.lean',[("def internalError (id : RequestId) (m : String) := err id ErrorCode.internalError.code m", "def internalError (id : RequestId) (m : String) := err id ErrorCode.internalError.code \"internal error\"")],'Response.internalError','the message is not the one given','C25_constructors')
m('er-leak-all','Resources.lean',[("def Message.leak (j : Json) : Nat := Request.leak j", "def Message.leak (j : Json) : Nat := Request.leak j + 1")],'Message.leak','each message loses a byte','C95_exact')
m('er-room-first','Resources.lean',[("def room (s : Flat) : Nat := headersRoom none s", "def room (s : Flat) : Nat := min 65536 (headersRoom none s)")],'Frame.room','the buffer is filled in pieces of at most 64 KiB','C94_violated, C94_claimed')
m('er-test-ok','Server.lean',[("def bt_test (_ : BuildTargetTest) : Out := .panic", "def bt_test (_ : BuildTargetTest) : Out := .ok Value.null")],'Server.bt_test','a test request is answered with null','C69: which requests have an answer')
m('er-clean-ok','Server.lean',[("def bt_clean_cache (_ : BuildTargetCleanCache) : Out := .panic", "def bt_clean_cache (_ : BuildTargetCleanCache) : Out := .ok Value.null")],'Server.bt_clean_cache','a request to clean the cache is answered with null','C69: which requests have an answer')
m('er-deps-sources','Server.lean',[("  .ok (Value.ofJson Api.default_BuildTargetDependencySourcesResult.enc)", "  .ok Value.null")],'Server.bt_dependency_sources','null instead of an empty result','C69: answers of the type')
m('er-incoming-full','ReqQueue.lean',[("def Incoming.new : Incoming α := { pending := fun _ => none }", "def Incoming.new [Inhabited α] : Incoming α := { pending := fun _ => some default }")],'Incoming.new','a new queue has everything pending','C60: completed only if registered')
m('er-cancel-completes','ReqQueue.lean',[("  | .cancel id => let r := q.cancel id; (.cancelled id r.1, r.2)", "  | .cancel id => let r := q.cancel id; (.cancelled id r.1, q)")],'Incoming.call','cancelling leaves the request pending','C60: at most once')
m('er-stdout-before','Transport.lean',[("def stdoutAfter (s : State) (printed : Bytes) : Bytes := s.out ++ printed", "def stdoutAfter (s : State) (printed : Bytes) : Bytes := printed ++ s.out")],'Transport.stdoutAfter','the line of the panic comes first','C58: what is on the standard output')
m('er-ofrequest-null','Convert.lean',[("  .request (Request.ofPayload k id x)\n\n/-- `From<(RequestId, &str", "  .request (.custom id (Request.ofPayload k id x).method Value.null)\n\n/-- `From<(RequestId, &str")],'Message.ofRequestPayload','a payload is turned into a custom request','C62: keeps id and payload')
m('er-string-result','Convert.lean',[("  .response (Response.ok id (Value.ofJson (.str s)))", "  .response (Response.ok id Value.null)")],'Message.ofStringResult','a text is turned into null','C62: keeps id and payload')

# a thread for each request under an endless stream
m('th-weak','Throng.lean',[("  ∀ i n, (∀ m, n ≤ m → ∃ m', m ≤ m' ∧ ∃ q, Acts k work (.sends i) (s m') q) →", "  ∀ i n, (∀ m, n ≤ m → ∃ q, Acts k work (.sends i) (s m) q) →")],'Crew.Queued','the channel serves only those who could be served all the time','C134_sent: nobody waits for ever')
m('th-anyone','Throng.lean',[("    ∃ m, n ≤ m ∧ Acts k work (.sends i) (s m) (s (m + 1))\n\nend", "    ∃ m, n ≤ m ∧ ∃ j, Acts k work (.sends j) (s m) (s (m + 1))\n\nend")],'Crew.Queued','the channel serves someone','C134_sent: for each request')
m('th-nowriter','Throng.lean',[("  ∀ i n, (∀ m, n ≤ m → ∃ q, Acts k work i (s m) q) → ∃ m", "  ∀ i n, i ≠ .writer → (∀ m, n ≤ m → ∃ q, Acts k work i (s m) q) → ∃ m")],'Crew.Scheduled','the writer thread need not be scheduled','C134_sent: all is written')
m('th-noreader','Throng.lean',[("  ∀ i n, (∀ m, n ≤ m → ∃ q, Acts k work i (s m) q) → ∃ m", "  ∀ i n, i ≠ .reader → (∀ m, n ≤ m → ∃ q, Acts k work i (s m) q) → ∃ m")],'Crew.Scheduled','the reader thread need not be scheduled','C134_heard: every message is received')
m('th-nomain','Throng.lean',[("  ∀ i n, (∀ m, n ≤ m → ∃ q, Acts k work i (s m) q) → ∃ m", "  ∀ i n, i ≠ .receives → (∀ m, n ≤ m → ∃ q, Acts k work i (s m) q) → ∃ m")],'Crew.Scheduled','the main thread need not be scheduled','C134_heard: every message is received')
m('th-strong','Throng.lean',[("  ∀ i n, (∀ m, n ≤ m → ∃ q, Acts k work i (s m) q) → ∃ m", "  ∀ i n, (∀ m, n ≤ m → ∃ m', m ≤ m' ∧ ∃ q, Acts k work i (s m') q) → ∃ m")],'Crew.Scheduled','the scheduler alone is fair to those who can act again and again','C134_starves: the scheduler alone is not enough')
m('th-first-only','Crew.lean',[("⟨io', main, mine, a ++ ⟨r, s ++ [m], l, z⟩ :: b⟩", "⟨io', main, mine, a ++ ⟨r, s ++ [m], [], z⟩ :: b⟩")],'Crew.Step','a thread ends after its first message','C134_sent: all that it has to send')
m('th-front','Crew.lean',[("⟨io', main, mine, a ++ ⟨r, s ++ [m], l, z⟩ :: b⟩", "⟨io', main, mine, a ++ ⟨r, m :: s, l, z⟩ :: b⟩")],'Crew.Step','the order within a thread is lost','C134_sent: in its order')
m('th-work-more','Crew.lean',[("      onRecv p.main (some m) = .answering r → work r ms →\n      Step k work p .worker { p with io := io', jobs := p.jobs ++ [{ req := r, left := ms }] }", "      onRecv p.main (some m) = .answering r → work r ms →\n      Step k work p .worker { p with io := io', jobs := p.jobs ++ [{ req := r, left := ms.drop 1 }] }")],'Crew.Step','the first message of a thread is forgotten','C134_sent: all that it has to send')
m('th-lose-job','Crew.lean',[("      Step k work p .worker { p with io := io', jobs := p.jobs ++ [{ req := r, left := ms }] }", "      Step k work p .worker { p with io := io', jobs := [{ req := r, left := ms }] }")],'Crew.Step','a new thread replaces the others','C134_sent: for each request')
MPR="Step side ⟨main, a ++ x :: b⟩ .main ⟨main.does side .recv, a ++ Pool.onRecv x (some m) :: b⟩"
MPS="Step side ⟨main, a ++ x :: b⟩ .main ⟨main.does side (.send m), a ++ onSent x true :: b⟩"
m('mp-broadcast','MemPool.lean',[(MPR,"Step side ⟨main, a ++ x :: b⟩ .main ⟨main.does side .recv, (a ++ x :: b).map fun y => if y.receives then Pool.onRecv y (some m) else y⟩")],'MemPool.Step.recv','every worker gets every message','C135_once, C135_rest: each request is answered once')
m('mp-recv-lost','MemPool.lean',[(MPR,"Step side ⟨main, a ++ x :: b⟩ .main ⟨main.does side .recv, a ++ x :: b⟩")],'MemPool.Step.recv','the message received is dropped','C135_rest, C135_hides: every request is answered')
m('mp-recv-again','MemPool.lean',[(MPR,"Step side ⟨main, a ++ x :: b⟩ .main ⟨main, a ++ Pool.onRecv x (some m) :: b⟩")],'MemPool.Step.recv','a message stays in the channel after it has been received','C135_once, C135_settles')
m('mp-recv-busy','MemPool.lean',[("  | recv {main : MemSession.Proc} {a b : List App} {x : App} {m} : x.receives = true →","  | recv {main : MemSession.Proc} {a b : List App} {x : App} {m} : toSend x = none →")],'MemPool.Step.recv','a worker that has ended takes messages','C135_stay, C135_rest: all that has been received is answered')
m('mp-closed-empty','MemPool.lean',[("main.outcome side .recv = .disconnected →","main.outcome side .recv = .empty →")],'MemPool.Step.closed','a worker takes an empty channel for a closed one','C135_rest, C135_stay: the workers stay as long as the tester can send')
m('mp-closed-stay','MemPool.lean',[("a ++ Pool.onRecv x none :: b⟩","a ++ x :: b⟩")],'MemPool.Step.closed','a worker goes on after the channel has been closed','C135_settles, C135_rest')
m('mp-send-again','MemPool.lean',[(MPS,"Step side ⟨main, a ++ x :: b⟩ .main ⟨main.does side (.send m), a ++ x :: b⟩")],'MemPool.Step.send','a worker sends its answer again','C135_once: each answer is sent once')
m('mp-send-off','MemPool.lean',[(MPS,"Step side ⟨main, a ++ x :: b⟩ .main ⟨main, a ++ onSent x true :: b⟩")],'MemPool.Step.send','an answer is not put into the channel','C135_rest: every request is answered')
m('mp-send-ends','MemPool.lean',[(MPS,"Step side ⟨main, a ++ x :: b⟩ .main ⟨main.does side (.send m), a ++ App.ended (.ok ()) :: b⟩")],'MemPool.Step.send','a worker ends after its first answer','C135_rest, C135_stay: the workers are in the loop')
m('mp-send-other','MemPool.lean',[("  | send {main : MemSession.Proc} {a b : List App} {x : App} {m} : toSend x = some m →","  | send {main : MemSession.Proc} {a b : List App} {x : App} {m} : (toSend x).isSome = true →")],'MemPool.Step.send','a worker sends anything','C135_once: what is sent are answers')
m('mp-send-rendezvous','MemPool.lean',[("      main.outcome side (.send m) = .sent m →","      main.outcome side (.send m) = .sent m → (main.mem.chan (main.mem.conn side).sender).queue = [] →")],'MemPool.Step.send','the channel has room for one message only','C135_never_waits, C135_hides: a send never waits')
m('mp-unsent-goes-on','MemPool.lean',[("⟨main.does side (.send m), a ++ onSent x false :: b⟩","⟨main.does side (.send m), a ++ onSent x true :: b⟩")],'MemPool.Step.unsent','a worker takes a failed send for a good one','C135_never_waits: the send succeeds exactly if the tester listens')
m('mp-no-unsent','MemPool.lean',[("main.outcome side (.send m) = .sendFailed m →","main.outcome side (.send m) = .gone →")],'MemPool.Step.unsent','a send to a tester that is gone waits','C135_never_waits')
m('mp-timeout-idle','MemPool.lean',[("Step side ⟨main, a ++ .leaving :: b⟩ .timeout","Step side ⟨main, a ++ .idle :: b⟩ .timeout")],'MemPool.Step.timeout','the time limit is on the receive of the loop','C135_stay, C135_rest: the workers stay in the loop')
m('mp-drop-early','MemPool.lean',[("  | dropRx {p : State} : (∀ x ∈ p.workers, ∃ r, x = .ended r)","  | dropRx {p : State} : (∃ x ∈ p.workers, ∃ r, x = .ended r)")],'MemPool.Step.dropRx','the first worker to end drops the receiver','C135_stay: the others receive all')
m('mp-drop-tx-early','MemPool.lean',[("  | dropTx {p : State} : (∀ x ∈ p.workers, ∃ r, x = .ended r)","  | dropTx {p : State} : (∃ x ∈ p.workers, ∃ r, x = .ended r)")],'MemPool.Step.dropTx','the first worker to end drops the sender','C135_never_waits, C135_rest')
m('mp-start','MemPool.lean',[("⟨main, List.replicate n .idle⟩","⟨main, List.replicate n .start⟩")],'MemPool.start','every worker begins with the handshake','C135_once: what is sent are answers of the loop')
m('mp-exit-all','MemPool.lean',[(MPR,"Step side ⟨main, a ++ x :: b⟩ .main ⟨main.does side .recv, if Transport.isExit m then (a ++ x :: b).map (fun _ => App.ended (.ok ())) else a ++ Pool.onRecv x (some m) :: b⟩")],'MemPool.Step.recv','exit ends all workers, as on a real connection','C135_stay: exit stops no other worker')
m('mp-side','MemPool.lean',[("{ p with main := p.main.does side.other op }","{ p with main := p.main.does side op }")],'MemPool.Step.tester','the tester uses the end of the workers','C135_once, C135_never_waits')
# C136: leaving a server with workers behind finite buffers
DPC="  | closed {io : Transport.State} {a b : List App} {x : App} : x.receives = true → io.reader.ended = true →"
m('dp-one-ends','Pool.lean',[(DPC,DPC+" (∀ y ∈ a ++ b, ∀ r, y ≠ .ended r) →")],'Pool.Step.closed','only one worker notices the end of the input','C136_parted, C136_rest: all workers end')
m('dp-not-last','Pool.lean',[(DPC,DPC+" (∃ y ∈ a ++ b, ∀ r, y ≠ .ended r) →")],'Pool.Step.closed','the last worker does not notice the end of the input','C136_parted, C136_rest: all workers end')
m('dp-closed-sends','Pool.lean',[("  | send {io io' : Transport.State} {a b : List App} {x : App} {m} : toSend x = some m →\n","  | send {io io' : Transport.State} {a b : List App} {x : App} {m} : toSend x = some m → io.reader.ended = false →\n")],'Pool.Step.send','nothing is sent once the input is over','C136_parted, C136_rest: each request is answered')
m('dp-closed-drops','Pool.lean',[("      Step k ⟨io, a ++ x :: b⟩ .worker ⟨io, a ++ onRecv x none :: b⟩","      Step k ⟨io, a ++ x :: b⟩ .worker ⟨io, (a ++ x :: b).map fun _ => App.ended (.ok ())⟩")],'Pool.Step.closed','the worker that notices the end of the input ends the others, with the answers they have','C136_parted, C136_rest: each request is answered')
m('dp-tx-leak','Pool.lean',[("  | dropTx {p : State} : (∀ x ∈ p.workers, ∃ r, x = .ended r) → p.io.txAlive = true →","  | dropTx {p : State} : (∀ x ∈ p.workers, ∃ r, x = .ended r) → p.io.txAlive = true → p.io.reader.ended = false →")],'Pool.Step.dropTx','the last sender is leaked when the input is over','C136_parted, C136_rest: join returns')
m('dp-end-panics','Pool.lean',[('Session.onRecv (fun _ => none) a m', 'match a, m with | .idle, none => .ended .panic | a, m => Session.onRecv (fun _ => none) a m')],'Pool.onRecv','a worker panics at the end of the input','C136_parted, C136_rest: the workers end well')
m('dp-half-closed','Link.lean',[("x.gone || (k == .socket && x.io.reader.ended && x.io.writer.ended)","x.gone || (k == .socket && x.io.writer.ended)")],'Link.Side.closed','the writer thread shuts the connection down in both directions when it ends','C136_stay: a client that drops its sender is not noticed')
m('dp-stdio-closed','Link.lean',[("x.gone || (k == .socket && x.io.reader.ended && x.io.writer.ended)","x.gone || (x.io.reader.ended && x.io.writer.ended)")],'Link.Side.closed','the standard streams are closed when the threads end','C92_held')
m('dp-exit-reads','Transport.lean',[("def afterSend (m : Message) : Reader := if isExit m then .done else .reading","def afterSend (_ : Message) : Reader := .reading")],'Transport.afterSend','the reader goes on after exit','C136_parted, C136_rest: all ends')
m('dp-chooses-last','Desk.lean',[("  | .client (.act (.accept m)) => w.client.io.accepted ++ [m] <+: script ∧\n","  | .client (.act (.accept m)) => w.client.io.accepted ++ [m] <+: script ∧ m ≠ .notification .exit ∧\n")],'Desk.Chooses','the client never sends exit','C136_parted, C136_reached: it has sent all')
m('dp-leaves-recv','Desk.lean',[("  | .client (.act .dropRx) | .client (.act .dropTx) | .client .exit => True","  | .client (.act .dropRx) | .client (.act .dropTx) | .client (.act .close) | .client .exit => True")],'Desk.Leaves','the writer thread of the client may be left waiting','C136_parted, C136_rest: join returns Ok on the side of the client')
HUP="      Step k s .undeliverable { s with reader := .panicked }"
HUC="x.gone || (k == .socket && x.io.reader.ended && x.io.writer.ended)"
m('hu-ignored','Transport.lean',[(HUP,"      Step k s .undeliverable { s with reader := .reading }")],'Transport.Step.undeliverable','the result of send is ignored and the reader goes on','C137_decided, C137_ends: an undelivered answer ends the connection')
m('hu-quits','Transport.lean',[(HUP,"      Step k s .undeliverable { s with reader := .done }")],'Transport.Step.undeliverable','the reader ends with Ok when nobody receives','C137_decided: join panics')
m('hu-deaf','Transport.lean',[("  | deliver (s : State) (m) : s.reader = .sending m → s.rxAlive = true →","  | deliver (s : State) (m) : s.reader = .sending m →")],'Transport.Step.deliver','the channel has a buffer that outlives its receiver','C137_decided: the number of answers received does not change after the drop')
m('hu-kept','Link.lean',[(HUC,"x.gone || (k == .socket && (x.io.reader.ended && x.io.reader matches .done) && x.io.writer.ended)")],'Link.Side.closed','a panicking reader keeps its descriptor','C137_decided: the server exits')
m('hu-shut','Link.lean',[(HUC,"x.gone || (k == .socket && x.io.writer.ended)")],'Link.Side.closed','the end of the writer shuts the connection down','C137_decided, C137_ends: with all answers received nothing happens any more')
m('hu-stdio','Link.lean',[(HUC,"x.gone || (x.io.reader.ended && x.io.writer.ended)")],'Link.Side.closed','the standard streams are closed when the threads end','C137_decided: the server waits until the client exits')
m('hu-text','Transport.lean',[('    else .panic (utf8 "reader panicked!\\n".toList)','    else .panic (utf8 "writer panicked!\\n".toList)')],'Transport.join','the line names the wrong thread','C137_decided')
m('hu-err','Transport.lean',[('    else .panic (utf8 "reader panicked!\\n".toList)','    else .err')],'Transport.join','a panic of the reader is turned into an error','C137_decided')
m('hu-eof-ignored','Session.lean',[("  | closed {p : Proc} : ","  | closed {p : Proc} : p.app ≠ .idle → ")],'Session.Step.closed','the loop polls for ever when its channel is closed','C137_decided: the server exits')
m('hu-probe','Transport.lean',[("  | close (s : State) : s.writer = .idle → s.txAlive = false →","  | close (s : State) : s.writer = .idle → s.txAlive = false → s.rxAlive = true →")],'Transport.Step.close','the writer thread does not end when the receiver is gone','C137_decided: over a socket the server exits')
HLR="      (y.io.unread ≠ [] ∨ y.io.arrived ≠ x.io.out) →\n      Step k x.io (.hangUp true) io →"
m('hl-reset-always','Link.lean',[(HLR,"      Step k x.io (.hangUp true) io →")],'Link.Move.reset','a socket is always reset when it is closed (SO_LINGER 0)','C137_last: the server exits with success')
m('hl-reset-read','Link.lean',[(HLR,"      (y.io.unread = [] ∨ y.io.arrived ≠ x.io.out) →\n      Step k x.io (.hangUp true) io →")],'Link.Move.reset','the connection is reset although all has been read','C137_last: the server exits with success')
m('hl-no-reset','Link.lean',[(HLR,"      (y.io.unread ≠ [] ∧ y.io.arrived ≠ x.io.out ∧ y.io.arrived = x.io.out) →\n      Step k x.io (.hangUp true) io →")],'Link.Move.reset','a connection is never reset','C137_open: the server may exit with an error')
m('hl-fails-empty','Link.lean',[("      r ≠ [] → Step k x.io .writeFails io →","      Step k x.io .writeFails io →")],'Link.Move.fails','the flush fails when all has been written','C137_last: no write fails')
m('hl-fin-fails','Link.lean',[("      Step k x.io (.hangUp false) io → Move k k' x y (.act (.hangUp false)) { x with io }","      Step k x.io (.hangUp true) io → Move k k' x y (.act (.hangUp true)) { x with io }")],'Link.Move.fin','the end of the input is seen as an error','C137_last, C137_open: success is possible')
m('hl-fin-late','Link.lean',[("  | fin {x y io} : x.gone = false → y.closed k' = true → x.io.arrived = y.io.out →","  | fin {x y io} : x.gone = false → y.gone = true → x.io.arrived = y.io.out →")],'Link.Move.fin','the end of a socket is seen only when the process exits','C137_last, C137_open: the server exits')
m('hl-join-strict','Transport.lean',[("def join (k : Kind) (s : State) : Joined :=","def join (k : Kind) (s : State) : Joined :=\n  if s.reader = .done ∧ s.delivered.getLast? ≠ some (.notification .exit) then .err else")],'Transport.join','join is an error without exit','C137_last: the server exits with success')
m('hl-two','Transport.lean',[("      Step k s .undeliverable { s with reader := .panicked }","      Step k s .undeliverable { s with reader := if s.unread = [] then .reading else .panicked }")],'Transport.Step.undeliverable','the reader notices that nobody receives at the second message','C137_last: the server exits')
m('hl-eager','Link.lean',[("  | fails {x y r io} : x.gone = false → y.closed k' = true → x.io.writer = .writing r →","  | fails {x y r io} : x.gone = false → y.io.writer.ended = true → x.io.writer = .writing r →")],'Link.Move.fails','writes fail as soon as the other side has stopped sending','C137_last: no write fails')
MKR="{ p with proc := p.proc.does side .recv, jobs := p.jobs ++ [{ req := r, left := ms }] }"
MKS="⟨proc.does side (.send m), mine, a ++ ⟨r, s ++ [m], l, z⟩ :: b⟩"
m('mk-replace','MemCrew.lean',[(MKR,"{ p with proc := p.proc.does side .recv, jobs := [{ req := r, left := ms }] }")],'MemCrew.Step.hire','a new thread replaces the others','C138_sent, C138_rest: one thread for each request')
m('mk-front','MemCrew.lean',[(MKR,"{ p with proc := p.proc.does side .recv, jobs := { req := r, left := ms } :: p.jobs }")],'MemCrew.Step.hire','the threads are listed in the opposite order','C138_sent')
m('mk-keep','MemCrew.lean',[(MKR,"{ p with proc := p.proc, jobs := p.jobs ++ [{ req := r, left := ms }] }")],'MemCrew.Step.hire','a message stays in the channel after it has been received','C138_sent, C138_terminates, C138_rest')
m('mk-busy','MemCrew.lean',[("Crew.onRecv p.proc.app (some m) = .answering r → work r ms →\n","Crew.onRecv p.proc.app (some m) = .answering r → work r ms → p.jobs = [] →\n")],'MemCrew.Step.hire','one request is worked on at a time, and its thread never forgotten','C138_rest, C138_shutdown: all has been received')
m('mk-idle-hire','MemCrew.lean',[("Crew.onRecv p.proc.app (some m) = .answering r → work r ms →\n","Crew.onRecv p.proc.app (some m) = .answering r → work r ms → (∀ j ∈ p.jobs, j.left = []) →\n")],'MemCrew.Step.hire','the main thread waits for the thread before','C138_late')
m('mk-first','MemCrew.lean',[(MKS,"⟨proc.does side (.send m), mine, a ++ ⟨r, s ++ [m], [], z⟩ :: b⟩")],'MemCrew.Step.send','a thread ends after its first message','C138_rest, C138_shutdown: all it had to send')
m('mk-again','MemCrew.lean',[(MKS,"⟨proc.does side (.send m), mine, a ++ ⟨r, s ++ [m], m :: l, z⟩ :: b⟩")],'MemCrew.Step.send','a message is sent again','C138_sent, C138_terminates')
m('mk-not-sent','MemCrew.lean',[(MKS,"⟨proc, mine, a ++ ⟨r, s ++ [m], l, z⟩ :: b⟩")],'MemCrew.Step.send','a message is not put into the channel','C138_sent, C138_rest')
m('mk-goes-on','MemCrew.lean',[("⟨proc.does side (.send m), mine, a ++ ⟨r, s, [], m :: l⟩ :: b⟩","⟨proc.does side (.send m), mine, a ++ ⟨r, s, m :: l, z⟩ :: b⟩")],'MemCrew.Step.unsent','a thread tries for ever to send','C138_terminates, C138_settles, C138_never_waits')
m('mk-no-unsent','MemCrew.lean',[("  | unsent {proc : MemSession.Proc} {mine a b r s m l z} : proc.outcome side (.send m) = .sendFailed m →","  | unsent {proc : MemSession.Proc} {mine a b r s m l z} : proc.outcome side (.send m) = .gone →")],'MemCrew.Step.unsent','a send waits when the tester does not listen','C138_never_waits')
m('mk-send-room','MemCrew.lean',[("  | send {proc : MemSession.Proc} {mine a b r s m l z} : proc.outcome side (.send m) = .sent m →","  | send {proc : MemSession.Proc} {mine a b r s m l z} : proc.outcome side (.send m) = .sent m → (proc.mem.chan (proc.mem.conn side).sender).queue = [] →")],'MemCrew.Step.send','the channels have room for one message','C138_never_waits, C138_rest')
m('mk-main-ended','MemCrew.lean',[("  | send {proc : MemSession.Proc} {mine a b r s m l z} : proc.outcome side (.send m) = .sent m →","  | send {proc : MemSession.Proc} {mine a b r s m l z} : proc.outcome side (.send m) = .sent m → (∀ r, proc.app ≠ .ended r) →")],'MemCrew.Step.send','the threads are killed when the main thread ends','C138_late, C138_shutdown')
m('mk-reply-wait','MemCrew.lean',[("  | reply {p : State} {m} : toSend p.proc.app = some m →","  | reply {p : State} {m} : toSend p.proc.app = some m → (∀ j ∈ p.jobs, j.left = []) →")],'MemCrew.Step.reply','shutdown is answered after all threads have sent','C138_late, C138_reply')
m('mk-reply-silent','MemCrew.lean',[("{ p with proc := { p.proc.does side (.send m) with app := onSent p.proc.app true }, mine := p.mine ++ [m] }","{ p with proc := { p.proc with app := onSent p.proc.app true }, mine := p.mine ++ [m] }")],'MemCrew.Step.reply','shutdown is not answered','C138_reply, C138_shutdown, C138_once')
m('mk-noreply-ends','MemCrew.lean',[("{ p with proc := { p.proc.does side (.send m) with app := onSent p.proc.app false } }","{ p with proc := { p.proc.does side (.send m) with app := .ended .panic } }")],'MemCrew.Step.noReply','the main thread panics when shutdown cannot be answered','C138_reply: it goes on to wait for exit')
m('mk-closed-empty','MemCrew.lean',[("p.proc.app.receives = true → p.proc.outcome side .recv = .disconnected →","p.proc.app.receives = true → p.proc.outcome side .recv = .empty →")],'MemCrew.Step.closed','an empty channel is taken for a closed one','C138_ok, C138_rest')
m('mk-exit-ends','MemCrew.lean',[("        { p with proc := { p.proc.does side .recv with app := Crew.onRecv p.proc.app (some m) } }","        { p with proc := { p.proc.does side .recv with app := if Transport.isExit m then .ended (.ok ()) else Crew.onRecv p.proc.app (some m) } }")],'MemCrew.Step.recv','exit ends the loop','C138_ok, C138_rest')
m('mk-timeout-idle','MemCrew.lean',[("  | timeout {p : State} : p.proc.app = .leaving →","  | timeout {p : State} : p.proc.app = .idle →")],'MemCrew.Step.timeout','the time limit is for the loop','C138_rest')
m('mk-tx-early','MemCrew.lean',[("  | dropTx {p : State} : (∃ r, p.proc.app = .ended r) → (∀ j ∈ p.jobs, j.left = []) →\n","  | dropTx {p : State} : (∃ r, p.proc.app = .ended r) →\n")],'MemCrew.Step.dropTx','the sender is dropped when the main thread ends','C138_never_waits, C138_shutdown')
m('mk-rx-early','MemCrew.lean',[("  | dropRx {p : State} : (∃ r, p.proc.app = .ended r) →","  | dropRx {p : State} : (∃ r, p.proc.app = .ended r) ∨ p.proc.app = .leaving →")],'MemCrew.Step.dropRx','the receiver is dropped before exit','C138_shutdown')
m('mk-side','MemCrew.lean',[("{ p with proc := p.proc.does side.other op }","{ p with proc := p.proc.does side op }")],'MemCrew.Step.tester','the tester uses the end of the server','C138_sent, C138_rest')
m('ec-exit-error','Session.lean',[("  | .idle, some _ => .idle\n","  | .idle, some (.notification .exit) => .ended (.err \"exit\")\n  | .idle, some _ => .idle\n")],'Session.onRecv','exit without shutdown is an error','C139_success, C139_exit, C139_violated: succeeds')
m('ec-leave-waits','Session.lean',[("  | .leaving, some msg => .ended (.err (\"unexpected message during shutdown: \" ++ Dbg.msg msg))\n","  | .leaving, some _ => .leaving\n")],'Session.onRecv','messages between shutdown and exit are skipped','C139_waits, C139_violated: an error')
m('ec-leave-notif','Session.lean',[("  | .leaving, some (.notification .exit) => .ended (.ok ())\n","  | .leaving, some (.notification _) => .ended (.ok ())\n")],'Session.onRecv','any notification after shutdown counts as exit','C139_success, C139_violated: an error')
m('ec-confirm-any','Session.lean',[("  | .confirming, some (.notification .initialized) => .idle\n","  | .confirming, some (.notification _) => .idle\n")],'Session.onRecv','any notification confirms the initialization','C139_success, C139_waits: initialized')
m('ec-early-shutdown','Session.lean',[("  | .start, some (.request req) => .refusing req\n","  | .start, some (.request (.shutdown id)) => .stopping id\n  | .start, some (.request req) => .refusing req\n")],'Session.onRecv','shutdown is obeyed before initialize','C139_success, C139_waits, C139_documented_partial: refused')
m('ec-start-eof','Session.lean',[("  | .start, none => .ended (.err (\"expected initialize request, got error: \" ++ Dbg.recvError))\n","  | .start, none => .ended (.ok ())\n")],'Session.onRecv','an input that ends before initialize is no error','C139_success: a session')
m('ec-confirm-eof','Session.lean',[("  | .confirming, none => .ended (.err (\"expected initialized notification, got error: \" ++ Dbg.recvError))\n","  | .confirming, none => .ended (.ok ())\n")],'Session.onRecv','an input that ends before initialized is no error','C139_success: a session')
m('ec-leave-eof','Session.lean',[("  | .leaving, none => .ended (.err (\"unexpected error during shutdown: \" ++ Dbg.disconnected))\n","  | .leaving, none => .ended (.ok ())\n")],'Session.onRecv','the end of the input after shutdown counts as exit','C139_success: exit or no shutdown')
m('ec-idle-eof','Session.lean',[("  | .idle, none => .ended (.ok ())\n","  | .idle, none => .ended (.err \"closed\")\n")],'Session.onRecv','the end of the input without shutdown is an error','C139_success, C139_violated')
m('ec-abort-zero','Session.lean',[("Step k process p .exit { p with exit := some false }","Step k process p .exit { p with exit := some true }")],'Session.Step.abort','an error of the main loop is not shown in the exit status','C139_success, C139_violated')
m('ec-join-ignored','Session.lean',[("{ p with exit := some (decide (join k p.io = .ok)) }","{ p with exit := some true }")],'Session.Step.finish','the outcome of join is ignored','C139_success: the input ends cleanly')
m('ec-handler-again','Session.lean',[("    | none => .ended .panic\n    | some v => .replying id v\n  | .start, some (.request req)","    | none => .start\n    | some v => .replying id v\n  | .start, some (.request req)")],'Session.onRecv','a handler that panics does no harm','C139_success, C139_waits: params the handler takes')
m('ec-no-join','Session.lean',[("p.io.txAlive = false → join k p.io ≠ .waiting →\n","p.io.txAlive = false →\n")],'Session.Step.finish','the process exits without waiting for its threads','C139_success')
m('ec-timeout','Session.lean',[("  | timeout {p : Proc} : p.exit = none → p.app = .leaving →\n      Step k process p .timeout\n","  | timeout {p : Proc} : p.exit = none → p.app = .leaving →\n      Step k process p .main\n")],'Session.Step.timeout','there is no wait for exit','C139_waits: waits for exit')
m('ec-reads-on','Transport.lean',[("def afterSend (m : Message) : Reader := if isExit m then .done else .reading","def afterSend (_ : Message) : Reader := .reading")],'Transport.afterSend','the reader goes on after exit','C139_exit, C139_success: exits after exit')
m('ec-eof-error','Transport.lean',[("  | .eof => { s with reader := .done }","  | .eof => { s with reader := readError k }")],'Transport.afterRead','the end of the input is an error','C139_success: ends cleanly')
m('ec-broken-ok','Transport.lean',[("  | .ioError => { s with reader := readError k }","  | .ioError => { s with reader := .done }")],'Transport.afterRead','a read error counts as the end of the input','C139_success: only a clean end')
m('ec-cut-ok','Transport.lean',[("  | .unexpectedEof => { s with reader := readError k }","  | .unexpectedEof => { s with reader := .done }")],'Transport.afterRead','an input that is cut off in a frame counts as ended','C139_success: only a clean end')
m('ec-garbage-ok','Transport.lean',[("  | .invalidData => { s with reader := readError k }","  | .invalidData => { s with reader := .reading }")],'Transport.afterRead','what is not a message is read again','C139_waits: an error')
m('ec-join-failed','Transport.lean',[("  | .failed => .err\n  | .panicked =>\n    if","  | .failed => .ok\n  | .panicked =>\n    if")],'Transport.join','an error of the reader is not passed on by join','C139_success: a clean end')
m('xh-exit-error','Session.lean',[("  | .idle, some _ => .idle\n","  | .idle, some (.notification .exit) => .ended (.err \"exit\")\n  | .idle, some _ => .idle\n")],'Session.onRecv','exit without shutdown is an error','C140_exit, C140_same: succeeds')
m('xh-start-resp','Session.lean',[("  | .start, some msg => .ended (.err (\"expected initialize request, got \" ++ Dbg.msg msg))\n","  | .start, some (.response _) => .start\n  | .start, some msg => .ended (.err (\"expected initialize request, got \" ++ Dbg.msg msg))\n")],'Session.onRecv','responses before initialize are skipped','C140_exit, C140_shutdown: an error')
m('xh-confirm-resp','Session.lean',[("  | .confirming, some msg => .ended","  | .confirming, some (.response _) => .confirming\n  | .confirming, some msg => .ended")],'Session.onRecv','responses before initialized are skipped','C140_exit, C140_shutdown: an error')
m('xh-idle-resp','Session.lean',[("  | .idle, some _ => .idle\n","  | .idle, some (.response _) => .ended (.err \"unexpected response\")\n  | .idle, some _ => .idle\n")],'Session.onRecv','a response in the loop is an error','C140_exit, C140_shutdown, C140_same: ignored')
m('xh-resp-stops','Session.lean',[("  | .idle, some _ => .idle\n","  | .idle, some (.response ⟨_, none, none⟩) => .leaving\n  | .idle, some _ => .idle\n")],'Session.onRecv','an empty response in the loop counts as shutdown','C140_exit, C140_shutdown: ignored')
m('xh-timeout-idle','Session.lean',[("  | timeout {p : Proc} : p.exit = none → p.app = .leaving →\n","  | timeout {p : Proc} : p.exit = none → p.app.receives = true →\n")],'Session.Step.timeout','every receive has a time limit','C140_exit, C140_same: succeeds')
m('xh-join-ignored','Session.lean',[("{ p with exit := some (decide (join k p.io = .ok)) }","{ p with exit := some true }")],'Session.Step.finish','the outcome of join is ignored','C140_success: exit or a clean end')
m('xh-start-eof','Session.lean',[("  | .start, none => .ended (.err (\"expected initialize request, got error: \" ++ Dbg.recvError))\n","  | .start, none => .ended (.ok ())\n")],'Session.onRecv','an input that ends before initialize is no error','C140_success: a session')
m('xh-handler','Session.lean',[("    | none => .ended .panic\n    | some v => .replying id v\n  | .start, some (.request req)","    | none => .start\n    | some v => .replying id v\n  | .start, some (.request req)")],'Session.onRecv','a handler that panics does no harm','C140_exit: params the handler takes')
m('xh-reads-on','Transport.lean',[("def afterSend (m : Message) : Reader := if isExit m then .done else .reading","def afterSend (_ : Message) : Reader := .reading")],'Transport.afterSend','the reader goes on after exit','C140_exit, C140_ends: the server exits')
m('xh-deaf','Transport.lean',[("def afterSend (m : Message) : Reader := if isExit m then .done else .reading","def afterSend (m : Message) : Reader := match m with\n  | .notification .exit => .done\n  | .notification .initialized => .done\n  | _ => .reading")],'Transport.afterSend','the reader ends after initialized as well','C140_exit: what was said before exit')
m('xh-lost','Link.lean',[("x.io.arrived ++ bs <+: y.io.out →","(x.io.arrived ++ bs <+: y.io.out ∨ bs <:+ y.io.out) →")],'Link.Move.arrive','bytes on their way may be overtaken','C140_exit, C140_success: what the client has said')
m('xh-idle-close','Link.lean',[("  | fin {x y io} : x.gone = false → y.closed k' = true → x.io.arrived = y.io.out →","  | fin {x y io} : x.gone = false → x.io.arrived = y.io.out →")],'Link.Move.fin','an idle connection may be closed by the network','C140_exit: as said before exit')
m('xh-tx-closes','Link.lean',[("x.gone || (k == .socket && x.io.reader.ended && x.io.writer.ended)","x.gone || x.io.txAlive == false")],'Link.Side.closed','the connection is closed as soon as the sender is dropped','C140_exit, C140_same')
m('xh-gone-free','EndToEnd.lean',[("⟨p.io, p.exit.isSome⟩","⟨p.io, p.app matches .ended _⟩")],'EndToEnd.side','the server counts as gone as soon as its main thread has ended','C140_ends: the server exits')
m('xh-heard','Message.lean',[("      if method ≠ \"build/shutdown\" ∨ method ≠ \"workspace/buildTargets\" ∨ method ≠ \"workspace/reload\"\n      then none","      if method ≠ \"build/shutdown\" ∧ method ≠ \"workspace/buildTargets\" ∧ method ≠ \"workspace/reload\"\n      then none")],'Request.finish','the condition of request.rs:431-433 corrected to a conjunction','C140_shutdown: shutdown arrives as a response')
m('uq-parseError','Message.lean',[('def parseError (id : RequestId) (m : String) := err id ErrorCode.parseError.code m', 'def parseError (id : RequestId) (m : String) := err id ErrorCode.invalidRequest.code m')],'Response.parseError','has the code of invalidRequest','C25: right code')
m('uq-serverNotInitialized','Message.lean',[('def serverNotInitialized (id : RequestId) (m : String) := err id ErrorCode.serverNotInitialized.code m', 'def serverNotInitialized (id : RequestId) (m : String) := err id ErrorCode.invalidRequest.code m')],'Response.serverNotInitialized','has the code of invalidRequest','C25: right code')
m('uq-methodNotFound','Message.lean',[('def methodNotFound (id : RequestId) (m : String) := err id ErrorCode.methodNotFound.code m', 'def methodNotFound (id : RequestId) (m : String) := err id ErrorCode.invalidParams.code m')],'Response.methodNotFound','has the code of invalidParams','C25: right code')
m('uq-invalidParams','Message.lean',[('def invalidParams (id : RequestId) (m : String) := err id ErrorCode.invalidParams.code m', 'def invalidParams (id : RequestId) (m : String) := err id ErrorCode.invalidRequest.code m')],'Response.invalidParams','has the code of invalidRequest','C25: right code')
m('uq-serverErrorEnd','Message.lean',[('def serverErrorEnd (id : RequestId) (m : String) := err id ErrorCode.serverErrorEnd.code m', 'def serverErrorEnd (id : RequestId) (m : String) := err id ErrorCode.serverErrorStart.code m')],'Response.serverErrorEnd','has the code of serverErrorStart','C25: right code')
m('uq-canceled','Message.lean',[('def serverCanceled (id : RequestId) (m : String) := err id ErrorCode.serverCancelled.code m', 'def serverCanceled (id : RequestId) (m : String) := err id ErrorCode.requestCanceled.code m')],'Response.serverCanceled','has the code of requestCanceled','C25: right code')
m('uq-enc-MessageType','Enums.lean',[('def enc (x : MessageType) : Json := .int x.code', 'def enc (x : MessageType) : Json := .int (x.code - 1)')],'MessageType.enc','codes are written from 0','C36: numeric enumerations have exactly their codes')
m('uq-enc-TaskStatus','Enums.lean',[('def enc (x : TaskStatus) : Json := .int x.code', 'def enc (x : TaskStatus) : Json := .int (x.code - 1)')],'TaskStatus.enc','codes are written from 0','C36: numeric enumerations have exactly their codes')
m('uq-enc-BuildTargetEventKind','Enums.lean',[('def enc (x : BuildTargetEventKind) : Json := .int x.code', 'def enc (x : BuildTargetEventKind) : Json := .int (x.code - 1)')],'BuildTargetEventKind.enc','codes are written from 0','C36: numeric enumerations have exactly their codes')
m('uq-enc-SourceKind','Enums.lean',[('def enc (x : SourceKind) : Json := .int x.code', 'def enc (x : SourceKind) : Json := .int (x.code - 1)')],'SourceKind.enc','codes are written from 0','C36: numeric enumerations have exactly their codes')
m('uq-canon-rev','Json.lean',[('  | x :: xs => canon x :: canonList xs', '  | x :: xs => canonList xs ++ [canon x]')],'canonList','arrays in values are reversed','C12: a written message is read back as the same message')
m('uq-sv-modules','Server.lean',[('def bt_dependency_modules (_ : BuildTargetDependencyModules) : Out := .panic', 'def bt_dependency_modules (_ : BuildTargetDependencyModules) : Out := .ok Value.null')],'bt_dependency_modules','answers null','C69: the method panics')
m('uq-sv-debug','Server.lean',[('def debug_session_start (_ : DebugSessionStart) : Out := .panic', 'def debug_session_start (_ : DebugSessionStart) : Out := .ok Value.null')],'debug_session_start','answers null','C69: the method panics')
m('uq-req-arr','Message.lean',[('  | .obj ms => (visitLoop mode ms ⟨none, none, none⟩).bind finish\n  | _ => none', '  | .obj ms => (visitLoop mode ms ⟨none, none, none⟩).bind finish\n  | .arr [i, m, p] => finish ⟨some (Value.ofJson i), (match m with | .str s => some s | _ => none), some (Value.ofJson p)⟩\n  | _ => none')],'Request.decMode','requests are read from arrays as well','C14,C90: a batch or another array is no request')
m('uq-not-null','Message.lean',[('  | .obj ms => (visitLoop mode ms ⟨none, none⟩).bind finish\n  | _ => none', '  | .obj ms => (visitLoop mode ms ⟨none, none⟩).bind finish\n  | .null => some .initialized\n  | _ => none')],'Notification.decMode','null is the initialized notification','C14,C100: null is no message')
m('uq-req-stream','Message.lean',[('def dec (j : Json) : Option Request := decMode .buffered j', 'def dec (j : Json) : Option Request := decMode .streaming j')],'Request.dec','requests in messages are read like requests alone','C15: unknown members have no influence')
m('uq-not-stream','Message.lean',[('def dec (j : Json) : Option Notification := decMode .buffered j', 'def dec (j : Json) : Option Notification := decMode .streaming j')],'Notification.dec','notifications in messages are read like notifications alone','C15: unknown members have no influence')
m('br-send-again','Bridge.lean',[('Carry ks kd s (.holding m) d s .waiting { d with io }', 'Carry ks kd s (.holding m) d s (.holding m) { d with io }')],'Bridge.Carry','after a send the message is still in the hand','C141_order: nothing is passed on twice')
m('br-recv-lost','Bridge.lean',[('Carry ks kd s .waiting d { s with io } (.holding m) d', 'Carry ks kd s .waiting d { s with io } .waiting d')],'Bridge.Carry','what is received is forgotten','C141_joined: everything sent is received')
m('br-recv-any','Bridge.lean',[('  | recv {s d m io} : Step ks s.io (.deliver m) io → Carry ks kd s .waiting d { s with io } (.holding m) d', '  | recv {s d m n io} : Step ks s.io (.deliver m) io → Carry ks kd s .waiting d { s with io } (.holding n) d')],'Bridge.Carry','some other message is in the hand than was received','C141_order: nothing is made up')
m('br-send-any','Bridge.lean',[('  | send {s d m io} : Step kd d.io (.accept m) io', '  | send {s d m n io} : Step kd d.io (.accept n) io')],'Bridge.Carry','some other message is sent than is in the hand','C141_order: nothing is made up')
m('br-closed-early','Bridge.lean',[('  | closed {s d} : s.io.reader.ended = true →', '  | closed {s d} :')],'Bridge.Carry','the thread may stop receiving at any time','C141_joined: everything sent is received')
m('br-closed-other','Bridge.lean',[('  | closed {s d} : s.io.reader.ended = true →', '  | closed {s d} : d.io.reader.ended = true →')],'Bridge.Carry','the thread stops receiving when the other connection has no more input','C141_joined: everything sent is received')
m('br-closed-writer','Bridge.lean',[('  | closed {s d} : s.io.reader.ended = true →', '  | closed {s d} : d.io.writer.ended = true →')],'Bridge.Carry','the thread stops receiving only when it could not send any more','C141_joined: the joins return')
m('br-unsent-any','Bridge.lean',[('  | unsent {s d m} : d.io.writer.ended = true →', '  | unsent {s d m} :')],'Bridge.Carry','a send may fail at any time','C141_joined: everything sent is received')
m('br-unsent-reader','Bridge.lean',[('  | unsent {s d m} : d.io.writer.ended = true →', '  | unsent {s d m} : d.io.reader.ended = true →')],'Bridge.Carry','a send fails when the reader thread of that connection has ended','C141_joined: everything sent is received')
m('br-no-drop-tx','Bridge.lean',[('  | dropTx {s d} : d.io.txAlive = true →', '  | dropTx {s d} : d.io.txAlive = true → d.io.writer.ended = true →')],'Bridge.Carry','the thread drops its sender only when the writer thread has ended','C141_joined: the joins return')
m('br-no-drop-rx','Bridge.lean',[('  | dropRx {s d} : s.io.rxAlive = true →', '  | dropRx {s d} : s.io.rxAlive = true → s.io.writer.ended = true → d.io.rxAlive = false →')],'Bridge.Carry','the thread drops its receiver only when the other receiver of the relay is gone','C141_joined: the relay exits')
m('br-drop-rx-early','Bridge.lean',[('      Carry ks kd s .ended d { s with io := { s.io with rxAlive := false } } .ended d', '      Carry ks kd s .waiting d { s with io := { s.io with rxAlive := false } } .waiting d')],'Bridge.Carry','the receiver is dropped while the thread still waits for messages','C141_joined: everything sent is received')
m('br-drop-tx-early','Bridge.lean',[('      Carry ks kd s .ended d s .ended { d with io := { d.io with txAlive := false } }', '      Carry ks kd s .waiting d s .waiting { d with io := { d.io with txAlive := false } }')],'Bridge.Carry','the sender is dropped while the thread still waits for messages','C141_joined: everything sent is received')
m('br-closed-spins','Bridge.lean',[('Carry ks kd s .waiting d s .ended d', 'Carry ks kd s .waiting d s .waiting d')],'Bridge.Carry','after the end of its input the thread asks for messages again','C141_settles, C141_joined: nothing goes on for ever')
m('br-drop-spins','Bridge.lean',[('  | dropRx {s d} : s.io.rxAlive = true →', '  | dropRx {s d} :')],'Bridge.Carry','the receiver can be dropped any number of times','C141_settles: nothing goes on for ever')
m('br-finish-early','Bridge.lean',[('      join kl w.left.b.io ≠ .waiting → (join kl w.left.b.io = .ok → join .socket w.right.a.io ≠ .waiting) →\n', '')],'Bridge.Next','the relay exits without joining the I/O threads','C141_joined: everything sent is received')
m('br-finish-one','Bridge.lean',[('(join kl w.left.b.io = .ok → join .socket w.right.a.io ≠ .waiting) →', '')],'Bridge.Next','the relay joins the I/O threads of its first connection only','C141_joined: everything sent is received')
m('br-finish-second','Bridge.lean',[('      join kl w.left.b.io ≠ .waiting → (join kl w.left.b.io = .ok → join .socket w.right.a.io ≠ .waiting) →', '      join .socket w.right.a.io ≠ .waiting →')],'Bridge.Next','the relay joins the I/O threads of its second connection only','C141_joined: everything sent is received')
m('br-finish-up','Bridge.lean',[('  | finish {w} : w.awake → w.up = .ended → w.down = .ended →\n      w.left.b.io.rxAlive = false → w.left.b.io.txAlive = false → w.right.a.io.rxAlive = false → w.right.a.io.txAlive = false →\n      join kl w.left.b.io ≠ .waiting → (join kl w.left.b.io = .ok → join .socket w.right.a.io ≠ .waiting) →', '  | finish {w} : w.awake → w.up = .ended → w.left.b.io.rxAlive = false → w.right.a.io.txAlive = false →')],'Bridge.Next','the relay exits when the thread that passes on to the server has ended','C141_joined: everything sent is received')
m('br-near-eats','Bridge.lean',[('Ev.app (.act act) = false → (∀ m, act ≠ .deliver m) →\n      Next kc kl ks w .relay { w with left', 'Ev.app (.act act) = false →\n      Next kc kl ks w .relay { w with left')],'Bridge.Next','messages from the client may be received and thrown away','C141_order: nothing is left out')
m('br-far-says','Bridge.lean',[('Ev.app (.act act) = false →\n      (∀ m, act ≠ .deliver m) → Next kc kl ks w .relay { w with right', '(∀ m, act ≠ .deliver m) → Next kc kl ks w .relay { w with right')],'Bridge.Next','the relay may send messages of its own to the server','C141_order: nothing is made up')
m('br-echo','Bridge.lean',[('  | up {w b h a} : w.awake → Carry kl .socket w.left.b w.up w.right.a b h a →\n      Next kc kl ks w .relay { w with left := { w.left with b }, right := { w.right with a }, up := h }', '  | up {w b h a} : w.awake → Carry kl kl w.left.b w.up w.left.b b h a →\n      Next kc kl ks w .relay { w with left := { w.left with b := a }, up := h }')],'Bridge.Next','what comes from the client is sent back to it','C141_order, C141_joined: what each side receives is what the other has sent')
m('br-quiet-any','Bridge.lean',[("def Quiet (kc kl ks : Kind) (w : World) : Prop := ∀ x w', Next kc kl ks w x w' → x.free = true", "def Quiet (kc kl ks : Kind) (w : World) : Prop := ∀ ev w', Next kc kl ks w (.client ev) w' → ev.app = true")],'Bridge.Quiet','rest is only about the client','C141_joined: everything sent is received')
m('br-free-relay','Bridge.lean',[('  | .relay => false', '  | .relay => true')],'Bridge.Who.free','the relay need not act','C141_joined: everything sent is received')
m('ch-put-link','Chain.lean',[('fun j => if j = i then b.left else if j = i + 1 then b.right else w.link j','fun j => if j = i then b.left else w.link j')],'Chain.World.put','the second connection of the relay does not notice a step of the relay','C142_order: what the server has received is a beginning of what is heard of what the client has sent, and the other way round')
m('ch-put-swap','Chain.lean',[('fun j => if j = i then b.left else if j = i + 1 then b.right else w.link j','fun j => if j = i then b.right else if j = i + 1 then b.left else w.link j')],'Chain.World.put','the two connections of a relay are exchanged','C142_order: what the server has received is a beginning of what is heard of what the client has sent, and the other way round')
m('ch-put-up','Chain.lean',[('if j = i then b.up else w.up j','w.up j')],'Chain.World.put','what a relay has taken is not remembered','C142_order: what the server has received is a beginning of what is heard of what the client has sent, and the other way round')
m('ch-put-down','Chain.lean',[('if j = i then b.down else w.down j','b.down')],'Chain.World.put','what one relay has in its lower hand all relays have','C142_order: what the server has received is a beginning of what is heard of what the client has sent, and the other way round')
m('ch-around','Chain.lean',[('⟨w.link i, w.link (i + 1), w.up i, w.down i⟩','⟨w.link i, w.link i, w.up i, w.down i⟩')],'Chain.World.around','a relay sends back what it receives','C142_order: what the server has received is a beginning of what is heard of what the client has sent, and the other way round')
m('ch-around-hand','Chain.lean',[('⟨w.link i, w.link (i + 1), w.up i, w.down i⟩','⟨w.link i, w.link (i + 1), w.up 0, w.down i⟩')],'Chain.World.around','all relays use the upper hand of the first one','C142_order: what the server has received is a beginning of what is heard of what the client has sent, and the other way round')
m('ch-near','Chain.lean',[('  | _ + 1 => .socket','  | _ + 1 => kc')],'Chain.near','the relays connect as the client does (with standard streams, too)','C142_joined: at rest everything has been delivered, all joins are Ok and all relays gone')
m('ch-client','Chain.lean',[('Move kc (kl 0) (w.link 0).a (w.link 0).b ev a →','Move kc (kl 0) (w.link 0).a (w.link n).b ev a →')],'Chain.Next.client','the client gets the bytes that the server has written, though there are relays between them','C142_order: what the server has received is a beginning of what is heard of what the client has sent, and the other way round')
m('ch-server','Chain.lean',[('Move (kl n) (near kc n) (w.link n).b (w.link n).a ev b →','Move (kl n) (near kc n) (w.link n).b (w.link 0).a ev b →')],'Chain.Next.server','the server gets the bytes that the client has written, though there are relays between them','C142_order: what the server has received is a beginning of what is heard of what the client has sent, and the other way round')
m('ch-relay-beyond','Chain.lean',[('  | relay {w i b} : i < n → Bridge','  | relay {w i b} : i ≤ n → Bridge')],'Chain.Next.relay',"there is a relay after the server, which reads and writes on the server's connection",'C142_joined: at rest everything has been delivered, all joins are Ok and all relays gone')
m('ch-relay-free','Chain.lean',[('(w.around i) .relay b →','(w.around i) x b →'),('  | relay {w i b} :','  | relay {w i x b} :')],'Chain.Next.relay','the neighbours of a relay do what they like (send what they like) instead of passing on','C142_order: what the server has received is a beginning of what is heard of what the client has sent, and the other way round')
m('ch-quiet','Chain.lean',[('∀ x w\', Next kc kl n w x w\' → x.free = true','∀ w\', ¬ Next kc kl n w .relay w\'')],'Chain.Quiet','it is called rest when the relays rest, though bytes may be on their way to the server','C142_joined: at rest everything has been delivered, all joins are Ok and all relays gone')
m('ch-ends','Chain.lean',[('{ left := w.link 0, right := w.link n }','{ left := w.link 0, right := w.link 0 }')],'Chain.World.ends','nothing is asked of the server (but of the first relay)','C142_joined: at rest everything has been delivered, all joins are Ok and all relays gone')
m('ch-set','Chain.lean',[('fun j => if j = i then l else w.link j','fun j => if j ≤ i then l else w.link j')],'Chain.World.set','what the server does happens on all links','C142_order: what the server has received is a beginning of what is heard of what the client has sent, and the other way round')
m('nw-last-free','Narrow.lean',[('  lets : ∀ i ≤ n, Flow','  lets : ∀ i < n, Flow')],'Narrow.Next','the last link has buffers without limit','C143_none: with no room at all on one link nothing ever gets to the server')
m('nw-first-caps','Narrow.lean',[('Flow.Lets (c i) (w.link i)','Flow.Lets (c 0) (w.link i)')],'Narrow.Next','all links have buffers of the size of the first one','C143_none: with no room at all on one link nothing ever gets to the server')
m('nw-first-link','Narrow.lean',[("(w.link i) (w'.link i)","(w.link 0) (w'.link 0)")],'Narrow.Next','only the first link has finite buffers','C143_ahead: what has been sent is not further ahead than the buffers have room for')
m('nw-no-room','Flow.lean',[("l'.a.io.out.length ≤ l.b.io.arrived.length + c.toRight","l'.a.io.out.length < l.b.io.arrived.length + c.toRight")],'Flow.Lets.right','one byte of the buffer is never used','C143_rest: with one byte of room on each link nothing waits for the buffers')
m('nw-wrong-way','Flow.lean',[("l'.b.io.out.length ≤ l.a.io.arrived.length + c.toLeft","l'.b.io.out.length ≤ l.a.io.arrived.length + c.toRight")],'Flow.Lets.left','both directions have buffers of the same size','C143_ahead: what the server has sent is not further ahead than the buffers in this direction have room for')
m('nw-greedy','Flow.lean',[("  takesB : l'.b.io.arrived = l.b.io.arrived ∨ Asks l.b.io","  takesB : True")],'Flow.Lets.takesB','bytes are taken from the buffer while nobody reads','C143_ahead: what has been sent is not further ahead than the buffers have room for')
m('nw-whole','Flow.lean',[("def Asks (s : State) : Prop := s.reader = .reading ∧ ∀ r, ¬ Settled s r","def Asks (s : State) : Prop := s.reader = .reading ∧ s.unread = []")],'Flow.Asks','a reader thread takes nothing more while it has a part of a message','C143_rest: when nothing can happen any more it is not because a reader thread does not take what has come')
m('nw-reach','Narrow.lean',[("  | step {w x w'} : Reachable c kc kl n w → Next c kc kl n w x w' →","  | step {w x w'} : Reachable c kc kl n w → Chain.Next kc kl n w x w' →")],'Narrow.Reachable','the buffers are without limit','C143_none: with no room at all on one link nothing ever gets to the server')
m('nw-quiet','Narrow.lean',[("∀ x w', Next c kc kl n w x w' → x.free = true","∀ w', ¬ Next c kc kl n w .relay w'")],'Narrow.Quiet','it is called rest when the relays rest','C143_leave: every maximal run ends with everything delivered')
m('nw-one-thread','Bridge.lean',[("  | up {w b h a} : w.awake → Carry","  | up {w b h a} : w.awake → w.down.held = [] → Carry"),("  | down {w b h a} : w.awake → Carry","  | down {w b h a} : w.awake → w.up.held = [] → Carry")],'Bridge.Next.up','a relay has one thread for both directions, which waits in send while it has a message','C143_rest: when nothing can happen any more it is not for want of room in the buffers')
m('nw-hasty','Bridge.lean',[("  | recv {s d m io} : Step ks s.io (.deliver m) io → Carry ks kd s .waiting d","  | recv {s d m io h} : Step ks s.io (.deliver m) io → Carry ks kd s h d")],'Bridge.Carry.recv','a relay receives the next message before it has passed on the last one, which is lost','C143_leave: every maximal run ends with everything delivered')
m('nw-polite','Bridge.lean',[("  | send {s d m io} : Step kd d.io (.accept m) io →","  | send {s d m io} : Step kd d.io (.accept m) io → d.io.reader = .reading →")],'Bridge.Carry.send','a relay passes on a message only while nothing comes from there','C143_rest: when nothing can happen any more it is not for want of room in the buffers')
m('rm-write-fails','Remote.lean',[("(a = .peer ∨ a = .writeFails → ∃ act,","(a = .peer → ∃ act,")],'Remote.Step.server','a write of the server may fail though the connection is there','C144_served: the server exits with success and every answer is received')
m('rm-any-bytes','Remote.lean',[("(a = .peer ∨ a = .writeFails → ∃ act,","(a = .writeFails → ∃ act,")],'Remote.Step.server','the server receives bytes that nobody has written','C144_prefix: the server does not fail and the client receives a beginning of the answers due')
m('rm-direct','Remote.lean',[("(side w.server) (w.chain.link n).a (.act act)","(side w.server) (w.chain.link 0).a (.act act)")],'Remote.Step.server','the server gets the bytes of the client directly, though there are relays between them','C144_prefix: the server does not fail and the client receives a beginning of the answers due')
m('rm-set-first','Remote.lean',[("⟨w.chain.set n { w.chain.link n with b := side p }, p⟩","⟨w.chain.set 0 { w.chain.link 0 with b := side p }, p⟩")],'Remote.Step.server','what the server does is seen on the first connection','C144_prefix: the server does not fail and the client receives a beginning of the answers due')
m('rm-deaf','Remote.lean',[("⟨w.chain.set n { w.chain.link n with b := side p }, p⟩","⟨w.chain, p⟩")],'Remote.Step.server','what the server does is not seen on its connection','C144_served: every answer is received')
m('rm-kind','Remote.lean',[("Session.Step (kl n) process w.server a p →","Session.Step .stdio process w.server a p →")],'Remote.Step.server','the server always uses standard streams, though its connection is said to be another','C144_served: every join returns Ok')
m('rm-free-relay','Remote.lean',[("  | .server .timeout => true\n","  | .server .timeout => true\n  | .relay => true\n")],'Remote.Ev.free','it is called rest though relays still have something to pass on','C144_served: every answer is received when nothing can happen any more')
m('rm-free-client','Remote.lean',[("  | .client e => e.app","  | .client _ => true")],'Remote.Ev.free','it is called rest though the threads of the client still have something to do','C144_served: every answer is received when nothing can happen any more')
m('rm-free-server','Remote.lean',[("  | .server .timeout => true","  | .server _ => true")],'Remote.Ev.free','it is called rest though the server still has something to do','C144_rest: every request has been answered when nothing can happen any more')
m('rm-quiet','Remote.lean',[("∀ a v, Step kc kl n process w a v → a.free = true","∀ v, ¬ Step kc kl n process w .relay v")],'Remote.Quiet','it is called rest when the relays rest','C144_served, C144_rest: every answer is received when nothing can happen any more')
m('rm-relay-stray','Remote.lean',[("  | relay {w : World} {c} : Chain.Next kc kl n w.chain .relay c →","  | relay {w : World} {c x} : Chain.Next kc kl n w.chain x c →")],'Remote.Step.relay','the end of the last connection does things that the server program does not do','C144_prefix: the server does not fail and the client receives a beginning of the answers due')
m('rm-hasty','Bridge.lean',[("  | recv {s d m io} : Step ks s.io (.deliver m) io → Carry ks kd s .waiting d","  | recv {s d m io h} : Step ks s.io (.deliver m) io → Carry ks kd s h d")],'Bridge.Carry.recv','a relay receives the next message before it has passed on the last one, which is lost','C142_rest, C144_rest: at rest each has received everything that the other has sent')
m('rm-drowsy','Chain.lean',[("  | relay {w i b} : i < n → Bridge","  | relay {w i b} : i < n → (w.link i).b.io.reader ≠ .reading → Bridge")],'Chain.Next.relay','a relay does something only while its first reader thread has a message','C142_rest, C144_rest: at rest each has received everything that the other has sent')
m('rc-last-free','Reach.lean',[('  lets : ∀ i ≤ n, Flow','  lets : ∀ i < n, Flow')],'Reach.Step','the last connection has buffers without limit','C145_none, C145_ahead: with no room at all on one connection nothing ever gets to the server')
m('rc-first-caps','Reach.lean',[('Flow.Lets (c i) (w.chain.link i)','Flow.Lets (c 0) (w.chain.link i)')],'Reach.Step','all connections have buffers of the size of those of the first','C145_none, C145_ahead: with no room at all on one connection nothing ever gets to the server')
m('rc-no-limit','Reach.lean',[("Steps c kc kl n process w as v → Step c kc kl n process v a u →","Steps c kc kl n process w as v → Remote.Step kc kl n process v a u →")],'Reach.Steps','the buffers are without limit','C145_none, C145_ahead: what has been sent is not further ahead than the buffers have room for')
m('rc-quiet','Reach.lean',[("∀ a v, Step c kc kl n process w a v → a.free = true","∀ v, ¬ Step c kc kl n process w .relay v")],'Reach.Quiet','it is called rest when the relays rest','C145_served: every answer is received when nothing can happen any more')
m('rc-no-room','Flow.lean',[("l'.b.io.out.length ≤ l.a.io.arrived.length + c.toLeft","l'.b.io.out.length < l.a.io.arrived.length + c.toLeft")],'Flow.Lets.left','one byte of the buffer is never used','C145_rest: with one byte of room on each connection nothing waits for room')
m('rc-one-thread','Bridge.lean',[("  | up {w b h a} : w.awake → Carry","  | up {w b h a} : w.awake → w.down.held = [] → Carry"),("  | down {w b h a} : w.awake → Carry","  | down {w b h a} : w.awake → w.up.held = [] → Carry")],'Bridge.Next.up','a relay has one thread for both directions, which waits in send while it has a message','C145_rest: when nothing can happen any more it is not for want of room in the buffers')
m('or-one-hand','Bridge.lean',[('  | finish {w} : w.awake → w.up = .ended → w.down = .ended →\n      w.left.b.io.rxAlive = false → w.left.b.io.txAlive = false → w.right.a.io.rxAlive = false → w.right.a.io.txAlive = false →\n      join kl w.left.b.io ≠ .waiting → (join kl w.left.b.io = .ok → join .socket w.right.a.io ≠ .waiting) →', '  | finish {w} : w.awake → w.up = .ended →')],'Bridge.Next.finish','the relay exits as soon as the first of its threads has ended','C146, C147: relays stay as long as one direction can still carry something')
m('or-shutdown','Link.lean',[('  x.gone || (k == .socket && x.io.reader.ended && x.io.writer.ended)', '  x.gone || (k == .socket && x.io.writer.ended)')],'Link.Side.closed','the writer thread shuts the socket down when it ends','C146, C147: a relay does not tell the next one that its sender is gone')
m('or-closed-other','Bridge.lean',[('  | closed {s d} : s.io.reader.ended = true → Carry', '  | closed {s d} : s.io.reader.ended = true ∨ d.io.reader.ended = true → Carry')],'Bridge.Carry.closed','a thread of the relay ends when the reader of the connection it sends to has ended','C146: the end of one connection does not make a relay give up the other')
m('or-relay-dies','Bridge.lean',[('  | near {w act b} : Move kl kc w.left.b w.left.a (.act act) b → Ev.app (.act act) = false → (∀ m, act ≠ .deliver m) →\n', '  | near {w ev b} : Move kl kc w.left.b w.left.a ev b → (∀ act, ev = .act act → Ev.app (.act act) = false ∧ ∀ m, act ≠ .deliver m) →\n')],'Bridge.Next.near','the first connection of the relay may be gone at any moment','C146: relays between a client and a server that have sent nothing stay')
m('or-fin-early','Link.lean',[("  | fin {x y io} : x.gone = false → y.closed k' = true → x.io.arrived", '  | fin {x y io} : x.gone = false → x.io.arrived')],'Link.Move.fin','the end of input is seen though the other side has not closed','C146, C147: a link stays open as long as neither end gives it up')
m('or-join-ok','Bridge.lean',[('      join kl w.left.b.io ≠ .waiting → (join kl', '      join kl w.left.b.io = .ok → (join kl')],'Bridge.Next.finish','the relay exits only if the first join returns Ok','C146: a relay whose two neighbours have gone exits, whatever they had sent')
m('or-no-drop-tx','Bridge.lean',[('  | dropTx {s d} : d.io.txAlive = true →', '  | dropTx {s d} : d.io.txAlive = true → s.io.reader = .done →')],'Bridge.Carry.dropTx','a thread of the relay drops its sender only if the reader ended normally','C146: a relay whose two neighbours have gone exits, whatever they had sent')
m('or-drop-all','Bridge.lean',[('Carry ks kd s .ended d { s with io := { s.io with rxAlive := false } } .ended d', 'Carry ks kd s .ended d { s with io := { s.io with rxAlive := false } } .ended { d with io := { d.io with rxAlive := false } }')],'Bridge.Carry.dropRx','a thread of the relay that ends drops the receiver of the other connection too','C146, C147: the end of one connection does not make a relay give up the other')
m('or-wait-both','Bridge.lean',[('(join kl w.left.b.io = .ok → join .socket w.right.a.io ≠ .waiting) →', '(join kl w.left.b.io = .ok ∧ join .socket w.right.a.io = .ok) →')],'Bridge.Next.finish','the relay exits only if both joins return Ok','C146: a relay whose two neighbours have gone exits, whatever they had sent')
m('to-unsent-on','Bridge.lean',[('Carry ks kd s (.holding m) d s .ended d', 'Carry ks kd s (.holding m) d s .waiting d')],'Bridge.Carry.unsent','a thread of the relay that cannot send drops the message and goes on','C148: of what a relay has received it has handed on everything but one message at most')
m('to-join-second','Bridge.lean',[('(join kl w.left.b.io = .ok → join .socket w.right.a.io ≠ .waiting) →', 'join .socket w.right.a.io ≠ .waiting →')],'Bridge.Next.finish','the relay joins the second connection also if the first join fails','C148: one message that has not been handed on is enough for the relay to exit')
m('to-fails-any','Link.lean',[("  | fails {x y r io} : x.gone = false → y.closed k' = true →", "  | fails {x y r io} : x.gone = false →")],'Link.Move.fails','a write may fail though the other side has not closed','C148: a relay whose client has gone exits if a message of the server has not been handed on')
m('to-drop-late','Bridge.lean',[('  | dropRx {s d} : s.io.rxAlive = true →', '  | dropRx {s d} : s.io.rxAlive = true → s.io.reader.ended = true →')],'Bridge.Carry.dropRx','a thread of the relay that has given up keeps its receiver until the input ends','C148: a relay whose client has gone exits if a message of the server has not been handed on')
m('to-closed-writer','Bridge.lean',[('  | closed {s d} : s.io.reader.ended = true → Carry', '  | closed {s d} : s.io.reader.ended = true ∨ d.io.writer.ended = true → Carry')],'Bridge.Carry.closed','a thread of the relay ends as soon as the writer it sends to has ended','C148: as long as everything has been handed on the relay is there, even if the last write has failed')
