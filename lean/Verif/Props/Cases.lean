/-
Further cases that meet the hypotheses of theorems of the other files: one for each theorem that is not used in an
example beside it.
-/
import Verif.Props.Framing
import Verif.Props.Wire
import Verif.Props.Lines
import Verif.Props.Heard
import Verif.Props.RoundTrip
import Verif.Props.Message
import Verif.Props.Payload
import Verif.Props.Conn
import Verif.Props.ReqQueue
import Verif.Props.Memory
import Verif.Props.Api
import Verif.Props.Transport
import Verif.Props.Session
import Verif.Props.Blocking
import Verif.Props.MemSession
import Verif.Props.Debug
import Verif.Props.Link
import Verif.Props.Resources
import Verif.Props.EndToEnd
import Verif.Props.DoubleError
import Verif.Props.AnyNumber

namespace Bsp
open Frame Json
open Spec (Header lines blank GoodLines Declares keys Numeral ValidUtf8)

/-! ### Framing -/

/-- C04_other_lines: the four lines of `sampleHeaders` against one line. -/
example (t : Bytes) : readText (⟨lines sampleHeaders ++ blank ++ t, false⟩ : Flat) =
    readText (⟨lines [lenHeader 3] ++ blank ++ t, false⟩ : Flat) :=
  C04_other_lines _ _ sampleHeaders_good (lenHeader_good (by decide)) 3 sampleHeaders_declares
    (lenHeader_declares (by decide)) t false

/-- C04_short_body: two bytes where three are declared. -/
example : readText (⟨lines sampleHeaders ++ blank ++ [97, 98], false⟩ : Flat) = .unexpectedEof :=
  (C04_short_body _ sampleHeaders_good 3 sampleHeaders_declares (by decide) [97, 98] (by decide)).1

/-- C05_unfinished_line: the input ends in the middle of a line. -/
example : readText (⟨lines sampleHeaders ++ utf8 "Content-".toList, false⟩ : Flat) = .invalidData :=
  C05_unfinished_line _ sampleHeaders_good _ (by decide) (by decide)

/-- C05_no_length: a header block with another header only. -/
example (rest : Bytes) : readText (⟨lines [⟨"a".toList, "1".toList⟩] ++ blank ++ rest, true⟩ : Flat) = .invalidData := by
  refine C05_no_length _ ?_ (by decide) rest true
  intro x hx
  rw [List.mem_singleton.1 hx]
  exact ⟨⟨by decide, by decide, splitSep_none.1 (by decide)⟩, fun h => absurd h (by decide)⟩

/-- C05_only: its hypothesis is met by a line that ends in LF alone. -/
example : readText (⟨utf8 "x: y\n".toList, false⟩ : Flat) = .invalidData ∧
    ∃ hs t, GoodLines hs ∧ utf8 "x: y\n".toList = lines hs ++ t := by
  have h : readText (⟨utf8 "x: y\n".toList, false⟩ : Flat) = .invalidData := by
    have := C05_bad_line [] (by simp [GoodLines]) (utf8 "x: y\n".toList)
      ⟨⟨utf8 "x: y".toList, by decide, by decide⟩, .inr (.inl ⟨_, rfl, stripCrlf_none.1 (by decide)⟩)⟩ [] false
    simpa [lines] using this
  obtain ⟨hs, t, h1, h2, _⟩ := C05_only _ _ h
  exact ⟨h, hs, t, h1, h2⟩

/-- C06_numeral: a sign and a leading zero. -/
example : readText (⟨utf8 (Spec.contentLength ++ Spec.sep ++ "+03".toList ++ Spec.crlf) ++ blank ++ utf8 "abc".toList, false⟩ :
    Flat) = .item "abc".toList ⟨[], false⟩ :=
  (C06_numeral "+03".toList (by decide) "abc".toList (by decide)).2 (parseUsize_iff.1 (by decide))

/-- C06_rejected: a negative number. -/
example (rest : Bytes) : readText (⟨utf8 (Spec.contentLength ++ Spec.sep ++ "-3".toList ++ Spec.crlf) ++ rest, true⟩ : Flat) =
    .invalidData :=
  C06_rejected "-3".toList (by decide) (parseUsize_none.1 (by decide)) rest true

/-- C08_exactly_one_frame: the stream beside C04 starts with a frame of "abc". -/
example : ∃ f, Spec.IsFrame f ['a', 'b', 'c'] ∧ lines sampleHeaders ++ blank ++ [97, 98, 99] ++ [1, 2] = f ++ [1, 2] :=
  ((C08_exactly_one_frame _ _ false _ _).1 ((C04_last_length _ sampleHeaders_good 3 sampleHeaders_declares [97, 98, 99]
    [1, 2] false rfl (by decide)).1 _ (by decide))).2.2

/-- C09_chunks: an exit notification in two chunks. -/
example [Ext] [FloatText] : readAll (⟨[], [utf8 "Content-Length: 3\r\n\r".toList, utf8 "\nabc".toList], false⟩ : Chunked) =
    readAll (⟨utf8 "Content-Length: 3\r\n\r\nabc".toList, false⟩ : Flat) :=
  C09_chunks _ false _ (by decide) (by decide)

/-- C09_text: the same, as a text. -/
example : ∃ s' : Chunked, readText (⟨utf8 "Content-Length: 3\r".toList, [utf8 "\n\r".toList, utf8 "\nabcd".toList], false⟩ :
    Chunked) = .item "abc".toList s' ∧ s'.flat.bytes = [100] ∧ s'.broken = false := by
  refine (C09_text _ (by decide) _).2 ?_
  have := C01_frame "abc".toList (by decide) [100] false
  have e : utf8 ("Content-Length: ".toList ++ Nat.toDigits 10 (utf8 "abc".toList).length ++ "\r\n\r\n".toList) ++
      utf8 "abc".toList ++ [100] = utf8 "Content-Length: 3\r".toList ++
        [utf8 "\n\r".toList, utf8 "\nabcd".toList].flatten := by decide
  rw [← e]; exact this

/-- C10_body: a body with a stray continuation byte. -/
example (rest : Bytes) : readText (⟨lines sampleHeaders ++ blank ++ [97, 0x80, 98] ++ rest, false⟩ : Flat) = .invalidData :=
  (C10_body _ sampleHeaders_good [97, 0x80, 98] rest false sampleHeaders_declares (by decide)).1.1
    (by rw [← fromUtf8_none]; decide)

/-- C10_header: a header line in Latin-1. -/
example (rest : Bytes) : readText (⟨lines sampleHeaders ++ ([0xE9, 58, 32, 13] ++ [10]) ++ rest, false⟩ : Flat) = .invalidData :=
  C10_header _ sampleHeaders_good [0xE9, 58, 32, 13] (by decide) (by rw [← fromUtf8_none]; decide) rest false

/-! ### Messages as bytes -/

section
attribute [local instance] Ext.sample FloatText.sample

/-- C02_stream_chunked: the samples, one byte at a time. -/
example : readAll (⟨[], (sampleMessages.flatMap write).map (fun b => [b]), false⟩ : Chunked) =
    (sampleMessages.map Message.norm, .eof) := by
  refine C02_stream_chunked _ sample_ok _ (by intro c hc; obtain ⟨b, _, rfl⟩ := List.mem_map.1 hc; simp) ?_
  generalize sampleMessages.flatMap write = bytes
  induction bytes with
  | nil => rfl
  | cons b bs ih => simp [ih]

/-- C03_prefix: the samples, cut after 50 bytes. -/
example : ∃ n stop, readAll (⟨(sampleMessages.flatMap write).take 50, true⟩ : Flat) =
    ((sampleMessages.take n).map Message.norm, stop) ∧ stop ≠ .panic := C03_prefix _ sample_ok 50 true

/-- C03_more: bytes that come later do not change what has been read. -/
example (more : Bytes) : sampleMessages.map Message.norm <+:
    (readAll (⟨sampleMessages.flatMap write ++ more, false⟩ : Flat)).1 := by
  have := C03_more (sampleMessages.flatMap write) more false false
  rwa [C02_stream _ sample_ok] at this

/-- C11_header, C11_prefix: an exit notification. -/
example : write (.notification .exit) = utf8 ("Content-Length: ".toList ++ "39".toList ++ "\r\n\r\n".toList) ++
    utf8 "{\"jsonrpc\":\"2.0\",\"method\":\"build/exit\"}".toList := by decide
example : ∃ text body, write (.notification .exit) =
    utf8 ("Content-Length: ".toList ++ Nat.toDigits 10 body.length ++ "\r\n\r\n".toList) ++ body ∧ body = utf8 text ∧
      text = msgText (.notification .exit) := C11_header _
example : "{\"jsonrpc\":\"2.0\",".toList <+: msgText (.request (.shutdown (.i32 1))) := C11_prefix _

/-- C11_object: the samples. -/
example (m : Message) (hm : m ∈ sampleMessages) : ∃ ms d,
    Gram.JsonText d (msgText m) (.obj (("jsonrpc", .str "2.0") :: ms)) ∧
      Spec.MessageMembers m ms ∧ "jsonrpc" ∉ keys ms ∧ (keys ms).Nodup :=
  C11_object m (sample_ok m hm).2.numbers

/-- C12_tree: the samples. -/
example (m : Message) (hm : m ∈ sampleMessages) : Message.dec m.enc = some m.norm := C12_tree m (sample_ok m hm).1

/-- C13_heard: a shutdown request. -/
example : readMsg (⟨write (.request (.shutdown (.i32 4))) ++ [1], false⟩ : Flat) =
    .item (.response ⟨.i32 4, none, none⟩) ⟨[1], false⟩ := C13_heard shutdown_sayable [1] false

/-- C13_partial: a custom request with params. -/
example : ∃ r', Message.dec (Message.enc (.request (.custom (.str "7") "x/y" (.ofJson (.str "é"))))) = some (.request r') ∧
    r'.id = .str "7" ∧ r'.method = "x/y" :=
  C13_partial (.custom (.str "7") "x/y" (.ofJson (.str "é"))) ⟨by decide, by
    intro h
    have := congrArg Value.json h
    simp at this⟩

/-- C39_grammar, C39_injective: a tree and its text. -/
example : Gram.JsonText (Spec.nest (.obj [("a", .arr [.int 1, .null])])) "{\"a\":[1,null]}".toList
    (.obj [("a", .arr [.int 1, .null])]) :=
  (C39_grammar _ (by simp [Spec.Numbers, Spec.NumbersMembers, Spec.NumbersList]) (.obj [("a", .arr [.int 1, .null])]) 0).1
example (k : Json) (hk : Spec.Numbers k) (h : Text.print k = "{\"a\":[1,null]}".toList) : k = .obj [("a", .arr [.int 1, .null])] :=
  C39_injective _ _ hk (by simp [Spec.Numbers, Spec.NumbersMembers, Spec.NumbersList]) (h.trans (by decide))

/-- C40_deep_text: 128 brackets. -/
example : Text.parse (Text.print (deep 128)) = none :=
  C40_deep_text _ _ _ (C39_grammar (deep 128) (deep_numbers 128) (deep 128) 0).1 (by rw [deep_nest]; decide)

/-- C89_frame: the samples. -/
example (m : Message) (hm : m ∈ sampleMessages) : ∃ header body, write m = header ++ [13, 10] ++ [13, 10] ++ body ∧
    (∀ b ∈ header, 32 ≤ b) ∧ ∀ b ∈ body, 32 ≤ b := C89_frame m (sample_ok m hm).2.numbers
end

/-! ### Messages -/

section
attribute [local instance] Ext.sample FloatText.sample

/-- C14_rejected: a string is none of the three. -/
example : Message.dec (.str "x") = none := by
  refine (C14_rejected _).2 ⟨?_, ?_, ?_⟩
  · rintro ⟨_, _, _, _, _, _, h, _⟩; cases h
  · rintro ⟨_, ⟨_, _, h, _⟩ | ⟨_, _, _, h, _⟩⟩ <;> cases h
  · rintro ⟨_, _, _, h, _⟩; cases h

/-- C15_unknown_members: two members of other names, one of them twice. -/
example (i v w : Json) : Message.dec (.obj [("x", v), ("id", i), ("x", w), ("result", v)]) =
    Message.dec (.obj [("id", i), ("result", v), ("jsonrpc", w)]) :=
  C15_unknown_members _ _ rfl

/-- C17_request, C17_response, C17_notification, C17_double_id: members written twice. -/
example (i m p : Json) (r : Request) : Message.dec (.obj [("id", i), ("method", m), ("params", p), ("method", m)]) ≠
    some (.request r) := C17_request _ "method" (by decide) (by exact Nat.le_refl 2) r
example (i v : Json) (r : Response) : Message.dec (.obj [("result", v), ("id", i), ("result", v)]) ≠ some (.response r) :=
  C17_response _ "result" (by decide) (by exact Nat.le_refl 2) r
example (m p : Json) (n : Notification) : Message.dec (.obj [("params", p), ("method", m), ("params", p)]) ≠
    some (.notification n) := C17_notification _ "params" (by decide) (by exact Nat.le_refl 2) n
example (m : Message) (h : Message.dec (.obj [("id", .int 1), ("id", .int 2), ("method", .str "build/exit")]) = some m) :
    ∃ n, m = .notification n := C17_double_id _ (by decide) m h

/-- C18: the largest id, one more, and a string of digits. -/
example : (∃ id, RequestId.dec (.int 2147483647) = some id) ∧ (¬ ∃ id, RequestId.dec (.int 2147483648) = some id) ∧
    ∃ id, RequestId.dec (.str "2147483648") = some id := by
  refine ⟨(C18_accepts _).2 (.inl ⟨_, rfl, by decide, by decide⟩), fun h => ?_, (C18_accepts _).2 (.inr ⟨_, rfl⟩)⟩
  rcases (C18_accepts _).1 h with ⟨i, h, _, h2⟩ | ⟨s, h⟩
  · cases h; revert h2; decide
  · cases h
example : RequestId.dec (RequestId.i32 (-5)).enc = some (.i32 (-5)) := C18_roundtrip _
example (a : RequestId) (h : a.enc = .str "7") : a = .str "7" := C18_injective a (.str "7") h
example (id : RequestId) (h : RequestId.dec (.int 7) = some id) : ∃ i, id = .i32 i ∧ i.toInt = 7 := by
  rcases C18_value _ _ h with ⟨i, h1, h2⟩ | ⟨s, _, h2⟩
  · exact ⟨i, h1, (Json.int.inj h2).symm⟩
  · cases h2

/-- C20_partial: a shutdown request without params is not taken for a notification. -/
example (n : Notification) : Message.dec (.obj [("id", .int 4), ("method", .str "build/shutdown")]) ≠ some (.notification n) :=
  (C20_partial _ (.int 4) (.i32 4) "build/shutdown" ⟨[], _, rfl, by decide, by decide⟩ (Spec.IdOf.num 4 (by decide))
    ⟨[("id", .int 4)], [], rfl, by decide, by decide⟩ (.inl (by decide))).2 (by decide) (by decide) n

/-- C21_custom_request. -/
example : Message.dec (.obj [("params", .null), ("id", .str "q"), ("method", .str "Build/shutdown")]) =
    some (.request (.custom (.str "q") "Build/shutdown" Value.null)) :=
  C21_custom_request _ (.str "q") .null (.str "q") "Build/shutdown"
    ⟨[("params", .null)], _, rfl, by decide, by decide⟩ (Spec.IdOf.str "q")
    ⟨[("params", .null), ("id", .str "q")], [], rfl, by decide, by decide⟩
    ⟨[], _, rfl, by decide, by decide⟩ (by decide)

/-- C22: what is read under a built-in name and under another. -/
example (ms : Members) (i : RequestId) (h : Message.dec (.obj ms) = some (.request (.workspaceReload i))) :
    Spec.Once "method" ms (.str "workspace/reload") := (C22_request ms _ h).1
example (ms : Members) (v : Value) (h : Message.dec (.obj ms) = some (.notification (.custom "build/taskFinish" v))) : False := by
  rcases (C22_notification ms _ h).2 with h | ⟨_, h⟩
  · cases h
  · exact h (show "build/taskFinish" ∈ _ by decide)
example (i : RequestId) : (Request.workspaceBuildTargets i).method = "workspace/buildTargets" :=
  (C22_names.1 (.workspaceBuildTargets i) _ rfl).1
example : ¬ [("build/shutdown" : String), "build/shutdown"].Sublist Spec.requestMethods :=
  fun h => by have := h.nodup C22_distinct.1; revert this; decide

/-- C23, C24: a reload request and custom ones. -/
example : ∃ ms, Message.enc (.request (.workspaceReload (.str "r"))) = .obj ms ∧ Spec.Once "id" ms (.str "r") ∧
    Spec.Once "method" ms (.str "workspace/reload") := C23_accessors (.workspaceReload (.str "r"))
example (x : BuildTargetTest) : Spec.ParamsAre (.buildTargetTest (.i32 1) x) (Request.buildTargetTest (.i32 1) x).params :=
  C24_partial _ (by simp)
example : ¬ Spec.ParamsAre (.custom (.i32 1) "a" Value.null) (Request.custom (.i32 1) "a" Value.null).params :=
  fun h => by
    have := congrArg Value.json ((C24_exact _).1 h _ _ _ rfl)
    simp at this

/-- C25: an unknown method, and a response with an error only by way of its constructor. -/
example : (Response.methodNotFound (.i32 2) "no").error = some ⟨-32601, "no", none⟩ :=
  ((C25_constructors (.i32 2) "no").1 (Response.methodNotFound, -32601) (by simp [Spec.errorConstructors])).2.2
example : (Response.ok (.i32 2) Value.null).error = none := ((C25_constructors (.i32 2) "no").2 _).2.2
example (a : ErrorCode) (h : a.code = -32800) : a = .requestCanceled := C25_distinct.2 a .requestCanceled h

/-- C26_shutdown_reply, C27_never_confused. -/
example : Message.dec (Message.enc (.response (Response.ok (.str "s") Value.null))) =
    some (.response ⟨.str "s", none, none⟩) := C26_shutdown_reply _
example (m : Message) (h : Message.dec (Message.enc (.notification (.custom "id" Value.null))) = some m) :
    ∃ n', m = .notification n' := C27_never_confused _ m h

/-- C62: conversions into messages. -/
example (u : Ext.Url) : (Message.ofRequestPayload .compile (.i32 3) (⟨⟨u⟩, none, some "a"⟩ : BuildTargetCompile)).enc =
    .obj [("jsonrpc", .str "2.0"), ("id", .int 3), ("method", .str "buildTarget/compile"),
      ("params", .obj [("target", .obj [("uri", encUrl u)]), ("arguments", .str "a")])] :=
  C62_request .compile _ _
example : (Message.ofNotificationPayload .logMessage (⟨.log, none, none, "hi"⟩ : LogMessage)).enc =
    .obj [("jsonrpc", .str "2.0"), ("method", .str "build/logMessage"),
      ("params", .obj [("type", .int 4), ("message", .str "hi")])] := C62_notification .logMessage _
example (u : Ext.Url) : (Message.ofResult .inverseSources (.str "a") (⟨[⟨u⟩]⟩ : BuildTargetInverseSourcesResult)).enc =
    .obj [("jsonrpc", .str "2.0"), ("id", .str "a"), ("result", .obj [("targets", .arr [.obj [("uri", encUrl u)]])])] :=
  C62_result .inverseSources _ _
example : (Message.ofStringResult (.i32 1) "x").enc = .obj [("jsonrpc", .str "2.0"), ("id", .int 1), ("result", .str "x")] :=
  (C62_plain (.i32 1) "" "x" Value.null).1
end

/-! ### Payloads -/

section
attribute [local instance] Ext.sample FloatText.sample Dbg.sample

/-- C29_norm, C30_norm: null data, and a custom kind with a reserved name. -/
example : (⟨⟨sampleUrl⟩, none, none, none, some .null⟩ : BuildTargetRun).norm = ⟨⟨sampleUrl⟩, none, none, none, none⟩ :=
  (C29_norm.2.1 _).trans rfl
example : ∃ k, (TaskDataKind.custom "test-report").norm = k ∧ ∀ t, k ≠ .custom t := by
  rcases C30_norm.2.2.2.2.2 (.custom "test-report") with h | ⟨s, _, _, _, h⟩
  · cases h
  · exact ⟨_, rfl, h⟩

/-- C31_norm: null data of a result; a result without data. -/
example : (⟨some "o", 1, some "k", some .null⟩ : BuildTargetCompileResult).norm = ⟨some "o", 1, some "k", none⟩ ∧
    Payload.norm .buildTargetRunResult ⟨some "o", 2⟩ = ⟨some "o", 2⟩ :=
  ⟨(C31_norm.2.1 _).trans rfl, C31_norm.2.2.2.2 .buildTargetRunResult ⟨some "o", 2⟩ (by decide)⟩

/-- C31_result_payloads: the result of a test run. -/
example : BuildTargetTestResult.dec (canon (BuildTargetTestResult.enc ⟨some "o", 2, none, none⟩)) =
    some ⟨some "o", 2, none, none⟩ :=
  (C31_result_payloads .buildTargetTestResult (by decide) _).1 (by exact fun h => by cases h)

/-- C32_relevant: of two targets the last one counts. -/
example (t t' : Json) : Payload.dec .buildTargetCompile (canon (.obj [("target", t'), ("target", t)])) =
    Payload.dec .buildTargetCompile (canon (.obj [("target", t)])) := by
  refine C32_relevant .buildTargetCompile _ _ fun k _ v => ?_
  rw [lastIs_iff, lastIs_iff]
  by_cases h : k = "target"
  · subst h; exact Iff.rfl
  · simp [lookupLast, h]

/-- C34_omission, C34_nothing_lost: a task start without a message. -/
example (x : TaskStart) : ∃ ms, x.enc = .obj ms ∧ "taskId" ∈ keys ms ∧ ("message", .str "") ∉ ms := by
  obtain ⟨ms, h1, _, h2, h3⟩ := C34_omission .taskStart x
  exact ⟨ms, h1, h2 ⟨"taskId", some (.obj []), .never⟩ (by simp [Payload.schema]) rfl,
    h3 ⟨"message", some (.str ""), .whenEq (.str "")⟩ (by simp [Payload.schema]) _ rfl⟩
example : TaskStart.dec (canon (.obj [("message", .str ""), ("taskId", .obj [("id", .str "t")])])) =
    some ⟨⟨"t", []⟩, none, "", .none, .null⟩ :=
  C34_nothing_lost .taskStart (⟨⟨"t", []⟩, none, "", .none, .null⟩ : TaskStart)
    ⟨"message", some (.str ""), .whenEq (.str "")⟩ (by simp [Payload.schema]) _ rfl _ rfl (by decide)

/-- C35_total_progress: a progress of 2^32. -/
example : Message.dec (.obj [("method", .str "build/taskProgressing"),
    ("params", .obj [("taskId", .obj [("id", .str "t")]), ("progress", .int 4294967296)])]) = none := by
  refine C35_total_progress _ [("taskId", .obj [("id", .str "t")]), ("progress", .int 4294967296)]
    "progress" (.int 4294967296) (.inr rfl) ?_
    ⟨[], _, rfl, by decide, by decide⟩ ⟨[("method", .str "build/taskProgressing")], [], rfl, by decide, by decide⟩
    ⟨[("taskId", .obj [("id", .str "t")])], [], rfl, by decide⟩ (by simp) ?_
  · rintro ⟨i, id, ⟨a, b, h, _⟩, _⟩
    have : "id" ∈ keys (a ++ ("id", i) :: b) := by simp [keys]
    rw [← h] at this
    revert this; decide
  · intro i h; cases h; decide

/-- C36: numbers read, and numbers that are not. -/
example : MessageType.dec (.int 2) = some .warning ∧ MessageType.dec (.int 0) ≠ some .error :=
  ⟨(C36_message_type _ _).1.2 rfl, fun h => by cases (C36_message_type _ _).1.1 h⟩
example : TaskStatus.dec (.int 3) = some .cancelled ∧ TaskStatus.dec (.str "3") ≠ some .cancelled :=
  ⟨(C36_task_status _ _).1.2 rfl, fun h => by cases (C36_task_status _ _).1.1 h⟩
example : BuildTargetEventKind.dec (.int 3) = some .deleted ∧ BuildTargetEventKind.dec .null ≠ some .created :=
  ⟨(C36_event_kind _ _).1.2 rfl, fun h => by cases (C36_event_kind _ _).1.1 h⟩
example : SourceKind.dec (.int 2) = some .directory ∧ SourceKind.dec (.int 3) ≠ some .directory :=
  ⟨(C36_source_kind _ _).1.2 rfl, fun h => by cases (C36_source_kind _ _).1.1 h⟩

/-- C37: a kind that is no string is no kind; a custom kind with a reserved name is read as that one. -/
example : TaskDataKind.dec (.int 3) = some .none := by
  obtain ⟨k, h1, ⟨s, h, _⟩ | ⟨_, rfl⟩⟩ := C37_decode (.int 3)
  · cases h
  · exact h1
example : ∃ k, Spec.KindName k "test-start" ∧ TaskDataKind.dec (canon (TaskDataKind.custom "test-start").enc) = some k :=
  C37_reserved _ (by decide)

/-- C38_partial. -/
example : BuildTargetTag.dec (canon (BuildTargetTag.custom "x").enc) = some (.custom "x") ∧
    ∃ t : BuildTargetTag, BuildTargetTag.dec (.str "no-i-d-e") = some t ∧ t.enc = .str "no-i-d-e" :=
  ⟨C38_partial.1 _, C38_partial.2 _ (by decide)⟩

/-! ### The handshake -/
section
open Conn

/-- C42_refused: with room for one response, one of the two early requests is refused. -/
example : ∃ rs more, (handshake (fun _ => some Value.null) { sampleWorld with out := [0] }).2.sent = [] ++ rs ++ more ∧
    Spec.Refusals [.shutdown (.i32 1)] rs := C42_refused _ { sampleWorld with out := [0] } _ _ rfl sampleEarly

/-- C43_exit_partial: exit after two early requests. -/
example : ∃ e, (handshake (fun _ => some Value.null) { sampleWorld with
      inp := [(1, .request (.shutdown (.i32 1))), (2, .request (.workspaceReload (.str "a"))), (3, .notification .exit)] }).1 =
    .err e := by
  obtain ⟨e, h, _⟩ := C43_exit_partial (fun _ => some Value.null) { sampleWorld with
      inp := [(1, .request (.shutdown (.i32 1))), (2, .request (.workspaceReload (.str "a"))), (3, .notification .exit)] }
    _ [] rfl sampleEarly (by decide)
  exact ⟨e, h⟩

/-- C46_exact: whatever comes, nothing is sent in vain when nothing has come in. -/
example (process : InitializeBuild → Option Value) :
    (handshake process { sampleWorld with inp := [] }).2.sent = [] := by
  obtain ⟨early, tail, used, rs, more, h1, _, _, h4, h5, h6⟩ := C46_exact process { sampleWorld with inp := [] }
  have e : early = [] ∧ tail = [] := by
    have : ([] : List Message) = early.map .request ++ tail := h1
    constructor
    · cases early with
      | nil => rfl
      | cons a b => simp at this
    · cases tail with
      | nil => rfl
      | cons a b => simp at this
  obtain ⟨rfl, rfl⟩ := e
  cases h5
  rcases h6 with ⟨h, _⟩ | ⟨_, h, _⟩ | ⟨_, _, h, _⟩ | ⟨_, _, _, h, _⟩
  · simp at h
  · subst h; exact h4
  · cases h
  · cases h

/-- C47_ends: the peer hangs up at some time. -/
example (process : InitializeBuild → Option Value) : (handshake process { sampleWorld with fin := .closedAt 9 }).1 ≠ .blocked :=
  C47_ends process _ 9 rfl rfl

/-- C49_otherwise: exit comes too late. -/
example : ∃ e, (handleShutdown (.shutdown (.i32 1)) { sampleWorld with inp := [(30001, .notification .exit)] }).1 = .err e := by
  rcases C49_otherwise (.i32 1) { sampleWorld with inp := [(30001, .notification .exit)] } (by
    intro h
    obtain ⟨t, r, start, h1, h2, h3⟩ := (C49_exit _ _).1 h
    cases h1; cases h2; exact absurd h3 (by decide)) with ⟨_, h⟩ | ⟨h, _⟩
  · exact h
  · cases h
end

/-- C50_fifo. -/
example : Spec.receivedBy .right (Spec.history sampleOps) <+: [.notification .exit, .notification .initialized] :=
  C50_fifo sampleOps .right
end

/-! ### The threads -/

section
open Transport
attribute [local instance] Ext.sample FloatText.sample

/-- C51_frames: after exit. -/
example (k : Kind) : ∃ used ps, sampleExit.arrived = used ++ [1, 2, 3] ∧ ps.length ≤ 1 ∧
    Spec.Carries used ([.notification .exit] ++ ps) := C51_frames (sampleExit_reachable k)

/-- C55_error: over stdio, after a malformed line. -/
example (s : State) (h : Step .stdio sampleBad .read s) : ∃ stop, Spec.Malformed stop ∧ Spec.Input s s.delivered stop :=
  (C55_error (reachable_step (sampleBad_reachable .stdio) h)
    ((C55_ends (sampleBad_reachable .stdio) rfl sampleBad_input).2 s h)).2

/-- C55_done: after exit. -/
example (k : Kind) : (∃ ms, [.notification .exit] = ms ++ [Message.notification .exit]) ∨
    (none = some false ∧ readAll (⟨sampleExit.arrived, false⟩ : Flat) = ([.notification .exit], .eof)) :=
  C55_done (sampleExit_reachable k) rfl
end

/-! ### The request queue -/

section
open Queue

/-- Registering over and over, with overflow checks: it goes well less than 2^31 times. -/
theorem registers_checked (n : Nat) (hn : n < 2 ^ 31) : ∃ evs q,
    Outgoing.run true (List.replicate n (.register ())) = some (evs, q) ∧ (Spec.outIds evs).length = n := by
  induction n with
  | zero => exact ⟨_, _, rfl, rfl⟩
  | succ n ih =>
    obtain ⟨evs, q, h, hl⟩ := ih (by omega)
    have hne : Outgoing.run true (.register () :: List.replicate n (.register ())) ≠ none := by
      intro he
      have := (C59_overflow _ _ _ h ()).1 he
      omega
    rw [List.replicate_succ]
    simp only [Outgoing.run, h, Outgoing.register] at hne ⊢
    by_cases hq : q.next = Int32.maxValue
    · simp [hq] at hne
    · simp only [hq, and_false, if_false]
      exact ⟨_, _, rfl, by simp [Spec.outIds, hl]⟩

/-- Registering over and over, without overflow checks: it goes well any number of times. -/
theorem registers_unchecked (n : Nat) : ∃ evs q,
    Outgoing.run false (List.replicate n (.register ())) = some (evs, q) ∧ (Spec.outIds evs).length = n := by
  induction n with
  | zero => exact ⟨_, _, rfl, rfl⟩
  | succ n ih =>
    obtain ⟨evs, q, h, hl⟩ := ih
    rw [List.replicate_succ]
    simp only [Outgoing.run, h, Outgoing.register, Bool.false_eq_true, false_and, if_false]
    exact ⟨_, _, rfl, by simp [Spec.outIds, hl]⟩

/-- C59_overflow: after 2^31 - 1 registrations the next one panics. -/
example : ∃ ops : List (OutOp Unit), Outgoing.run true ops ≠ none ∧ Outgoing.run true (.register () :: ops) = none := by
  obtain ⟨evs, q, h, hl⟩ := registers_checked (2 ^ 31 - 1) (by decide)
  exact ⟨_, by rw [h]; simp, (C59_overflow _ _ _ h ()).2 hl⟩

/-- C59_wraps: 2^32 + 1 registrations. -/
example : ∃ evs q, Outgoing.run false (List.replicate (2 ^ 32 + 1) (.register ())) = some (evs, q) ∧
    (Spec.outIds evs).reverse[2 ^ 32]? = (Spec.outIds evs).reverse[0]? := by
  obtain ⟨evs, q, h, hl⟩ := registers_unchecked (2 ^ 32 + 1)
  exact ⟨evs, q, h, C59_wraps _ _ _ h (by rw [hl]; decide)⟩

/-- C59_ids, C59_fresh, C59_complete, C59_once: two registrations, the first one completed. -/
example : (Spec.outIds (α := Char) [.completed (.i32 0) (some 'a'), .registered (.i32 1) 'b', .registered (.i32 0) 'a']).Nodup ∧
    (Spec.outIds (α := Char) [.completed (.i32 0) (some 'a'), .registered (.i32 1) 'b',
      .registered (.i32 0) 'a']).reverse[1]? = some (.i32 1) ∧
    (∃ q', Outgoing.run true [.complete (.i32 1), .complete (.i32 0), .register 'b', .register 'a'] =
      some ([.completed (.i32 1) (some 'b'), .completed (.i32 0) (some 'a'), .registered (.i32 1) 'b',
        .registered (.i32 0) 'a'], q')) ∧
    Spec.outCompletions (α := Char) (.i32 0) [.completed (.i32 0) (some 'a'), .registered (.i32 1) 'b',
      .registered (.i32 0) 'a'] + 0 ≤ 1 := by
  have h : ∃ q, Outgoing.run true [.complete (.i32 0), .register 'b', .register 'a'] =
    some ([.completed (.i32 0) (some 'a'), .registered (.i32 1) 'b', .registered (.i32 0) 'a'], q) := ⟨_, rfl⟩
  obtain ⟨q, h⟩ := h
  exact ⟨C59_fresh _ _ _ _ h (.inl rfl), C59_ids _ _ _ _ h 1 (by decide), C59_complete _ _ _ _ h (.i32 1),
    C59_once _ _ _ _ h (.i32 0)⟩

/-- C60: cancelled while pending, and once more. -/
example : (Incoming.run [.cancel (.i32 1), .register (.i32 1) 'a']).1 =
    [.cancelled (.i32 1) (some ⟨.i32 1, none, some ⟨-32800, "canceled by client", none⟩⟩), .registered (.i32 1) 'a'] :=
  C60_cancel [.register (.i32 1) 'a'] (.i32 1)
example : (Incoming.run [.complete (.i32 1), .cancel (.i32 1), .register (.i32 1) 'a']).1 =
    .completed (.i32 1) none :: (Incoming.run [.cancel (.i32 1), .register (.i32 1) 'a']).1 :=
  C60_complete [.cancel (.i32 1), .register (.i32 1) 'a'] (.i32 1)
example : Spec.inEnds (.i32 1) (Incoming.run [.complete (.i32 1), .cancel (.i32 1), .register (.i32 1) 'a']).1 + 0 ≤ 1 :=
  C60_once [.complete (.i32 1), .cancel (.i32 1), .register (.i32 1) 'a'] (.i32 1)
end

/-! ### Setters, getters, constructors -/


section
open Spec (member)
attribute [local instance] Ext.sample FloatText.sample

/-- C65: one of the setters, and a parent more. -/
example (x : BuildTargetCapabilities) (v : Bool) :
    member "canTest" (Api.BuildTargetCapabilities.set_can_test x v).enc = some (.bool v) ∧
    member "canCompile" (Api.BuildTargetCapabilities.set_can_test x v).enc = member "canCompile" x.enc := by
  have h := C65_setters Spec.setters[1] (List.getElem_mem _)
  exact ⟨h x v "canTest", h x v "canCompile"⟩
example : member "parents" (Api.TaskId.add_parent ⟨"t", []⟩ "p").enc = some (.arr [.str "p"]) ∧
    member "id" (Api.TaskId.add_parent ⟨"t", []⟩ "p").enc = some (.str "t") :=
  ⟨C65_add_parent ⟨"t", []⟩ "p" "parents", C65_add_parent ⟨"t", []⟩ "p" "id"⟩

/-- C66: one of the getters, an empty list, a status. -/
example (x : BuildTargetCapabilities) :
    member "canTest" x.enc = some (.bool (Api.BuildTargetCapabilities.can_test x)) :=
  C66_getters Spec.getters[1] (List.getElem_mem _) x
example : Api.BuildTargetCleanCache.is_empty ⟨[]⟩ = true := (C66_is_empty.1 _).2 rfl
example : Api.TaskStatus.is_cancelled .cancelled = true ∧ Api.TaskStatus.is_error .ok ≠ true :=
  ⟨(C66_status _).2.2.2 rfl, fun h => by cases (C66_status _).2.1.1 h⟩

/-- C67: one of the constructors. -/
example : (Api.default_ClientCapabilities).enc = .obj [("languageIds", .arr [])] :=
  C67_constructors Spec.ctors[0] (List.getElem_mem _) ()

/-- C68_empty: a result with a target cannot be built. -/
example : ¬ Api.Built .buildTargetInverseSourcesResult (⟨[⟨sampleUrl⟩]⟩ : BuildTargetInverseSourcesResult) :=
  fun h => by cases C68_empty.1 _ h
end

/-! ### Sessions -/

section
open Transport Session Conn
attribute [local instance] Ext.sample FloatText.sample Dbg.sample

/-- C56_heard, C56_heard_no_error, C56_heard_all: a message sent and received. -/
theorem samplePair2_sayable : ∀ m ∈ samplePair2.a.accepted, Spec.Sayable m := by
  intro m hm
  cases List.mem_singleton.1 hm
  exact sayable_of sampleOut_ok
example : samplePair2.b.delivered <+: [sampleOut].map Spec.heard ∧ samplePair2.b.reader ≠ .failed ∧
    samplePair2.b.delivered = [sampleOut].map Spec.heard :=
  ⟨C56_heard (samplePair2_reachable .stdio .socket) samplePair2_sayable,
   (C56_heard_no_error (samplePair2_reachable .stdio .socket) samplePair2_sayable rfl).1,
   C56_heard_all (samplePair2_reachable .stdio .socket) samplePair2_sayable (by simp [samplePair2]) rfl
     (fun ⟨_, h⟩ => no_read rfl rfl h)⟩

/-- C70_output, C76_partial, C76_all_but_last: the sample conversation with its end. -/
example (k : Kind) : ∃ as p, Session.Steps k sampleHandler {} as p ∧
    p.io.out <+: (Spec.answers sampleHandler ((sampleTalk ++ sampleLeave).map (·.2))).flatMap Frame.write ∧
    (p.exit ≠ some false → p.io.out = p.io.accepted.flatMap Frame.write) ∧
    (p.io.out = p.io.accepted.flatMap Frame.write ∨ ∃ ms m sent rest, p.io.accepted = ms ++ [m] ∧
      Frame.write m = sent ++ rest ∧ p.io.out = ms.flatMap Frame.write ++ sent) := by
  obtain ⟨as, p, h1, h2, _, h3, h4, h5⟩ := settle k sampleHandler (framed (sampleTalk ++ sampleLeave))
  refine ⟨as, p, h1, ?_, C76_partial h1 h2 h3, C76_all_but_last h1⟩
  have := C70_output h1 [] false
  rw [h4, readAll_carries sampleTalk_carries.2, readAll_eq, readMsg_nil.1] at this
  simpa using this

/-- C72_terminates: no run of the process on its own without an end. -/
example (k : Kind) : ¬ ∃ f : Nat → Proc, ∀ n, ∃ a, a ≠ .peer ∧ Session.Step k sampleHandler (f n) a (f (n + 1)) := by
  rintro ⟨f, hf⟩
  have : ∀ p n, f n = p → False := by
    intro p
    induction p using (C72_terminates k sampleHandler).induction with
    | _ p ih => exact fun n hn => ih (f (n + 1)) (hn ▸ hf n) (n + 1) rfl
  exact this _ 0 rfl

/-- C78_determined: a line without CR. -/
example : Settled sampleBad .invalidData := by
  refine (C78_determined rfl .invalidData).2 ?_
  have h := C05_bad_line [] (by simp [GoodLines]) [120, 10] ⟨⟨[120], by decide, by decide⟩,
    .inr (.inl ⟨['x', '\n'], by decide, stripCrlf_none.1 (by decide)⟩)⟩ [] true
  have : readMsg (⟨sampleBad.unread, true⟩ : Flat) = .invalidData := by
    rw [readMsg]
    simp only [Spec.lines, List.flatMap_nil, List.nil_append, List.append_nil] at h
    simp only [sampleBad, h]
  rw [this]
  exact ⟨by simp, rfl⟩

/-- C79_malformed: the same line comes first. -/
example (k : Kind) : ∃ as p, Session.Steps k sampleHandler {} as p ∧ p.exit = some false := by
  obtain ⟨as, p, h1, h2, _, h3, h4, h5⟩ := settle k sampleHandler [120, 10]
  refine ⟨as, p, h1, C79_malformed h1 h2 h3 (ms := []) (stop := .invalidData) ?_ (by simp) (by simp)⟩
  have h6 := sampleBad_input
  simp only [Spec.Input, h5, h4]
  exact h6

/-- C84_sent, C84_settles: in memory. -/
example (side : Mem.Side) : ∃ as p, MemSession.Steps side sampleHandler {} as p ∧ MemSession.Quiet side sampleHandler p ∧
    Spec.received side p <+: [.request (.workspaceReload (.str "a"))] := by
  have h1 : MemSession.Steps side sampleHandler {} [.tester]
    (({} : MemSession.Proc).does side.other (.send (.request (.workspaceReload (.str "a"))))) := .snoc (.nil _) (.tester _ _)
  obtain ⟨bs, q, h2, h3, _, h4, _⟩ := C84_settles h1
  have h := mem_append h1 h2
  refine ⟨_, q, h, h3, ?_⟩
  have := (C84_sent h).1
  rw [h4] at this
  cases side <;> exact this

/-! ### Texts -/

/-- C86: a number and the text of its digits. -/
example (odd : Char → Bool) : (RequestId.i32 5).display odd ≠ (RequestId.str "5").display odd :=
  fun h => by cases C86_display.1 h
example : Text.print (RequestId.i32 5).enc ≠ Text.print (RequestId.str "5").enc := fun h => by cases C86_wire.1.1 h
example (c : RequestId) (h : (RequestId.str "a").less c = true) : (RequestId.i32 9).less c = true :=
  (C86_order (.i32 9) (.str "a") c).2.1 (by decide) h

/-- C87_cause: the two causes of `sampleHasty` and of another one have different texts. -/
example (process : InitializeBuild → Option Value) :
    ∃ e e', (handshake process sampleHasty).1 = .err e ∧
      (handleShutdown (.shutdown (.i32 1)) { sampleHasty with inp := [(40000, .notification .exit)] }).1 = .err e' ∧ e ≠ e' := by
  obtain ⟨text, h1, h2, h3⟩ := C87_cause
  refine ⟨_, _, (h2 process sampleHasty _).2 ⟨⟨.before, .msg (.notification .exit)⟩,
      ⟨[.shutdown (.i32 3)], [], rfl, by simp, by decide, by simp⟩, rfl⟩,
    (h3 (.i32 1) { sampleHasty with inp := [(40000, .notification .exit)] } _).2 ⟨⟨.shutdown, .nothing⟩,
      ⟨1, rfl, by intro t m r h; cases h; decide, by intro t h; cases h⟩, rfl⟩, ?_⟩
  intro h
  have := h1 _ _ h
  cases this

/-- C87_refusal: what `sampleHasty` sends. -/
example (process : InitializeBuild → Option Value) : ∃ text more, (handshake process sampleHasty).2.sent =
    [.response ⟨.i32 3, none, some ⟨-32002, text, none⟩⟩] ++ more := by
  obtain ⟨text, _, _, h⟩ := C87_refusal
  obtain ⟨more, h⟩ := h process sampleHasty [.shutdown (.i32 3)] [.notification .exit] rfl (by simp)
  exact ⟨_, more, h⟩

/-- C87_extract: a mismatch is not told in the words of a failed decoding. -/
example : ExtractError.ofRequest (.methodMismatch (.custom (.i32 1) "a/b" Value.null)) ≠
    ExtractError.ofRequest (.jsonError "a/b" "EOF") := fun h => by
  have := C87_extract.1 _ _ (by decide) (by decide) h
  cases this

/-! ### Links -/

/-- C92_joined: at rest after exit. -/
example (ka : Kind) : ∃ n l', Link.Runs ka .socket sampleLeaving n l' ∧ join .socket l'.b.io = .ok := by
  obtain ⟨n, l', h1, h2⟩ := (C92_rest (sampleLeaving_reachable ka .socket)).2
  obtain ⟨⟨a1, a2, a3, a4⟩, ⟨b1, b2, b3, b4⟩, hd⟩ := runs_keeps h1
  refine ⟨n, l', h1, (C92_joined (pre := []) (runs_reachable h1 (sampleLeaving_reachable ka .socket)).1
    ⟨⟨a1, by rw [b1]; simp [sampleLeaving]⟩, by rw [a2]; exact sampleLeaving_leaving.okA,
      by rw [b2]; simp [sampleLeaving], by simp, by rw [a2]; exact List.prefix_refl _, by rw [b2]; simp [sampleLeaving],
      a3, .inl b3⟩
    a2 ⟨a4, b4⟩ (.inl rfl) h2).2.1⟩

/-- C92_held: at rest after exit, with the standard streams, before and after the process has exited. -/
example (ka : Kind) : ∃ n l', Link.Runs ka .stdio sampleLeaving n l' ∧ join .stdio l'.b.io = .ok ∧
    join ka l'.a.io = .waiting ∧ ∃ n' l'', Link.Runs ka .stdio { l' with b := { l'.b with gone := true } } n' l'' ∧
      join ka l''.a.io = .ok := by
  obtain ⟨n, l', h1, h2⟩ := (C92_rest (sampleLeaving_reachable ka .stdio)).2
  obtain ⟨⟨a1, a2, a3, a4⟩, ⟨b1, b2, b3, b4⟩, hd⟩ := runs_keeps h1
  have hl : Spec.Leaving [] l' := ⟨⟨a1, by rw [b1]; simp [sampleLeaving]⟩, by rw [a2]; exact sampleLeaving_leaving.okA,
    by rw [b2]; simp [sampleLeaving], by simp, by rw [a2]; exact List.prefix_refl _, by rw [b2]; simp [sampleLeaving],
    a3, .inl b3⟩
  have hr := (runs_reachable h1 (sampleLeaving_reachable ka .stdio)).1
  obtain ⟨⟨h3, _⟩, h4, _⟩ := C92_held hr hl a2 ⟨a4, b4⟩ b1 h2
  obtain ⟨h5, h6⟩ := C58_ok_iff.1 h4
  have hr' : Link.Reachable ka .stdio { l' with b := { l'.b with gone := true } } := .step hr (.right (.exit b1))
  have hl' : Spec.Leaving [] { l' with b := { l'.b with gone := true } } :=
    ⟨⟨a1, by simp [h5, h6, Reader.ended, Writer.ended]⟩, hl.okA, hl.okB, hl.before, hl.sentA, hl.sentB, hl.rxA, hl.rxB⟩
  obtain ⟨n', l'', h7, h8⟩ := (C92_rest hr').2
  have := C92_ends hr' hl' a2 ⟨a4, b4⟩ (.inr rfl) h7 h8
  exact ⟨n, l', h1, h4, h3, n', l'', h7, this.1.1⟩

/-- C93: refused, and accepted. -/
example : Link.connect (ε := String) ⟨some "refused", none, none, true, true⟩ {} = (.err "refused", {}) ∧
    Link.listen (ε := String) ⟨none, none, none, true, true⟩ {} =
      (.ok (.reader, .writer), { fds := [.reader, .writer], threads := [.reader, .writer] }) :=
  ⟨((C93_connect _).1 _ _).2 ⟨rfl, rfl⟩, ((C93_listen _).2.1 _ _).2 ⟨rfl, rfl, rfl, rfl, rfl, rfl⟩⟩

/-! ### Memory -/

/-- C94: a gigabyte for a few bytes, which have to declare it; C95: nothing is leaked by exit. -/
example : ∃ s : Bytes, s.length ≤ 39 ∧ 2 ^ 30 ≤ room ⟨s ++ [], false⟩ ∧ ∃ hs, GoodLines hs ∧ Declares hs (room ⟨s, false⟩) := by
  obtain ⟨s, h1, h2⟩ := C94_violated (2 ^ 30) (by decide)
  have h3 := h2 [] false
  rw [List.append_nil] at h3
  obtain ⟨hs, n, t, h4, h5, _, h6, _⟩ := C94_declared s false (by omega)
  exact ⟨s, h1, by simpa using h3, hs, h4, h6 ▸ h5⟩
example : leakAll ⟨write (.request (.custom (.i32 1) "ab" (.ofJson (.int 1)))), false⟩ =
    ((readAll (⟨write (.request (.custom (.i32 1) "ab" (.ofJson (.int 1)))), false⟩ : Flat)).1.map Spec.leaked).sum :=
  C95_exact _

/-! ### Both ends -/

/-- C96_served: at rest. -/
example (kc ks : Kind) : ∃ as w, EndToEnd.Steps kc ks sampleHandler {} as w ∧ w.server.exit = some true := by
  obtain ⟨as, h⟩ := says_run kc ks sampleHandler (sampleSaid ++ [.notification .exit])
  have h0 := EndToEnd.Steps.snoc h (.client (.own rfl (.dropTx _) (by simp) (by simp) (by simp)))
  obtain ⟨bs, u, h1, h2, h3⟩ := world_settles kc ks sampleHandler _
  obtain ⟨k1, k2, k3, k4⟩ := world_keeps h1 (fun e he => h3 _ he)
  exact ⟨_, u, world_append h0 h1, (C96_served samplePlan (world_append h0 h1) k1 k2 k3 k4 h2).1⟩

/-- C96_terminates: no run of the threads and the server without an end. -/
example (kc ks : Kind) : ¬ ∃ f : Nat → EndToEnd.World, ∀ n, ∃ a, (∀ e, a = EndToEnd.Ev.client e → e.app = false) ∧
    EndToEnd.Step kc ks sampleHandler (f n) a (f (n + 1)) := by
  rintro ⟨f, hf⟩
  have : ∀ p n, f n = p → False := by
    intro p
    induction p using (C96_terminates kc ks sampleHandler).induction with
    | _ p ih => exact fun n hn => ih (f (n + 1)) (hn ▸ hf n) (n + 1) rfl
  exact this _ 0 rfl
end

/-! ### Doubles -/

section
open Double Spec Gram

/-- C101: one tenth, and the smallest positive double. -/
example : ∃ s e, Literal "0.1".toList false s e ∧ NearestDec 0x3fb999999999999a s e := by
  obtain ⟨s, e, h1, h2, _⟩ := C101_text ⟨0x3fb999999999999a⟩ (by decide +kernel)
  rw [show print ⟨0x3fb999999999999a⟩ = "0.1".toList by decide +kernel] at h1
  exact ⟨s, e, h1, h2⟩
example : ∃ d k s e, Literal (print ⟨1⟩) false s e ∧ SameNumber d k s e ∧ digitCount d ≤ 17 ∧
    ∀ d' k', NearestDec 1 d' k' → digitCount d ≤ digitCount d' := by
  obtain ⟨d, k, s, e, h1, h2, _, h4, h5, _⟩ := C101_shortest ⟨1⟩ (by decide +kernel) (by decide +kernel)
  exact ⟨d, k, s, e, h1, h2, h4, h5⟩
example (f : F64) (hf : f.Finite) (h : print f = "0.1".toList) : f = ⟨0x3fb999999999999a⟩ :=
  C101_injective f _ hf (by decide +kernel) (h.trans (by decide +kernel))

/-- C102_violated, C103, C106_two: the double next to 2^53 is not kept, but read; and nothing read is infinite. -/
example : ∃ g : F64, Double.read (print bigOdd) = some g ∧ g.Finite ∧ g ≠ bigOdd := by
  obtain ⟨g, h1, h2, _⟩ := C103_read bigOdd C102_violated.1
  exact ⟨g, h1, h2, fun h => by
    have := Option.some.inj ((h ▸ h1).symm.trans C102_violated.2.1)
    revert this; decide +kernel⟩
example (f : F64) (h : Double.read "1.7976931348623157e308".toList = some f) : f.Finite := C103_finite _ f h
example : ¬ ∃ f, Double.read "1.7976931348623158e308".toList = some f := fun ⟨f, h⟩ => by
  cases C103_rejects.1.symm.trans h
example : ¬ ∀ f : F64, f.Finite → ∃ g, Double.read (print f) = some g ∧ dist g.mag f.mag ≤ 1 := fun h => by
  obtain ⟨g, h1, h2⟩ := h ⟨0x33aecabbfec79673⟩ (by decide +kernel)
  cases C106_two.1.symm.trans h1
  revert h2; decide +kernel

/-- C107_out: 1e400. -/
example : Double.read "1e400".toList = none := by
  have hp : ∀ j, 0 < 10 ^ j := fun j => Nat.pow_pos (by decide)
  exact C107_out _ _ _ _ huge_literal (by decide) _ ((near_roundPat (1 * 10 ^ (400 : Int).toNat * unit)
    (10 ^ (-(400 : Int)).toNat) (hp _)).nearest (hp _)) (by decide +kernel)
end

section
open Spec
/-- C106_restless: after a hundred hops it is where it was, after one more it is not. -/
example : hops 100 restlessA = some restlessA ∧ hops 101 restlessA ≠ some restlessA :=
  ⟨(C106_restless 50).1, fun h => (C106_restless 50).2.2 (Option.some.inj (h.symm.trans (C106_restless 50).2.1))⟩
end

end Bsp
