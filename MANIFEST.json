{
 "claims": [
  {
   "property": "C01",
   "status": "proved",
   "theorems": [
    "Bsp.C01_frame"
   ],
   "note": ""
  },
  {
   "property": "C02",
   "status": "proved",
   "theorems": [
    "Bsp.C02_stream",
    "Bsp.C02_stream_chunked"
   ],
   "note": ""
  },
  {
   "property": "C03",
   "status": "proved",
   "theorems": [
    "Bsp.C03_any",
    "Bsp.C03_more",
    "Bsp.C03_cut",
    "Bsp.C03_prefix"
   ],
   "note": ""
  },
  {
   "property": "C04",
   "status": "proved",
   "theorems": [
    "Bsp.C04_last_length",
    "Bsp.C04_other_lines",
    "Bsp.C04_short_body"
   ],
   "note": ""
  },
  {
   "property": "C05",
   "status": "proved",
   "theorems": [
    "Bsp.C05_bad_line",
    "Bsp.C05_unfinished_line",
    "Bsp.C05_no_length",
    "Bsp.C05_only"
   ],
   "note": ""
  },
  {
   "property": "C06",
   "status": "proved",
   "theorems": [
    "Bsp.C06_numeral",
    "Bsp.C06_rejected"
   ],
   "note": ""
  },
  {
   "property": "C07",
   "status": "proved",
   "theorems": [
    "Bsp.C07_clean_end"
   ],
   "note": ""
  },
  {
   "property": "C08",
   "status": "proved",
   "theorems": [
    "Bsp.C08_exactly_one_frame",
    "Bsp.C08_extension"
   ],
   "note": ""
  },
  {
   "property": "C09",
   "status": "proved",
   "theorems": [
    "Bsp.C09_chunks",
    "Bsp.C09_two_splits",
    "Bsp.C09_text"
   ],
   "note": ""
  },
  {
   "property": "C10",
   "status": "proved",
   "theorems": [
    "Bsp.C10_body",
    "Bsp.C10_header"
   ],
   "note": ""
  },
  {
   "property": "C11",
   "status": "proved",
   "theorems": [
    "Bsp.C11_header",
    "Bsp.C11_prefix",
    "Bsp.C11_object"
   ],
   "note": ""
  },
  {
   "property": "C12",
   "status": "proved",
   "theorems": [
    "Bsp.C12_tree",
    "Bsp.C12_tree_plain",
    "Bsp.C12_wire",
    "Bsp.C12_wire_plain"
   ],
   "note": ""
  },
  {
   "property": "C13",
   "status": "partial",
   "theorems": [
    "Bsp.C13_heard",
    "Bsp.C13_heard_stream",
    "Bsp.C13_violated",
    "Bsp.C13_partial",
    "Bsp.C13_exact"
   ],
   "note": "false of the code: shutdown, workspace/buildTargets, workspace/reload and custom requests with null params are written without params and do not decode as requests (negation proved in C13_violated); C13_partial proves it for every other request"
  },
  {
   "property": "C14",
   "status": "proved",
   "theorems": [
    "Bsp.C14_request",
    "Bsp.C14_response",
    "Bsp.C14_notification",
    "Bsp.C14_rejected"
   ],
   "note": ""
  },
  {
   "property": "C15",
   "status": "proved",
   "theorems": [
    "Bsp.C15_unknown_members",
    "Bsp.C15_insert"
   ],
   "note": ""
  },
  {
   "property": "C16",
   "status": "proved",
   "theorems": [
    "Bsp.C16_order"
   ],
   "note": ""
  },
  {
   "property": "C17",
   "status": "proved",
   "theorems": [
    "Bsp.C17_request",
    "Bsp.C17_response",
    "Bsp.C17_notification",
    "Bsp.C17_double_id"
   ],
   "note": ""
  },
  {
   "property": "C18",
   "status": "proved",
   "theorems": [
    "Bsp.C18_accepts",
    "Bsp.C18_roundtrip",
    "Bsp.C18_injective",
    "Bsp.C18_value"
   ],
   "note": ""
  },
  {
   "property": "C19",
   "status": "proved",
   "theorems": [
    "Bsp.C19_unusable_id"
   ],
   "note": ""
  },
  {
   "property": "C20",
   "status": "partial",
   "theorems": [
    "Bsp.C20_violated",
    "Bsp.C20_partial",
    "Bsp.C20_exact"
   ],
   "note": "false of the code: request.rs:431-436 rejects every request without params (negation proved in C20_violated); C20_partial proves what holds; C20_exact says what becomes of every such message"
  },
  {
   "property": "C21",
   "status": "proved",
   "theorems": [
    "Bsp.C21_custom_request",
    "Bsp.C21_custom_notification"
   ],
   "note": ""
  },
  {
   "property": "C22",
   "status": "proved",
   "theorems": [
    "Bsp.C22_request",
    "Bsp.C22_notification",
    "Bsp.C22_names",
    "Bsp.C22_distinct"
   ],
   "note": ""
  },
  {
   "property": "C23",
   "status": "proved",
   "theorems": [
    "Bsp.C23_accessors"
   ],
   "note": ""
  },
  {
   "property": "C24",
   "status": "partial",
   "theorems": [
    "Bsp.C24_violated",
    "Bsp.C24_partial",
    "Bsp.C24_exact"
   ],
   "note": "false of the code: request.rs:115 returns the method name as params of a custom request (C24_violated); C24_partial proves it for every other request"
  },
  {
   "property": "C25",
   "status": "proved",
   "theorems": [
    "Bsp.C25_constructors",
    "Bsp.C25_distinct"
   ],
   "note": ""
  },
  {
   "property": "C26",
   "status": "proved",
   "theorems": [
    "Bsp.C26_response",
    "Bsp.C26_shutdown_reply"
   ],
   "note": ""
  },
  {
   "property": "C27",
   "status": "proved",
   "theorems": [
    "Bsp.C27_notification",
    "Bsp.C27_never_confused"
   ],
   "note": ""
  },
  {
   "property": "C28",
   "status": "proved",
   "theorems": [
    "Bsp.C28_exit_initialized",
    "Bsp.C28_params_required"
   ],
   "note": ""
  },
  {
   "property": "C29",
   "status": "proved",
   "theorems": [
    "Bsp.C29_request_payloads",
    "Bsp.C29_norm"
   ],
   "note": ""
  },
  {
   "property": "C30",
   "status": "proved",
   "theorems": [
    "Bsp.C30_notification_payloads",
    "Bsp.C30_norm"
   ],
   "note": ""
  },
  {
   "property": "C31",
   "status": "proved",
   "theorems": [
    "Bsp.C31_result_payloads",
    "Bsp.C31_norm"
   ],
   "note": ""
  },
  {
   "property": "C32",
   "status": "proved",
   "theorems": [
    "Bsp.C32_relevant",
    "Bsp.C32_unknown",
    "Bsp.C32_order"
   ],
   "note": ""
  },
  {
   "property": "C33",
   "status": "proved",
   "theorems": [
    "Bsp.C33_required",
    "Bsp.C33_optional"
   ],
   "note": ""
  },
  {
   "property": "C34",
   "status": "proved",
   "theorems": [
    "Bsp.C34_omission",
    "Bsp.C34_nothing_lost"
   ],
   "note": ""
  },
  {
   "property": "C35",
   "status": "proved",
   "theorems": [
    "Bsp.C35_event_time",
    "Bsp.C35_total_progress"
   ],
   "note": ""
  },
  {
   "property": "C36",
   "status": "proved",
   "theorems": [
    "Bsp.C36_message_type",
    "Bsp.C36_task_status",
    "Bsp.C36_event_kind",
    "Bsp.C36_source_kind"
   ],
   "note": ""
  },
  {
   "property": "C37",
   "status": "proved",
   "theorems": [
    "Bsp.C37_decode",
    "Bsp.C37_roundtrip",
    "Bsp.C37_reserved"
   ],
   "note": ""
  },
  {
   "property": "C38",
   "status": "partial",
   "theorems": [
    "Bsp.C38_violated",
    "Bsp.C38_partial",
    "Bsp.C38_exact"
   ],
   "note": "false of the code (C38_violated); C38_partial proves the remainder; C38_exact says which data are accepted as tags"
  },
  {
   "property": "C39",
   "status": "proved",
   "theorems": [
    "Bsp.C39_text",
    "Bsp.C39_grammar",
    "Bsp.C39_injective"
   ],
   "note": ""
  },
  {
   "property": "C40",
   "status": "proved",
   "theorems": [
    "Bsp.C40_deep_text",
    "Bsp.C40_deep_message"
   ],
   "note": ""
  },
  {
   "property": "C41",
   "status": "proved",
   "theorems": [
    "Bsp.C41_success"
   ],
   "note": ""
  },
  {
   "property": "C42",
   "status": "proved",
   "theorems": [
    "Bsp.C42_refused"
   ],
   "note": ""
  },
  {
   "property": "C43",
   "status": "partial",
   "theorems": [
    "Bsp.C43_violated",
    "Bsp.C43_exact",
    "Bsp.C43_exit_partial"
   ],
   "note": "false of the code: any notification or response before build/initialize makes initialize() fail (C43_violated); C43_exit_partial proves that exit ends the handshake without handler call; C43_exact says what any early message other than a request does"
  },
  {
   "property": "C44",
   "status": "proved",
   "theorems": [
    "Bsp.C44_calls",
    "Bsp.C44_response"
   ],
   "note": ""
  },
  {
   "property": "C45",
   "status": "proved",
   "theorems": [
    "Bsp.C45_not_initialized"
   ],
   "note": ""
  },
  {
   "property": "C46",
   "status": "proved",
   "theorems": [
    "Bsp.C46_exact"
   ],
   "note": ""
  },
  {
   "property": "C47",
   "status": "proved",
   "theorems": [
    "Bsp.C47_hang_up",
    "Bsp.C47_panic",
    "Bsp.C47_error",
    "Bsp.C47_waits",
    "Bsp.C47_ends"
   ],
   "note": ""
  },
  {
   "property": "C48",
   "status": "proved",
   "theorems": [
    "Bsp.C48_other"
   ],
   "note": ""
  },
  {
   "property": "C49",
   "status": "proved",
   "theorems": [
    "Bsp.C49_exit",
    "Bsp.C49_otherwise",
    "Bsp.C49_response"
   ],
   "note": ""
  },
  {
   "property": "C50",
   "status": "proved",
   "theorems": [
    "Bsp.C50_fifo",
    "Bsp.C50_recv",
    "Bsp.C50_send"
   ],
   "note": ""
  },
  {
   "property": "C51",
   "status": "proved",
   "theorems": [
    "Bsp.C51_prefix",
    "Bsp.C51_frames",
    "Bsp.C51_progress"
   ],
   "note": ""
  },
  {
   "property": "C52",
   "status": "proved",
   "theorems": [
    "Bsp.C52_exit",
    "Bsp.C52_final"
   ],
   "note": ""
  },
  {
   "property": "C53",
   "status": "proved",
   "theorems": [
    "Bsp.C53_output",
    "Bsp.C53_one_at_a_time",
    "Bsp.C53_final"
   ],
   "note": ""
  },
  {
   "property": "C54",
   "status": "proved",
   "theorems": [
    "Bsp.C54_drained",
    "Bsp.C54_alive",
    "Bsp.C54_close"
   ],
   "note": ""
  },
  {
   "property": "C55",
   "status": "proved",
   "theorems": [
    "Bsp.C55_error",
    "Bsp.C55_panic",
    "Bsp.C55_done",
    "Bsp.C55_ends",
    "Bsp.C55_undeliverable"
   ],
   "note": ""
  },
  {
   "property": "C56",
   "status": "proved",
   "theorems": [
    "Bsp.C56_heard",
    "Bsp.C56_heard_no_error",
    "Bsp.C56_heard_all",
    "Bsp.C56_prefix",
    "Bsp.C56_no_error",
    "Bsp.C56_all"
   ],
   "note": ""
  },
  {
   "property": "C57",
   "status": "proved",
   "theorems": [
    "Bsp.C57_dropped",
    "Bsp.C57_ends",
    "Bsp.C57_progress",
    "Bsp.C57_join"
   ],
   "note": ""
  },
  {
   "property": "C58",
   "status": "proved",
   "theorems": [
    "Bsp.C58_ok",
    "Bsp.C58_ok_iff",
    "Bsp.C58_err",
    "Bsp.C58_panic",
    "Bsp.C58_stdout_lock",
    "Bsp.C58_line"
   ],
   "note": ""
  },
  {
   "property": "C59",
   "status": "proved",
   "theorems": [
    "Bsp.C59_ids",
    "Bsp.C59_fresh",
    "Bsp.C59_overflow",
    "Bsp.C59_wraps",
    "Bsp.C59_complete",
    "Bsp.C59_once"
   ],
   "note": ""
  },
  {
   "property": "C60",
   "status": "proved",
   "theorems": [
    "Bsp.C60_complete",
    "Bsp.C60_cancel",
    "Bsp.C60_once"
   ],
   "note": ""
  },
  {
   "property": "C61",
   "status": "proved",
   "theorems": [
    "Bsp.C61_from_str"
   ],
   "note": ""
  },
  {
   "property": "C62",
   "status": "proved",
   "theorems": [
    "Bsp.C62_request",
    "Bsp.C62_notification",
    "Bsp.C62_result",
    "Bsp.C62_plain"
   ],
   "note": ""
  },
  {
   "property": "C63",
   "status": "proved",
   "theorems": [
    "Bsp.C63_hang_up",
    "Bsp.C63_shutdown",
    "Bsp.C63_exit_in_time",
    "Bsp.C63_send_fails",
    "Bsp.C63_serve"
   ],
   "note": ""
  },
  {
   "property": "C64",
   "status": "proved",
   "theorems": [
    "Bsp.C64_request",
    "Bsp.C64_notification"
   ],
   "note": ""
  },
  {
   "property": "C65",
   "status": "proved",
   "theorems": [
    "Bsp.C65_setters",
    "Bsp.C65_add_parent"
   ],
   "note": ""
  },
  {
   "property": "C66",
   "status": "proved",
   "theorems": [
    "Bsp.C66_getters",
    "Bsp.C66_is_empty",
    "Bsp.C66_status"
   ],
   "note": ""
  },
  {
   "property": "C67",
   "status": "proved",
   "theorems": [
    "Bsp.C67_constructors"
   ],
   "note": ""
  },
  {
   "property": "C68",
   "status": "partial",
   "theorems": [
    "Bsp.C68_violated",
    "Bsp.C68_empty",
    "Bsp.C68_diagnostic",
    "Bsp.C68_partial"
   ],
   "note": "false of the code: no public function builds a BuildTargetCleanCache, BuildTargetDependencyModules, PublishDiagnostics or DependencySourcesItem (C68_violated), and only the empty BuildTargetInverseSourcesResult and BuildTargetDependencySourcesResult can be built (C68_empty), and a diagnostic only with a severity and tags that have a name (C68_diagnostic); C68_partial proves it for every value of every other payload type"
  },
  {
   "property": "C69",
   "status": "partial",
   "theorems": [
    "Bsp.C69_partial",
    "Bsp.C69_violated"
   ],
   "note": "false of the code: six default methods are todo!() and panic for every params (C69_violated); C69_partial proves it for the other seven"
  },
  {
   "property": "C70",
   "status": "proved",
   "theorems": [
    "Bsp.C70_main",
    "Bsp.C70_output"
   ],
   "note": ""
  },
  {
   "property": "C71",
   "status": "proved",
   "theorems": [
    "Bsp.C71_nothing_pending"
   ],
   "note": ""
  },
  {
   "property": "C72",
   "status": "proved",
   "theorems": [
    "Bsp.C72_terminates",
    "Bsp.C72_settles"
   ],
   "note": ""
  },
  {
   "property": "C73",
   "status": "proved",
   "theorems": [
    "Bsp.C73_session",
    "Bsp.C73_reached"
   ],
   "note": ""
  },
  {
   "property": "C74",
   "status": "proved",
   "theorems": [
    "Bsp.C74_exit",
    "Bsp.C74_hang_up",
    "Bsp.C74_stays"
   ],
   "note": ""
  },
  {
   "property": "C75",
   "status": "proved",
   "theorems": [
    "Bsp.C75_success"
   ],
   "note": ""
  },
  {
   "property": "C76",
   "status": "partial",
   "theorems": [
    "Bsp.C76_partial",
    "Bsp.C76_all_but_last",
    "Bsp.C76_violated"
   ],
   "note": "false of the code: main exits on an error without joining the threads (README.md:25-29), so an accepted message may not be written (C76_violated); C76_partial proves it for processes that are waiting or have exited with success; C76_all_but_last: in every case all but the last of the accepted messages are written in full"
  },
  {
   "property": "C77",
   "status": "partial",
   "theorems": [
    "Bsp.C77_violated",
    "Bsp.C77_violated_exit",
    "Bsp.C77_partial"
   ],
   "note": "false of the code: shutdown, workspace/buildTargets, workspace/reload and custom requests with null as written by the library are taken for responses and never answered, so the process does not leave on the library's own shutdown request (C77_violated), and on exit it ends with success with that request unanswered (C77_violated_exit); C77_partial proves it for every request written with params"
  },
  {
   "property": "C78",
   "status": "proved",
   "theorems": [
    "Bsp.C78_determined",
    "Bsp.C78_waits",
    "Bsp.C78_ended"
   ],
   "note": ""
  },
  {
   "property": "C79",
   "status": "proved",
   "theorems": [
    "Bsp.C79_malformed",
    "Bsp.C79_session"
   ],
   "note": ""
  },
  {
   "property": "C80",
   "status": "proved",
   "theorems": [
    "Bsp.C80_deterministic",
    "Bsp.C80_exists"
   ],
   "note": ""
  },
  {
   "property": "C81",
   "status": "proved",
   "theorems": [
    "Bsp.C81_waits",
    "Bsp.C81_late"
   ],
   "note": ""
  },
  {
   "property": "C82",
   "status": "proved",
   "theorems": [
    "Bsp.C82_write_fails"
   ],
   "note": ""
  },
  {
   "property": "C83",
   "status": "proved",
   "theorems": [
    "Bsp.C83_heard",
    "Bsp.C83_tree",
    "Bsp.C83_relay",
    "Bsp.C83_stream",
    "Bsp.C83_bare"
   ],
   "note": ""
  },
  {
   "property": "C84",
   "status": "proved",
   "theorems": [
    "Bsp.C84_sent",
    "Bsp.C84_never_waits_to_send",
    "Bsp.C84_rest",
    "Bsp.C84_settles",
    "Bsp.C84_same",
    "Bsp.C84_differs",
    "Bsp.C84_exists"
   ],
   "note": ""
  },
  {
   "property": "C85",
   "status": "proved",
   "theorems": [
    "Bsp.C85_once",
    "Bsp.C85_output",
    "Bsp.C85_disconnected",
    "Bsp.C85_returns",
    "Bsp.C85_progress",
    "Bsp.C85_memory"
   ],
   "note": ""
  },
  {
   "property": "C86",
   "status": "proved",
   "theorems": [
    "Bsp.C86_display",
    "Bsp.C86_followed",
    "Bsp.C86_wire",
    "Bsp.C86_order"
   ],
   "note": ""
  },
  {
   "property": "C87",
   "status": "proved",
   "theorems": [
    "Bsp.C87_cause",
    "Bsp.C87_refusal",
    "Bsp.C87_exit",
    "Bsp.C87_extract"
   ],
   "note": ""
  },
  {
   "property": "C88",
   "status": "proved",
   "theorems": [
    "Bsp.C88_prefix",
    "Bsp.C88_same",
    "Bsp.C88_messages",
    "Bsp.C88_messages_plain"
   ],
   "note": ""
  },
  {
   "property": "C89",
   "status": "proved",
   "theorems": [
    "Bsp.C89_text",
    "Bsp.C89_frame",
    "Bsp.C89_stream"
   ],
   "note": ""
  },
  {
   "property": "C90",
   "status": "proved",
   "theorems": [
    "Bsp.C90_array",
    "Bsp.C90_batch",
    "Bsp.C90_read"
   ],
   "note": ""
  },
  {
   "property": "C91",
   "status": "proved",
   "theorems": [
    "Bsp.C91_no_exit",
    "Bsp.C91_stuck"
   ],
   "note": ""
  },
  {
   "property": "C92",
   "status": "proved",
   "theorems": [
    "Bsp.C92_joined",
    "Bsp.C92_held",
    "Bsp.C92_rest",
    "Bsp.C92_ends"
   ],
   "note": ""
  },
  {
   "property": "C93",
   "status": "proved",
   "theorems": [
    "Bsp.C93_connect",
    "Bsp.C93_listen"
   ],
   "note": ""
  },
  {
   "property": "C94",
   "status": "partial",
   "theorems": [
    "Bsp.C94_claimed",
    "Bsp.C94_violated",
    "Bsp.C94_partial",
    "Bsp.C94_declared"
   ],
   "note": "false of the code: the buffer gets the declared length before the body arrives (message.rs:87), so 39 bytes claim up to isize::MAX (C94_violated, C94_claimed); C94_partial proves it for reads that succeed, C94_declared says when it fails"
  },
  {
   "property": "C95",
   "status": "proved",
   "theorems": [
    "Bsp.C95_exact",
    "Bsp.C95_stream",
    "Bsp.C95_unbounded"
   ],
   "note": ""
  },
  {
   "property": "C96",
   "status": "proved",
   "theorems": [
    "Bsp.C96_served",
    "Bsp.C96_terminates",
    "Bsp.C96_ends"
   ],
   "note": ""
  },
  {
   "property": "C97",
   "status": "proved",
   "theorems": [
    "Bsp.C97_waits",
    "Bsp.C97_unanswered",
    "Bsp.C97_rest"
   ],
   "note": ""
  },
  {
   "property": "C98",
   "status": "proved",
   "theorems": [
    "Bsp.C98_accepts"
   ],
   "note": ""
  },
  {
   "property": "C99",
   "status": "proved",
   "theorems": [
    "Bsp.C99_reencode",
    "Bsp.C99_stable"
   ],
   "note": ""
  },
  {
   "property": "C100",
   "status": "proved",
   "theorems": [
    "Bsp.C100_request",
    "Bsp.C100_response",
    "Bsp.C100_notification",
    "Bsp.C100_accepts",
    "Bsp.C100_text"
   ],
   "note": ""
  },
  {
   "property": "C101",
   "status": "proved",
   "theorems": [
    "Bsp.Double.C101_text",
    "Bsp.Double.C101_shortest",
    "Bsp.Double.C101_injective"
   ],
   "note": ""
  },
  {
   "property": "C102",
   "status": "partial",
   "theorems": [
    "Bsp.Double.C102_read",
    "Bsp.Double.C102_survives_partial",
    "Bsp.Double.C102_violated"
   ],
   "note": "false of the code: serde_json without float_roundtrip reads 9007199254740991.0 as 9007199254740990.0 (C102_violated); C102_survives_partial proves it for doubles whose text has at most 53 bits of digits and a decimal exponent of at most 22 (C102_read: such literals are read as the nearest double)"
  },
  {
   "property": "C103",
   "status": "proved",
   "theorems": [
    "Bsp.Double.C103_read",
    "Bsp.Double.C103_finite",
    "Bsp.Double.C103_rejects"
   ],
   "note": ""
  },
  {
   "property": "C104",
   "status": "proved",
   "theorems": [
    "Bsp.Double.C104_decimal",
    "Bsp.Double.C104_stable"
   ],
   "note": ""
  },
  {
   "property": "C105",
   "status": "proved",
   "theorems": [
    "Bsp.C105_text",
    "Bsp.C105_wire",
    "Bsp.C105_stream",
    "Bsp.C105_tame",
    "Bsp.C105_relay",
    "Bsp.C105_changes"
   ],
   "note": ""
  },
  {
   "property": "C106",
   "status": "proved",
   "theorems": [
    "Bsp.Double.C106_read",
    "Bsp.Double.C106_reread",
    "Bsp.Double.C106_two",
    "Bsp.C106_restless"
   ],
   "note": ""
  },
  {
   "property": "C107",
   "status": "proved",
   "theorems": [
    "Bsp.Double.C107_read",
    "Bsp.Double.C107_rejected",
    "Bsp.Double.C107_out",
    "Bsp.Double.C107_zero"
   ],
   "note": ""
  },
  {
   "property": "C108",
   "status": "proved",
   "theorems": [
    "Bsp.C108_join",
    "Bsp.C108_join_ends",
    "Bsp.C108_exits",
    "Bsp.C108_server",
    "Bsp.C108_server_ends",
    "Bsp.C108_client"
   ],
   "note": ""
  },
  {
   "property": "C109",
   "status": "proved",
   "theorems": [
    "Bsp.C109_process",
    "Bsp.C109_both",
    "Bsp.C109_bare",
    "Bsp.C109_ends"
   ],
   "note": ""
  },
  {
   "property": "C110",
   "status": "partial",
   "theorems": [
    "Bsp.C110_request_partial",
    "Bsp.C110_violated_lost",
    "Bsp.C110_violated_inverse",
    "Bsp.C110_notification_partial",
    "Bsp.C110_violated_progress",
    "Bsp.C110_violated_time"
   ],
   "note": "false of the code, what becomes of each such message is proved (C110_violated_lost, C110_violated_inverse, C110_violated_progress, C110_violated_time); C110_request_partial and C110_notification_partial prove it of all other messages of the protocol"
  },
  {
   "property": "C111",
   "status": "partial",
   "theorems": [
    "Bsp.C111_partial",
    "Bsp.C111_targets",
    "Bsp.C111_violated"
   ],
   "note": "false of the code for the list of the build targets (C111_violated), for which it is proved exactly when it is accepted (C111_targets); C111_partial proves it of all other results"
  },
  {
   "property": "C112",
   "status": "partial",
   "theorems": [
    "Bsp.C112_results",
    "Bsp.C112_results_partial",
    "Bsp.C112_request_partial",
    "Bsp.C112_notification_partial",
    "Bsp.C112_violated"
   ],
   "note": "false of the code (C112_violated); C112_request_partial, C112_notification_partial and C112_results_partial say exactly for which values it holds, C112_results for which types it holds of all values"
  },
  {
   "property": "C113",
   "status": "partial",
   "theorems": [
    "Bsp.C113_read_partial",
    "Bsp.C113_violated",
    "Bsp.C113_written_partial",
    "Bsp.C113_violated_null"
   ],
   "note": "false of the code (C113_violated for ids that are not understood, C113_violated_null for a null result); C113_read_partial proves it of all other responses that are received, C113_written_partial says exactly which are written as they should be"
  },
  {
   "property": "C114",
   "status": "partial",
   "theorems": [
    "Bsp.C114_partial",
    "Bsp.C114_violated",
    "Bsp.C114_violated_documented"
   ],
   "note": "false of the code (C114_violated: the requests that get no answer; C114_violated_documented: the result that the documented handler makes); C114_partial proves it of all other requests, in sessions that may contain those too, for handlers that return an InitializeBuildResult"
  },
  {
   "property": "C115",
   "status": "partial",
   "theorems": [
    "Bsp.C115_partial",
    "Bsp.C115_violated",
    "Bsp.C115_violated_id"
   ],
   "note": "false of the code (C115_violated: a task event at a time that is not in 32 bits is the end of the connection; C115_violated_id: so is a response with an id that is no string and no integer of 32 bits, such as null); C115_partial proves it of all other responses (with an id that is understood) and notifications of the protocol"
  },
  {
   "property": "C116",
   "status": "proved",
   "theorems": [
    "Bsp.C116_once",
    "Bsp.C116_rest",
    "Bsp.C116_terminates",
    "Bsp.C116_settles",
    "Bsp.C116_overtakes"
   ],
   "note": ""
  },
  {
   "property": "C117",
   "status": "partial",
   "theorems": [
    "Bsp.C117_partial",
    "Bsp.C117_alone",
    "Bsp.C117_violated"
   ],
   "note": "false of the code with two or more workers (C117_violated: another worker receives exit, and handle_shutdown reports a closed channel); C117_partial proves everything but that the worker in handle_shutdown ends well, C117_alone proves it all for one worker"
  },
  {
   "property": "C118",
   "status": "proved",
   "theorems": [
    "Bsp.C118_matched",
    "Bsp.C118_rest",
    "Bsp.C118_terminates",
    "Bsp.C118_settles"
   ],
   "note": ""
  },
  {
   "property": "C119",
   "status": "proved",
   "theorems": [
    "Bsp.C119_once",
    "Bsp.C119_rest",
    "Bsp.C119_distinct",
    "Bsp.C119_terminates",
    "Bsp.C119_settles",
    "Bsp.C119_reused",
    "Bsp.C119_stale"
   ],
   "note": ""
  },
  {
   "property": "C120",
   "status": "proved",
   "theorems": [
    "Bsp.C120_matched",
    "Bsp.C120_rest",
    "Bsp.C120_terminates",
    "Bsp.C120_settles"
   ],
   "note": ""
  },
  {
   "property": "C121",
   "status": "proved",
   "theorems": [
    "Bsp.C121_sent",
    "Bsp.C121_ok",
    "Bsp.C121_rest",
    "Bsp.C121_shutdown",
    "Bsp.C121_once",
    "Bsp.C121_terminates",
    "Bsp.C121_settles",
    "Bsp.C121_late"
   ],
   "note": ""
  },
  {
   "property": "C122",
   "status": "proved",
   "theorems": [
    "Bsp.C122_served",
    "Bsp.C122_rest",
    "Bsp.C122_takes",
    "Bsp.C122_ends",
    "Bsp.C122_ahead",
    "Bsp.C122_never",
    "Bsp.C122_stuck",
    "Bsp.C122_fits",
    "Bsp.C122_terminates",
    "Bsp.C122_circle"
   ],
   "note": ""
  },
  {
   "property": "C123",
   "status": "proved",
   "theorems": [
    "Bsp.C123_heard",
    "Bsp.C123_answered",
    "Bsp.C123_sent",
    "Bsp.C123_exists"
   ],
   "note": ""
  },
  {
   "property": "C124",
   "status": "proved",
   "theorems": [
    "Bsp.C124_shortest",
    "Bsp.C124_no_doubles",
    "Bsp.C124_frame",
    "Bsp.C124_answer",
    "Bsp.C124_bounded"
   ],
   "note": ""
  },
  {
   "property": "C125",
   "status": "proved",
   "theorems": [
    "Bsp.C125_served",
    "Bsp.C125_terminates",
    "Bsp.C125_reached",
    "Bsp.C125_in_step",
    "Bsp.C125_window",
    "Bsp.C125_lost",
    "Bsp.C125_lost_waits"
   ],
   "note": ""
  },
  {
   "property": "C126",
   "status": "proved",
   "theorems": [
    "Bsp.C126_met",
    "Bsp.C126_served",
    "Bsp.C126_terminates",
    "Bsp.C126_reached",
    "Bsp.C126_first",
    "Bsp.C126_patient"
   ],
   "note": ""
  },
  {
   "property": "C127",
   "status": "proved",
   "theorems": [
    "Bsp.C127_parted",
    "Bsp.C127_reached"
   ],
   "note": ""
  },
  {
   "property": "C128",
   "status": "proved",
   "theorems": [
    "Bsp.C128_success",
    "Bsp.C128_lost",
    "Bsp.C128_parted",
    "Bsp.C128_terminates",
    "Bsp.C128_reached"
   ],
   "note": ""
  },
  {
   "property": "C129",
   "status": "proved",
   "theorems": [
    "Bsp.C129_served",
    "Bsp.C129_rest",
    "Bsp.C129_terminates",
    "Bsp.C129_reached",
    "Bsp.C129_first",
    "Bsp.C129_window",
    "Bsp.C129_never",
    "Bsp.C129_stuck",
    "Bsp.C129_circle"
   ],
   "note": ""
  },
  {
   "property": "C130",
   "status": "proved",
   "theorems": [
    "Bsp.C130_steps",
    "Bsp.C130_messages",
    "Bsp.C130_work",
    "Bsp.C130_bounded",
    "Bsp.C130_pool"
   ],
   "note": ""
  },
  {
   "property": "C131",
   "status": "proved",
   "theorems": [
    "Bsp.C131_loop",
    "Bsp.C131_pool",
    "Bsp.C131_loop_full",
    "Bsp.C131_pool_full",
    "Bsp.C131_crew"
   ],
   "note": ""
  },
  {
   "property": "C132",
   "status": "proved",
   "theorems": [
    "Bsp.C132_answered",
    "Bsp.C132_heard",
    "Bsp.C132_exists",
    "Bsp.C132_starves"
   ],
   "note": ""
  },
  {
   "property": "C133",
   "status": "proved",
   "theorems": [
    "Bsp.C133_one",
    "Bsp.C133_loop",
    "Bsp.C133_more",
    "Bsp.C133_threads",
    "Bsp.C133_enough",
    "Bsp.C133_room",
    "Bsp.C133_needed"
   ],
   "note": ""
  },
  {
   "property": "C134",
   "status": "proved",
   "theorems": [
    "Bsp.C134_sent",
    "Bsp.C134_heard",
    "Bsp.C134_exists",
    "Bsp.C134_starves"
   ],
   "note": ""
  },
  {
   "property": "C135",
   "status": "proved",
   "theorems": [
    "Bsp.C135_once",
    "Bsp.C135_never_waits",
    "Bsp.C135_rest",
    "Bsp.C135_stay",
    "Bsp.C135_settles",
    "Bsp.C135_exists",
    "Bsp.C135_same",
    "Bsp.C135_hides"
   ],
   "note": ""
  },
  {
   "property": "C136",
   "status": "proved",
   "theorems": [
    "Bsp.C136_parted",
    "Bsp.C136_reached",
    "Bsp.C136_rest",
    "Bsp.C136_stay"
   ],
   "note": ""
  },
  {
   "property": "C137",
   "status": "proved",
   "theorems": [
    "Bsp.C137_last",
    "Bsp.C137_open",
    "Bsp.C137_decided",
    "Bsp.C137_ends"
   ],
   "note": ""
  },
  {
   "property": "C138",
   "status": "proved",
   "theorems": [
    "Bsp.C138_sent",
    "Bsp.C138_ok",
    "Bsp.C138_never_waits",
    "Bsp.C138_reply",
    "Bsp.C138_rest",
    "Bsp.C138_shutdown",
    "Bsp.C138_once",
    "Bsp.C138_terminates",
    "Bsp.C138_settles",
    "Bsp.C138_exists",
    "Bsp.C138_late",
    "Bsp.C138_same"
   ],
   "note": ""
  },
  {
   "property": "C139",
   "status": "partial",
   "theorems": [
    "Bsp.C139_success",
    "Bsp.C139_trusted",
    "Bsp.C139_waits",
    "Bsp.C139_exit",
    "Bsp.C139_documented_partial",
    "Bsp.C139_violated"
   ],
   "note": "False of the code: exit without shutdown ends with success, exit after shutdown and a further message with an error (C139_violated). Proved: exactly when the process exits with success, with an error, or waits (C139_success, C139_waits, C139_exit, C139_trusted), and exactly when the documented behaviour holds (C139_documented_partial)."
  },
  {
   "property": "C140",
   "status": "proved",
   "theorems": [
    "Bsp.C140_success",
    "Bsp.C140_exit",
    "Bsp.C140_shutdown",
    "Bsp.C140_same",
    "Bsp.C140_ends"
   ],
   "note": ""
  },
  {
   "property": "C141",
   "status": "proved",
   "theorems": [
    "Bsp.C141_order",
    "Bsp.C141_joined",
    "Bsp.C141_settles",
    "Bsp.C141_leave"
   ],
   "note": ""
  },
  {
   "property": "C142",
   "status": "proved",
   "theorems": [
    "Bsp.C142_order",
    "Bsp.C142_joined",
    "Bsp.C142_rest",
    "Bsp.C142_settles",
    "Bsp.C142_leave"
   ],
   "note": ""
  },
  {
   "property": "C143",
   "status": "proved",
   "theorems": [
    "Bsp.C143_rest",
    "Bsp.C143_sends",
    "Bsp.C143_heard",
    "Bsp.C143_settles",
    "Bsp.C143_leave",
    "Bsp.C143_ahead",
    "Bsp.C143_none",
    "Bsp.C143_talk"
   ],
   "note": ""
  },
  {
   "property": "C144",
   "status": "proved",
   "theorems": [
    "Bsp.C144_prefix",
    "Bsp.C144_rest",
    "Bsp.C144_served",
    "Bsp.C144_settles",
    "Bsp.C144_ends"
   ],
   "note": ""
  },
  {
   "property": "C145",
   "status": "proved",
   "theorems": [
    "Bsp.C145_rest",
    "Bsp.C145_served",
    "Bsp.C145_answered",
    "Bsp.C145_sends",
    "Bsp.C145_settles",
    "Bsp.C145_ends",
    "Bsp.C145_none",
    "Bsp.C145_ahead",
    "Bsp.C145_talk"
   ],
   "note": ""
  },
  {
   "property": "C146",
   "status": "proved",
   "theorems": [
    "Bsp.C146_open",
    "Bsp.C146_unseen",
    "Bsp.C146_unseen_back",
    "Bsp.C146_orphans",
    "Bsp.C146_after",
    "Bsp.C146_between",
    "Bsp.C146_unwritten",
    "Bsp.C146_between_narrow",
    "Bsp.C146_after_narrow"
   ],
   "note": ""
  },
  {
   "property": "C147",
   "status": "proved",
   "theorems": [
    "Bsp.C147_stays",
    "Bsp.C147_left",
    "Bsp.C147_narrow",
    "Bsp.C147_strands"
   ],
   "note": ""
  },
  {
   "property": "C148",
   "status": "proved",
   "theorems": [
    "Bsp.C148_one",
    "Bsp.C148_told",
    "Bsp.C148_told_back",
    "Bsp.C148_server",
    "Bsp.C148_stays",
    "Bsp.C148_iff",
    "Bsp.C148_stays_back",
    "Bsp.C148_iff_back",
    "Bsp.C148_told_narrow",
    "Bsp.C148_told_back_narrow",
    "Bsp.C148_iff_narrow",
    "Bsp.C148_iff_back_narrow"
   ],
   "note": ""
  }
 ]
}