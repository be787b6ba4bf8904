{"id": "C01", "title": "A framed text is read back exactly", "statement": "If a text is written as \"Content-Length: <number of UTF-8 bytes>\\r\\n\\r\\n<text>\", reading from a stream that starts with that frame returns exactly that text and leaves exactly the bytes that follow the frame.", "quantifier": "every Unicode text (empty and multi-byte included) up to the allocation limit isize::MAX, and every following byte sequence", "why_tests_cant": "The set of texts and continuations is infinite; off-by-one and bytes-versus-characters errors show only on particular ones.", "anchors": ["bsp-server/src/message.rs:read_msg_text", "bsp-server/src/message.rs:Message::write"]}
{"id": "C02", "title": "A stream of written messages is read back in order and then ends cleanly", "statement": "Writing any list of messages one after the other and reading the result until end of input yields the same messages (up to the documented normalisation), in the same order, none lost or duplicated, followed by a clean end of stream.", "quantifier": "every finite list of wire-representable messages", "why_tests_cant": "A test fixes a handful of sequences; the claim is an induction over all of them.", "anchors": ["bsp-server/src/message.rs:Message::read", "bsp-server/src/message.rs:Message::write"]}
{"id": "C03", "title": "A connection cut at any byte never fabricates a message", "statement": "If the byte stream of any list of written messages is cut after any number of bytes, reading it yields a prefix of those messages followed by end-of-stream or an error; never a message that was not written. For messages that are not read back as themselves (C13): each message read is what the frame of the message at its place decodes to. For any input whatever, more input changes nothing in the messages read before.", "quantifier": "every list of messages and every cut position", "why_tests_cant": "Crash points are as many as there are bytes; each must be covered for each stream.", "anchors": ["bsp-server/src/message.rs:read_msg_text", "bsp-server/src/message.rs:Message::read"]}
{"id": "C04", "title": "Header block: unknown headers are ignored, the last Content-Length counts", "statement": "For every well-formed header block, the number of body bytes read is the value of the last header line whose name is exactly \"Content-Length\" (case-sensitive); all other \"name: value\" lines have no influence, whatever their position or number.", "quantifier": "every list of well-formed header lines, every body", "why_tests_cant": "Unboundedly many header blocks.", "anchors": ["bsp-server/src/message.rs:read_msg_text"]}
{"id": "C05", "title": "Malformed header blocks are rejected", "statement": "A header line that does not end in CR LF, has no \": \" separator, carries an unparsable Content-Length value, or a block without Content-Length makes the read fail with an invalid-data error; no message is produced, whatever precedes or follows.", "quantifier": "every byte stream of one of these shapes", "why_tests_cant": "Negative space: every malformed input must be rejected, a test only samples some.", "anchors": ["bsp-server/src/message.rs:read_msg_text"]}
{"id": "C06", "title": "Content-Length accepts exactly the decimal numerals of a 64-bit unsigned integer", "statement": "A Content-Length value is accepted iff it is an optional \"+\" followed by one or more ASCII digits whose value is at most 2^64-1, and then denotes that number (leading zeros allowed; no spaces, signs or other characters).", "quantifier": "every header value string", "why_tests_cant": "Infinite set of strings, with a boundary at 2^64.", "anchors": ["bsp-server/src/message.rs:read_msg_text (header_value.parse::<usize>)"]}
{"id": "C07", "title": "When end of stream is reported as a clean end", "statement": "A read reports clean end of stream exactly when the input ends at a line boundary before the blank line of the header block, after only well-formed header lines. In particular the empty input is a clean end; and (a weakness of the code) so is an input cut right after a complete header line.", "quantifier": "every byte stream", "why_tests_cant": "Requires characterising all inputs, including all cut points inside headers.", "anchors": ["bsp-server/src/message.rs:read_msg_text"]}
{"id": "C08", "title": "A read never consumes bytes beyond its own frame", "statement": "When a read succeeds on a stream, the unread remainder is a suffix of the input, the consumed part consists of the header block and exactly Content-Length body bytes, and appending further bytes to the stream changes neither the result nor what is consumed.", "quantifier": "every byte stream on which a read succeeds, every extension of it", "why_tests_cant": "Universally quantified over streams and their extensions.", "anchors": ["bsp-server/src/message.rs:read_msg_text"]}
{"id": "C09", "title": "Reading does not depend on how the bytes are split into chunks", "statement": "The sequence of results of reads is the same however the transport splits the bytes into non-empty reads (TCP segmentation, pipe buffering).", "quantifier": "every byte stream and every partition of it into non-empty chunks", "why_tests_cant": "Exponentially many partitions of each stream.", "anchors": ["bsp-server/src/message.rs:read_msg_text", "bsp-server/src/transporter.rs:Transporter::socket"]}
{"id": "C10", "title": "Only valid UTF-8 reaches the JSON layer", "statement": "A body whose bytes are not valid UTF-8 makes the read fail; a body that is valid UTF-8 is passed on unchanged. A header line that is not valid UTF-8 makes the read fail.", "quantifier": "every header block and body byte sequence", "why_tests_cant": "All byte sequences.", "anchors": ["bsp-server/src/message.rs:read_msg_text (String::from_utf8, read_line)"]}
{"id": "C11", "title": "Shape of what is written", "statement": "Every written message is \"Content-Length: N\\r\\n\\r\\n\" followed by exactly N bytes, which are the UTF-8 encoding of one JSON object whose first member is \"jsonrpc\":\"2.0\", that occurs once, followed by the members of the message.", "quantifier": "every message", "why_tests_cant": "All messages.", "anchors": ["bsp-server/src/message.rs:Message::write", "bsp-server/src/message.rs:JsonRpc"]}
{"id": "C12", "title": "A written message is read back as the same message", "statement": "For every message that is wire-representable, writing it and reading the bytes gives back the same message, up to: a null result/data becomes absent, and a reserved task data kind name becomes the reserved kind.", "quantifier": "every request, response and notification with arbitrary ids, texts, lists, URLs and JSON payloads", "why_tests_cant": "Infinite message space.", "anchors": ["bsp-server/src/message.rs:Message", "bsp-server/src/request.rs", "bsp-server/src/response.rs", "bsp-server/src/notification.rs"]}
{"id": "C13", "title": "Every request the library can write, it can read back as a request", "statement": "Writing any request and reading the bytes back gives a request with the same id and method. (Violated by the code: a request without params - shutdown, workspace/buildTargets, workspace/reload, and custom requests with null params - is read back as an empty response.)", "quantifier": "every request", "why_tests_cant": "All requests; the one existing test for it is marked #[ignore].", "anchors": ["bsp-server/src/request.rs:Deserialize for Request (431-436)", "bsp-server/src/tests.rs:shutdown_with_no_params"]}
{"id": "C14", "title": "Classification of incoming JSON: request before response before notification", "statement": "What an incoming JSON value is decoded to is determined by: a usable request (unique valid id, unique method, params present and accepted by the method) is a request; otherwise a usable response (valid id, acceptable result/error) is a response; otherwise a usable notification is a notification; otherwise the read fails. No value is classified two ways.", "quantifier": "every JSON value", "why_tests_cant": "All JSON values, with interactions between the three decoders.", "anchors": ["bsp-server/src/message.rs:Message (untagged)", "bsp-server/src/request.rs", "bsp-server/src/response.rs", "bsp-server/src/notification.rs"]}
{"id": "C15", "title": "Unknown members, and the jsonrpc member, have no influence on decoding", "statement": "Adding or removing members whose names are not id, method, params, result or error, anywhere in the message object, does not change what it decodes to; in particular any or no \"jsonrpc\" value is accepted.", "quantifier": "every message object, every unknown member, every position", "why_tests_cant": "Unbounded set of members and positions.", "anchors": ["bsp-server/src/request.rs:FieldVisitor", "bsp-server/src/notification.rs:FieldVisitor", "bsp-server/src/response.rs:Response"]}
{"id": "C16", "title": "The order of members does not matter", "statement": "Any permutation of the members of a message object decodes to the same message.", "quantifier": "every message object and every permutation of its members", "why_tests_cant": "Factorially many permutations.", "anchors": ["bsp-server/src/request.rs:visit_map", "bsp-server/src/notification.rs:visit_map"]}
{"id": "C17", "title": "Duplicate members are never silently merged", "statement": "An object in which id, method or params occurs twice is never decoded as a request; with method or params twice never as a notification; with id, result or error twice never as a response. Hence with id twice it is never a request or response.", "quantifier": "every message object with a duplicated member", "why_tests_cant": "All objects with duplicates.", "anchors": ["bsp-server/src/request.rs:visit_map", "bsp-server/src/notification.rs:visit_map", "bsp-server/src/response.rs:Response"]}
{"id": "C18", "title": "Request ids: exactly 32-bit integers and strings, never confused", "statement": "An id is accepted iff it is an integer in [-2^31, 2^31) or a string; encoding an id and decoding it gives the same id; two different ids have different encodings (the number 1 and the string \"1\" stay distinct).", "quantifier": "every JSON value as id; every pair of ids", "why_tests_cant": "Boundary values and all pairs.", "anchors": ["bsp-server/src/request/id.rs:RequestId", "bsp-server/src/request/id.rs:IdRepr"]}
{"id": "C19", "title": "A message with an unusable id is never answered as a request", "statement": "A message whose id is present but not a 32-bit integer or string is never decoded as a request or response: it is treated as a notification when it has a method, else rejected.", "quantifier": "every message object with an unusable id (null, fraction, too large, object...)", "why_tests_cant": "All such objects.", "anchors": ["bsp-server/src/request.rs:visit_map", "bsp-server/src/message.rs:Message (untagged)"]}
{"id": "C20", "title": "A request whose params are rejected is not reported as malformed", "statement": "A message with a valid id and a known method whose params are missing or do not fit the method is (in this code) decoded as an empty response with that id, so the application never sees a request nor an error. The property users rely on - such a message is rejected or surfaced as a request - is violated.", "quantifier": "every id, every known method taking params, every rejected params value", "why_tests_cant": "All ill-formed params.", "anchors": ["bsp-server/src/request.rs:visit_map", "bsp-server/src/message.rs:Message (untagged)", "bsp-server/src/response.rs:Response"]}
{"id": "C21", "title": "Unknown methods are passed through unchanged", "statement": "A message with a valid id, params, and a method that is not a built-in name decodes to a custom request carrying exactly that id, method and params; without id, to a custom notification carrying exactly that method and params.", "quantifier": "every id, every method name outside the built-in table, every params value", "why_tests_cant": "Infinite.", "anchors": ["bsp-server/src/request.rs:Request::Custom", "bsp-server/src/notification.rs:Notification::Custom"]}
{"id": "C22", "title": "Method names and variants correspond one to one", "statement": "The method name reported for a decoded request/notification is the method name on the wire, built-in names decode only to their own variant, and built-in variants carry the fixed names of the table.", "quantifier": "every decodable message", "why_tests_cant": "All messages.", "anchors": ["bsp-server/src/request.rs:Request::method", "bsp-server/src/notification.rs:Notification::method"]}
{"id": "C23", "title": "Request accessors agree with the wire", "statement": "For every request, id() and method() are exactly the values of the \"id\" and \"method\" members of its encoding.", "quantifier": "every request", "why_tests_cant": "All requests.", "anchors": ["bsp-server/src/request.rs:Request::id", "bsp-server/src/request.rs:Request::method", "bsp-server/src/request.rs:Serialize for Request"]}
{"id": "C24", "title": "Request::params agrees with the wire", "statement": "For every request, params() is the \"params\" member of its encoding (null when absent). (Violated by the code for custom requests, where params() returns the method name.)", "quantifier": "every request", "why_tests_cant": "All requests; no test calls params().", "anchors": ["bsp-server/src/request.rs:Request::params"]}
{"id": "C25", "title": "Response constructors: one outcome, right code, same id", "statement": "Every constructed response carries the given id and exactly one of result and error; the error constructors carry the JSON-RPC/LSP code of their name and the given message; the eleven codes are pairwise distinct.", "quantifier": "every id, message and result value", "why_tests_cant": "All ids and messages; table of codes.", "anchors": ["bsp-server/src/response.rs:Response", "bsp-server/src/error.rs:ErrorCode"]}
{"id": "C26", "title": "Responses survive the wire", "statement": "Encoding and decoding a response gives the same id, result and error, except that a null result or null error data becomes absent; in particular the response to shutdown arrives with no result.", "quantifier": "every response", "why_tests_cant": "All responses.", "anchors": ["bsp-server/src/response.rs:Response", "bsp-server/src/message.rs"]}
{"id": "C27", "title": "Notifications survive the wire and are never mistaken for requests or responses", "statement": "Encoding and decoding any notification with a non-reserved custom method gives that notification, never a request or response.", "quantifier": "every notification", "why_tests_cant": "All notifications.", "anchors": ["bsp-server/src/notification.rs"]}
{"id": "C28", "title": "exit and initialized are recognised with any or no params", "statement": "A message without usable id whose method is build/exit (build/initialized) decodes to Exit (Initialized) whatever its params are and also without params; any other notification method without params is rejected.", "quantifier": "every such object", "why_tests_cant": "All params values.", "anchors": ["bsp-server/src/notification.rs:visit_map"]}
{"id": "C29", "title": "Request payloads survive the wire", "statement": "Each of the eleven request parameter types is decoded from its encoding to the same value (null data becoming absent).", "quantifier": "every value of every request parameter type", "why_tests_cant": "Infinite value sets.", "anchors": ["bsp-types/src/initialize_params.rs", "bsp-types/src/bt_compile.rs", "bsp-types/src/bt_run.rs", "bsp-types/src/bt_test.rs", "bsp-types/src/bt_clean_cache.rs", "bsp-types/src/bt_resources.rs", "bsp-types/src/bt_sources.rs", "bsp-types/src/bt_dependency_modules.rs", "bsp-types/src/bt_dependency_sources.rs", "bsp-types/src/bt_inverse_sources.rs", "bsp-types/src/debug_session_start.rs"]}
{"id": "C30", "title": "Notification payloads survive the wire", "statement": "Each of the seven notification payload types is decoded from its encoding to the same value (null data becoming absent, reserved custom data kinds becoming the reserved kind).", "quantifier": "every value of every notification payload type", "why_tests_cant": "Infinite value sets.", "anchors": ["bsp-types/src/task/start.rs", "bsp-types/src/task/progress.rs", "bsp-types/src/task/finish.rs", "bsp-types/src/show_message.rs", "bsp-types/src/log_message.rs", "bsp-types/src/publish_diagnostics.rs", "bsp-types/src/bt_did_change.rs"]}
{"id": "C31", "title": "Result payloads survive the wire", "statement": "Each response result type is decoded from its encoding to the same value (null data becoming absent).", "quantifier": "every value of every result type", "why_tests_cant": "Infinite value sets.", "anchors": ["bsp-types/src/initialize_result.rs", "bsp-types/src/server_capabilities.rs", "bsp-types/src/workspace_build_targets.rs", "bsp-types/src/bt_sources.rs", "bsp-types/src/bt_dependency_modules.rs"]}
{"id": "C32", "title": "Payload decoding ignores unknown members and member order", "statement": "For every payload type, members with unknown names and the order of members have no influence on the decoded value.", "quantifier": "every payload object, every unknown member, every permutation", "why_tests_cant": "Unbounded.", "anchors": ["bsp-types/src/*.rs (derive(Deserialize), no deny_unknown_fields)"]}
{"id": "C33", "title": "Required members are required, optional ones are not", "statement": "For every payload type, an object lacking a required member is rejected, and lacking an optional or defaulted member decodes as if it were absent/default.", "quantifier": "every payload object", "why_tests_cant": "All objects.", "anchors": ["bsp-types/src/*.rs (serde attributes)"]}
{"id": "C34", "title": "What is omitted on the wire", "statement": "Absent optional members, empty texts and null data marked \"skip\" are omitted from the encoding and nothing else is; all other members are always present.", "quantifier": "every payload value", "why_tests_cant": "All values.", "anchors": ["bsp-types/src/*.rs (skip_serializing_if)"]}
{"id": "C35", "title": "Integers outside the declared width reject the whole message", "statement": "A task notification whose eventTime (total, progress) is not an integer in [0, 2^32) is rejected as a whole; in particular every current epoch-millisecond timestamp is rejected, although the field is documented as milliseconds since Epoch.", "quantifier": "every task notification object and every out-of-range number", "why_tests_cant": "All numbers.", "anchors": ["bsp-types/src/task/start.rs:event_time", "bsp-types/src/task/progress.rs:event_time", "bsp-types/src/task/finish.rs:event_time"]}
{"id": "C36", "title": "Numeric enumerations accept exactly their codes", "statement": "MessageType, TaskStatus, BuildTargetEventKind and SourceKind decode exactly the integers of their table, to the variant with that code, and encode back to it.", "quantifier": "every JSON value", "why_tests_cant": "All JSON values.", "anchors": ["bsp-types/src/message_type.rs", "bsp-types/src/task/status.rs", "bsp-types/src/bt_did_change.rs:BuildTargetEventKind", "bsp-types/src/bt_sources.rs:SourceKind"]}
{"id": "C37", "title": "Task data kinds decode from anything and survive the wire", "statement": "Decoding a task data kind never fails: reserved names give the reserved kind, any other text a custom kind with that text, any non-text \"none\"; encoding then decoding is the identity except on custom kinds with a reserved name.", "quantifier": "every JSON value, every kind", "why_tests_cant": "All values.", "anchors": ["bsp-types/src/task/kind.rs"]}
{"id": "C38", "title": "Free-form build target tags", "statement": "The documentation promises free-form string tags. (Violated by the code: a string outside the seven built-in tag names is rejected, and a custom tag is encoded as an object, not a string.) Encoding then decoding a tag is the identity.", "quantifier": "every string; every tag", "why_tests_cant": "All strings.", "anchors": ["bsp-types/src/bt_tag.rs"]}
{"id": "C39", "title": "JSON text round trip", "statement": "Printing a JSON value compactly and parsing it gives the same value, whatever its strings contain (quotes, control characters, non-ASCII), as long as it nests at most 127 levels.", "quantifier": "every JSON value within the nesting limit (floating-point literals relative to an assumed printer/parser)", "why_tests_cant": "All values; escapes and nesting.", "anchors": ["bsp-server/src/message.rs:Message::read (serde_json::from_str)", "bsp-server/src/message.rs:Message::write (serde_json::to_string)"]}
{"id": "C40", "title": "Nesting limit", "statement": "A message that nests 128 or more levels of arrays/objects is written without complaint but the read of it fails.", "quantifier": "every message nesting at least 128 levels", "why_tests_cant": "All such messages.", "anchors": ["bsp-server/src/message.rs:Message::read"]}
{"id": "C41", "title": "When the handshake succeeds", "statement": "initialize() returns the params iff the received messages begin with: any number of requests other than build/initialize, then a build/initialize request with these params, then the build/initialized notification, and the handler returns and the refusals and the response can be sent.", "quantifier": "every sequence of received messages", "why_tests_cant": "All histories of received messages.", "anchors": ["bsp-server/src/lib.rs:Connection::initialize", "bsp-server/src/lib.rs:initialize_start", "bsp-server/src/lib.rs:initialize_finish"]}
{"id": "C42", "title": "Every early request is refused with -32002, in order", "statement": "Every request received before build/initialize gets exactly one error response with code -32002 and its own id, in order of arrival, before anything else is sent.", "quantifier": "every sequence of received messages", "why_tests_cant": "All histories.", "anchors": ["bsp-server/src/lib.rs:initialize_start", "bsp-server/src/response.rs:server_not_initialized"]}
{"id": "C43", "title": "Early notifications are dropped, except exit", "statement": "Notifications received before build/initialize are dropped except exit. (Violated by the code: any notification or response before build/initialize makes initialize() fail.)", "quantifier": "every sequence of received messages", "why_tests_cant": "All histories.", "anchors": ["bsp-server/src/lib.rs:initialize_start", "bsp-types/src/initialize_params.rs:12-18", "bsp-types/src/server.rs:16-17"]}
{"id": "C44", "title": "The initialize handler runs at most once, with the received params, and its value is what is sent", "statement": "The handler passed to initialize() is called iff a build/initialize request was received in time, once, with that request's params; the response sent carries that request's id and the handler's value.", "quantifier": "every handler and every sequence of received messages", "why_tests_cant": "All handlers and histories.", "anchors": ["bsp-server/src/lib.rs:initialize", "bsp-server/src/lib.rs:initialize_finish"]}
{"id": "C45", "title": "Anything but initialized after the initialize response is an error", "statement": "After the initialize response, if the next message is anything but build/initialized (another build/initialize included), or the peer hangs up, initialize() returns a protocol error and consumes no further message.", "quantifier": "every message, every history", "why_tests_cant": "All messages.", "anchors": ["bsp-server/src/lib.rs:initialize_finish"]}
{"id": "C46", "title": "The handshake neither over-reads nor over-sends", "statement": "initialize() consumes exactly the messages up to the one that decides its outcome, and sends exactly the refusals plus at most one initialize response.", "quantifier": "every sequence of received messages", "why_tests_cant": "All histories.", "anchors": ["bsp-server/src/lib.rs:initialize"]}
{"id": "C47", "title": "The handshake ends on disconnection; it panics only when it cannot send", "statement": "If the peer disconnects before the handshake is complete, initialize() returns an error after answering the requests received so far; it panics iff it must send while the sending side is closed (or the handler panics). It returns an error iff a message is out of order or the peer hangs up before a due message, and it waits forever iff the peer neither sends the due message nor hangs up, or never takes a message due to it.", "quantifier": "every history, every moment at which the sending side closes", "why_tests_cant": "All histories and failure points.", "anchors": ["bsp-server/src/lib.rs:initialize_start", "bsp-server/src/lib.rs:initialize_finish"]}
{"id": "C48", "title": "handle_shutdown leaves other requests alone", "statement": "For a request other than build/shutdown, handle_shutdown returns false, sends nothing and consumes nothing.", "quantifier": "every other request, every connection state", "why_tests_cant": "All requests and states.", "anchors": ["bsp-server/src/lib.rs:handle_shutdown"]}
{"id": "C49", "title": "handle_shutdown acknowledges and waits for exit", "statement": "For a shutdown request, handle_shutdown sends one response with that id and null result, and returns true iff the next message arrives within 30 seconds and is build/exit; any other next message, a timeout or a hang-up is an error; at most one message is consumed.", "quantifier": "every id, every timed sequence of received messages", "why_tests_cant": "All timed histories.", "anchors": ["bsp-server/src/lib.rs:handle_shutdown"]}
{"id": "C50", "title": "The in-memory pair is two independent FIFO channels", "statement": "For the two connections of Connection::memory(), under every interleaving of sends and receives, each side receives exactly the messages sent by the other side, in order, without loss or duplication, and never its own.", "quantifier": "every interleaving of operations of the two sides", "why_tests_cant": "Unboundedly many interleavings.", "anchors": ["bsp-server/src/lib.rs:Connection::memory"]}
{"id": "C51", "title": "Messages are delivered in stream order, without loss or duplication", "statement": "Under every schedule of reader thread, writer thread and application, the messages the application has received are a prefix of the messages decoded from the input bytes.", "quantifier": "every input stream and every schedule", "why_tests_cant": "All interleavings.", "anchors": ["bsp-server/src/transporter.rs:Transporter::stdio", "bsp-server/src/transporter.rs:Transporter::socket"]}
{"id": "C52", "title": "Reading stops at exit", "statement": "Once build/exit has been delivered, no further message is ever delivered, the reader has ended successfully, and the bytes after the exit message are left unread.", "quantifier": "every input stream and every schedule", "why_tests_cant": "All interleavings.", "anchors": ["bsp-server/src/transporter.rs:28-40", "bsp-server/src/transporter.rs:53-59"]}
{"id": "C53", "title": "Output is exactly the accepted messages, in order, never interleaved", "statement": "At every moment of every schedule, and wherever a write fails, the bytes written are a prefix of the concatenated frames of the messages whose send succeeded, in order; at most one accepted message is unfinished.", "quantifier": "every schedule, every write failure point", "why_tests_cant": "All interleavings and crash points.", "anchors": ["bsp-server/src/transporter.rs", "bsp-server/src/message.rs:Message::write"]}
{"id": "C54", "title": "Closing the connection drains the writer", "statement": "The writer thread ends successfully only after all senders are dropped, and then every accepted message has been written completely.", "quantifier": "every schedule", "why_tests_cant": "All interleavings.", "anchors": ["bsp-server/src/transporter.rs", "bsp-server/src/io_thread.rs"]}
{"id": "C55", "title": "Why the reader can fail", "statement": "The reader thread panics iff it has a message to deliver and the receiver is gone, or (socket only) the input is malformed, or a header declares a length that no buffer can have; the stdio reader returns an error iff the input is malformed.", "quantifier": "every input stream, every schedule", "why_tests_cant": "All interleavings.", "anchors": ["bsp-server/src/transporter.rs"]}
{"id": "C56", "title": "Two peers: what is received is what was sent", "statement": "When two connections are joined by a byte stream, under every schedule the messages received by one side are a prefix of the messages sent by the other (up to wire normalisation; requests without params arrive as empty responses, C13).", "quantifier": "every schedule of both sides and the stream, every list of messages that can be carried", "why_tests_cant": "All interleavings.", "anchors": ["bsp-server/src/transporter.rs", "bsp-server/src/message.rs"]}
{"id": "C57", "title": "After exit and drop, join returns", "statement": "Once exit has been delivered and the application has dropped the connection, every schedule reaches, in a bounded number of steps and without getting stuck, a state where both threads have ended; join() then returns Ok unless a write failed. If the application drops the connection without waiting for exit, the two threads also take only a bounded number of further steps whatever the peer does, and never get stuck, except that the reader may wait for a peer that has not closed the stream.", "quantifier": "every reachable state, every continuation", "why_tests_cant": "All interleavings; deadlock freedom.", "anchors": ["bsp-server/src/io_thread.rs:IoThreads::join", "bsp-server/src/transporter.rs"]}
{"id": "C58", "title": "What join reports", "statement": "join() returns Ok iff both threads ended successfully; a reader error is returned at once without waiting for the writer; a thread panic is re-raised; with stdio, a reader panic can only be reported once the writer has released stdout, and then a non-protocol line is put on stdout that a peer rejects.", "quantifier": "every pair of thread outcomes, every output written so far", "why_tests_cant": "All combinations and outputs.", "anchors": ["bsp-server/src/io_thread.rs:IoThreads::join", "bsp-server/src/transporter.rs:stdio"]}
{"id": "C59", "title": "Outgoing request ids are fresh", "statement": "Ids handed out by Outgoing::register are pairwise distinct for the first 2^31 registrations; a completion returns the data registered under that id exactly once. (Module not compiled: commented out in lib.rs.)", "quantifier": "every sequence of register/complete operations", "why_tests_cant": "All histories up to the overflow boundary.", "anchors": ["bsp-server/src/req_queue.rs:Outgoing"]}
{"id": "C60", "title": "Incoming requests are completed or cancelled at most once", "statement": "Incoming behaves as a map: complete/cancel succeed iff the id is registered and not yet completed or cancelled; cancel answers with the same id, code -32800 and no result. (Module not compiled.)", "quantifier": "every sequence of register/complete/cancel operations", "why_tests_cant": "All histories.", "anchors": ["bsp-server/src/req_queue.rs:Incoming"]}
{"id": "C61", "title": "Notification from a bare method name", "statement": "Converting a bare string to a notification succeeds exactly for build/exit and build/initialized and panics for every other string.", "quantifier": "every string", "why_tests_cant": "All strings.", "anchors": ["bsp-server/src/notification.rs:From<&str>"]}
{"id": "C62", "title": "Into<Message> conversions keep id and payload", "statement": "Sending (id, payload) or a payload through the conversions produces a message whose encoding has exactly that id, the method of the payload type and the payload as params (or result).", "quantifier": "every id and payload of every convertible type", "why_tests_cant": "All values.", "anchors": ["bsp-server/src/request.rs:convertible!", "bsp-server/src/notification.rs:convertible!", "bsp-server/src/response.rs:convertible!"]}
{"id": "C63", "title": "The documented dispatch loop answers every request exactly once", "statement": "For the main loop given in the README, every received request gets exactly one response with its id, in order, until shutdown; notifications and responses get none; nothing after the exit is consumed.", "quantifier": "every sequence of received messages", "why_tests_cant": "All histories.", "anchors": ["README.md:36-63", "bsp-server/src/lib.rs:handle_shutdown"]}
{"id": "C64", "title": "Direct decoding of a request or notification from text is stricter", "statement": "Decoding Request or Notification directly from JSON text (not via Message) fails for every object with an unknown member such as jsonrpc, and agrees with the decoding via Message/Value on all other objects.", "quantifier": "every object", "why_tests_cant": "All objects.", "anchors": ["bsp-server/src/request.rs:visit_map (418)", "bsp-server/src/notification.rs:visit_map (230)"]}
{"id": "C65", "title": "A setter changes one member", "statement": "After any setter of a payload type, the encoded object has the member that the setter is named after with the given value (absent for None or an omitted empty list) and every other member as before.", "quantifier": "every setter (82), every object, every value", "why_tests_cant": "All objects and values; a setter writing a neighbouring field of the same type shows only for particular ones.", "anchors": ["bsp-types/src/*.rs: set_*"]}
{"id": "C66", "title": "A getter returns the member", "statement": "Every getter returns the value whose encoding is the member it is named after; None or empty iff the member is absent; predicates on a task status are about the code written.", "quantifier": "every getter (78), every object", "why_tests_cant": "All objects.", "anchors": ["bsp-types/src/*.rs: getters", "bsp-types/src/task/finish.rs:TaskStatus"]}
{"id": "C67", "title": "A constructor writes its arguments and nothing else", "statement": "For every constructor, every member of the encoded object is one of the arguments under its name or a fixed default, and no other member is written.", "quantifier": "every constructor and derived default (79), every argument", "why_tests_cant": "All arguments.", "anchors": ["bsp-types/src/*.rs: new, new_simple, Default"]}
{"id": "C68", "title": "Every payload can be built through the public API", "statement": "Every value of every payload type can be built by a user of the crate from public fields, constructors, defaults and setters, without decoding JSON.", "quantifier": "every payload type and every value", "why_tests_cant": "It is a statement about all compositions of functions and all values.", "anchors": ["bsp-types/src/*.rs: pub fields, impl blocks"]}
{"id": "C69", "title": "The unimplemented server answers every request it has a method for", "statement": "Every method of BuildServer with a default body answers every request of its kind with an empty result and does not panic.", "quantifier": "every request", "why_tests_cant": "All requests and params.", "anchors": ["bsp-types/src/server.rs:BuildServer"]}
{"id": "C70", "title": "The process writes what the sequential program sends, and nothing else", "statement": "For the documented main program with its reader and writer thread: whatever the schedule, the pieces in which input arrives and output is written, and the way the process ends, the bytes written are a prefix of the frames of the messages that the sequential program (C41-C50, C63) sends on receiving the messages that the input carries.", "quantifier": "every execution of the process, every handler, every input", "why_tests_cant": "Interleavings and partial reads and writes cannot be enumerated.", "anchors": ["README.md:14-63", "bsp-server/src/lib.rs:90-200", "bsp-server/src/transporter.rs", "bsp-server/src/io_thread.rs"]}
{"id": "C71", "title": "No process is stuck with work to do", "statement": "If no write has failed and neither a thread nor main can take a step, the process has exited, or main is waiting to receive, has received every message that has arrived in full, and every answer owed has been written in full.", "quantifier": "every reachable state of the process", "why_tests_cant": "Deadlocks show only under particular schedules.", "anchors": ["README.md:14-63", "bsp-server/src/transporter.rs", "bsp-server/src/lib.rs"]}
{"id": "C72", "title": "Between two arrivals of input the process comes to rest", "statement": "There is no infinite execution without input, and from every state a state of rest can be reached without input, timeout or write failure.", "quantifier": "every state of the process", "why_tests_cant": "A statement about infinite executions.", "anchors": ["README.md:14-63", "bsp-server/src/transporter.rs"]}
{"id": "C73", "title": "A complete session ends in success with every request answered", "statement": "A client sends any requests but build/initialize, then build/initialize, initialized, any messages without shutdown and exit, shutdown and exit, in any framing the server accepts and in any pieces, followed by anything. If no write fails and the 30 s limit does not run out, then the process at rest has exited with success, and the bytes written are exactly one frame for each request, in order: refusals with code -32002, the value of the handler, the replies of the loop, null.", "quantifier": "every such session, every execution, every handler that does not panic", "why_tests_cant": "All sessions and schedules.", "anchors": ["README.md:14-63", "bsp-server/src/lib.rs:90-200", "bsp-server/src/transporter.rs", "bsp-server/src/io_thread.rs", "bsp-server/src/message.rs"]}
{"id": "C74", "title": "A session without shutdown lasts as long as the connection", "statement": "In a session as in C73 without shutdown, the process does not exit while the input is open, and if the client closes the connection, or sends exit, the process at rest has exited with success; in all cases each request has been answered exactly once, in order, and nothing else written.", "quantifier": "every such session, every execution", "why_tests_cant": "All sessions and schedules.", "anchors": ["README.md:14-63", "bsp-server/src/lib.rs:114-175", "bsp-server/src/transporter.rs", "bsp-server/src/io_thread.rs"]}
{"id": "C75", "title": "Success means that everything has been written", "statement": "If the process has exited with success then everything that the sequential program sends for the messages received has been written in full, and the input has been received up to exit or up to an end between two messages.", "quantifier": "every execution", "why_tests_cant": "All executions.", "anchors": ["README.md:29-33", "bsp-server/src/io_thread.rs:join"]}
{"id": "C76", "title": "A message that has been sent is written unless a write fails", "statement": "If main has sent a message without error and no write fails, the message is written before the process exits.", "quantifier": "every execution", "why_tests_cant": "Only particular schedules lose a message.", "anchors": ["README.md:25-33", "bsp-server/src/transporter.rs:18-23"]}
{"id": "C77", "title": "A client that uses the same library is served", "statement": "In a session as in C74, a request (shutdown included) that the client has written with Message::write of this library is answered exactly once by the process.", "quantifier": "every request, every such session, every execution", "why_tests_cant": "Needs both sides, all requests and all schedules.", "anchors": ["bsp-server/src/message.rs:31-49", "bsp-server/src/request.rs:126-160", "bsp-server/src/request.rs:335-470", "README.md:36-63"]}
{"id": "C78", "title": "The reader waits exactly for the rest of a frame", "statement": "While the input is open, the reader thread is blocked in Message::read exactly as long as the bytes not yet consumed are well-formed header lines and part of a line, or a header block and fewer bytes than it declares; in every other case the read returns, with a result that does not depend on what follows.", "quantifier": "every byte sequence", "why_tests_cant": "All byte sequences and all ways to deliver them.", "anchors": ["bsp-server/src/message.rs:58-91", "bsp-server/src/transporter.rs:25-41", "bsp-server/src/transporter.rs:51-61"]}
{"id": "C79", "title": "Malformed input ends the process with an error", "statement": "If the input has something that is not a message, or breaks off, before an exit notification, the process at rest has exited with an error; in a session after the handshake all requests before that point have been answered in order, of which at most the last answer is not written in full.", "quantifier": "every input, every execution without failing writes", "why_tests_cant": "All malformed inputs and schedules.", "anchors": ["bsp-server/src/message.rs:58-91", "bsp-server/src/transporter.rs", "bsp-server/src/io_thread.rs", "README.md:14-63"]}
{"id": "C80", "title": "The outcome does not depend on the schedule or the transport", "statement": "Two processes with the same handler and the same input, over stdio or sockets, with whatever scheduling and fragmentation, end up with the same exit status (or both waiting), the same messages received and sent and, unless they exit with an error, the same bytes written, provided no write fails and exit is in time; and every input has such an outcome.", "quantifier": "every input, every pair of executions", "why_tests_cant": "All pairs of schedules.", "anchors": ["README.md:14-63", "bsp-server/src/lib.rs:90-200", "bsp-server/src/transporter.rs", "bsp-server/src/io_thread.rs"]}
{"id": "C81", "title": "After shutdown the process waits for exit, up to the time limit", "statement": "After a session and a shutdown request the process at rest has answered everything and waits for the exit notification; if the time limit passes first it exits with an error.", "quantifier": "every session, every execution", "why_tests_cant": "All sessions and schedules; the time limit is 30 s.", "anchors": ["bsp-server/src/lib.rs:178-200", "README.md:36-63"]}
{"id": "C82", "title": "A failed write is not a success", "statement": "If a write to the output has failed, the process never exits with success; at rest it has exited with an error or it is still waiting for input on an open connection.", "quantifier": "every execution", "why_tests_cant": "Write failures at every point of every schedule.", "anchors": ["bsp-server/src/transporter.rs:18-23", "bsp-server/src/transporter.rs:66-73", "bsp-server/src/io_thread.rs:17-32", "README.md:29-33"]}
{"id": "C83", "title": "A received message can be passed on unchanged", "statement": "Every message read from any input, in whatever form it was written (order of members, unknown members, explicit nulls, positional arrays, any accepted framing), and written again by the library, is read by the next reader as exactly the same message, and a whole stream as the same messages in the same order, except that the requests without params (shutdown, workspace/buildTargets, workspace/reload, custom with null) are read as an empty response with the same id. What is heard of any message that can be sent can itself be sent (it is not longer, not nested more deeply, and has no other numbers) and is heard as exactly what it is: after one hop nothing changes any more.", "quantifier": "every input stream", "why_tests_cant": "Combines every accepted form of every message type with every encoding of it.", "anchors": ["bsp-server/src/message.rs:31-91", "bsp-server/src/request.rs:205-285", "bsp-server/src/request.rs:337-469", "bsp-server/src/notification.rs:99-267", "bsp-server/src/response.rs:4-22", "bsp-types/src"]}
{"id": "C84", "title": "A test on Connection::memory has the outcome of the real process", "statement": "The server program on one end of Connection::memory, whatever a tester does with the other end, answers a prefix of what it is sent, never waits to send, comes to rest, and at rest has answered everything it received; if the same messages are sent to a process over stdio or a socket, both have received and sent the same messages and are waiting or have ended in the same way, unless an exit notification comes while requests are served and is not the end of the input: there the process stops reading and ends while the server in memory goes on.", "quantifier": "every sequence of operations of the tester, every message sequence, every pair of schedules", "why_tests_cant": "Relates two different executions under all schedules.", "anchors": ["bsp-server/src/lib.rs:69-81", "bsp-server/src/lib.rs:114-200", "bsp-server/src/transporter.rs", "README.md:14-63"]}
{"id": "C85", "title": "Every way to send sends the message or gives it back", "statement": "Whatever threads call send, try_send, send_timeout and send_deadline at the same time, every call that has returned has returned once: Ok, and then its message is written after those of the calls that returned Ok before, once; or an error of its method with its own message, and then nothing of it is written. try_send and the calls with a time limit can always return, send waits only for the message before it, Disconnected is returned only after a write has failed and then always; in memory every call returns at once, with an error only if the other side has no receiver.", "quantifier": "every set of concurrent calls, every schedule, every failure point", "why_tests_cant": "All interleavings of concurrent calls.", "anchors": ["bsp-server/src/lib.rs:203-228", "bsp-server/src/lib.rs:69-81", "bsp-server/src/transporter.rs:14-80"]}
{"id": "C86", "title": "Request ids are told apart", "statement": "Two ids are equal exactly if their Display texts are equal, also when something that is no digit follows, and exactly if what is written for them on the wire is equal; every id is read back as itself, so that the number 5 and the text \"5\" are never confused; the order of ids is total, antisymmetric and transitive, numbers before texts.", "quantifier": "every pair (triple) of ids", "why_tests_cant": "Ids are arbitrary strings and numbers; escaping and quoting must be injective for all of them.", "anchors": ["bsp-server/src/request/id.rs:4-34"]}
{"id": "C87", "title": "Error texts tell what went wrong", "statement": "The handshake and the shutdown give up exactly if a wrong message comes, the input ends or (shutdown) nothing comes in time; the text of the error then tells in which of the three places (waiting for build/initialize, build/initialized, exit), whether a message caused it, and of the message the kind, the id of a request or response, whether a response has a result and if not the code and the message of its error if any, and the method of a notification. A refusal tells the id of the refused request also in its text, and of requests without params and custom requests the method. The text of an extraction error tells request from notification, wrong method from unreadable params, and the method if it has no line break.", "quantifier": "every message sequence, every timing, every two errors", "why_tests_cant": "Compares the texts for all pairs of causes.", "anchors": ["bsp-server/src/lib.rs:114-200", "bsp-server/src/request.rs:168-203", "bsp-server/src/error.rs:5-59", "bsp-server/src/request/id.rs:27-34"]}
{"id": "C88", "title": "The bytes of a stream determine the messages", "statement": "If the bytes written for one sequence of messages are the beginning of the bytes written for another one, then the messages of the first are the first messages of the second, as JSON values, and the remaining bytes are those of the others; two sequences have the same bytes exactly if they are the same sequence of JSON values, and sequences of messages that can be read back are then the same messages up to the documented normalisation (exactly the same if they have no present null and no reserved kind).", "quantifier": "every two message sequences", "why_tests_cant": "Two arbitrary sequences are compared; no finite set of pairs shows that none collide.", "anchors": ["bsp-server/src/message.rs:42-56", "bsp-server/src/request.rs:205-285", "bsp-server/src/notification.rs:99-122", "bsp-server/src/response.rs:4-22"]}
{"id": "C89", "title": "Written text has no control characters", "statement": "A written message is a header line, an empty line (each ended by CR LF) and a body without line ends or other control bytes, whatever its strings contain; so a stream of n messages has exactly 2n line feeds and 2n carriage returns and no other byte below 32.", "quantifier": "every message sequence", "why_tests_cant": "Strings with any control characters at any place of any message.", "anchors": ["bsp-server/src/message.rs:42-56"]}
{"id": "C90", "title": "Batches are rejected as a whole", "statement": "A JSON array is accepted as a message only if it has three elements of which the first is an id (then it is a response given by position); a JSON-RPC batch (an array of objects, also the empty one) is rejected as a whole, however it is spelled and framed, and no message of it is delivered.", "quantifier": "every array, every framing", "why_tests_cant": "Arrays of arbitrary length and content.", "anchors": ["bsp-server/src/message.rs:7-13", "bsp-server/src/message.rs:32-40", "bsp-server/src/response.rs:4-14"]}
{"id": "C91", "title": "Without an exit notification no connection ends by itself", "statement": "If two processes use this library on the two ends of a connection (sockets or standard streams), then as long as no exit notification has been received on either side, no reader has failed and no process has exited, both readers wait for input and IoThreads::join returns on neither side, also when both applications have dropped their connections; when everything sent has been received nothing at all happens any more. (Each side keeps its descriptor in the reader thread until the other side is closed.)", "quantifier": "every schedule, every message sequence", "why_tests_cant": "A deadlock claim about all executions of two processes.", "anchors": ["bsp-server/src/transporter.rs:14-80", "bsp-server/src/io_thread.rs:17-32", "bsp-server/src/lib.rs:42-66"]}
{"id": "C92", "title": "After exit both ends come to an end and nothing is lost", "statement": "Two processes use this library on the two ends of a connection (sockets or standard streams); one sends its messages and then exit, the other one whatever it likes except exit, both drop their senders and go on receiving. Then every run of the threads and the network has a bounded number of steps, and when nothing can happen any more IoThreads::join returns Ok on both sides and each side has received every message of the other, in order, up to the documented normalisation (requests without params as empty responses, C13); the connection is not reset and no write fails. (If the other process uses the standard streams, the join of the first one returns when the other process has exited; until then it waits, and everything has been received all the same.)", "quantifier": "every schedule, every message sequence", "why_tests_cant": "All interleavings of four threads and the network, and termination.", "anchors": ["bsp-server/src/transporter.rs:14-80", "bsp-server/src/io_thread.rs:17-32", "bsp-server/src/lib.rs:42-66"]}
{"id": "C93", "title": "Setting up a connection: all or nothing", "statement": "Connection::connect and listen return an error exactly if the operating system refuses to connect, bind or accept, with that error, and then no thread runs and nothing is left open; they return a connection exactly if all calls succeed, and then both threads run, each has one descriptor of the socket, nobody else has one, and the listening socket is closed. If a descriptor cannot be duplicated they panic, and only the reader thread may be left.", "quantifier": "every combination of answers of the operating system", "why_tests_cant": "Failures of system calls are hard to provoke in tests.", "anchors": ["bsp-server/src/lib.rs:42-66", "bsp-server/src/transporter.rs:46-80", "bsp-server/src/io_thread.rs:8-15"]}
{"id": "C94", "title": "A read claims no more memory than it has received", "statement": "The buffer of a read is never larger than the number of bytes received so far. (False of the code: the buffer is made as large as Content-Length declares before the body arrives, so a header of at most 39 bytes makes it claim any number of bytes up to isize::MAX. True of every read that succeeds; and only a complete header block that declares more can make it larger, and then it is exactly as large as declared.)", "quantifier": "every byte stream, every declared length", "why_tests_cant": "Tests read well-formed frames, and do not look at the allocator.", "anchors": ["bsp-server/src/message.rs:58-91"]}
{"id": "C95", "title": "Reading loses the method names of custom requests and nothing else", "statement": "Over any input whatever, the memory that the reader never gives back (Box::leak) is exactly the UTF-8 length of the method names of the custom requests it has delivered: nothing for standard requests, responses, notifications, rejected input or requests that fail to decode. Hence there is no bound: one small custom request sent n times loses at least n bytes, even if the application drops every message.", "quantifier": "every byte stream", "why_tests_cant": "A leak shows only in long runs, and its exact amount is not visible to a test.", "anchors": ["bsp-server/src/request.rs:337-469", "bsp-server/src/message.rs:7-13", "bsp-server/src/message.rs:32-40"]}
{"id": "C96", "title": "A client and a server that use this library: served, and both come to an end", "statement": "A client that uses this library is connected to the server of the README, by a socket or by the standard streams. It sends any requests, build/initialize, initialized, any further messages (also shutdown), and exit, drops its sender and goes on receiving. Then there is no infinite run, and when nothing can happen any more the server process has exited with success, IoThreads::join of the client returns Ok, and the client has received exactly one answer to each request that has arrived as a request, in order - refusals before build/initialize, the value of the handler, the answers of the loop - and nothing else. (Requests without params do not arrive as requests, C13.)", "quantifier": "every schedule of the five threads and the network, every message sequence, every handler", "why_tests_cant": "All interleavings of two processes, and termination.", "anchors": ["README.md:14-63", "bsp-server/src/lib.rs:90-200", "bsp-server/src/transporter.rs:14-80", "bsp-server/src/io_thread.rs:17-32", "bsp-server/src/message.rs"]}
{"id": "C97", "title": "A client that waits for the answer to shutdown waits for ever", "statement": "As long as a client that uses this library has not sent exit (and is there and receives), the server of the README does not exit and join returns on neither side; every message that the client receives is a response to a request other than shutdown, workspace/buildTargets, workspace/reload and custom requests with null params. So a client that does as the protocol says - shutdown, wait for the answer, then exit - never gets the answer: when nothing can happen any more it has received the answers to its other requests, and no more.", "quantifier": "every schedule, every kind of connection, every message sequence, every handler", "why_tests_cant": "That something never happens cannot be tested.", "anchors": ["README.md:14-63", "bsp-server/src/request.rs:337-469", "bsp-server/src/message.rs:7-13", "bsp-server/src/lib.rs:178-200"]}
{"id": "C98", "title": "Every payload type accepts exactly the trees of its schema", "statement": "For each of the 54 payload types and for every JSON tree: the tree is decoded if and only if it conforms to the schema of the type (an object that has every required member once and no known member twice, each with a value of its schema, other members being ignored; or the values by position, of which only those with a default may be missing at the end).", "quantifier": "every JSON tree, every payload type", "why_tests_cant": "The trees of every shape, with duplicates, unknown members, positional forms and nesting are infinite; a test shows single trees accepted or rejected.", "anchors": ["bsp-types/src/lib.rs:1-56", "bsp-types/src/initialize_params.rs:8-39", "bsp-types/src/task/start.rs:6-30", "bsp-types/src/bt_tag.rs:9-38"]}
{"id": "C99", "title": "What is left of a payload is a function of the tree", "statement": "For every payload type and every JSON tree that it accepts, encoding what was decoded gives the tree that the schema leaves of it: the known members in the order of the schema, defaults filled in or left out as the schema says, free-form data sorted and without duplicates, URLs as the url crate writes them, nothing else changed.", "quantifier": "every JSON tree, every payload type", "why_tests_cant": "Infinitely many trees, in all their accepted forms.", "anchors": ["bsp-types/src/lib.rs:1-56", "bsp-types/src/task/kind.rs:19-53", "bsp-types/src/bt_tag.rs:9-38"]}
{"id": "C100", "title": "Which trees and texts are messages, and what they become when passed on", "statement": "For every JSON tree: it is received as a request, a response or a notification, or rejected, exactly as a table of method names and schemas says, in this order of preference, and written again it is exactly the tree that the table gives; for every text, the same through the JSON grammar and the printed frame.", "quantifier": "every JSON tree, every text", "why_tests_cant": "Infinitely many trees and texts, and the claim includes all those that must be rejected.", "anchors": ["bsp-server/src/message.rs:7-49", "bsp-server/src/request.rs:205-285", "bsp-server/src/request.rs:337-469", "bsp-server/src/response.rs:4-22", "bsp-server/src/notification.rs:99-122", "bsp-server/src/notification.rs:159-267"]}
{"id": "C101", "title": "The text of a double determines it and is as short as possible", "statement": "Every finite double in a message is written as a JSON number literal of at most 24 characters with a point or an exponent; the double is the one nearest to the number written (ties to even), no decimal with fewer digits has this property, among those with as many digits and the same exponent none is nearer, and two doubles have the same text only if they are equal.", "quantifier": "all 2^64 bit patterns that are finite doubles", "why_tests_cant": "2^64 doubles; shortest is a statement about all other decimals.", "anchors": ["bsp-server/src/message.rs:42-49", "bsp-server/Cargo.toml:13", "bsp-types/Cargo.toml:13"]}
{"id": "C102", "title": "A double that is written is read back as the same double", "statement": "Every finite double in a message survives writing and reading.", "quantifier": "every finite double", "why_tests_cant": "2^64 doubles; the failing ones are scattered.", "anchors": ["bsp-server/src/message.rs:32-49", "bsp-server/Cargo.toml:13"]}
{"id": "C103", "title": "The text of every double is accepted", "statement": "The text written for a finite double is always read as a finite double of the same sign (though a literal exists that is nearest to the largest double and is nevertheless rejected as out of range).", "quantifier": "every finite double", "why_tests_cant": "2^64 doubles.", "anchors": ["bsp-server/src/message.rs:32-49", "bsp-server/Cargo.toml:13"]}
{"id": "C104", "title": "Ordinary decimals survive", "statement": "A number literal with at most 15 digits and a decimal exponent of at most 22, in any notation, is read and written again as the same number, and one whose digits are at most 9e14, of which up to 22 after the point, is stable from then on.", "quantifier": "every literal of this size", "why_tests_cant": "10^15 literals with 45 exponents, in all notations.", "anchors": ["bsp-server/src/message.rs:32-49", "bsp-server/Cargo.toml:13"]}
{"id": "C105", "title": "Every message with numbers arrives, and only its doubles can change", "statement": "With doubles written and read as ryu and serde_json do: every wire-representable message of at most 127 levels with integers and finite doubles of any value is read back and never rejected; what arrives is what was sent with each double replaced by what its text is read as, everything else being equal; a stream of them arrives in order; messages whose doubles have short texts arrive unchanged; and whatever message was read from any bytes can be passed on in this way. A response with 9007199254740991.0 arrives with 9007199254740990.0.", "quantifier": "every message with any numbers, every stream of them, every message read from any bytes", "why_tests_cant": "Infinitely many messages; doubles are 2^64 values of which scattered ones change.", "anchors": ["bsp-server/src/message.rs:32-49", "bsp-server/Cargo.toml:13"]}
{"id": "C106", "title": "How far a double can move", "statement": "A literal whose digits fit 64 bits with an exponent of at least -308, if accepted, is read as a double at most two steps (in the sequence of all doubles) from the nearest one; the text of every finite double is read as one at most three steps away, at most two from 1e-291 upwards; two steps occur in either direction; and passing a message on again and again need not settle.", "quantifier": "every literal of this size, every finite double, every number of hops", "why_tests_cant": "2^64 doubles and all literals; the last claim is about infinitely many hops.", "anchors": ["bsp-server/src/message.rs:32-49", "bsp-server/Cargo.toml:13"]}
{"id": "C107", "title": "What any number literal is read as", "statement": "Every JSON number literal up to 2^29 characters, with however many digits and whatever exponent: if it is accepted as a double, that double is finite, has the sign of the literal and is at most five steps (in the sequence of all doubles) from the one nearest to the number; it is rejected only if the nearest is infinity or within three steps of it, and it is rejected if the number is five steps beyond; zero is read as zero in all its forms.", "quantifier": "every number literal", "why_tests_cant": "Infinitely many literals; digits that do not fit 64 bits are dropped and exponents beyond 32 bits saturate, in paths that ordinary numbers never take.", "anchors": ["bsp-server/src/message.rs:32-40", "bsp-server/Cargo.toml:13"]}
{"id": "C108", "title": "When the process at one end is gone, the other comes to an end", "statement": "If a process has exited or been killed, at whatever moment and whatever it had sent (also half a frame), then no process at the other end is left hanging: one that uses this library, has dropped its sender and goes on receiving gets out of IoThreads::join (with Ok, an error or a panic); the server of the README exits, whatever it had received and even if its writes fail. There is no infinite run.", "quantifier": "every schedule, every message sequence, every moment", "why_tests_cant": "All interleavings of two processes, cut off anywhere.", "anchors": ["README.md:14-63", "bsp-server/src/transporter.rs:14-80", "bsp-server/src/io_thread.rs:17-32", "bsp-server/src/lib.rs:114-200"]}
{"id": "C109", "title": "A handshake that goes wrong ends both processes", "statement": "A client that uses this library sends requests that are refused and then something that the handshake does not take: a message that does not arrive as a request, a build/initialize at which the handler panics, or a build/initialize that is not followed by initialized; then perhaps more. It drops its sender and goes on receiving. Then, when nothing can happen any more, the server of the README has exited with an error, IoThreads::join of the client has returned, and the client has received nothing but answers of the server, in order. In particular a request without params before build/initialize (workspace/reload, say), which arrives as a response (C13), is not refused: the server exits with an error.", "quantifier": "every schedule, every message sequence, every handler", "why_tests_cant": "All interleavings of two processes in a situation that tests of the ordinary course do not reach.", "anchors": ["README.md:14-63", "bsp-server/src/lib.rs:114-173", "bsp-server/src/transporter.rs:14-80", "bsp-server/src/io_thread.rs:17-32"]}
{"id": "C110", "title": "Messages of the protocol are understood", "statement": "Every request and every notification that is one of the Build Server Protocol 2.0 as its specification has it (which the READMEs cite) is decoded as the request or notification of that method, with its id, and not as a custom one. (False: buildTarget/compile, buildTarget/test, buildTarget/dependencySources, buildTarget/run with arguments and requests without params are taken for empty responses, buildTarget/inverseSources and build/taskProgress for custom messages, and a task event later than February 1970 is no message.)", "quantifier": "every JSON tree that is a message of the protocol", "why_tests_cant": "Infinitely many messages; the tests of the crate have messages of its own making only.", "anchors": ["README.md:4", "bsp-types/README.md:5-7", "bsp-server/src/request.rs:41-75, 337-469", "bsp-server/src/notification.rs:31-45, 159-267", "bsp-types/src/lib.rs:1-56"]}
{"id": "C111", "title": "Results of the protocol are understood", "statement": "Every result that is one of the Build Server Protocol 2.0 as its specification has it is accepted by the type of the crate for it. (False of the list of the build targets: it is accepted exactly if all tags are among seven words, to which library and no-ide do not belong.)", "quantifier": "every JSON tree that is a result of the protocol", "why_tests_cant": "Infinitely many trees.", "anchors": ["bsp-types/README.md:5-7", "bsp-types/src/server.rs:17-186", "bsp-types/src/bt_tag.rs:9-38", "bsp-types/src/workspace_build_targets.rs:9-54"]}
{"id": "C112", "title": "What is written is as the protocol has it", "statement": "Every request, notification and result that is written is one of the Build Server Protocol 2.0 as its specification has it. (False; it is said exactly of which values it holds. It holds of no compile, test, dependencySources or inverseSources request and of no report of progress.)", "quantifier": "every value of the message types and of the result types", "why_tests_cant": "Infinitely many values.", "anchors": ["bsp-types/README.md:5-7", "bsp-server/src/request.rs:205-285", "bsp-server/src/notification.rs:99-122", "bsp-types/src/lib.rs:1-56"]}
{"id": "C113", "title": "Responses are those of JSON-RPC 2.0", "statement": "Every response of JSON-RPC 2.0 (an id and either a result or an error) is decoded as a response with that id and that result or error, and every response that is written is one of JSON-RPC 2.0. (False: a response with id null or a number that is no 32-bit integer is no message, a result null is lost, and a response with neither or both can be made and written.)", "quantifier": "every JSON tree that is a response of JSON-RPC 2.0; every value of Response", "why_tests_cant": "Infinitely many trees and values.", "anchors": ["bsp-server/src/message.rs:15-29", "bsp-server/src/response.rs:4-22"]}
{"id": "C114", "title": "A client that keeps to the protocol gets its answers", "statement": "A client sends frames with messages of the Build Server Protocol 2.0 as its specification has it: build/initialize, initialized, any requests, notifications and responses, shutdown and exit. If no write fails and exit is not late, the server of the README ends with success and has written exactly one response of JSON-RPC 2.0 to each request, in order, each with an error or with a result of the type that the protocol gives for that request. (False: with the handler in the documentation of initialize the first result is not of that type; and there is no answer to compile, test, dependencySources, run with arguments, nor to any request without params, among them shutdown; all others are answered, if the handler returns an InitializeBuildResult.)", "quantifier": "every such conversation, framing and division of the bytes into pieces; every schedule of the threads", "why_tests_cant": "Infinitely many conversations and schedules; the published protocol is not in the repository.", "anchors": ["README.md:14-63", "bsp-server/src/lib.rs:90-200", "bsp-server/src/message.rs:32-91", "bsp-server/src/request.rs:337-469"]}
{"id": "C115", "title": "What a server that keeps to the protocol sends arrives", "statement": "A server sends frames with responses of JSON-RPC 2.0 and notifications of the Build Server Protocol 2.0 as its specification has it, to a client that uses this library. The application receives them all, in order, each response with its id and result or error, each notification with its method, and the connection goes on. (False: the first task event at a time after February 1970 makes the reader thread fail, and so does the first response with the id null.)", "quantifier": "every such stream, framing and division of the bytes into pieces; every schedule of the threads", "why_tests_cant": "Infinitely many streams and schedules; the published protocol is not in the repository.", "anchors": ["bsp-server/src/transporter.rs:14-80", "bsp-server/src/message.rs:32-91", "bsp-types/src/task/start.rs:14", "bsp-types/src/task/finish.rs:14"]}
{"id": "C116", "title": "Workers that share a connection answer every request once", "statement": "Several threads run the loop of the README on one connection. Whatever the order of their steps and of those of the I/O threads, every message they send is the answer to a request received, each to a different one. Once nothing more can happen and no write has failed, and if nobody has asked to shut down, every request received has been answered once, the answers are written, and all workers wait for input or all have ended well with the input. There is no infinite run without input. With two or more workers the answers need not come in the order of the requests.", "quantifier": "any number of workers, every reachable state of the connection to begin with, every input and schedule, with and without failing writes", "why_tests_cant": "The schedules of any number of threads and all inputs are infinitely many; races are not reproducible.", "anchors": ["bsp-server/src/lib.rs:37-40", "bsp-server/src/transporter.rs:14-80", "README.md:36-62"]}
{"id": "C117", "title": "Workers that share a connection shut down well", "statement": "Several threads run the loop of the README on one connection, and the client sends any messages, shutdown, and in time exit. In the end every request has been answered once, the answers are written, join succeeds, and all workers have ended without an error. (False with two or more workers: exit may be received by another worker than the one that waits for it in handle_shutdown, which then reports an error; at most that one does.)", "quantifier": "any number of workers, every reachable state of the connection to begin with, every such input and schedule", "why_tests_cant": "Depends on which of the threads that wait for a message gets it.", "anchors": ["bsp-server/src/lib.rs:174-200", "bsp-server/src/lib.rs:37-40", "bsp-server/src/transporter.rs:29-38", "README.md:36-62"]}
{"id": "C118", "title": "A client that numbers its requests matches every answer with its request", "statement": "A client numbers its requests with Outgoing, sends them over a connection to a server whose workers share the connection, and completes every message it receives. Whatever the order of all steps, and even if writes fail or the connection is cut: every message it handles is the answer to one of its requests, each to a different one, and the queue returns the data registered for that request; the data of the other requests stays pending. Once nothing more can happen, and if nothing has failed or been cut and no exit has been sent, exactly the requests that are sent with params have been answered. There is no infinite run unless the client asks or says more. Numbers may wrap around: this holds for up to 2^32 requests, or any number if additions are checked.", "quantifier": "every start of the queue and of the connection, any number of workers and requests, data of any type, every schedule of both sides", "why_tests_cant": "Depends on the order in which any number of answers overtake each other, on all inputs and on the wrap-around of a 32 bit counter.", "anchors": ["bsp-server/src/req_queue.rs:31-69", "bsp-server/src/lib.rs:37-40", "bsp-server/src/transporter.rs:14-80", "bsp-server/src/message.rs:32-89", "README.md:36-62"]}
{"id": "C119", "title": "A server that keeps account of its requests with Incoming answers each once, cancelled or not", "statement": "A server registers every request it receives with Incoming, works on any number of them at a time, sends the outcome of a job if complete returns its data, and on the wish of the client sends what cancel returns. Whatever the order of all steps, and even if writes fail: under every id it sends no more responses than it has received requests, and each response is the outcome of the job of a received request or answers a wish to cancel. Once nothing more can happen and no write has failed, all jobs have ended, all responses are written, and under every id there are as many responses as requests, less those registered while the id was pending; so if no two requests have the same id, each is answered exactly once, and every outcome sent got back the data of its own request. There is no infinite run without input. With ids used twice this fails in two ways: of two pending requests one is not answered; and the outcome of a cancelled job can be sent as the answer to a later request.", "quantifier": "every reachable connection, any messages, data of any type, any number of jobs, every order of receiving, handling, finishing, cancelling and sending", "why_tests_cant": "Depends on every order in which jobs end and wishes to cancel arrive, on any number of requests and on all inputs.", "anchors": ["bsp-server/src/req_queue.rs:26-57", "bsp-server/src/lib.rs:37-40", "bsp-server/src/transporter.rs:14-80", "bsp-server/src/error.rs:72"]}
{"id": "C120", "title": "A client with Outgoing and a server with Incoming: each request is answered once, with its data, or cancelled", "statement": "A client numbers its requests with Outgoing and hands every response to complete; the server registers every request with Incoming, works on any number of them at a time and cancels those of which the client says so. Whatever the order of all steps on both sides and of the bytes between them, also if writes fail or the connection is cut: every message the client handles is the answer to one of its requests, each to a different one, and comes with the data registered for that very request; it is the outcome of the job of that request, for which the queue of the server gave back the data of that job, or says that it has been cancelled, and then the client has said so. What is pending are the data of the other requests. Once nothing more can happen, no write has failed and nothing has been cut, both sides have nothing left to do and the unanswered requests are just those whose params are not written. There is no infinite run unless the client asks or says more.", "quantifier": "both kinds of transport on each side, every reachable pair of connections, any requests, data of any types, any wishes to cancel, every order of all steps, fewer than 2^32 requests or checked additions", "why_tests_cant": "Depends on every order of the steps of two queues, two connections and any number of jobs, and on all inputs.", "anchors": ["bsp-server/src/req_queue.rs:6-69", "bsp-server/src/lib.rs:37-40", "bsp-server/src/transporter.rs:14-80", "bsp-server/src/error.rs:72"]}
{"id": "C121", "title": "One thread receives and others send: all work is finished and written, and shutdown ends well", "statement": "A server receives in one thread only, which gives each request to a thread of its own that sends any messages through a clone of the sender, and answers shutdown itself. Whatever the order of all steps, also if writes fail: there is one thread for each request received before shutdown, what has been sent is what these threads have sent so far, each in its order, mixed with at most the answer to shutdown, and after shutdown at most one message is received; the main thread ends well only after shutdown and exit or at the end of the input. Once nothing more can happen and no write has failed, every thread has sent all it had to send and all of it is written. If the client has sent shutdown and then exit in time, the main thread and join end well (in contrast to C117), all work is finished even if it was pending at shutdown or exit, and if every thread answers its request once, every request has been answered once. Work may be sent after the answer to shutdown and after exit. There is no infinite run without input, and the server can always come to rest.", "quantifier": "both kinds of transport, every reachable connection to start from, any relation between requests and the messages sent for them, any input, any order of steps", "why_tests_cant": "Depends on every order of the steps of any number of threads, and on all inputs.", "anchors": ["bsp-server/src/lib.rs:37-40", "bsp-server/src/lib.rs:178-199", "bsp-server/src/transporter.rs:14-80", "bsp-server/src/io_thread.rs:17-32"]}
{"id": "C122", "title": "Finite buffers: a client that receives all the time is served, one that sends first can wait for ever", "statement": "Between a client and the server of the README the operating system keeps at most so many bytes in each direction; a write waits for room, and a reader thread takes bytes only while it is in Message::read. Then one side is never ahead of what the application of the other side has received by more than two messages and as many as fit into twice the bytes of the buffer. If each buffer holds at least a byte, whatever its size, a client that goes on receiving gets all it sends taken, and C96 and C97 hold as they stand. A client with one thread, that first sends all and then receives, never gets to the end of its sends if there are 2a/21 + 2b/21 + 6 answers or more (a and b the sizes of the buffers in bytes, the quotients rounded down; no message takes less than 21 bytes), never receives anything, and comes to where client, server and their four threads all wait for each other in a circle. If all answers fit into the buffer it is served like the other. It has no infinite run.", "quantifier": "all buffer sizes, both kinds of transport, all sessions of the form of C96, all schedules", "why_tests_cant": "Depends on the sizes of buffers of the operating system and on every interleaving of six threads; a test with small messages never fills a buffer.", "anchors": ["bsp-server/src/message.rs:42-49", "bsp-server/src/message.rs:58-91", "bsp-server/src/transporter.rs:14-80", "bsp-server/src/lib.rs:37-66", "README.md"]}
{"id": "C123", "title": "Every message is received and answered, though the client never stops sending", "statement": "Client and server run for ever, with buffers of any sizes that hold a byte between them, and are scheduled fairly: none of the two reader threads, the two writer threads, the main thread of the server, the receiving thread of the client and the two inputs could act all the time and never does. The client receives and does not exit, and what it has sent at any time is the beginning of a session as in C96. Then every message that it has ever sent is received by the server, the answers to all of them arrive at the client, in order, however much it goes on sending meanwhile, and its writer thread is ready for the next message again and again. For every endless sequence of such messages there is such a run in which all of them are sent.", "quantifier": "all infinite fair executions, all endless sessions, all buffer sizes, both kinds of transport", "why_tests_cant": "A property of infinite executions: no finite test can tell late from never.", "anchors": ["bsp-server/src/transporter.rs:14-80", "bsp-server/src/message.rs:42-91", "bsp-server/src/lib.rs:37-66", "bsp-server/src/lib.rs:124-173", "README.md"]}
{"id": "C124", "title": "What is written is as short as possible, and the answer is at most 31 bytes longer than the request", "statement": "For a value without doubles no text that is read as that value has fewer bytes than the text that is written for it, and a text of any value has at least as many bytes as what is written with 0 for each double. No frame that carries a text has fewer bytes than the frame that is written for it. So however a request is written (white space, escapes, order of members, further members, further header lines), the frame with the answer of the loop, or with the answer to the shutdown, has at most 31 bytes more than the frame with the request, and this happens. After the handshake the server never has written more than the answers of the handshake and twice as many bytes as have arrived since, in every execution.", "quantifier": "all texts of the JSON grammar, all frames, all requests, all executions, both kinds of transport", "why_tests_cant": "It compares with all other texts of a value, of which there are infinitely many, and bounds the output for every input.", "anchors": ["bsp-server/src/message.rs:42-91", "bsp-server/src/response.rs:9-40", "bsp-server/src/io_thread.rs", "bsp-types/src/lib.rs", "README.md"]}
{"id": "C125", "title": "A client with one thread that receives between its sends is served", "statement": "The client has one thread: it is either in a call of send or in a call of recv, and decides from what it has sent and received so far which of the two comes next. Before it has sent all of its messages it sends only if the answers that it has not received yet fit into the buffer between the server and it, and receives only if there is such an answer. Then no run goes on for ever, and whenever it stands still the client has sent all its messages and received all the answers, with buffers of any sizes that hold a byte. One that does one request at a time is such a client. So is one that waits for the first answers, up to that to build/initialize, and then keeps the bytes of its unanswered requests, and 31 more for each, within the size of the buffer: it need not know the answers. One that waits for an answer to each of its requests never sends anything after a request that the library writes without params, and waits for ever, whatever the buffers.", "quantifier": "all such clients, all sessions as in C96, all executions, all buffer sizes, both kinds of transport", "why_tests_cant": "Whether it stands still depends on the sizes of buffers, on the sizes of all messages in them and on the schedule; C122 shows sessions in which a client that sends first never gets through.", "anchors": ["bsp-server/src/transporter.rs:14-80", "bsp-server/src/message.rs:42-91", "bsp-server/src/lib.rs:37-66", "bsp-server/src/lib.rs:124-173", "README.md"]}
{"id": "C126", "title": "A server that answers in other threads never makes a client wait for ever", "statement": "The server receives in its main thread and gives each request to a thread of its own, which sends any number of messages for it (C121). The client has one thread and may decide as it likes whether to send next or to receive, only that before it has sent all it does not receive more than is sure to come; in particular it may send everything first. Neither sends exit. Then no run goes on for ever, and whenever it stands still the client has sent all its messages, there has been one thread for each request that the server hears as one, and the client has received all that these threads had to send, each of them in its order, and nothing else: with buffers of any sizes that hold a byte. With the server of the README there are sessions in which such a client waits for ever (C122).", "quantifier": "all such clients and threads, all states after the handshake, all executions, all buffer sizes, both kinds of transport", "why_tests_cant": "A test has one buffer size and one schedule; whether a design can block depends on all threads on both sides, on the rendezvous channels between them and on the two buffers at once.", "anchors": ["bsp-server/src/transporter.rs:14-80", "bsp-server/src/message.rs:42-91", "bsp-server/src/lib.rs:37-66", "README.md"]}
{"id": "C127", "title": "Leaving a server that answers in other threads loses nothing, whatever the buffers", "statement": "The server and the client are those of C126, but exit is the last message of the client. No run goes on for ever (C126), and whenever it stands still the client has sent all; the main thread of the server has ended with Ok and join returns Ok for its I/O threads; and that is so only after each request that was heard as one has had its thread and the client has received all that these threads had to send. If the server is connected by a socket, the end of the stream reaches the client, whose reader thread ends well, and once the client has dropped its sender join returns Ok for it too.", "quantifier": "all such clients and threads, all states after the handshake, all executions, all buffer sizes, both kinds of transport", "why_tests_cant": "Whether exit overtakes answers that are still being computed depends on when the threads send, on the writer thread and on both buffers; a test sees one order of events and one size.", "anchors": ["bsp-server/src/transporter.rs:14-80", "bsp-server/src/io_thread.rs:16-28", "bsp-server/src/message.rs:42-91", "bsp-server/src/lib.rs:37-66", "README.md"]}
{"id": "C128", "title": "A process with threads that exits with success has left nothing undone", "statement": "When main returns, the other threads of a process are killed. A server that gives each request to a thread (C121) returns from main with success only when the loop has ended with Ok and join has returned Ok: whatever the peer and the threads do, and even if writes fail, then there has been a thread for each request received before shutdown, each of them has sent all that it had to send, all that was sent has been written, and if the client asked to shut down it has been answered. With a client that says exit last (C127), behind buffers of any sizes and for both kinds of transport: no run goes on for ever unless the client leaves; whenever it stands still the process has exited with success and the client has received all that the threads had to send; its reader thread has ended well, and once it has dropped its sender join returns Ok for it. With an error it is different: if exit comes too late after shutdown main returns at once, and the threads of requests received before may be killed before they have sent anything, although no write has failed.", "quantifier": "all clients and threads, all executions, all buffer sizes, both kinds of transport", "why_tests_cant": "A test that runs the loop inside the test process never sees threads killed by a return from main, and which thread has got how far by then differs from run to run.", "anchors": ["README.md", "bsp-server/src/transporter.rs:14-80", "bsp-server/src/io_thread.rs:16-32", "bsp-server/src/message.rs:42-91", "bsp-server/src/lib.rs:37-66"]}
{"id": "C129", "title": "A fixed number of workers behind finite buffers", "statement": "A client is connected to a server in which n >= 1 threads run the loop of the README (C116), with buffers of any sizes in between. A client with one thread that sends only while the answers it has not received yet fit into the buffer, or are at most n + 1, and receives only if there are some, gets all its messages sent and receives the answer to each of its requests and nothing else, in any order; so does a client that has at most n + 2 requests under way, and a client that sends all first and has at most n + 1 requests. A client that receives in another thread is served whatever n is. But a client that sends all first and has n + 2a/21 + 2b/21 + 5 requests, a and b being the sizes of the buffers in bytes and the quotients rounded down, never gets to the end and never receives anything: it comes to a point where it, both its threads, both threads of the server and all workers wait for one another. More workers only put that off, in contrast with a thread for each request (C126). No run goes on for ever unless the client leaves.", "quantifier": "all numbers of workers, all scripts and policies of a client, all executions, all buffer sizes, both kinds of transport", "why_tests_cant": "Whether it deadlocks depends on the number of requests against the number of workers and the sizes of the buffers of the operating system; a test with few requests passes with any of them, and the deadlock shows up under load only.", "anchors": ["README.md", "bsp-server/src/transporter.rs:14-80", "bsp-server/src/message.rs:42-91", "bsp-server/src/lib.rs:37-66"]}
{"id": "C130", "title": "The work is proportional to the input", "statement": "In every execution of the server of the README, from the start of its process, the number of steps that its program and its threads have taken is at most four for each message that the program has received, one for each byte that the process has written, and seven; each message received took at least 21 bytes of the input, so that the number of steps is at most 4/21 of the bytes that have arrived, plus the bytes written, plus seven. After a handshake that succeeds it is at most three for each further byte that arrives, and what the handshake took. Workers that share a connection take together no more than that and one step each.", "quantifier": "all byte streams, all executions, both kinds of transport, all handlers of build/initialize, all numbers of workers", "why_tests_cant": "That no input makes the server spin, poll or retry is a statement about all inputs and all interleavings; a test sees the steps of one run and cannot count those of the threads.", "anchors": ["bsp-server/src/transporter.rs:14-80", "bsp-server/src/lib.rs:68-199", "bsp-server/src/message.rs:42-91", "README.md"]}
{"id": "C131", "title": "How many requests a server holds at a time", "statement": "In every execution of the server of the README, whatever goes wrong, what has been taken from the input are whole frames, and of the answers to their messages all but the last three at most have been written whole. Workers that share a connection hold, without the requests to shut down, at most one request each and two more. Both bounds are reached by runs in which no write fails. A server that starts a thread for each request can hold any number: for all requests there is a run in which all have been taken from the input and nothing has been sent.", "quantifier": "all byte streams, all executions, both kinds of transport, all handlers, all numbers of workers, all requests", "why_tests_cant": "How far a server reads ahead of its own answers shows only when the client does not receive, and then depends on the interleaving of the reader, the program and the writer; a test sees one of them.", "anchors": ["bsp-server/src/transporter.rs:14-80", "bsp-server/src/lib.rs:37-40", "bsp-server/src/message.rs:42-91", "README.md"]}
{"id": "C132", "title": "Workers under an endless stream of requests", "statement": "Requests come in for ever to a server in which n >= 1 threads run the loop of the README on one connection (C116), and nobody asks to shut down. If every thread that could act all the time acts at some time, then every message that has come in is received (up to an exit notification). If moreover no worker that waits to send is passed over for ever by the channel to the writer, then every request that has been received is answered and the answer written. The second assumption is needed for that: with two workers or more there is a run in which every thread that could act all the time does act, all requests but one are received and answered, and one worker stays for ever before the send of its answer, because whenever the writer is ready another worker is served. So the liveness of a server with workers rests on the channel being fair to those who wait (which crossbeam is, by its queue), not on the scheduler alone.", "quantifier": "all numbers of workers, all infinite executions, all endless sequences of requests, both kinds of transport", "why_tests_cant": "That a request is never answered is a property of an infinite execution: no finite test can tell starvation from delay, and the schedules that starve a worker are not those a test machine produces.", "anchors": ["README.md", "bsp-server/src/transporter.rs:14-80", "bsp-server/src/lib.rs:37-40"]}
{"id": "C133", "title": "The loop, workers, and a thread for each request do the same to the connection", "statement": "After the handshake the documented loop and a pool of one worker do the same, step for step, until the program exits: each execution of one is an execution of the other that leaves the connection in the same state after as many steps. As long as no thread drops its end of the connection, n + 1 workers can do with the same steps what n workers do. If nobody asks to shut down either, whatever workers do to the connection a program that starts a thread for each request can do, with some of the same steps in the same order; and what such a program does n + 1 workers can do, if it receives at most n requests. Not n workers: a worker receives a message only when fewer than n requests are unanswered, so there is an execution of such a program with n requests and a notification that no execution of n workers matches.", "quantifier": "all executions of each program, all numbers of workers, all handlers, all peers, all failures to write, both kinds of transport", "why_tests_cant": "That two programs can do the same is a statement about all their executions; a test compares single executions.", "anchors": ["bsp-server/src/lib.rs:37-40", "bsp-server/src/lib.rs:127-157", "bsp-server/src/transporter.rs:14-80", "README.md"]}
{"id": "C134", "title": "A thread for each request under an endless stream of requests", "statement": "Requests come in for ever to a server that starts a thread for each (C121), and nobody asks to shut down. If every thread that could act all the time acts at some time, every message that has come in is received (up to an exit notification), however slowly the threads send. If moreover no thread that waits to send is passed over for ever by the channel to the writer, then for each request received there comes a time when its thread has sent all that it has to send, in its order, mixed with what others have sent, and all has been written. The second assumption is needed for that: there is a run in which every thread that could act all the time does act, all requests are received, the threads of all but the first send all they have to, and the thread of the first never sends anything.", "quantifier": "all programs for the threads, all infinite executions, all endless sequences of requests, both kinds of transport", "why_tests_cant": "That something is never sent is a property of an infinite execution: no finite test can tell starvation from delay.", "anchors": ["README.md", "bsp-server/src/transporter.rs:14-80", "bsp-server/src/lib.rs:37-40"]}
{"id": "C135", "title": "Workers on one end of Connection::memory", "statement": "After the handshake, n workers receive, answer and shut down on one end of Connection::memory, while a tester does what it likes with the other end. What the workers have sent are answers to requests they have received, each to a different one, and a worker that has an answer never waits to send it; the send succeeds exactly if the tester still listens. Left alone they come to rest. If then the tester still listens and nobody has asked to shut down, all that the tester has sent has been received and each request has been answered once, and either the tester can still send and all workers are in the loop, or it cannot and all have ended well. These are the answers that any number of workers send over stdio or a socket for the same requests. But two things differ. As long as the tester can still send, a request to shut down stops one worker at most and exit stops no further one: the others wait for ever, where a real connection would end (C117). And a tester that sends all requests before it receives anything has every one answered, where over finite buffers a client that does so may never receive an answer (C129): such a test cannot show that deadlock.", "quantifier": "all numbers of workers, all behaviours of the tester, all schedules, both ends; for the comparison all sizes of the buffers and both kinds of transport", "why_tests_cant": "Tests on Connection::memory are the usual way to test a server; what they cannot show is by its nature not found by writing more of them, and the order in which workers take messages is not under their control.", "anchors": ["bsp-server/src/lib.rs:37-40", "bsp-server/src/lib.rs:69-81", "bsp-server/src/lib.rs:178-199", "README.md"]}
{"id": "C136", "title": "Leaving a server with a fixed number of workers", "statement": "A client with one thread is connected to a server in which n workers run the loop of the README, through buffers of any size of at least one byte. It sends as carefully as in C129 and its last message is exit. When neither it nor anything else can go on, it has sent all; each of its requests has been answered once and it has received the answers; all n workers have ended well although only one of them has received exit, and join returns Ok on the side of the server. Over a socket the reader thread of the client has ended well too, and join returns Ok there once the client has dropped its sender. There is such a run. A client with a second thread that receives all the time need not be careful: once it has sent exit, all ends in the same way. But a client that does not send exit and keeps its receiver waits for ever in join, and so does the server, also if the client has dropped its sender.", "quantifier": "all numbers of workers, all sizes of the buffers, all sequences of messages and careful policies, all schedules, both kinds of transport on either side", "why_tests_cant": "Whether workers that did not receive exit themselves end, and with answers still under way through small buffers, depends on the schedule; that a run without exit never ends cannot be observed in finite time.", "anchors": ["bsp-server/src/transporter.rs:14-80", "bsp-server/src/lib.rs:37-66", "bsp-server/src/io_thread.rs", "README.md"]}
{"id": "C137", "title": "Dropping the connection instead of taking leave", "statement": "A client that uses this library has gone through a session with the server of the README (requests that are refused, build/initialize, initialized, further messages) and then drops its connection, sender and receiver, without having sent exit. What it has received until then are answers of the server, in order, and their number decides what happens. If it has received one answer to each request that the server hears, nothing happens any more: IoThreads::join returns on neither side and the server does not exit. If at least one answer is missing, the reader thread of the client panics over the next one (transporter.rs:34, 55), join of the client panics with \"reader panicked!\" on the standard output, and over a socket the server exits; if the client uses the standard streams, the server waits until the client has exited. If exactly one answer is missing, the server at the other end of the socket exits with success in every schedule; if two or more are missing, its exit code is open, whatever the session and the number of answers received. One of the two comes about after finitely many steps.", "quantifier": "all sessions, all moments at which the connection is dropped, all schedules, both kinds of transport on either side", "why_tests_cant": "Which of the two happens is a race between the answers and the drop; that nothing happens any more in one of the cases cannot be observed in finite time.", "anchors": ["bsp-server/src/transporter.rs:28-40", "bsp-server/src/transporter.rs:47-80", "bsp-server/src/io_thread.rs", "bsp-server/src/lib.rs:37-66", "README.md"]}
{"id": "C138", "title": "A thread for each request on one end of Connection::memory", "statement": "After the handshake, the main thread receives on one end of Connection::memory and gives each request to a thread of its own, which has a clone of the sender and sends what there is to send for it; a tester does what it likes with the other end. What is received is a beginning of what the tester has sent; there is one thread for each request received before a request to shut down, it has sent a beginning of what it has to send, in its order, and what has been sent is that, mixed in some way, with at most one more message, the answer to shutdown. No send waits: it succeeds or fails at once, as the tester listens or not. There is no infinite run without the tester, and left alone the threads come to rest. If then the tester still listens: if no request to shut down has been received, all the tester has sent has been received, even beyond an exit, and each thread has sent all it had to send; if the tester has sent shutdown and exit after it and exit was not late, everything up to that exit has been received, each thread has sent all, possibly after the answer to shutdown and after the main thread has ended, and the main thread has ended well. If what is sent depends on the request only, the same is sent, in whatever order, as over stdio or a socket for the same requests.", "quantifier": "all behaviours of the tester, all schedules, everything the threads may want to send, both ends, both kinds of transport for the comparison", "why_tests_cant": "The threads of a server send in an order no test controls, and a test sees a few of the orders in which tester, main thread and threads may take their steps.", "anchors": ["bsp-server/src/lib.rs:37-40", "bsp-server/src/lib.rs:69-81", "bsp-server/src/lib.rs:178-199", "README.md"]}
{"id": "C139", "title": "The exit status tells whether shutdown was requested", "statement": "Once the exit notification has come, the server of the README exits, with success if the shutdown request has been received before and with an error otherwise, as documented for build/exit. (False in both directions. If no write fails and exit is not late: the process exits with success exactly if the input begins with a session and exit, or a session, shutdown and exit, or if it is a session that ends cleanly, perhaps after some header lines; a session is requests that are refused, build/initialize that the handler takes, initialized, and messages other than shutdown and exit. It goes on waiting exactly if the input is open and consists of messages that may still become one of these, and part of a frame. In all other cases it exits with an error. That success means such an input is so even if writes fail or exit is late. Hence exit without shutdown succeeds, and exit after shutdown and any further message fails; the documentation is right exactly if the messages before exit are a session and shutdown, or if they are a session and shutdown was among the refused requests, or neither a session nor with a shutdown among them.)", "quantifier": "all bytes of input, open, ended or broken off, all handlers, all schedules, both kinds of transport", "why_tests_cant": "The exit status is settled by the whole input and must not depend on the schedule; tests give a few inputs and see few schedules.", "anchors": ["bsp-types/src/server.rs:44-50", "bsp-server/src/lib.rs:112-199", "bsp-server/src/transporter.rs:14-80", "README.md"]}
{"id": "C140", "title": "To a client that uses this library the exit status does not tell whether shutdown was requested", "statement": "A client that uses this library is connected to the server of the README. If the client has sent exit, has dropped its sender and goes on receiving, then when nothing can happen any more the server has exited, and with success exactly if what is heard of what the client has said before exit is a session (requests that are refused, build/initialize that the handler takes, initialized, and messages other than exit). Shutdown before exit changes nothing after a session, and makes the server exit with an error if it comes before the end of the handshake: with it the server exits with success exactly if what was said before shutdown is a session. So two clients that say the same session, one with shutdown and one without, both see success. And whenever the server has exited with success, whatever has gone wrong, the client has said a session and then has sent exit or has hung up.", "quantifier": "all messages said that can be carried, all handlers whose answers can be carried, all schedules of both processes, both kinds of transport on either side", "why_tests_cant": "Both processes, four threads and two byte streams are involved; tests see few of their interleavings, and a test of shutdown against a server written by hand does not show that it is heard as a response.", "anchors": ["bsp-types/src/server.rs:44-50", "bsp-server/src/request.rs", "bsp-server/src/message.rs", "bsp-server/src/lib.rs:112-199", "bsp-server/src/transporter.rs:14-80", "README.md"]}
{"id": "C141", "title": "A relay between a client and a server is not noticed", "statement": "A program with two connections of this library passes on what it receives, with one thread for each direction, between a client and a server that use the library. At any moment, whatever fails, what the server has received is a beginning of what is heard of what the client has sent, in order, nothing twice and nothing made up, and the same the other way round. As long as client and server only receive nothing can go on for ever. If the client has sent its messages and then exit, and the server what it had to send, and both have dropped their senders and go on receiving, then when nothing can happen any more everything is as if they had been connected to each other: each has received everything that the other has sent, their joins have returned Ok, and so have both joins of the relay, which has exited. What is heard after two hops is what is heard after one.", "quantifier": "all messages that can be carried, all schedules of the three processes (eight threads, four byte streams), every kind of transport of the client, the server and the first connection of the relay; its second connection is a socket", "why_tests_cant": "Three processes have more interleavings than tests can try; that the end of one connection reaches the other one only after everything has been passed on, and that no two threads wait for each other, is about all of them.", "anchors": ["bsp-server/src/lib.rs:37-66", "bsp-server/src/transporter.rs:14-80", "bsp-server/src/io_thread.rs", "bsp-server/src/message.rs", "bsp-server/src/request.rs"]}
{"id": "C142", "title": "A chain of relays, however long, is not noticed", "statement": "Between a client and a server that use the library there are n programs, each with two connections of this library, that pass on what they receive in both directions (n is any number). At any moment, whatever fails anywhere, what the server has received is a beginning of what is heard of what the client has sent, in order, nothing twice and nothing made up, and the same the other way round: what is heard after any number of hops is what is heard after one. As long as client and server only receive nothing can go on for ever. When nothing can happen any more before exit has been sent, each has received everything that the other has sent, and nothing is left in any relay. If the client has sent its messages and then exit, and the server what it had to send, and both have dropped their senders and go on receiving, then when nothing can happen any more each of them has received everything that the other has sent, their joins and those of all relays have returned Ok, and all relays have exited.", "quantifier": "all numbers of relays, all messages that can be carried, all schedules of all processes, every kind of transport of the client, the server and the first connection of each relay; the second connections of the relays are sockets", "why_tests_cant": "A test has a fixed number of processes; that the end reaches the last one only after everything has been passed on, that it comes back, and that nothing is lost or changed on the way needs an induction over the chain and over its runs.", "anchors": ["bsp-server/src/lib.rs:37-66", "bsp-server/src/transporter.rs:14-80", "bsp-server/src/io_thread.rs", "bsp-server/src/message.rs", "bsp-server/src/request.rs"]}
{"id": "C143", "title": "A chain of relays works with buffers of any size", "statement": "As C142, but the operating system keeps on each link only so many bytes that are on their way: a writer thread waits for room, and a reader thread takes bytes only while it reads and not while it waits for its program. The sizes may differ from link to link and between the directions; each is at least one byte. When the threads and the network can do nothing any more, nothing could happen with larger buffers either, before exit each of the two has received everything that the other has sent, and the client and the server can send their next message, whatever it is. Whatever the two have to say there is a run at whose end both have heard all of it, all have joined and all relays have exited; and once both have sent everything and dropped their senders every maximal run ends so. What the client has sent is never further ahead of what the server has received than the buffers and the threads of the relays have room for, and the same the other way round. With no room at all on one link nothing ever gets to the server.", "quantifier": "all numbers of relays, all sizes of the buffers, all messages that can be carried, all schedules, every kind of transport of the client and the first connection of each relay", "why_tests_cant": "A test has the buffers of one operating system, which are far larger than its messages; that no cycle of full buffers and waiting threads can come about is a statement about all sizes and all schedules.", "anchors": ["bsp-server/src/lib.rs:37-66", "bsp-server/src/transporter.rs:14-80", "bsp-server/src/io_thread.rs", "bsp-server/src/message.rs"]}
{"id": "C144", "title": "The server of the README is reached through any number of relays as if connected directly", "statement": "A client that uses this library has the program of README.md:14-63 at the other end of n programs that pass on what they receive in both directions (n is any number, also none). It sends any requests that are refused before build/initialize, then build/initialize, initialized, any other messages, and exit, and goes on receiving. At any moment the server has not failed and the client has received a beginning of the answers due, in order. As long as the application of the client only receives nothing can go on for ever. When nothing can happen any more and the client has sent all but exit, the server waits and the client has received exactly one answer to each request that the server has received, in order, and nothing else. When nothing can happen any more and the client has sent exit and dropped its sender, the server has exited with success, all relays have exited, every join returns Ok, and the client has received just that: the same as from a server that is connected directly (C96).", "quantifier": "all numbers of relays, all such conversations, all handlers that accept, all schedules of all processes, every kind of transport of the client, the server and the first connection of each relay; the second connections of the relays are sockets", "why_tests_cant": "A test has a fixed number of processes and one conversation; that the server program never keeps the chain from coming to its end, and that the end comes back through all relays only after every answer, needs an invariant of the server and of the chain at the same time.", "anchors": ["README.md:14-63", "bsp-server/src/lib.rs", "bsp-server/src/transporter.rs:14-80", "bsp-server/src/io_thread.rs"]}
{"id": "C145", "title": "The server of the README is reached through any number of relays with buffers of any size", "statement": "As C144, but the operating system keeps on each connection only so many bytes that are on their way (C143); the sizes may differ from connection to connection and between the directions; each is at least one byte. As long as the client keeps to the plan and goes on receiving: when nothing can happen any more, nothing could happen with larger buffers either; before exit the server then waits and every request that it has received has been answered, in order; as long as the client has its sender it can send its next message, whatever it is; and after exit, when the sender has been dropped, the server has exited with success, all relays have exited and every join returns Ok. Nothing can go on for ever while the client only receives, and for every such conversation there is a run at whose end all of this has taken place. A client that does not receive is stopped: the answers to what it has sent are never more than what it has received and what the buffers and the threads on the way there and back have room for. With no room at all on one connection nothing ever gets to the server.", "quantifier": "all numbers of relays, all sizes of the buffers, all such conversations, all handlers that accept, all schedules of all processes, every kind of transport of the client, the server and the first connection of each relay", "why_tests_cant": "A server with one thread that answers before it receives the next message may wait for room while others wait for it; that no cycle of full buffers, waiting threads and the loop of the server can come about is a statement about all sizes and all schedules.", "anchors": ["README.md:14-63", "bsp-server/src/lib.rs", "bsp-server/src/transporter.rs:14-80", "bsp-server/src/io_thread.rs", "bsp-server/src/message.rs:42-91"]}
{"id": "C146", "title": "Without exit the end of a client or a server is not seen through relays, and two relays or more never end", "statement": "In a chain of relays (C142) a connection on which exit has not been sent stays open as long as neither of its ends gives it up; a relay gives it up only if one of its writes has failed on its other connection, and not because that connection has ended. So a server behind one relay or more that has sent nothing is never told that the client has gone, whatever else than exit the client has sent: its join does not return (connected directly it is told, C108); and the same for a client that has sent nothing. Exit does not help if the client exits before a byte of what it has sent has been written (without join). Two relays or more between a client and a server that have sent nothing stay for ever, also when the client and the server have both gone and nothing can happen any more. The same holds after a conversation without exit, when nothing can happen any more (so each has received what the other has sent, C142) and then the client or the server goes or both do, as long as they send nothing more. A relay whose two neighbours have both gone does exit, whatever they had sent; so a single relay does when the client and the server have gone. Both of the last two hold as well when the operating system keeps only so many bytes on each connection (C143).", "quantifier": "all numbers of relays, all messages that can be sent but exit, all schedules of all processes, every moment at which one goes, every kind of transport of the client, the server and the first connection of each relay", "why_tests_cant": "That a process never ends cannot be observed by a test; which of its threads wait for which is a statement about all schedules of any number of processes.", "anchors": ["bsp-server/src/lib.rs:37-66", "bsp-server/src/transporter.rs:14-80", "bsp-server/src/io_thread.rs"]}
{"id": "C147", "title": "A client that goes without exit leaves the server of the README behind, if there is a relay between them", "statement": "A client that uses this library talks to the server of the README through one relay or more (C144). As long as what it has sent is a beginning of such a conversation, the last relay has not sent exit (the client has not, or it has not got there), and no write of the last relay on the way back has failed, the server has not exited and its join does not return, whatever happens, also when the client and the other relays have gone. So if the client has sent all of the conversation but exit and everything has been answered, so that nothing can happen any more, and the client then goes, in whatever way, the server stays for ever; connected directly it exits (C108). The same holds when the operating system keeps only so many bytes on each connection (C145), at least one; and for every such conversation there is a run at whose end it has taken place, the client has gone, nothing can happen any more and the server is still there.", "quantifier": "all numbers of relays from one on, all sizes of the buffers, all such conversations, all handlers that accept, all schedules of all processes, every kind of transport of the client, the server and the first connection of each relay", "why_tests_cant": "That a process never ends cannot be observed by a test; it depends on which thread of which process waits for which, in all schedules.", "anchors": ["README.md:14-63", "bsp-server/src/lib.rs", "bsp-server/src/transporter.rs:14-80", "bsp-server/src/io_thread.rs"]}
{"id": "C148", "title": "A relay whose one neighbour has gone exits when a message of the other cannot be handed on, and only then", "statement": "Of what a relay (C142) has received it has handed on to the writer of its other connection everything but one message at most, in each direction, whatever has happened. If the left one of its two neighbours (on the side of the client) has gone, and the right one is there and receives, and exit has not been sent between the relay and the right one, then, when nothing can happen any more, the relay has exited if and only if the right one has sent a message that has not been handed on (because a write had failed before). As long as everything has been handed on it is there and the right one goes on reading from it, at every moment and even if the last write has failed. A server that has sent such a message to the last relay has been told when nothing can happen any more: its reader thread has ended. The other way round, when the right neighbour has gone and the left one is there and receives, the relay has exited if and only if at least two messages of the left one have not been handed on, and it is there at every moment as long as at most one has not, and the left neighbour goes on reading from it. The same is decided in the same way for the last relay and a server, and for the first relay and a client, when the operating system keeps only so many bytes on each connection (C143), at least one between these two. With C146 and C147 this is what decides whether the end of a client is seen without exit; it depends on the schedule and on when the writes fail.", "quantifier": "all numbers of relays, all messages that can be sent, all schedules of all processes, every moment at which one goes, every kind of transport of the client, the server and the first connection of each relay", "why_tests_cant": "How many messages are lost, and whether a process ends, depends on the schedule of six threads and on the moment at which a write fails; a test sees one schedule.", "anchors": ["bsp-server/src/lib.rs:37-66", "bsp-server/src/transporter.rs:14-80", "bsp-server/src/io_thread.rs"]}
