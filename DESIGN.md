# Formal model of kkharji/build-server-protocol in Lean 4 — design

The property list is `properties.jsonl` (generated by `tools/props.py`). Which theorems settle which
property is in `MANIFEST.json` (generated by `tools/manifest.py` from the theorem names `Cnn_*`).
Build: `cd lean && lake build`. No Mathlib module is needed.

## 1. What is modelled, and where

| Code in /repo | Lean module (`lean/Verif/`) | How |
|---|---|---|
| serde `Content`, `serde_json::Value` (dependency) | `Json` | `Json` = ordered members, duplicates possible (what the parser delivers); `Value` = subtype of canonical trees (sorted unique keys), `Json.canon` = conversion |
| lsp_types 0.93.0 `Diagnostic` and what it contains, `TextDocumentIdentifier` (dependency) | `Types`, `Enums` | as the types of bsp-types, from the published definition of the structs |
| serde derive for structs (dependency) | `Serde` | source = map or positional array; required / optional / defaulted fields; duplicate-field check |
| bsp-types/src/*.rs, wire part | `Types`, `Enums`, `Payload` | one structure, encoder and decoder per Rust type (generated from `tools/gen_types.py`; `tools/check_types.py` compares field names and attributes with the Rust text), index `Payload` over all of them |
| bsp-types/src/*.rs, API part | `Api` | every `new*`, getter, `*_mut`, setter, `add_*`, `is_*` (generated from `tools/gen_api.py`, which reads the Rust text) |
| bsp-types/src/server.rs | `Server` | the default methods of `BuildServer`, `todo!()` being a panic |
| request.rs, request/id.rs, response.rs, notification.rs, error.rs, message.rs (serde part) | `Message` | inductives, `encode`, `decode` following `visit_map` statement by statement; untagged `Message` tries the three decoders in order |
| `convertible!` and other `From` impls | `Convert` | functions |
| serde_json text layer (dependency) | `JsonText` | compact printer, recursive-descent parser with the nesting limit 128; `JsonGrammar` is a separate grammar, `JsonPrint` relates the two |
| doubles: ryu 1.0.9 and serde_json 1.0.79 `f64_from_parts` (dependencies) | `Double` | bit patterns and exact integer arithmetic; `FloatText.serdeJson` is the instance of `FloatText` that they make |
| messages with doubles replaced | `Floats` | replacing every double of a tree; decoding commutes with it |
| what the payload types and messages accept, as a table | `Schema`, `SchemaTable` | a language of schemas, independent of the decoders; the table is generated |
| the protocol that the READMEs cite (not in /repo) | `Protocol` | a language of interfaces and the table of those of the Build Server Protocol 2.0; used by C110–C115 only |
| JSON-RPC 2.0 (named in message.rs:15-29) | `Rpc` | its responses; what a client of the protocol sends; used by C113–C115 only |
| message.rs framing (`read_msg_text`, `read`, `write`) | `Framing` | over an abstract `BufRead`; instances: flat byte list, list of chunks |
| lib.rs `initialize*`, `handle_shutdown`, `send` | `Conn` | functions on a `World` (messages to come, how they end, how many sends succeed, what has been sent) with outcome ok / error / panic / blocked |
| lib.rs `memory` | `Memory` | two channels with handle counts; every interleaving of operations of both sides |
| lib.rs `memory` with README.md | `MemSession` | the server program of `Session` on one end of the channels of `Memory`, an arbitrary tester on the other |
| lib.rs `Connection` shared by threads, with README.md | `Pool` | any number of threads in the loop of README.md on one connection; every interleaving with the I/O threads |
| req_queue.rs `Outgoing` with lib.rs `Connection` and README.md | `Asking` | a client that numbers and completes with `Outgoing`, in any order of numbering, sending, receiving and completing, against the workers of `Pool` |
| req_queue.rs `Incoming` with lib.rs `Connection` | `Serving` | a server that registers, completes and cancels with `Incoming`, in any order of receiving, handling, finishing and sending; which messages are wishes to cancel is a parameter, as the repository does not say |
| req_queue.rs `ReqQueue` on both ends of a connection | `Deal` | a client with `Outgoing`, a server with `Incoming`, the bytes between them |
| lib.rs `Connection`, cloned sender | `Crew` | one thread receives, a thread per request sends |
| the two processes with finite buffers | `Flow` | steps of `EndToEnd` and `Link` that buffers of given sizes let happen; a client with one thread |
| infinite runs with finite buffers | `Fair` | who acts in a step; weak fairness |
| clients that send and receive in turn | `Window` | the decision of the client is a function of what it has sent and received |
| a server with threads behind finite buffers | `Hall` | the process of the server does not exit |
| the exit of a process with threads | `Firm` | as `Session`: the exit is one step; a thread that panics does not end the process |
| workers behind finite buffers | `Desk` | as `Pool` and `Flow`: answers are computed in no time; the workers never leave the loop because nobody asks them to |
| infinite runs of workers | `Endless` | as `Pool`; fairness is an assumption about the scheduler and the channel, not derived from their code |
| infinite runs of a server with a thread for each request | `Throng` | as `Crew`; fairness as in `Endless` |
| workers on one end of `Connection::memory` | `MemPool` | the channels of `Memory`, the workers of `Pool`; the thread that did the handshake only waits for the workers |
| a thread for each request on one end of `Connection::memory` | `MemCrew` | the channels of `Memory`, the threads of `Crew`; clones of the sender are counted as one, dropped after the last thread is done |
| lib.rs `send`, `try_send`, `send_timeout`, `send_deadline` | `Sending` | concurrent calls on `Transport` and on `Memory`; time is abstract: a time limit may have passed at any moment |
| request/id.rs Display, Ord; request.rs Debug; error.rs texts | `Debug` | the Debug of params, of `Value` and the Unicode tables of core are parameters (`Conn.Dbg`) |
| transporter.rs, io_thread.rs | `Transport` | labelled transition system of reader thread, writer thread, application, peer; every schedule; pairs of two such connections |
| `Connection::stdio`, `connect`, `listen` (lib.rs:42-66), two processes on one connection | `Link` | answers of the operating system as parameters; who holds descriptors; two `Transport` states, bytes in flight, closing seen by the other side (end of input, reset, failing writes); failures of the network itself and of `thread::spawn` are not modelled |
| a program with two connections (lib.rs:37-66) that passes messages on | `Bridge` | two `Link`s and two threads of the relay; not a program in /repo; the handles are dropped when a thread ends, and the process exits after it has joined all threads |
| `n` such programs in a row | `Chain` | a link for each connection and what `Bridge` says of each relay; not programs in /repo |
| the README server at the end of them | `Remote` | `Chain` for the client and the relays, `Session` for the server; what the last connection brings to the server as in `EndToEnd` |
| the same with finite buffers | `Reach` | a step of `Remote` that the buffers of all links let happen, as in `Narrow` |
| the same with finite buffers | `Narrow` | the steps of `Chain` that `Flow.Lets` lets happen on each link |
| the buffer of `read_msg_text` (message.rs:58-91), `Box::leak` (request.rs:462) | `Resources` | the size of the buffer, not its capacity; what the JSON parser uses while it works is not modelled |
| README.md:14-63 and a client that uses this library, on one connection | `EndToEnd` | `Session` at one end of a `Link`, any application at the other |
| req_queue.rs (commented out in lib.rs) | `ReqQueue` | state machine over an association list, `i32` overflow both ways |
| README.md 14-63 | `Readme`, `Session` | `Readme`: the main program as a function on a `World`. `Session`: the same program as a small-step automaton, in parallel with the threads of `Transport` |

Specifications are kept apart from the model: `Spec` (what a usable message is), `FrameSpec` (what a
frame is), `JsonGrammar` (RFC 8259), `Payload` (the schema table), and `namespace Spec` blocks at the
head of the `Props` files. `Props/*` contains the theorems `Cnn_*` and, next to them, `example`s
showing a non-trivial case of their hypotheses; `Props/Cases` adds one for each theorem that no other
example uses, so that every theorem of the manifest is applied to something at least once.

Conventions: `&mut` becomes a returned value, `Result`/`Option` stay data, `unwrap`/`panic!` become an
explicit `panic` outcome, loops become recursion on the input, threads become interleaved steps.

## 2. Trusted base

* The Lean 4.33 kernel. Theorems depend on `propext`, `Classical.choice`, `Quot.sound` at most;
  `Verif/Audit.lean` checks this for every theorem of the project during the build, and fails
  otherwise. No axiom, `sorry`, `native_decide`, `bv_decide`, `implemented_by`, `extern`, `unsafe`.
* The reading of the Rust code, cited (file and lines) at every definition.
* The behaviour of dependencies, which are not in the sandbox and are modelled from their documented
  behaviour at the versions in Cargo.lock: serde 1.0.136 (derive, untagged, flatten, Content buffering),
  serde_json 1.0.79 (text grammar, `Value` with BTreeMap, recursion limit 128), serde_repr,
  crossbeam-channel 0.5.4 (rendezvous and unbounded FIFO channels), std (BufRead, UTF-8, `usize` parsing).
* 64-bit platform (`usize` = 64 bits).
* For C110–C115 only: the table of interfaces in `Verif/Protocol.lean` is what the specification of the Build Server
  Protocol 2.0 says. It is not in the sandbox; the doc comments of bsp-types/src quote it in part.
* Parameters — type classes without instance in the theorems, never axioms:
  * `Ext`: URL parsing/printing (`url` crate); `LawfulExt` adds the law that a URL is read back from its own
    text, as a hypothesis of the theorems that need it (`Ext.sample` is an instance, so the hypothesis is
    satisfiable).
  * `FloatText`: the text of floats. Theorems that need "reads back" ask it of the floats in the
    value concerned (`Numbers`). `FloatText.serdeJson` (`Double`) is the instance that serde_json and ryu make;
    C101–C104 say which floats have this property under it, and C105 is C12 and C83 under it without this condition.
    Whether `-0` is the integer 0 or the double -0.0 (it differs between releases of serde_json) is a field of this
    class too, so the theorems hold either way.
  * `Conn.Dbg`: what error texts take from dependencies: the derived `Debug` of params and of
    `serde_json::Value`, the Unicode tables behind `Debug` of `str`, the texts of crossbeam's errors.

Not modelled: a defect of serde_json before 1.0.89 in number literals whose integer part exceeds `u64` (a point with no
digits after it is accepted there, and a few literals such as 18446744073709551616.5 are refused; no such literal is ever
written); tracing output; texts of serde/IO errors (they collapse to "rejected"); memory
exhaustion (only the capacity-overflow panic); wall-clock time (`recv_timeout(30 s)` may return
`Timeout` at any moment at which no message is available, and the time limit is an event);
drop order inside `main`; reading from the underlying file
descriptor fails at most once and then for good.

`Transport.Settled` says when a blocked `Message::read` on an open connection returns: when its result is
the same for every continuation of the input. This is not an assumption about the code that could hide a
hang: C78 proves that it holds exactly when the bytes received contain a complete frame, a malformed
header line, or a header that can no longer be accepted.

## 3. Per property: what is modelled, how it is proved

Framing (`Props/Framing`, `Props/Wire`; model `Framing`, spec `FrameSpec`)
* C01 frame read back: direct, from the header lemmas of `FrameLemmas`.
* C02 stream read back: induction over the messages; also for every chunking.
* C03 cut: case analysis on where the cut falls, induction over the frames.
* C04, C05 header block: induction over header lines; `C05_only` is the converse (nothing else is rejected).
* C06 numerals: both directions, against the independent `Numeral`.
* C07 clean end: iff; induction over header lines.
* C08 consumption: frame decomposition of the consumed bytes; stability under extension.
* C09 chunking: simulation between the two `BufRead` instances, for every chunk list.
* C10 UTF-8: from the converse of the reader.
* C11 shape of output: computation with the printer, for every message.

Messages (`Props/Message`, `Props/RoundTrip`; model `Message`, spec `Spec`)
* C12, C26, C27 round trips: `decode ∘ encode` by cases on variants and the payload round trip, then through text and frame.
* C13 false of the code; `C13_violated` for all instances, `C13_partial` for the rest (§4).
* C14–C17, C19, C21, C28 classification, unknown members, order, duplicates: closed-form characterisation of the `visit_map` loop (`MessageLemmas`), compared with the declarative `Usable*`.
* C18 ids: iff against `IdOf`, injectivity.
* C20 false of the code; negation for all instances, remainder; `C20_exact`: exactly what such a message becomes.
* C22, C23, C25, C61, C62 tables: proved for every value by cases, against independent tables.
* C24 false of the code for `Custom`; negation, remainder.
* C64 stricter direct decoding: characterisation of `visitLoop` in text mode.

Payloads (`Props/Payload`, `Props/Api`, `Props/Server`; model `Types`, `Enums`, `Api`, `Server`)
* C29–C31 round trips for all types, modulo the explicit `norm`; `C29_norm` says when `norm` is the identity.
* C32–C34 unknown members, order, required, omitted: against the schema table of `Payload`.
* C35–C37 integer widths, enumerations, task data kinds: iff characterisations.
* C38 false of the code; negation, remainder; `C38_exact`: exactly which data are tags.
* C65–C67 setters, getters, constructors: for every type, against the member-wise view of the encoding.
* C68, C69 false of the code; negation, remainder.

JSON text (`Props/Wire`; model `JsonText`, spec `JsonGrammar`)
* C39 printer/parser: parser is sound and complete for the grammar (induction on fuel/derivations); printing is in the grammar; injectivity.
* C40 nesting: exactly at 128, by induction on nesting.

Connection (`Props/Conn`, `Props/Memory`, `Props/Readme`; model `Conn`, `Memory`, `Readme`)
* C41, C42, C44–C47 handshake: induction over the messages to come; success iff the script has the documented shape.
* C43 false of the code; negation, `C43_exit_partial`; `C43_exact`: what every early message other than a request does.
* C48, C49 shutdown: case analysis on the next event.
* C50 memory pair: invariant over all interleavings; refinement to two queues.
* C63 dispatch loop: induction over the messages; answers = requests.

Threads (`Props/Transport`; model `Transport`)
* C51–C56 delivery, output, drain, errors, two peers: invariants over reachable states of the transition system.
* C57 join returns: progress plus a decreasing measure.
* C58 join's report: iff on the states of the two threads.

Request queue (`Props/ReqQueue`)
* C59, C60: refinement to a partial map; the counter is exact up to `i32::MAX`, panics in debug, wraps in release.

Whole process (`Props/Session`, `Peer`, `Blocking`, `Outcome`; model `Session`)
* C70 refinement of the automaton to the sequential `Readme.main`: invariant that the run so far is a prefix of the sequential run on the messages delivered.
* C71, C72 no stuck process; termination measure on steps between arrivals.
* C73, C74, C75 complete sessions: C70 + C63 + C53/C58.
* C76 false of the code (no join on the error path); negation, remainder.
* C77 false of the code for requests without params; negation, remainder.
* C78 when a read returns: characterisation by "followed" continuations.
* C79 malformed input ends the process with an error, for every schedule.
* C80 determinism: any two maximal executions on the same input agree, for both transports; and one exists.
* C81 waiting after shutdown; C82 failed writes are never a success.

Passing messages on (`Props/Relay`; lemmas `Keeps`, `Received`)
* C83: whatever has been decoded is plain (`plain_of_dec`, per type) and wire-representable (a decoded custom method is never a built-in name), so C12 applies; re-encoding does not nest deeper than 127 and has no integers out of range (`keeps`, per type, generated). Assumed: floats are read back from their own text (asked of the message), the frame is shorter than 2^63. `C83_heard` (`Props/Again`) starts from a message that can be sent: what is heard of it is *thinner* (`Thinner`: not nested more deeply, no other numbers, not printed longer; per type, `norm_thin`), so it can be carried too.

Tests in memory (`Props/MemSession`; model `MemSession`)
* C84: invariant over every run (`mem_inv`): what the server has sent and its state are those of `feed` on what it has received, which is a prefix of what the tester has sent; a measure for termination; `C84_same` compares it with the description of the process at rest used for C80 (`Final`). Where the two differ is `C84_differs`.

Sending (`Props/Sending`; model `Sending`)
* C85: invariant over all executions with any number of calls in progress (`useInv`): messages of the calls that returned `Ok`, in order, are the accepted ones of `Transport`, so that C53, C54 apply; progress of a waiting `send`; the same on channels in memory by C50.

Ids and texts (`Props/Debug`; model `Debug`)

* C86: escaping is shown injective with a following text (a closing quote cannot be produced inside); digits likewise.
  The wire part uses that reading inverts printing.
* C87: `Spec.Breaks` says from the messages alone why a handshake gives up; the error is shown to be the text of
  this cause, and the texts to tell causes apart up to the subject of the message. The method of a request is not told:
  the Debug of its params is a parameter.
* C88: induction on the first sequence with `C01_frame` (a frame is read back whatever follows) and the injectivity of
  the printed text (`C39_injective`); messages through `C12_tree`. Only the numbers and the size are restricted, so
  requests without params (which are misread) are covered too.
* C89: mutual induction on the printed value; number literals through the grammar `Gram.Num`, characters through the
  UTF-8 encoding of each.
* C90: from the specification of usable messages (C14) and `C10_body`.
* C91: induction over the execution of both sides: a reader on an open input ends only after exit, and an input ends
  only when the other side is closed, which needs its reader to have ended.
* C92: invariant (`LeaveInv`): the right reader ends only after exit, which is the last message, so everything has been
  received (`carries_written` identifies frames read with frames written) and closing does not reset the connection; the
  left input ends only after the right side is closed, so completely. Standard streams are closed by the exit of the
  process only; the right process exits after its threads have ended (`Spec.Leaving.gone`). Coming to rest by a weight of the bytes on their way.
* C93: case distinction on the answers of the operating system.
* C94: the header loop of `readText` is run once more for the size of the buffer; induction over the header lines
  relates the two.
* C95: `leak` follows the decoding of a request and is shown to be a function of the decoded message; then induction
  over the stream.
* C96, C97 (`Props/EndToEnd`, model `EndToEnd`): the server of the README and a client, both with this library. A run of
  the two is a run of `Session` and a run of `Link` (`server_move`);
  `Going` and `Talking` are invariants, by induction over the run; `C96_terminates` by a lexicographic measure (to be
  sent to the server; work of the server; to be received by the client). C97 is the consequence of C13 for programs.
* C13_heard, C56_heard (`Props/Heard`): `Spec.heard` says what arrives of any message that an application can send, the
  requests without params included; C56, C91, C92 are proved for all of these.

**C98–C100 (schemas).** `Verif/Schema.lean` has a small language of schemas (`Ty`, `Fields`), the relation `Conforms`
between schemas and trees and the function `clean`, what is left of a tree; none of them mentions the decoders.
`Verif/SchemaTable.lean` (generated) has the schema of every payload type and shows for each type that decoder and
encoder follow it (`Follows`), from lemmas for the primitive types, options, lists and structs.  C98 is the acceptance
half (an equivalence), C99 the output half.  C100 lifts both to messages: `RequestAs`, `ResponseAs`, `NotificationAs`,
`PassedAs` say on trees alone what is received as what and what it becomes when it is written again; `C100_text` adds the
JSON grammar (`parse_iff`) in front and the printed frame behind.

**C101–C104 (doubles).** `Verif/Double.lean` models what serde_json (without `float_roundtrip`) and ryu do with doubles:
a finite double without sign is its bit pattern, `Spec.value` what it is worth in units of 2^-1074, and products,
quotients and conversions are exact results rounded to nearest even (`rnd`, shown to be the nearest pattern in
`near_roundPat`). `print` searches the largest decimal exponent at which some integer lies in the rounding interval
(what ryu computes; ryu's tables are not modelled), `read` follows `de.rs` statement by statement, `POW10` and the two
loops included. The specifications (`Nearest`, `NearestDec`, `Literal`, `SameNumber`) mention none of this. The model
was compared with an independent program on 493 doubles. C102 is false (§4).

**C105, C106 (messages with doubles).** C105 takes away the hypothesis of C12 and C83 about floats: under
`FloatText.serdeJson` decoding commutes with replacing doubles (`dec_mapFloats`; through the schemas of C98–C100, none of
which can tell two doubles apart), so a message arrives with each double replaced by `reread`. C106 bounds what `reread`
does: every rounding contributes at most one factor 1 + 2^-53, and k such factors move the nearest double by at most k
steps (`Close.steps`). `C106_restless` is a message that changes at every hop for ever.

**C107 (any number literal).** What serde_json does with digits that do not fit `u64` (dropped before the point and after it,
in different ways) amounts to one more factor 1 + 2^-53 (`sig_close`); exponents that do not fit `i32` or saturate are
shown to be of no consequence (`readTail_any`); below 1e-308 two divisions make four factors (`fromParts_two`).

**C108, C109 (`Props/Gone`).** At rest the input of a side whose other side is closed has ended (otherwise the rest of the
bytes or the end could arrive), so both its threads have ended, and `join` returns; the main thread of the README can then
take a step wherever it is, unless it has exited. For C109: a write fails only if the other side is closed (`link_blame`),
and a client that is there and receives is closed only after the server (`right_writes`), so that C71 and the invariant of
the main thread (`mainInv`) apply.

**C110, C111, C112 (`Protocol`, `Props/Protocol`).** `Verif/Protocol.lean` is a second specification, independent of the
code: the interfaces and methods of the Build Server Protocol 2.0, in a language of its own (`Shape`, `Matches`), which says
less than the schemas of C98 (no positional form, null is not the same as absent, no member twice). For reading, a test
(`accepts`, proved sound by induction over the schema) shows that what has a type of the protocol conforms to the schema of
the code, and C14, C98, C100 do the rest; the rows where the test says no are the cases in which C110 and C111 fail, and for
each of these it is proved what becomes of the message. For writing, `Matches` of each encoding is computed member by member,
so that C112 says exactly which values are written as they should be.

**C113, C114 (`Rpc`, `Props/Rpc`).** `Verif/Rpc.lean` has the responses of JSON-RPC 2.0 (`IsResponse`) and what a client of
the protocol sends (`Asks`: trees, and the methods and ids of those of its requests that the code takes for requests), both on JSON trees
and independent of the code's messages. C113 follows from C14; for writing it is an equivalence. C114 carries C110 through to
the bytes: `Frames` says that the input consists of frames with these trees, and the conclusion (from C73 and C74) is about
the bytes written, each frame holding a tree that is a response of JSON-RPC to the request whose turn it is, its result (if it is not an error)
of the type the protocol gives for that method (`IsAnswer`, `resultTypes`). It is assumed that the handler given to
`initialize` returns an `InitializeBuildResult`; `initialize<V: Serialize>` does not ask for that, and the example in its own
documentation returns an `Ok(..)` of one (C114_violated_documented). C114_violated
says of the requests that are lost that no response to them is among what is written.

**C115 (`Props/Served`).** The other direction at the level of the I/O threads, for a client that uses the library: C110 and
C113 on the trees, `Frames` for the bytes, and C51, C55, C58 for what the threads do with them under every schedule.

**C116, C117 (`Props/Pool`).** An invariant over all runs of any number of workers (`PoolInv`, `Tally`): what has been sent,
is about to be sent or could not be sent is, up to the order, one answer to each request received, except for requests that
a worker in `handle_shutdown` has received; the number of workers in `handle_shutdown` or ended with an error is at most the
number of shutdown requests and failed sends; a worker ends only when the input is over. At rest nothing is about to be
sent. Runs end by a measure as in C72. `C116_overtakes` and `C117_violated` construct runs.

**C118 (`Props/Asking`).** An invariant over all runs (`AskInv`): the two connections are a reachable pair (C56), the server is
a reachable pool (C116), what the client has sent and has still to send are the requests asked, what it has received is
handled or still to be handled, and the k-th request has the k-th number. Numbers of up to 2^32 requests differ
(`asked_nodup`), so the answers received differ in their ids, and each finds its entry (`C118_matched`, by induction over the
run). At rest everything sent has arrived on both sides (C56_heard_all, C116_rest). Runs end by a lexicographic measure
(`askWork`).

**C119 (`Props/Serving`).** An invariant over all runs (`ServeInv`): what has been received is handled or still to be handled;
under every id the responses sent or to be sent, the entry that is pending and the registrations that replaced an entry are
together as many as the requests handled; every pending entry has a job; the jobs that run or have ended are the requests
handled; every response comes from a job or from a wish; and if ids differ, a job that gets data back gets its own. At rest
there are no jobs, so no entry is pending. `C119_reused` and `C119_stale` are runs with ids used twice, which show that
`C119_distinct` needs its hypothesis. Runs end by a lexicographic measure (`serveWork`).

**C120 (`Props/Deal`).** The server of C119 takes the place of the echo server in C118: an invariant (`DealInv`) says that the
client and the server are a reachable pair, that the server is in a run of C119, and what the client has asked, said and got.
As the numbers are distinct, `C119_once` bounds the responses under each number by one, and what the client hears is `heard`
of what the server has sent (C56). At rest `C119_rest` and `C119_distinct` give one response per request received. That runs
end is a lexicographic measure (`dealWork`) which contains that of C119.

**C121 (`Props/Crew`).** The loop of the README starts a thread for each request; what a thread may send for a request is
any relation `work`. An invariant (`CrewInv`, with `Stage` for the main thread) says that the threads are those of the
requests received before shutdown, that what has been sent is a mixture (`Spec.Merged`) of what each has sent, and that
a thread gives up only after a failed write. At rest the lemmas of C116 about reader and writer apply; since only the main
thread receives, nobody can take the exit notification away from it, which is what fails in C117. Runs end by a
lexicographic measure with the messages left to send as its second part, since a request may cause any number of them.

**C122 (`Props/Flow`).** `Flow.Lets` restricts the steps of C92 and C96: what is written but not taken is at most the size
of the buffer, and bytes are taken only when the reader thread asks (`Asks`: it reads, and `Message::read` cannot return on
what it has). That one side cannot be far ahead is an invariant per direction (`Within`): a reader that asks has not got the
whole of the next message, for otherwise it could return (`asks_short`), so after taking bytes it has at most the size of the
buffer more than that. At rest under finite buffers nothing is on its way and nothing waits to be written (`quiet_still`: first
towards the client, whose application receives, then the writer of the server, then towards the server, then the writer of
the client), so that more room would change nothing (`still_quiet`) and C96, C97 apply. For the client with one thread the
bounds add up (`sent_bound`, with 21 bytes at least for each message, `write_long`): answers not yet sent by the server, answers sent but not received, and messages not yet
received by the server. `stuck_circle` follows the circle of who waits for whom. The size of a buffer is the sum of
all that is kept on the way (of a TCP connection, on both machines); that the operating system may change it is not modelled.

**C123 (`Props/Fair`).** `Fair.Run` are infinite sequences of steps of C122 and pauses, `Fair.Scheduled` is weak fairness for
eight actors. For the messages `ms` sent up to some time the measure `allLeft` counts the bytes and messages of `ms` and of
its answers that are still to come, in each of the stages; what is sent later does not count, so that no step increases it
(`allLeft_step`). An actor is `Useful` if it can act and the measure counts that; it stays useful until it acts
(`useful_keeps`), can act (`useful_can`), and then the measure goes down (`useful_less`). As long as not all of `ms` has been
received, or has been answered, or the last of it is being written, somebody is useful (`useful_heard`, `useful_answered`,
`useful_sent`: who waits for whom never closes to a circle, since the client receives). `sooner_or_later` puts this together.
`C123_exists` joins rounds that come to rest (C122), in each of which the client sends one message, so that in the end of a
round nobody can act. What is not modelled: time; `Scheduled` says nothing of how long anything takes.

**C124 (`Props/Size`).** By induction over the grammar of C40: each way to write a character in a string, a number or a member
takes at least as many bytes as the way the printer chooses (`string_short`, …); a value may keep only some of the
members that are in the text (the last one of each name), which makes it shorter. The printer of doubles is a parameter
(`FloatText`), so nothing can be said of their lengths, and they are counted as `0`. For the frame the number of digits
without leading zeros is the smallest (`digits_next`). The answer is a fixed text around the id; a request has at least its
`id`, `method` and `params` (`request_text`); 31 is the difference, one digit of `Content-Length` included. `C124_bounded`
follows from C70 with the sum over all messages.

**C125 (`Props/Window`).** `Flow.Dialog` are the runs of C122 in which the client follows a `Policy`; `Flow.Turns` of C122 is
the policy that always sends. `Spec.Careful` is the condition on the policy. If the client waits in `recv` and nothing
happens, nothing is due any more (`waits_receive`), which excludes a client that has not sent all. If it waits in `send`, the
writer threads on both sides are blocked by full buffers or wait (`waits_send`), so that more bytes are due than the buffer
holds. `C125_window` gets the size of the answers from C124. `C125_lost` is an invariant: the answers received never are as
many as the requests sent, once a request has been sent that is heard as a response (C13, C77).

**C126 (`Props/Hall`).** `Hall.Step` puts the server of C121 (`Crew`) behind the buffers of C122 (`Flow.Lets`), with a client that
follows a `Policy` (C125). `Spec.Met` is the start: what has been sent has been received, as after the handshake; `Spec.Patient`
is the condition on the policy, met by sending all first and by one request at a time (`C126_patient`). `C126_met`: the server of
the README gets to such a state after its handshake. The
invariant (`Hallway`) is that no input ends, no reader thread ends and no write fails. At a state where the client waits,
the main thread of the server never is in a send (`hall_crew`), so its reader has taken all that was written and the client's writer
thread is idle (`hall_heard`): the client does not wait in `send`. If it waits in `recv`, its reader thread has taken all, so that
no thread of the server waits (`hall_received`).

**C127 (`Props/Parting`).** No new definitions: `Hall` (C126) with `Spec.Leaving` (C98) as the invariant instead of `Hallway`, since
now the threads of the server end, and with them the input of the client. The client's last message being exit, the server has
received exit if and only if it has received everything (`exit_received`). Where the client waits there are two cases for each
reader thread, ended or in a read; `parting_heard` and `parting_received` show that both mean that everything has been received.
For stdio the end of the server's output would come with the exit of its process, which `Hall` does not have; hence the
condition that the server has a socket in what is said about the client's threads.

**C128 (`Props/Firm`).** `Firm.Proc` is the server of C121 with an exit status as in `Session.Proc`; after the exit it does
nothing (`Firm.Step`). `C128_success` follows from the invariant of `Crew` (`crewInv`): `join` returning Ok means that the writer
thread has ended, so all senders had been dropped, so all threads were through. Until the exit, `Firm` and `Hall` do the same (`firm_moves`,
`moves_firm`), which gives that it cannot stop before the exit (C127); after the exit only the client moves (`Parted`), and
`joined_reader` (`Props/Link`) applies because an exit closes the streams, of whatever kind. `C128_lost` is a witness for every request and
every work that a thread may have.

**C57, dropped early (`Props/Dropped`).** `C57_dropped` counts the steps of the two threads (`Transport.Act.thread`) after the
application has dropped receiver and sender: at most two of the reader, and what the writer has left to write.

**C129 (`Props/Desk`).** `Desk` puts the server of `Pool` in the place of the one of `Flow`. `desk_books` collects from `poolInv` what holds of
the workers when nobody has asked to shut down: each waits to receive or has an answer to send, and what has been sent with what is
still to be sent is a permutation of the replies. When the client receives and nothing can happen, all has been received on both
sides (`desk_received`); when it sends and nothing can happen, all workers are in a send (`desk_crowded`), and then `n + 2` answers are due
(one in each worker, one being written, one being handed over to the client: `desk_due`), more than the buffer holds. `C129_never` counts the
requests that fit into the workers and the buffers (C122_ahead). Specifications: `Spec.Wary`, `Spec.atMost`, `Spec.Crowded`.

**C130 (`Props/Effort`).** No new definitions. A step is a step of the models of C70 (`Session.Step`) and C116 (`Pool.Step`): a
whole message read, received, sent or some bytes written; what one such step costs inside (the parser, the allocator) is not
counted. `debt` is a potential: what the threads and the program still have to do if nothing more comes. Each step other than the
peer's lowers it by one, unless it receives a message (which brings at most three, and so pays with four) or writes a byte. That a
message takes 21 bytes is C124 (the shortest frame), and what is written is bounded by what has arrived by C124 too.

**C131 (`Props/Backlog`).** No new definitions. The channels of lib.rs:37-40 as `Transport` models them hold nothing (`bounded(0)`,
transporter.rs:15, 24, 50, 67), so a server holds what its threads hold: one message in the reader, one in each thread of the
program, one in the writer. The invariant has to survive failing writes: `Lag` follows the program of the README where `At` (C70)
gives up, and `pool_lag` counts a worker that has ended as one that may have lost a request, and a request to shut down as lost,
since a worker whose answer to it could not be sent goes on to receive one message more.

**C132 (`Props/Endless`).** `Pool.Run` is an infinite sequence of states of `Pool`, `Pool.Scheduled` weak fairness for the two I/O threads and for each
worker (in that it receives, in that it sends), `Pool.Queued` strong fairness for the sends. `stand` takes from `poolInv` what holds at any time.
The writer gets done with each message (`writer_done`, induction on the bytes left), so a worker that keeps waiting could send infinitely often and by `Queued`
does (`place_sends`). `C132_answered` counts for each message how many are still owed; `C132_heard` is by induction on the messages still to be received: while
the reader waits with one, some worker gets idle and stays so (for this `Scheduled` is enough: if all wait to send, the writer gets ready and stays so). `C132_starves` and `C132_exists` give the runs explicitly, in rounds of six steps.
Specifications: `Spec.Undisturbed`.

**C133 (`Props/Ways`).** No new definitions of the program. Simulations between `Session` (from the state after the handshake), `Pool`
and `Crew`: the state of the connection is the same on both sides, and what is related are the requests in hand, up to order. `Crew`
does one reply for each request here (its second argument); a worker that has ended corresponds to a thread whose message could not
be sent. That `n` requests need `n + 1` workers, not `n`, is for the one that receives a notification after them: `C133_room` counts the requests
unanswered when a worker receives (invariant: requests received, answers sent, workers at work), `C133_needed` has the execution.

**C134 (`Props/Throng`).** As C132 with `Crew` in place of `Pool`: threads are known by the number under which they were started. `C134_sent` follows one thread
after the other (`job_done`, induction on what it has left to send) and takes the sent messages from `CrewInv.merged`. `C134_heard` needs
no fairness among those who send, because the main thread only receives. Runs in rounds of six steps (`forEver`).
Specifications: `Spec.Calmly`.

**C135 (`Props/MemPool`).** Invariant `memPoolInv` as `poolInv` (C116), with the history of the two channels (C84's `outcome_cases`) in
place of the transport, and in addition `stay`: while the tester can still send, no more workers have left the loop than have been
asked to shut down or have failed to send. Rest: `memPool_rest`, `memPool_sums`. Every step of a worker is one of the single server of C84 seen from
that worker, so the work left decreases (`memPoolWork_decreases`). `C135_same` compares with `poolInv`, `C135_hides` with `C129_never`.
Specifications: `Spec.askedToStop`, `Spec.inTheLoop`.

**C136 (`Props/DeskParting`).** Invariant `closing`: as `parting` (C127), with the accounts of the workers of `poolInv` (C116) in place of those of
the threads; `closing_books` says that workers are idle, answering, or have ended well after the reader has. As long as the client has
not sent exit the invariant of C129 holds as well, and its argument about the circle of waiting threads applies; after that
`closing_rest` goes round the two ends. `C136_stay` is the invariant of C129.

**C137 (`Props/HangUp`).** `held`: while the side of the client is not closed the server is in its loop (induction over the run; the only way out
of the loop is the end of its reader, since the client has said a whole session without exit). `hung_reader`: hence the input of the client has not ended
when its reader ends, and the reader has read an answer that nobody receives, so that the client has received fewer answers than the
server has sent. Conversely a reader that still waits when nothing can happen any more has had all the answers (`hung_all`, as C97). Once the
reader of a client with a socket has panicked its side is closed and the server is at the end of its input (C108).
`C137_last` (`Props/HangLast`): if one answer was missing, the reader of the client has taken the last frame that the server writes (`carries_written`), so
nothing is left to write and nothing unread that would reset the connection (`last_inv`): the server reads all its input up to a clean end. `C137_open` (`Props/HangOpen`)
constructs, for every session and every number of answers received that leaves two or more missing, a run to a moment from which both exit codes can be reached: the
client has unread answers when it closes its socket, and its end may reach the server as the end of the input or as a reset.

**C138 (`Props/MemCrew`).** Invariant `memCrewInv` as `crewInv` (C121), with the history of the two channels in place of the transport
(`MemStage`: where the main thread is, given what it has received). Rest: `memCrew_rest`, `memCrew_done`. The work left decreases
lexicographically (main thread, then what the threads have left), `memCrewWork_decreases`. `C138_same` compares with `C121_rest`.
In contrast to C121, exit alone does not end the loop here.

**C139 (`Props/ExitCode`).** Partial: false of the code (§4). `shape` (induction over the messages) tells from the state of the main thread what has been
received; `expecting_iff` says after which messages main thread and reader wait for more. With `final` (C80) the process has received everything before which more was
expected (`final_all`) and nothing after exit (`final_exact`). `C139_success` and `C139_waits` describe the three outcomes for any input,
`C139_exit` for an input with exit; `C139_violated` shows both ways in which the documentation is wrong, `C139_documented_partial` exactly when it is right.
`C139_trusted` needs no assumption on the run (C81, C82: after a late exit or a failed write there is no success). `Spec.ExitsAsDocumented` is the full statement.

**C140 (`Props/ExitHeard`).** C139 put together with the client of C96. What the server hears is never shutdown (`heard_not_shutdown`, from C13), so the main thread never
waits with a time limit (`leaving_heard`, `heard_timely`: induction over the run). `heard_reader` (induction over the run of both processes): the reader of the server ends only after exit
or because the main thread has ended, since the input stays open as long as the client receives (`open_input`). `C140_exit`: either exit has been
received, and C139_exit applies, or the main thread has ended before, which after a beginning of a session it does not. `C140_shutdown`, `C140_same` and `C140_success` (from C139_trusted) follow; `C140_ends` gives a run.
Modelled as in C96: the client is any program that sends messages that can be carried through this library, not a particular one.

**C141 (`Bridge`, `Props/Bridge`).** A run of the three processes is a run of each of the two links (`bridge_left`, `bridge_right`), and `bridgeInv` (induction over the run) says
that what a thread of the relay has sent is what it has received, up to the message in its hand. With C56 for each link, and since what has been heard is heard as what it is (`C83_heard`),
`C141_order` follows. For the end: `passInv` (induction over the run) shows that both links are leaving in the sense of C92, that no send of the relay fails and that a thread of the relay ends only
when its reader thread has; the relay's second connection is looked at as if its receiver were never dropped and the process never exited (`keptLink`), which changes
nothing since its reader has ended by then. At rest both links are at rest (`quiet_links`), and `C141_joined` follows from C92 for each of them: first the client's side of the first link, then the
second link, then the rest of the first. `C141_settles` is a lexicographic descent (what is left to do towards the relay, then in it and away from it). `C141_leave` puts both together.
Of the messages nothing is assumed but that they can be carried once.

**C142 (`Chain`, `Props/Chain`).** Around each relay a run of the chain is a run of `Bridge` (`chain_around`: what is before it acts like a client, what is after it like a server), so that
C141's invariant holds of each relay, and `C142_order` follows by induction over the chain from C56 for each link and `C83_heard`. For the end the neighbour before each relay, which drops its receiver and
exits in the end, is looked at as if it went on receiving (`keptAround`); that this is a run of `Bridge` too (`chain_kept`, induction over the run) and that each of them leaves in the sense of C141
(`chain_passing`, induction from the server to the client) need each other. At rest each link is at rest (`chain_quiet`); `C142_joined` goes along the chain to the server and back. Before exit, `C142_rest` has each link drained
(`link_drained`: reader threads have not ended, so what has been written has been read and handed on) and each relay's hands empty (`quiet_hands`). `C142_settles` is a
lexicographic descent: what is left to do `i` hops from the ends (`hopWork`), where a step makes less at some hop and changes nothing at the hops before it (`sooner_wf`). With no relay this is C92, with one C141.

**C143 (`Narrow`, `Props/Narrow`).** A run with finite buffers is a run of `Chain`, so C142's safety and its descent carry over (`narrow_chain`, `C143_settles`). What is new is that the buffers never are what everything waits for
(`C143_rest`): a right side of a link whose reader thread does not take what has come belongs to a relay whose upper thread holds a message (or to the server, which receives), so that the writer thread of the next link waits for room, so
that the reader thread there does not take what has come; by induction from the server backwards this cannot be (`narrow_up`), and the same in the other direction (`narrow_down`); that the two directions of a relay are
two threads is used here. Hence writer threads are idle at rest (`C143_sends`), scripts of any length can be sent one after the other (`C143_talk`), and C142's end follows (`C143_leave`). `C143_ahead` adds up C122's bound for
each link and one message for each relay between them. `C143_none` shows that one byte of room is needed.

**C144 (`Remote`, `Props/Remote`).** Every run is a run of `Chain` with the server's side of the last connection being what `Session` says (`remote_step`, `remote_chain`), and the last connection, with the
relay before the server looked at as if it went on receiving (`lastOf`), is a run of `EndToEnd` (`remote_last`). The two need each other: that the server does what C142 asks of a server
(`last_passing`: it sends nothing but answers, receives up to exit, exits only after its threads) comes from C96's invariant on the last connection, and that the last connection is such a run needs C142's
invariant for the relay before it; so both go along the run together. At rest the server program is not in the way (`remote_quiet`: a message at its door is taken, since it is waiting for one, or can send, or has
ended and drops its receiver), so that the chain is at rest in the sense of C142; then everything has come to the last connection (`chain_up`), C96 gives the server's end there, and
`C142_joined` brings it back. `C144_settles` is a lexicographic descent: first what is left towards the server, link by link, then what the server has left to do (`work`, C71), then what is left on the way
back, since what the server does may make more of that but not of the first.

**C145 (`Reach`, `Props/Reach`).** A run is a run of `Remote`. At rest, the chain can do nothing but perhaps hand a message to the server (`reach_hushed`); so the way back from the server is free (`narrow_down`, which needs only
that the client receives), so the server's writer thread is not waiting for room (`narrow_writes_b`), so the server's loop is not waiting in `send`, so it could take that message (`reach_quiet`). Hence the chain is at rest in the sense
of `Narrow`, by `C143_rest` in the sense of `Chain`, and what the server could do without the buffers it could do with them (`C145_rest`). The rest follows from C144: `C145_served`, `C145_answered` (from `C144_rest`), `C145_ends`;
`C145_settles` uses the same descent. `C145_sends` and `C145_talk` as for C143. `C145_ahead` is C143's bound in both directions around the server, which owes at most
one answer at a time (`mainInv`); `C145_none` is C143's.

**C146 (`Props/Orphan`).** No new model: executions of `Chain`. `link_open`: on one link, while both sides are there with their receivers and neither has sent exit, no reader ends (from the invariant of C142's `Spec.Leaving`, with
exit not among what has been delivered). `Spec.Unbroken` says what is at the two ends of link `i`; it holds earlier if it holds later (`unbroken_before`, from `chain_grows`). `unbroken_hands` is by induction over the execution: the
thread of a relay that receives from the link ends only when that reader has ended (excluded by `unbroken_open`) or when it cannot send on, and then the writer of the other connection has ended: by an error, which is excluded, or
after its sender had been dropped, which only that thread does. `C146_open` follows. In `C146_unseen`, `C146_unseen_back` and `C146_orphans` the writers concerned have had nothing to write (`silent_writer`); in `C146_unwritten` nothing at all has got past the first connection; in `C146_after` they have written everything (`calm_rest`) and get nothing more,
since as much has passed each link as the client and the server have sent (`calm_later`, `chain_drained`). `C146_between` is the other side:
a reader whose peer has gone ends (`left_reader`), so both threads of the relay do, so both writers (`left_writer`), so the relay exits. `Props/OrphanNarrow` has `C146_after` and `C146_between` for `Narrow`: the first by C143_rest; for the second a writer whose peer has gone is not kept by a full buffer, since its write fails (`gone_writer`). The cause in the library is that a
writer thread that ends does not shut down its stream, of which the reader thread has a clone (transporter.rs:46-76); the relay itself is a program on top of it, as in `Bridge`. See the end of section 4.

**C147 (`Props/Stranded`).** No new model: executions of `Remote`. `stays` is by induction: in a step of the client or of a relay the server is as before, so the last link is unbroken in the sense of C146 and the last relay is there and
receives; in a step of the server the last relay is as before. Either way the last connection is an execution of `EndToEnd` in which the client (here the last relay) is there and receives and has sent a beginning of the plan, so `going`
applies and the server is there (`stays_of`). `C147_left`: at rest, the writer of the last relay on the way back is idle and has been given as many messages as there are answers to the whole conversation (`chain_drained`, `C144_rest`);
the server never sends more than these, so that writer gets nothing more and cannot fail (`calm_rest`, `calm_move`). `C147_narrow` follows with `C145_rest`, and `C147_strands` with `reach_said` and `C145_settles`. What happens when a write to the client fails while answers are still on their way is left open: it depends on the schedule
whether the server is told (C148).

**C148 (`Props/Told`).** No new model: executions of `Chain`. `C148_one` is an invariant (`bridge_short`): a thread of a relay that has a message in its hands and finds the writer ended gives up, and receives nothing more. `C148_told`: when
nothing can happen any more the reader from the neighbour that has gone has ended (`gone_reader`). If the other reader has not, it has read everything (`all_read`), since a write of the other neighbour fails only if the relay has closed
that connection (`link_failed`). So all of it has been received; since not all has been handed on, the thread has given up, so a write has failed (`ended_why`), so `join` of the first connection does not return Ok and the relay exits without
joining the second one. If both readers have ended the relay exits, too (`relay_ends`). `C148_stays` is by induction: as long as the thread has not ended the relay holds its receiver, so `link_open` of C146 applies; it ends only with a message
in its hands, which is one more than have been handed on, and then nothing more is. `C148_iff` is both. In `C148_told_back` the connection that is joined first is the one that waits, so one message is not enough, and two are (the second
cannot be delivered, so the reader thread panics). That one is not is `C148_stays_back`, by induction (`stays_back`): until a message cannot be delivered, the connection as if its receiver had not been dropped (`keptFirst`) is an execution of `Link`
in which nobody has gone, so its reader has not ended. `C148_iff_back` is both.
`C148_told_narrow`, `C148_told_back_narrow`, `C148_iff_narrow` and `C148_iff_back_narrow` are for any state of `Chain` in which nothing can happen within the limits of `Narrow`, for the relay next to the server or the client: input ends only when the
other side has closed (`link_end`), so the server goes on reading from a relay that is writing, has taken everything (`drained_by`), and there is room for a byte (`room_right`, `room_left`); for a relay between relays this would need that the next relay
can write, too, and is not claimed. The runs beside (`told_run`, `told_run_back`) are ones in which no byte gets from the relay to the process that has gone, obtained by coming to rest with
buffers without room.

## 4. Properties false of the code

For each, the negation is proved with witnesses (for all instances where the whole class is affected),
and the remainder that does hold is `_partial`.

* C13, C77: `Serialize for Request` leaves out `params` for `build/shutdown`, `workspace/buildTargets`,
  `workspace/reload` and for `Custom` with null (request.rs:220-223, 278). `Deserialize for Request`
  insists on `params` (request.rs:431-436: the three `!=` are joined by `||`, so the condition always holds),
  so untagged `Message` takes such a message for a `Response` with neither result nor error
  (response.rs:4-14). A client using the library never gets an answer to its own shutdown request.
* C20: the same lines make every request without params malformed.
* C24: `Request::params` of `Custom` returns the method name (request.rs:115).
* C38: a free-form tag is written and expected as `{"custom": "..."}`, not as a string (bt_tag.rs:10-36), though its comment says
  "free-form string tags".
* C43: notifications before initialize are not dropped but make `initialize` fail.
* C68: six payload types cannot be built from outside (private fields, no constructor); a diagnostic only with a severity
  and tags that lsp_types has a constant for.
* C69: six of the default server methods are `todo!()`.
* C76: on an error `main` returns without `join`; the last accepted message may be lost.
* C94: `buf.resize(size, 0)` (message.rs:87) trusts the declared length; a length that the allocator cannot serve
  aborts the process.
* C102: serde_json is used without its feature `float_roundtrip` (bsp-server/Cargo.toml:13), so that long decimals are
  read with one rounding too many: 9007199254740991.0, which has an exact text, is read back as 9007199254740990.0 (about
  a third of all doubles change; some never settle when they are passed on again and again).
* C110, C112: the protocol has `targets` (a list) in compile and test requests and in the request for the sources of
  dependencies, the code `target` and `textDocument` (bt_compile.rs:11, bt_test.rs:12, bt_dependency_sources.rs:16), so
  that such a request of another client arrives as an empty response (C20) and is never answered; `arguments` is a list of
  strings, in the code a string (bt_run.rs:20); two methods have other names (request.rs:66, notification.rs:41); times are
  `Long`, in the code `u32` (task/start.rs:14); members that are absent are written as null (publish_diagnostics.rs:19,
  task/progress.rs:23, 26, bt_dependency_modules.rs:93, 97).
* C111: tags (bt_tag.rs:9-38) are an enumeration with two misspelt words and objects for free-form tags.
* C113: `RequestId` has no null (request/id.rs:6-13), so an error response to something that could not be parsed ends the
  connection; `result: Option<Value>` (response.rs:11) takes null for absent, so that an answer to shutdown, passed on, has
  neither result nor error.
* C114: the documented use of `initialize` (lib.rs:99-107) has the closure return `Ok(InitializeBuildResult)`. As the bound is
  `V: Serialize` (lib.rs:114-117), a `Result` is serialised as it is, and the client gets `{"Ok": {...}}`, which neither the
  protocol nor `InitializeBuildResult` itself takes. (To compile, the example needs the type of the error and other paths.)
* C117: `handle_shutdown` waits for exit on the shared channel (lib.rs:183); when other threads receive from it too, exit
  may go to one of them; the reader then ends (transporter.rs:36-38) and `handle_shutdown` returns the error of a closed
  channel, although the client has kept to the protocol.
* C114, C115: consequences of C110 at the server of the README (such requests stay without an answer) and at a client that
  uses the library (the first task event of another server ends the connection; so does a response with the id null).
* C139: `on_build_exit` is documented to exit with success if shutdown has been received before and with an error otherwise
  (bsp-types/src/server.rs:46-48). In the server of the README a session that ends with exit alone succeeds, since the reader
  ends and the loop with it (transporter.rs:36-38), and any message between shutdown and exit makes `handle_shutdown` fail (lib.rs:183-199).

Further disagreements between documentation and code met on the way (proved where indicated):
method name of inverse sources and `build/taskProgress` (C22 states what the code uses); `eventTime` is `u32` though a
millisecond timestamp does not fit (C35); any object with a usable id decodes as a response (C14); a client
that sends `exit` without `shutdown` makes the process end with success (C74_exit), where the protocol asks for
an error code; `Incoming` forgets a request whose id is registered again (C119_reused), and cannot tell the job of a cancelled
request from that of a later request with the same id (C119_stale); the stdio reader reports errors while the socket reader panics (C55);
the other side of a socket is not told when the sender has been dropped, since the writer thread does not shut down the stream and the reader has a clone of it, so
without exit two programs that pass on messages wait for each other for ever (C146).

## 5. Testing the theorems

`tools/mutants.py` lists wrong programs: realistic edits of model definitions together with the claim
each breaks. `tools/mutate.py` applies each to a scratch copy, rebuilds, and reports which declarations
fail by themselves ("failed"), and which theorems use one that failed ("blocked"). The results are in
`seeded/LOG.jsonl`. A mutant counts as caught when a claim theorem of the broken property fails or is
blocked; for claims that were only blocked the statement was re-read to make sure that it is false of the
mutant, so that no other proof can exist.

`Conformance` carries the unit tests of the repository over to the model: the same inputs, the same expected texts and
values. It is a check of the model against what its authors expect, not of any property.
