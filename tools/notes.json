{
 "C13": {
  "status": "partial",
  "note": "false of the code: shutdown, workspace/buildTargets, workspace/reload and custom requests with null params are written without params and do not decode as requests (negation proved in C13_violated); C13_partial proves it for every other request"
 },
 "C20": {
  "status": "partial",
  "note": "false of the code: request.rs:431-436 rejects every request without params (negation proved in C20_violated); C20_partial proves what holds; C20_exact says what becomes of every such message"
 },
 "C24": {
  "status": "partial",
  "note": "false of the code: request.rs:115 returns the method name as params of a custom request (C24_violated); C24_partial proves it for every other request"
 },
 "C38": {
  "status": "partial",
  "note": "false of the code (C38_violated); C38_partial proves the remainder; C38_exact says which data are accepted as tags"
 },
 "C43": {
  "status": "partial",
  "note": "false of the code: any notification or response before build/initialize makes initialize() fail (C43_violated); C43_exit_partial proves that exit ends the handshake without handler call; C43_exact says what any early message other than a request does"
 },
 "C68": {
  "status": "partial",
  "note": "false of the code: no public function builds a BuildTargetCleanCache, BuildTargetDependencyModules, PublishDiagnostics or DependencySourcesItem (C68_violated), and only the empty BuildTargetInverseSourcesResult and BuildTargetDependencySourcesResult can be built (C68_empty), and a diagnostic only with a severity and tags that have a name (C68_diagnostic); C68_partial proves it for every value of every other payload type"
 },
 "C69": {
  "status": "partial",
  "note": "false of the code: six default methods are todo!() and panic for every params (C69_violated); C69_partial proves it for the other seven"
 },
 "C76": {
  "status": "partial",
  "note": "false of the code: main exits on an error without joining the threads (README.md:25-29), so an accepted message may not be written (C76_violated); C76_partial proves it for processes that are waiting or have exited with success; C76_all_but_last: in every case all but the last of the accepted messages are written in full"
 },
 "C77": {
  "status": "partial",
  "note": "false of the code: shutdown, workspace/buildTargets, workspace/reload and custom requests with null as written by the library are taken for responses and never answered, so the process does not leave on the library's own shutdown request (C77_violated), and on exit it ends with success with that request unanswered (C77_violated_exit); C77_partial proves it for every request written with params"
 },
 "C94": {
  "status": "partial",
  "note": "false of the code: the buffer gets the declared length before the body arrives (message.rs:87), so 39 bytes claim up to isize::MAX (C94_violated, C94_claimed); C94_partial proves it for reads that succeed, C94_declared says when it fails"
 },
 "C102": {
  "status": "partial",
  "note": "false of the code: serde_json without float_roundtrip reads 9007199254740991.0 as 9007199254740990.0 (C102_violated); C102_survives_partial proves it for doubles whose text has at most 53 bits of digits and a decimal exponent of at most 22 (C102_read: such literals are read as the nearest double)"
 },
 "C110": {
  "status": "partial",
  "note": "false of the code, what becomes of each such message is proved (C110_violated_lost, C110_violated_inverse, C110_violated_progress, C110_violated_time); C110_request_partial and C110_notification_partial prove it of all other messages of the protocol"
 },
 "C111": {
  "status": "partial",
  "note": "false of the code for the list of the build targets (C111_violated), for which it is proved exactly when it is accepted (C111_targets); C111_partial proves it of all other results"
 },
 "C112": {
  "status": "partial",
  "note": "false of the code (C112_violated); C112_request_partial, C112_notification_partial and C112_results_partial say exactly for which values it holds, C112_results for which types it holds of all values"
 },
 "C113": {
  "status": "partial",
  "note": "false of the code (C113_violated for ids that are not understood, C113_violated_null for a null result); C113_read_partial proves it of all other responses that are received, C113_written_partial says exactly which are written as they should be"
 },
 "C114": {
  "status": "partial",
  "note": "false of the code (C114_violated: the requests that get no answer; C114_violated_documented: the result that the documented handler makes); C114_partial proves it of all other requests, in sessions that may contain those too, for handlers that return an InitializeBuildResult"
 },
 "C115": {
  "status": "partial",
  "note": "false of the code (C115_violated: a task event at a time that is not in 32 bits is the end of the connection; C115_violated_id: so is a response with an id that is no string and no integer of 32 bits, such as null); C115_partial proves it of all other responses (with an id that is understood) and notifications of the protocol"
 },
 "C117": {
  "status": "partial",
  "note": "false of the code with two or more workers (C117_violated: another worker receives exit, and handle_shutdown reports a closed channel); C117_partial proves everything but that the worker in handle_shutdown ends well, C117_alone proves it all for one worker"
 },
 "C139": {
  "status": "partial",
  "note": "False of the code: exit without shutdown ends with success, exit after shutdown and a further message with an error (C139_violated). Proved: exactly when the process exits with success, with an error, or waits (C139_success, C139_waits, C139_exit, C139_trusted), and exactly when the documented behaviour holds (C139_documented_partial)."
 }
}