# Formal model of coreMQTT in Lean 4 - design

The subject is FreeRTOS/coreMQTT as checked out in `/repo`: the three C files
`source/core_mqtt_serializer.c`, `source/core_mqtt_state.c`, `source/core_mqtt.c`
and their headers.  The model and all proofs live in `lean/Verif`.

## Layout

| directory | content |
| --- | --- |
| `Verif/Model/*`  | the model, function by function, each definition citing file and lines |
| `Verif/Spec/*`   | small specifications written from the MQTT 3.1.1 standard and the API documentation, independent of the model's helpers |
| `Verif/Proof/*`  | helper lemmas |
| `Verif/Props/*`  | the theorems for each property Cnn, with non-vacuity examples beside them |

| model file | code |
| --- | --- |
| `Base`, `Util` | integer types, statuses, packet types, checked memory access |
| `Serializer` | core_mqtt_serializer.c: sizes, writers, readers |
| `State` | core_mqtt_state.c: record arrays, transitions, enumeration for resending |
| `StateRun` | arbitrary sequences of calls of the functions of core_mqtt_state.c |
| `Topic` | core_mqtt.c: `MQTT_MatchTopic` and its helpers |
| `World` | context, environment, trace, the monad in which core_mqtt.c is written |
| `Send`, `Receive`, `Api` | core_mqtt.c: sending, receiving, public functions |
| `Threads` | interleaving of several threads that call public functions on one context |

## Modelling conventions

* **Integers.** `uint8_t`, `uint16_t`, `uint32_t` are Lean's `UInt8`, `UInt16`,
  `UInt32` (wrap-around semantics as in C).  `size_t` values are `Nat`;
  at each place where a `size_t` sum or product is *not* bounded by an earlier
  check, the model reduces it modulo `W`, the number of `size_t` values, which is
  a parameter with `W >= 2^32`.
* **Memory.** A pointer to a caller-owned array is `Option (List UInt8)` (`none` is
  `NULL`).  Reads and writes through indices are checked; an access outside the
  array, a null dereference or a failed `assert` is a *distinct outcome* (`ub`) of
  the modelled function and never silently totalised.
* **Environment.** Transport `send`, `writev`, `recv`, `getTime`, the user
  callbacks (`appCallback`, store / retrieve / clear functions) and the
  state-update hooks are environment.  A run of the model is driven by arbitrary scripts of
  their answers; each call is recorded as an event in a trace.  When a script
  is exhausted the run ends in the distinct outcome `stuck`, which stands for a
  call that never returned or a crash at that point.  Theorems quantify over all scripts, hence over
  all transport behaviours and crash points.
* **Loops** are structural recursion on data, or recursion on a counter taken from
  the length of the script the loop consumes (plus one) or from the length of the record array.  If such a counter ran out, the
  outcome would be `stuck`, never a normal return; C53 proves that `stuck` happens only when a script of the
  environment is exhausted, so no execution is cut short by the counters.
* **Transport contract.** `send`/`writev`/`recv` never report more bytes than asked
  for (documented in `transport_interface.h`); the byte count is otherwise arbitrary,
  negative results are one event `fail`.
* **Histories.** `Hist` is a sequence of calls that returned, each under its own
  environment; `FromInit` starts it at a context made by `MQTT_Init`, `MQTT_InitStatefulQoS` and
  `MQTT_InitRetransmits`.  The theorems about one call are stated for a call after any such
  history, and for a call that returned as well as (where the property makes sense) one that did not.
* **Server and network.** C56 and C57 compose the client with a server (`Spec/Broker.Serves`, written from sections 3 and 4 of the standard, not from
  `/repo`) and a network (`NetRun`): bytes accepted by the client's transport reach the server in order, or are lost when the connection ends; bytes
  received by the client are bytes the server sent, in order.  `Sys.Run` interleaves API calls, server steps, losses and new connections arbitrarily.
  The application follows the rules listed in `Sys.Run` and `Disciplined`: it returns stored packets unchanged or not at all, closes the connection after
  MQTTSendFailed, a failed connect or a disconnect, and (C56 only) leaves DUP and cancelling alone for the packet id in question.
  For C57 the server keeps its own messages in an `Outbox`, one per packet id, and repeats what is not acknowledged on the next connection; `strict` means
  that it sends QoS 1 and 2 messages and PUBREL in no other way.  C56 holds with and without `strict`.
  C58 shows this system to be an implementation of a protocol of whole packets (`Spec/Packets.Proto`), about which the order of delivery and the absence of
  deadlocks are then proved.
* **Threads.** `Model/Threads.lean` runs any number of threads.  Between the pre and post hook a thread runs alone; this is the contract
  of the hooks and the only thing assumed about the scheduler.  Outside of the hooks every access to the context is
  a step of its own.  Calls of the library from inside the application callback are
  executions of their own (`Spec/Nested.lean`); C63 proves that they behave like calls of another thread scheduled during the callback.

## What is not modelled

* contexts that are neither zeroed nor initialised by `MQTT_Init`, and initialised contexts without network buffer memory (`MQTT_Init` accepts them,
  the receive calls refuse them, `MQTT_Connect` does not); null and zeroed contexts are modelled only for C74 (Model/Entry.lean);
* enumeration arguments outside their enumerators (a QoS of 3 or more: by reading, `MQTT_Publish` sends flags of QoS 0 with a packet id and returns
  `MQTTIllegalState`, `MQTT_Subscribe` sends the byte as it is);
* callbacks for stored packets that call the library;
* logging, including `logConnackResponse`;
* the content of uninitialised local arrays (they start with zeros; only bytes written by the serializer are sent);
* `int32_t` casts of byte counts (they change no value for fewer than 32768 vectors and retrieved packets below 2^31 bytes);
* reads of stale memory of the caller: memory does not change during a call;
* big-endian machines with enumerations wider than a byte (finding c);
* record arrays that are not zeroed by the caller before `MQTT_InitStatefulQoS` (finding k);
* data races in the sense of the C memory model: an access of the context is atomic (finding u lists the unlocked accesses).

Everything else of the three files has a definition with a citation.

## Trusted base

1. Lean 4.33.0's kernel.  Axioms used by the property theorems: at most `propext`,
   `Classical.choice`, `Quot.sound`.  Mathlib is not imported.  There is no `sorry`, `native_decide`, `bv_decide`,
   `implemented_by` or own axiom.
2. The reading of the C code recorded in the model's comments.  Nothing was compiled or run.
3. The specifications in `Verif/Spec` say what MQTT 3.1.1 and the API documentation say.
4. The contracts named above: transport contract, hook contract, valid caller memory (`ValidCall`, `Valid` in `Spec/Args.lean`).

## Per property

| id | modelled | proof |
| --- | --- | --- |
| C01, C02 | encoder, both decoders, over byte lists | induction on digits against a base-128 spec; decoder characterised on every byte list |
| C03 | type check of the first byte | complete table over `UInt8` lifted to all streams |
| C04-C06, C10 | publish sizing, writer on checked buffer, reader on checked memory | round trip; frame condition of writes; `ub`-freedom |
| C07, C08 | connect / subscribe / unsubscribe writers | round trip through an independent grammar decoder in `Spec` |
| C09 (partial) | size computation modulo `W` | exactness when no wrap; concrete 32-bit counterexample (negation) |
| C11-C15 | ack readers, SUBACK loop, ack writer, DUP update | decision-logic theorems |
| C16 | `MQTT_GetPacketId` iterated; histories; runs of threads in which calls begin, take steps and return (Spec/Ids.lean) | arithmetic on `UInt16`; no step of another function changes the counter (Proof/Ids.lean, by traversing every program); over a run, the ids returned and the ids drawn but not yet returned are together a permutation of the ids drawn (Proof/IdRuns.lean) |
| C17-C23 | the whole of core_mqtt_state.c on arrays with holes | refinement to an ordered-list specification, induction over histories |
| C24, C25 (partial), C26 | index-based matcher with checked reads | loop invariant against level-by-level spec; exact class of the missed pairs, counterexamples, completeness outside |
| C27, C28, C31 | `sendBuffer`, `sendMessageVector` and the zero-copy senders | loop invariants over arbitrary scripts |
| C29, C30, C40-C45 | API functions in a state/outcome monad | exact effect relation per call, induction over histories |
| C32-C34 | `receiveSingleIteration`, discard functions | the calls' events are those of a fold over the packets of the delivered stream |
| C35-C37 | receive path, record tables | invariants linking tables, trace and history |
| C38, C39 | session establishment | exact effect of `MQTT_Connect` |
| C46 | hook events in the trace | trace invariants |
| C47 | interleavings of threads | simulation invariants over arbitrary schedules; race witness |
| C48, C49 | record removal, vectors given to the store callback | refinement corollary, list lemmas |
| C50 | union of the `ub` outcomes | invariant preserved by every API call |
| C51 (partial), C52 | histories of publishes and acknowledgements | per-id stage tracking over histories; counterexample run for the missing part of C51 |
| C53 | every function | cost calculus: number of interactions bounded under an advancing clock, `stuck` only at the end of a script |
| C54 | `MQTT_Publish` | decision table from the exact effect |
| C55 | `MQTT_ProcessLoop` among other calls, without incoming bytes | bound on the real time of the last successful poll, by an invariant over the silence |
| C56 | all API calls, composed with a server and a network written from the standard (`Spec/Broker`) | simulation: an invariant that ties the client's records and stored packets to the server's state and to the packets under way, preserved by every call, every server step and every loss of the connection |
| C57 | the same system, for the messages from the server | the same method; the invariant ties the incoming records to the server's outbox and to the PUBLISH, PUBREL and acknowledgements under way |
| C58 | `Spec/Packets.Proto`: the same system at the level of whole packets, without bytes, buffers, status and time | refinement: every call (via the outcome of the call proved for C56 and C57) is a run of the protocol, by induction over the histories; `Proto.Shows` relates the states |
| C59 | the protocol of C58, with the history of accepted messages | invariant over the runs of the protocol: positions of the messages taken over, under way and pending; carried over to the system by C58 |
| C60 | the protocol of C58 with the outbox of the server | invariant over the runs of the protocol: for each packet id in flight a packet about it is under way; carried over to the system by C58; with C56 all messages have arrived. Outside the hypotheses it is false: findings f, v and aa are exchanges that are never completed |
| C61 | rounds of the end-to-end system (Spec/Rounds.lean): the server reads all, the client processes all | the packets under way after each phase are determined from the packets before it (the parse of the bytes under way is unique), so messages and PUBRECs of the first round cannot be under way after the second; with the invariant of C60 nothing is in flight. The existence of the server's phases is proved (C61_readable); that the calls of the client return is C53, that they return success is a hypothesis |
| C62 | interleavings of threads, as in C47 | rely/guarantee: the guarantee of the other threads (no callback to the application, incoming records stay, outgoing records not cancelled stay) is proved for whole calls and applied between any two steps of the receiving thread; the monitor of C35/C37 is followed through those steps. The receiving thread may reconnect, up to the begin of a new session. Findings bb and cc are what is false |
| C63 | nested executions (Spec/Nested.lean): a step of the receive loop that calls the application's callback starts a program of calls, and the loop waits until it has returned | simulation: a nested execution is an interleaving in which every callback is a thread of its own; C47 and C62 apply. What is false (MQTT_Disconnect or a receive loop in the callback) by witness |
| C64 | causes as predicates on the events of one call (Spec/Causes.lean): transport errors, clock readings the timeout apart with only send (or empty receive) calls between, declined or missing copies | a logic for calls that returned (Proof/Causes.lean `Ev`): induction on the send and receive loops, then composition through every function up to the API; the pure functions never produce these codes (`calmStatus`) |
| C65 | the functions, the codes the header lists for them and the codes they return, as tables (Spec/Codes.lean) | inclusion from the outcome of each call (`Did`, Proof/Calls.lean); each code of the table by a run from an initialised context, evaluated by the kernel; the comparison with the header by cases. Finding ee |
| C66 | `MQTT_Status_strerror`, `MQTT_State_strerror` on any integer | the names in header order (Spec/Names.lean); the range of enumerators by evaluation, the rest by arithmetic |
| C67 | histories in which publishes use drawn ids (`drawnIds`, `usesId` in Spec/Ids.lean) | an id is in flight only if a publish with it was made (induction over the history with `Did.moves`), then C16_history and C54 |
| C68 | the five calls that send one packet, after any history; `Possible`, `Sendable` in Props/Carried.lean; the causes of C64 | what each call did (`Did`), the abstract in-flight state for the two calls of the state engine in MQTT_Publish, then C64 and C27 |
| C69 | the stateless functions on all arguments (`none` is a null pointer); the refused arguments are in Spec/Checks.lean | case analysis; the deserializers by C10, C11, C12, C13 |
| C70 | real time (`Clocked`) and schedules of calls with polls (`Attended`) in Spec/Alive.lean | invariant over the schedule: time of the last transmission, time of the outstanding ping, both as real times; the decisions are C44 |
| C71 | events of a call (`callEvents`, any outcome); packet streams as in C32 | a predicate on events carried through every function of the model (Proof/Every.lean); for streams, induction over the history with the number of buffered bytes; the lock-up of a full buffer as a theorem and a reachable witness |
| C72 | as C32 and C36, with lengths | accounting of bytes sent, received and buffered for one call, then induction over the history |
| C73 | two runs whose clocks differ by a constant (`Later` in Spec/Clock.lean) | relational simulation through every function of the model (Proof/Clock.lean), then induction over the history; the exception as a reachable witness |
| C74 | the checks of the context pointer and of the pointers in it (Model/Entry.lean); the answers in Spec/Entry.lean | evaluation of each function on the zeroed context; induction over the calls |
| C75 | the whole model; worlds that differ in unused bytes of the buffer in Spec/Stale.lean | simulation of two runs through every function (Proof/Stale.lean), parametrised by how many bytes of the packet being read are known to agree; induction over the calls |
| C76 | the whole model; `SameSetup`, `noClear` and `AsFresh` in Spec/Fresh.lean | simulation of `MQTT_Connect` from two unrelated contexts up to the CONNACK (Proof/Anew.lean), where `handleCleanSession` makes them equal but for three fields; the time of the last transmission agrees because the CONNECT was sent; simulation of every function from contexts that differ in these fields (Proof/Counter.lean); C76_exceptions shows that the two exceptions are needed |
| C77 | the whole model; `noStorage`, `StoredOnly`, `noRetransmits` and `SameLink` in Spec/Storage.lean | simulation of every function from contexts with and without the callbacks, for runs without a refused copy or a retrieval (Proof/Storage.lean); storing leaves the header array as it was because setting and clearing DUP are inverse on the header that the serializer wrote; C77_needed shows that both conditions are needed |
| C78 | the whole model; `depth`, `placed` and `Placed` in Spec/Place.lean | every function of the model keeps an automaton over the depth of the critical section going, from a fixed depth at its start to a fixed depth at its end (Proof/Place.lean); no hypothesis on the state or the environment |
| C79 | the whole model; `Timed`, `callTime` and `awaited` in Spec/Duration.lean | a Hoare logic over the real time and the number of bytes received (Proof/Duration.lean), with invariants for the send loop (time since its start), the receive loop (time since the last byte) and the CONNACK loop, and an induction over the records for resuming a session (Proof/DurationApi.lean); for `MQTT_Connect` also without counting bytes, by the time since the start of the drop loop (Proof/DurationConnect.lean) |
| C80 | the whole model; `PolledFor` and `KeptFor` in Spec/Polling.lean | C79 bounds the duration of a poll without data by a constant, so that a polling application is one of C55's and C70's with gap pause + 2 × that duration; C80_silence, C80_idle, C80_reported (what the application sees) and C80_keeps_alive follow from the theorems there |
| C81 | `mqttProcessLoop`, `mqttReceiveLoop`; `arrives`, `SameCall` in Spec/Loops.lean | the flag that tells the two apart is looked at for PINGRESP packets and when there is no data only, so one iteration is the same function in all other cases; `MQTT_ProcessLoop` also clears a flag of the context that is never read, which the simulation of Proof/Counter.lean carries through (C81_data). The exceptions are computed: C81_pingresp, C81_nothing |
| C82 | the whole model; `seamless`, `Unhindered`, `SameCalls` in Spec/Splits.lean | the two send loops are characterised for a transport that does not fail and a clock that stands still: they send the whole and note the time, whatever the pieces (Proof/Splits.lean); all other functions only see that, by a simulation through every function in which the two runs use up different numbers of answers. C82_pieces for a call, C82_calls for sequences; C82_zero_timeout shows that the positive send timeout is needed |
| C83 | the whole model; the parts and the table in Spec/Parts.lean | a calculus `Touch P m` (only parts in `P` change, whatever the outcome) through every function (Proof/Parts.lean); exactness by a concrete run for each entry of the table |
| C84 | `MQTT_Connect` and the receive loops, any buffer size | below two bytes: the path of a successful connect read backwards (the CONNACK body must have been received whole); below five: induction over histories of receive calls from C71_locked, with a reachable connected client for each of the sizes 2, 3 and 4; from five on: the invariant behind C71_stream |
| C85 | `MQTT_Connect`, with the bytes the peer sends as part of the environment; hindrances as predicates on the events of the call (Spec/Connecting.lean) | what was received is a beginning of what the server sent; a case analysis of the wait for the CONNACK (`CutShort` in Proof/EffectsConnect.lean): it ends with the four bytes, with a failure whose cause C64 gives, with nothing received (then C42 says how long it waited), or between the two header bytes; then C41 |
| C86 | the receive loops in any history; when an exchange is open is defined from calls, results and bytes sent (Spec/Releases.lean) | invariant over histories: the exchange is open if and only if the record of the packet id is in one of two states; a case analysis of every call says how this state changes and what was presented and sent |
| C87 | the receive loops in any history; a message is accepted is defined from the records in use (Spec/Arrivals.lean) | case analysis of the reaction to a PUBLISH over the abstract tables; C87_blocked counts the open exchanges (pigeonhole) and uses the characterisation of open exchanges of C86 |
| C88 | the receive loops in any history; a malformed header is `readHeader … = .malformed` of Spec/Receiving.lean | no continuation of a malformed beginning is a packet header (induction over the length field); case analysis of one receive call; induction over the history. C88_stream runs the stream argument of C32 up to the malformed position |
| C89 | every public function in any history; which exchange a call is about is defined in Spec/Concern.lean from the arguments and from the packet at the front of the stream | frame lemmas for the abstract in-flight tables (insert, set, remove, requeue keep all other entries in order), carried through the effect relation of each function to the record arrays |
| C90 | the whole model; histories from MQTT_Init followed by MQTT_Disconnect, MQTT_Connect and receive calls | composition of C43, C85, C38, C39, C89 and C32 with one new fact about MQTT_Connect (a resumption leaves the position in the receive buffer alone, `ConnectDone.position`); the condition on bytes received without a connection is finding h |
| C91 | the whole model; pairs of calls with arguments that agree up to contents (Spec/Contents) | simulation through every function of core_mqtt.c, with related arguments for the senders (Proof/Contents); from each of the two calls to the call with zeros |
| C92 | the whole model; pairs of clients whose record arrays hold the same publishes (Spec/Room) | the operations of core_mqtt_state.c on related arrays (Proof/RoomState), a one-sided simulation through every function of core_mqtt.c with MQTTNoMemory as the only exception (Proof/Room; the scans of resumption and clean session with aligned cursors); induction over the history |
| C93 | core_mqtt_state.c; renamings of identifiers that keep 0 and keep different identifiers different (Spec/Rename) | every function commutes with renaming (Proof/Rename: equations by induction over the loops), then induction over the history; C93_needed shows that the names must stay different. Not stated for whole packets: the bytes of an identifier on the wire are covered by the encoding theorems |
| C94 | receive calls of core_mqtt.c over a stream of packets; `answers` and `Pinged` (Spec/Conversation) give the bytes that are due | induction over the turns of the receive calls (Proof/Conversation), on top of the decomposition used for C32 and C36; C94_independent compares two clients |
| C95 | receive calls of core_mqtt.c over streams that differ in topic and message bytes (`hideRaw`, Spec/Hidden) | reading a packet commutes with blanking its contents (Proof/Hidden), then induction over the stream on top of C94 |

## How to read seeded/LOG.jsonl

Each line is one edit of the model, built in a scratch copy.  What the fields do and do not show:

- `failed_directly`: the declarations in which Lean reported an error.  For most edits these are helper lemmas under `Verif/Proof`, not the property theorems.
- `theorems_failed`, lines 1 to 442: the property theorems whose proofs use a lemma of `failed_directly` (from the constants each proof refers to in the unedited project).
  They could not be checked any more because a lemma below them failed.  It was not established for each of them that its statement is false of the edited model.
- `theorems_failed`, from line 443 on: the same as `failed_directly`, unless the line says otherwise.  These builds were stopped 12 seconds after the first error, so the list is incomplete,
  and most of these lines name helper lemmas only.
- A failed helper lemma shows that the build notices the edit.  It does not by itself show that a property theorem is strong enough: a proof script can also break although its
  statement still holds.  That the claim of an edit is caught by a property theorem itself is shown where a theorem named `Cnn_...` is in `failed_directly` (51 of the first 605 lines).
- `refuted_by_evaluation`: instances of the named theorems, evaluated with `#eval` on the edited model in the scratch copy, violate the conclusion although the hypotheses hold.  Here the
  statement itself is known to be false of the edited model.  The instances are those of `seeded/checks.txt` (Lean source, not part of the build); all of them hold of the unedited model.
  They were run for the lines after 442 that edit the sequential model and name helper lemmas only: 77 lines are refuted in this way (with the last six lines of that series, which have instances of their own).
- `note`: 45 of these lines are not distinguished by the checks, so for them only the failure of the listed helper lemmas is known (some are edits of assertions, fuel or
  memory that the properties do not speak about, others concern timing or hooks, which the checks do not cover); 5 lines turned out to be edits with which the model does not compile.
  The evaluation was not done for lines 1 to 442 nor for the edits of the model of threads.  These evaluations are tests of the theorems, not part of any proof.
- The "operator mutant" lines were generated at random; their `claim` field names no claim.
- `still_builds: true`: the edit survived.

## Findings

Deviations of the code from what a user might expect, found while modelling.  "Proved" means that a theorem in `Verif/Props` shows it
for a concrete run; the theorems F_… are in Props/Findings.lean.

a. `MQTT_MatchTopic` misses matches (C25_incomplete, C25_missed_witnesses: proved) and, because `strncmp` stops at a null character, can
   report a match for different names that contain one (C24_null_character_witness: proved).
b. Subscription sizes wrap on 32-bit machines for long lists (C09_wraps: proved).
c. `MQTT_Subscribe` sends the first memory byte of the QoS enumeration: right only on little-endian machines or with one-byte enumerations.
d. `MQTT_Connect` calls the pre hook inside the critical section when receiving the CONNACK body fails (C46_connect_nests: proved).
e. A partial send that timed out leaves the status connected, so the stream may continue in the middle of a packet.  `sendBuffer` times out
   with `>=`, `sendMessageVector` with `>` (F_e_midway, F_e_boundary: proved).
f. When the store callback fails the record stays reserved; a later connect with session present then fails with
   `MQTTPublishRetrieveFailed`.  `MQTT_CancelCallback` does not call the clear callback (F_f_refused_copy, F_f_cancel: proved).
g. With keep-alive 0 pings are still sent because of the receive timeout.  `MQTT_Connect` does not reset `lastPacketRxTime`.  A PINGRESP
   received through `MQTT_ReceiveLoop` does not clear the outstanding ping.  A keep-alive timeout does not change the connection status
   (F_g_no_keep_alive, F_g_receiveLoop: proved).
h. `MQTT_ProcessLoop` and `MQTT_ReceiveLoop` do not check the connection status.  A malformed header stays in the buffer and is
   reported again by each call.  A connect with session present does not reset the buffer.  Buffers below 5 bytes can stall; with fewer than 2 bytes
   `MQTT_Connect` never succeeds (F_h_not_connected, F_h_stale_bytes: proved; the malformed header: C71_malformed and, in general, C88; the buffer sizes: C84).
i. The PUBLISH reader accepts an empty topic name and DUP with QoS 0.  `MQTT_Publish` accepts DUP with QoS 0
   (C28_dup_qos0: proved).  With DUP and an id not in flight it reserves a new record (F_i_reader, F_i_dup_new: proved).
j. CONNECT allows a password without user name and rejects an empty client id.  A null will payload leaks old buffer bytes
   (C07_null_will_payload_leaks_old_bytes: proved); with a non-zero length `MQTT_Connect` reaches an assertion.
   `MQTT_CancelCallback` with id 0 reaches an assertion (C50_cancel_zero: proved).  A second PUBREC after the PUBREL
   is answered with `MQTTIllegalState`; a PUBREL with unknown id gives `MQTTBadResponse`; a duplicate QoS 2 publish whose record waits for sending
   PUBCOMP makes the library send PUBREC and then report `MQTTIllegalState`; likewise a QoS 1 publish whose id has a QoS 2 record
   (F_j_connect, F_j_will, F_j_acks, F_j_mixed: proved).
k. `MQTT_InitStatefulQoS` does not clear the arrays it is given (F_k_garbage: proved).
l. The size computation limits the whole PUBLISH packet, not only the remaining length, to 268435455 (F_l_largest: proved).
m. The serializers trust the caller's remaining length (C06_needs_matching_length: proved).
n. `MQTT_Connect` with bad parameters on a connected context ends in disconnect-pending (C45_connect_on_connected: proved).  An oversized packet
   that is dropped gives `MQTTSuccess` (F_n_dropped: proved).
o. Retransmission of publishes on resumption does not check the connection status.
p. A keep-alive ping may be sent and an already buffered packet handled in the same `MQTT_ProcessLoop` call (F_p_both: proved).
q. A transport error in the middle of the CONNACK header makes `MQTT_Connect` return `MQTTBadResponse` (F_q_connack: proved).
r. `MQTT_Publish` with DUP and another QoS than in flight sends the packet and then returns `MQTTBadParameter`
   (C45_bad_parameter_after_sending: proved).  Unsubscribing rejects filters with a QoS above 0 when there is no incoming record array (F_r_unsubscribe: proved).
s. After a starved drop of an oversized packet the rest of it is taken for new packets (C34_desync: proved).
t. `MQTT_Disconnect` during a receive call of another thread (or in the callback) makes the buffer index underflow and `memmove` leave the buffer
   (C47_disconnect_race: proved).
u. Unlocked accesses: `handleKeepAlive` reads `waitingForPingResp` and `pingReqSendTimeMs`, `handleIncomingAck` writes
   `waitingForPingResp`, and the resumption loops read the record array outside the critical section.  Between a failed receive and the status change
   another thread may still send.
v. A publish whose first send failed is sent whole when the session is resumed, but its PUBACK or PUBREC is rejected with
   `MQTTIllegalState` (C51_refused: proved).
w. `MQTT_Ping` begins the wait for the PINGRESP anew: an application that pings itself more often than
   `MQTT_PINGRESP_TIMEOUT_MS` never gets MQTTKeepAliveTimeout (C55_ping_postpones: proved).
x. With a network buffer of size 0, `MQTT_Connect` busy-waits on the clock when it discards a packet, until its timeout
   (therefore C53 assumes a buffer of at least one byte).
y. When a QoS 2 publish is cancelled with `MQTT_CancelCallback` after it reached the server and its packet id is used again, the server takes the
   new message for the old one and drops it, while PUBREC and PUBCOMP are presented for it (C56_cancelled: proved).
z. After a partial send that timed out (finding e) `MQTT_Publish` reports MQTTSendFailed; if the application goes on publishing on the same
   connection, the server takes over a message nobody published (C56_not_closed: proved).  `MQTT_Disconnect` sends DISCONNECT in this situation, too.
aa. When a PUBCOMP is lost with its connection, the server repeats PUBREL on the next one; the library reports MQTTBadResponse and sends no PUBCOMP, so that the
   server waits for it until the session ends (C57_pubcomp_lost: proved; for every history C86_repeated).
bb. Threads: the record of an acknowledged publish is removed inside a critical section (core_mqtt.c 1583-1591), the clear callback is called outside, after it (1605-1612). A
   thread that publishes with the same packet id in between is not refused, and its stored copy is cleared: the message cannot be resent (C62_copy_race: proved).
cc. Threads: MQTT_Connect sets the status to connected in one critical section (2945-2986) and resends in later ones (2988-2992). A publish of another thread in between overtakes
   the older messages that are resent, and is itself sent a second time on the same connection (C62_overtaking: proved).
dd. A receive loop called from within the application's callback finds the packet that is being handled still in the buffer: it hands it over a second time and removes it, and the outer loop
   then removes it again, `index - totalMQTTPacketLength` wraps around and the memmove reads outside the buffer (C63_receive_in_callback: proved; for MQTT_Disconnect in the
   callback, finding t: C63_disconnect_in_callback).
ee. Return codes the header does not list (C65_header, with C65_exact): MQTT_Connect returns MQTTBadResponse and MQTTServerRefused; MQTT_Publish returns MQTTStateCollision and
    MQTTIllegalState (a publish with the DUP flag whose PUBREC was already received: the packet is sent, then the call reports the error); MQTT_ProcessLoop and MQTT_ReceiveLoop return
    MQTTNoMemory when the records for incoming publishes are in use; MQTT_ReceiveLoop returns MQTTStatusNotConnected and MQTTStatusDisconnectPending. Listed but never returned:
    MQTTNoMemory by MQTT_Connect, MQTT_Subscribe, MQTT_Unsubscribe, MQTT_Ping and MQTT_Disconnect; MQTTBadParameter, for a context that is not null, by MQTT_Ping, MQTT_Disconnect,
    the loops and MQTT_CheckConnectStatus. An application whose error handling follows the header misses the first group.
ff. `receiveSingleIteration` checks the keep-alive timers only when the transport delivered nothing (core_mqtt.c 1768-1791).  While every `MQTT_ProcessLoop` finds data, no PINGREQ is sent,
    however long ago the last transmission was; a client that only receives QoS 0 messages is then disconnected by the server after 1.5 keep-alive intervals (C70_flood: proved).
gg. When the network buffer is full of bytes that do not begin with a packet header, the receive calls ask the transport for zero bytes, at each call anew, and report the malformed header (finding h);
    for a transport whose receive function treats a request for zero bytes as an error or a closed connection this is a second, different failure (C71_locked, C71_malformed: proved).
hh. Whether the first `MQTT_ProcessLoop` after the first `MQTT_Connect` sends a PINGREQ depends on what the clock shows, since the time of the
   last reception is still 0 (C73_first_loop: proved; extends finding g).
ii. Before `MQTT_Init`, `MQTT_GetPacketId` on a zeroed context returns 0 and `MQTT_Connect` calls null function pointers; all other functions
   detect or survive a zeroed context (C74_zero_id, C74_zero_connect, C74_zero: proved).
jj. Dropping a packet that does not fit into the buffer has no overall time limit in the receive loops (`MQTT_Connect` has one, checked after each buffer of bytes: C79_connect, C79_connect_drip): a server that announces such a packet
   and sends a byte before each polling timeout has passed keeps `MQTT_ProcessLoop` busy for up to 268435455 times the polling timeout; meanwhile no keep-alive is
   checked (C79_drip: proved for a concrete server).  A SUBSCRIBE or UNSUBSCRIBE may take the send timeout once for each of its parts (C79_each_part: proved).
kk. With `MQTT_SEND_TIMEOUT_MS` 0, which core_mqtt_config_defaults.h (183-184) demands for a dummy clock, an acknowledgement, PINGREQ or DISCONNECT of which the transport accepts only a part in the first call
    fails with MQTTSendFailed, while longer packets may be sent in pieces, because of the two comparisons of finding e (C82_zero_timeout: proved).
ll. When the second byte of the CONNACK has not arrived yet at the moment the library asks for it (core_mqtt_serializer.c 795-843 reads the header byte by byte, without waiting), `MQTT_Connect` gives up with
    MQTTBadResponse, however much of its timeout is left and although the server accepts the connection (C85_gap: proved).
