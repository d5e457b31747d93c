# Formal verification of wasmrs-go: design

Source under study: `/repo` (Go module `github.com/nanobus/iota/go`), read as text,
never built.  Model, specifications and proofs: Lean 4.33.0 + Mathlib in
`/verif/lean`.

## 1. Trusted base

* Lean's kernel.
* The axioms `propext`, `Classical.choice`, `Quot.sound` (Lean's standard ones).
  No own axioms, no `sorry`/`admit`, no `native_decide`, no `bv_decide`.
  Every theorem's axioms can be listed with `#print axioms`; all are within these three.
* The faithfulness of the hand-written model to the Go text (every definition cites
  the file and lines it transcribes) and of the specifications to the English
  statements in `properties.jsonl`.
* The semantics of Go assumed by the model: see section 2.
* Library behaviour taken from its documentation, not from its source: `encoding/binary`,
  `bufio.Reader`/`Writer`, `utf8.Valid` (a parameter: the theorems hold for any predicate),
  the LEB128 decoder of the wabin library (after the WebAssembly specification),
  `time.Parse`/`time.Format` (parameters), `strings.ToLower` on the ASCII prefix of a UUID URN,
  `io.ReadFull` over a random source (a stream of bytes that may fail), `encoding/json` and
  `vmihailenco/msgpack` (which values they parse and write, in `Model/InvokeCmd.lean`), wazero (a panic in a function of
  the host becomes an error of the call of the guest; start functions; a name in use is refused: `Model/Startup.lean`).

## 2. Modelling conventions

* `byte`/`uint8` = `UInt8`; `uint16/32/64` = Lean's `UInt16/32/64` wherever
  wrap-around is observable, with Go's modular arithmetic; lengths and Go `int`
  (64 bit) are `Nat`/`Int` without overflow (a slice of 2^63 bytes cannot exist).
* `[]byte` and `string` = `List UInt8`.  A slice expression `s[lo:hi]` panics unless
  `lo <= hi <= len(s)`; the capacity of a slice is taken to be its length (stated
  again where it matters).  `nil` and empty slices are identified except where the
  code distinguishes them.
* A Go function that can return an error or panic returns `Go α` with constructors
  `ok`, `err`, `panic`.  Nothing is totalised: out-of-range accesses, nil dereferences,
  sends on closed channels and double closes are `panic`.
* Possibly non-terminating loops are modelled with an explicit fuel argument or as a
  step relation, so that "terminates" and "does not terminate" are both statable.
* Writing into a buffer (`Encode(buf)`) is modelled as a function from the old buffer
  contents to the new contents (or panic).
* Goroutines, channels, mutexes, atomics: state machines whose atomic steps are the
  critical sections / channel operations of the code; theorems quantify over all
  sequences of steps (all interleavings).
* Callbacks: the observable effect of a component is the list of callback
  invocations / frames it emits.

## 3. Layout of the Lean project

* `Verif/Base/*`   Go result monad, slices, big-endian integers, helper lemmas.
* `Verif/Model/*`  the model, function by function, each definition citing `/repo`.
* `Verif/Spec/*`   small specifications written from the English statements
  (wire formats, reassembly rule, FIFO, reactive-stream protocol, msgpack format ...).
* `Verif/Lemmas/*` helper lemmas (nothing in there is a claim).
* `Verif/Props/*`  the property theorems `Cnn_...`, with an `example` beside each
  theorem showing a concrete non-trivial case meeting its hypotheses.

If the code violates a property, a theorem `Cnn_..._violated` proves the negation with a
concrete witness, and a `Cnn_..._partial` theorem proves the part that does hold; both are
listed in `MANIFEST.json`, with status `partial`, and in section 5 below.

## 4. Plan per property

Frames (model: `Model/Frames.lean`, `Model/Fragment.lean`)
* C01 header bytes as a function of fields, Nat/bit lemmas; both directions.
* C02, C03, C04, C05 `Encode`/`Decode` over byte lists; each frame's wire layout is a
  separate specification; round trip proved through it.  C03 fails for `Follows` (the encoder
  never sets the flag), C05 fails for non-empty tokens, durations above 2^32 ns and
  255-byte mime types: negation + partial.
* C06 `Encode f buf = wire f ++ buf.drop (Size f)` for every buffer that is long enough;
  fails for Setup with a token.
* C07 induction on the fragmentation loop with UInt32 arithmetic; C08 fails (metadata sent
  twice, follows flag lost): negation + partial for requests without metadata or with
  metadata of at least the fragment size; C09 fails for small maximum sizes.
* C10 fails (slice bounds); partial: decoding succeeds on every input that is at
  least as long as its own length fields demand.
* C11 arithmetic.  C12 atomic counter as step system; fails at the 2^30-th server id (zero).

Buffers and tables
* C13, C14 `Model/Unbounded.lean`: state machine, invariant by induction over operations.
* C15-C17 `Model/Operations.lean`: round trip; rejection; crash witness.
* C18 `Model/Invoke.lean`: registry state machine, invariant.
* C19 fails (flag constants collide): negation + partial.
* C20 `Model/Instances.lean`: map keyed by address, nondeterministic fresh address.
* C21 `Model/Lookup.lean`: explicit pointer heap; fails when the head is removed; partial:
  histories that never remove the first-added stream.

Reactive streams (`Model/Mono.lean`, `Model/Flux.lean`, `Model/Flow.lean`)
* C22-C25, C26-C28, C32: signal histories as lists, observable trace of callbacks;
  spec = trace grammar.  C27 fails (Cancel), C28 fails, C24 fails for error-then-success.
* C29, C30 slice sources, explicit demand; C30 fails for SliceResponse.
* C31 flow state machine; fails for already completed awaitables.

MessagePack (`Model/Msgpack*.lean`)
* C33-C37 per-type round trips against an independent msgpack format specification.
* C38 sizer vs encoder, fails at 255-byte arrays.
* C39-C43 decoder safety; C41, C43 fail (32-bit wrap), C42 fails for extension formats.
* C44 dynamic values (tree induction); fails for nil. C45-C48 combinators over the above.

Transport and handlers
* C49 splitter as function of the accumulated buffer; induction over segmentations.
* C50 two-step writes as interleaving system; fails.
* C51, C52 buffer framing; C52 fails.
* C53, C54 reader/handler machine; C54 fails (aliasing).
* C55-C62 handler and proxies as state machines with frame traces; C58, C59, C60, C62
  fail in the code; partial theorems.
* C63-C65 host instance life cycle; all three fail; partial theorems.
* C66-C68 mesh; C67 fails. C69 custom sections.
* C70-C73 UUID.

Later additions
* C74 operation table parser (`Model/Operations.lean`): reserved blocks and trailing bytes.
* C75-C79 the wasm side (`Model/WasmBuffers.lean`, `Model/WasmRecv.lean`): what host and guest do with
  frames and memory ranges they get; request handlers as a dispatch function, crashes explicit.
* C80, C81 TCP server (`Model/TcpServer.lean`): accept loop, Close and Listen as an interleaving machine.
* C82, C83 `msgpack/convert` (`Model/Convert.lean`) over arbitrary decoders; `time.Parse`/`Format` are
  parameters.
* C84 time-based UUIDs (`Model/Uuid.lean`).
* C85, C86 blocking calls (`Model/Block.lean`): the caller's goroutine as one more step of the mono or
  stream machine.
* C87 two handlers and the wires between them (`Model/System.lean`): the one-end theorems (C12 ids, C56
  dispatch, C57 replies, C62 outcome) are joined by an invariant: what one end sent is what the other was
  handed plus what is on the wire. All stream ids in use at an end are accounted for as a permutation of
  the ids of its calls and of the requests it received (`Lemmas/HandlerIds.lean`), so each id has one
  source and one registration.
* C88, C89 MessagePack: maps that repeat keys, buffers that are too small. Both came out of mutation tests
  (an edit that no theorem noticed); C60 was extended for the same reason to whole histories
  (`Props/HandlerImport.lean`).
* C90 what the subscriber of a stream call sees, as a function of the frames that arrive (`Props/StreamSeen.lean`).
* C91 streams and channels over a whole connection, direction of the answer (`Props/StreamSent.lean`: what the
  answering end sends; `Props/SystemStreams.lean`: both ends). Disagreement: a cancelled channel input completes
  the answer at the caller.
* C92 fire-and-forget over a whole connection (`Props/SystemFnf.lean`).
* C93 isolation of exchanges on a connection (`Props/Isolation.lean`). Disagreement: a rejected fire-and-forget
  call, a failing transformation, an early cancel and early channel input make `HandleFrame` return an error,
  on which `Start` gives up the whole connection.
* C94 the input of a channel over a whole connection (`Props/InputSent.lean`: what the caller sends;
  `Props/InputSeen.lean`: what the handler sees of what arrives; `Props/SystemInput.lean`: both ends).
  Disagreement: a cancelled output completes the input, and input that arrives early is dropped.
* C95 demand over a whole connection (`Props/DemandSteps.lean`: how goroutines come and go and what a source is
  asked for, step by step; `Props/SystemDemand.lean`: the two ends together).
* C96 demand for channel input over a whole connection (`Props/SystemInputDemand.lean`). Disagreement: once the
  output has completed, requests for the input are lost.
* C97 cancellation over a whole connection (`Props/SystemCancel.lean`). Disagreement: the peer crashes, or goes on
  sending; its source is never cancelled.
* C98, C99 host and guest (`Model/Wasm.lean`, on top of the tables and metadata of `Model/WasmRecv.lean`): calls and
  streams between a wasm host and its guest in both directions (`Props/WasmCalls.lean`, `Props/WasmStreams.lean`).
  `Props/WasmSim.lean` shows that every run of the two is a run of `Model/System.lean` with the same frames and
  callbacks, if that model may leave streams out of its table (`Ret.kept`); what the handlers get is compared separately.
* C100 demand between host and guest (`Props/WasmDemand.lean`). Disagreement: the host serves only the first request
  for elements of a stream the guest has called.
* C101 the two bounded queues between host and guest (`Model/WasmLink.lean`, `Props/WasmLink.lean`). Disagreement:
  the send loop and the receive loop can wait for each other for ever.
* C102 subscribing to a request/response call more than once (`Props/SystemAgain.lean`). Disagreement: every
  subscription sends the request again, and of several subscribers only the last sees an outcome.
* C103 cancelling the input of a channel (`Props/SystemInputCancel.lean`). Disagreement: the caller's own output ends
  with it, and the rest of it ends the connection.
* C104 the same as C97 and C103 between a wasm host and its guest (`Props/WasmCancel.lean`). Disagreement: the guest
  crashes, the host goes on sending; which of the two depends on which streams a side registers.
* C105 the same as C94 between a wasm host and its guest (`Props/WasmInput.lean`). Disagreement: cancelling the output
  completes the input, and elements arriving before the handler subscribed are lost.
* C106 the same as C96 between a wasm host and its guest (`Props/WasmInputDemand.lean`). Disagreement: requests for
  input made after the output was completed are dropped.
* C107 a frame for a stream, at the level of bytes, on the wasm host and the guest (`Props/WasmEnds.lean`). Added because
  a wrong program in which a cancelled stream stays registered broke no theorem. Disagreement: the first stream stays.
* C108 the ids of all requests on a connection, over both transports (`Props/ConnectionIds.lean`). Disagreement: subscribing
  to a call twice uses its id twice (see C102).
* C109 a whole connection over TCP down to the bytes (`Model/TcpConn.lean`, `Model/TcpSystem.lean`, `Props/TcpSystem.lean`):
  a refinement of `Model/System.lean`. Disagreements: frames of 16 MiB crash the sender; of a frame of 4 GiB the data are
  silently lost.
* C110 the connection of a wasm host and its guest down to the bytes (`Model/WasmSystem.lean`, `Props/WasmSystem.lean`): a
  refinement of `Model/WasmLink.lean`. Disagreements: a frame of the guest that does not fit ends in other memory of the
  guest; a frame of the host that does not fit crashes the host.
* C111 calls and streams over TCP down to the bytes (`Props/TcpCalls.lean`): C109 composed with C87, C91 and C92. Disagreement:
  of a payload of 4 GiB the handler gets nothing.
* C112 generated clients and handlers (`Model/Typed.lean`, `Props/TypedCalls.lean`): the record reaches the service and the
  string reaches the caller, composing C47, C48, C18 with C111 and C98. Disagreement: of an answer of 2^32 bytes the caller gets the empty string.
* C113 generated clients and handlers of streams of strings (`Props/TypedStreams.lean`): C111 and C99 composed with the codecs.
  Disagreement: an element of 2^32 bytes arrives as the empty string.
* C114 the input of channels of strings (`Props/TypedChannels.lean`): C94 and C105 composed with the codec. Disagreement: when the
  caller cancels the output, the service sees the input complete.
* C115 `Greeting.Uppercase` (`Props/TypedChannels.lean`). Disagreement: the client passes no metadata, so in every run the call is
  refused with "Invalid metadata" and no operation is invoked; transport/wasmrs/cmd/host makes this call.
* C116 stream processors (`Props/FluxProc.lean`). Disagreement: what was pushed before the subscription is lost, and a later subscriber
  takes over (`mono.Processor` keeps the value, C24).
* C117 the components Concat and Greeter (`Props/Components.lean`). Disagreement: a payload that only completes the input port is taken
  for a value; a payload without metadata crashes the handler.
* C118 the component WordFrequency (`Props/WordCounts.lean`). Disagreement: the handler takes every word for the last one, so only the
  first word is counted. `strings.ToLower` and the order `sort.Sort` leaves equal counts in are parameters.
* C119 values that were cut short (`Props/Truncated.lean`). Disagreement: `Skip` returns no error when the input ends within a number, a time or a
  short string (decoder.go 622, 658-678 ignore the result of `Discard`).
* C120 requests that were cut short (`Props/Truncated.lean`). Disagreement: one that ends within a last, unknown field may be answered.
* C121 calls between the modules of a mesh (`Model/MeshSystem.lean`, `Props/MeshCalls.lean`): request/response and fire-and-forget.
* C122 the `NewCustomer` flow of the mesh example (`Model/Customer.lean`, `Props/NewCustomer.lean`). Disagreement: the failures
  of both calls are ignored.
* C123 streams between the modules of a mesh (`Model/MeshSystem.lean`, `Props/MeshSubs.lean`, `Props/MeshStreams.lean`).
* C124 demand through a mesh (`Props/MeshAsked.lean`, `Props/MeshDemand.lean`).
* C125 cancelling streams through a mesh (`Props/MeshCancel.lean`).
* C126 names across modules: from the registry of one guest to the handler of another (`Model/MeshStart.lean`, `Props/MeshNames.lean`).
* C127 calls and streams between host and guest down to the bytes in memory (`Props/WasmMemory.lean`): C110 composed with C98
  and C99. Disagreement: a request that is too large by one byte invokes the operation with other data.
* C128 closing a mesh (`Model/MeshClose.lean`, `Props/MeshClose.lean`): the instances of C63 and C64 side by side, closed one after
  the other. Disagreement: one instance that hangs keeps the others from being closed; a call into a closed instance crashes.
* C129 the generic transforms (`Model/Transforms.lean`, `Props/Transforms.lean`): slices, maps visited in two orders, texts, object
  references. Disagreement: the extra byte of C48 for every byte array of 255 bytes in a slice or map.
* C130 the counter of the example host (`Model/Counter.lean`, `Props/Counter.lean`). Disagreement: counting to 2^64 - 1 never ends,
  since no counter is greater.
* C131 the service `Uppercase` of the example host and guest, a stream that subscribes to another one (`Model/Uppercase.lean`,
  `Props/Uppercase.lean`). Disagreement: it sends without demand and never cancels its input.
* C132 where in memory decoded strings and byte arrays are (`Model/Kept.lean`, `Props/Kept.lean`). Disagreement: strings are not copied
  (`UnsafeString`), so a string the application keeps changes when later frames reuse the buffer of the scanner.
* C133 what `wasmrs invoke` passes to the operation (`Model/InvokeCmd.lean`, `Props/InvokeCmd.lean`). Disagreement: numbers are passed as
  `float64`, which every integer reader refuses. `encoding/json` and `vmihailenco/msgpack` are taken by their documentation.
* C134 the handlers an application sets on the handler of a connection (`Model/OwnHandlers.lean`, `Props/OwnHandlers.lean`).
  Disagreement: they are stored and never used; `handleRequest…` look in the exported operations only.
* C135 the end of a TCP connection and the calls on it (`Model/ConnectionEnd.lean`, `Props/ConnectionEnd.lean`). Disagreement: nothing
  tells the calls; whoever waits for one waits for ever.
* C136 a wasm guest that fails and the calls on it (`Model/GuestFails.lean`, `Props/GuestFails.lean`). Disagreement: the error is dropped;
  the host behaves as if the guest had returned, and whoever waits for the call waits for ever.
* C137 starting a wasm module (`Model/Startup.lean`, `Props/Startup.lean`); what wazero does with panics and names is assumed. Disagreements:
  a module without `__wasmrs_op_list_request` crashes the host, more than 100 frames during the initialisation make it hang, a failed
  initialisation and an operation table that is not valid are ignored.
* C138 several modules on one host (the same files). Disagreement: all get the name "test", and wazero refuses the second one.
* C139 what the steps of a flow report (rx/flow/flow.go, on top of the flow, mono and stream models).
* C140 skipping extension values written by other programs (msgpack/decoder.go, on top of the decoder model).
* C141 times written by other programs (msgpack/decoder.go, on top of the decoder model).
* C142 skipping values in forms this library does not write (msgpack/decoder.go, on top of the decoder model).
* C143 strings, byte arrays and sizes in every form (msgpack/decoder.go, on top of the decoder model).
* C144 values read as another kind (msgpack/decoder.go, on top of the decoder model).

## 5. Disagreements between the code and the properties

Each line: what the code does instead (proved as `..._violated`, with a concrete witness), and what still holds (`..._partial`).

* **C03** Code drops the 'more fragments follow' flag when encoding a request frame (witness). Partial: exact wire bytes and round trip of every request frame that is not marked follows.
* **C05** Durations are cut to 32 bits of nanoseconds before the division (5 s arrives as 705 ms); a resume token leaves that many stray bytes after the data; a 255-byte mime type makes the receiver panic (three witnesses). Partial: durations below 2^32 ns and mime types below 255 bytes round trip, up to the stray bytes; exact round trip without token.
* **C06** Proved for Payload, Request, RequestN, Cancel and Error. Setup.Size() counts the token twice (witness); partial: exact without token.
* **C08** The follows mark of the first fragment is lost by the encoder, and short metadata is repeated in the second fragment (two witnesses). Partial: before encoding, fragmentation is lossless and bounded when metadata is empty or fills the first fragment, and otherwise delivers exactly the metadata twice.
* **C09** Fragmentation loops for ever or crashes for tiny maximum sizes (two witnesses). Partial: the exact termination condition for payload frames and for request frames.
* **C10** Short frames crash the decoders (witness). Partial: exact characterisation, per frame type, of the inputs that do not crash.
* **C12** Client ids proved for every number of allocations. Server ids wrap to 0 after 2^30 allocations (witness); partial: distinct below 2^30 allocations.
* **C17** Truncated tables crash the parser (witnesses). Partial: no crash on complete tables (with reserved and trailing bytes) nor on a wrong magic or version; and the exact set of inputs that do not crash.
* **C19** The flags next and complete share one bit, so a message with either flag arrives with both (witness). Partial: name and data always arrive; flags arrive when both are equal.
* **C21** Removing the first-added stream never unlinks it, and its successor can then not be removed either (witness). Partial: an exact map as long as the first-added stream is not removed; live streams are always found if ids are not reused; and, for every history whatsoever, exactly what the table does: which entries can never be removed again.
* **C22** Monos made with Just and Error never call Finally (witness). Partial: created monos in full (any subscriptions, signals and callbacks, and Get); Just and Error without Finally.
* **C23** A callback registered from inside OnError is told COMPLETE, and a second subscription calls callbacks again (two witnesses). Partial: one subscription, callbacks registered at any time except inside OnError; any number of subscriptions, callbacks registered before the first: exactly how often they are called (C23_many_partial).
* **C24** A success signalled before the subscription overrides an earlier error or success, and Error(nil) is lost (two witnesses). A second subscriber takes the place of the first, which then gets nothing (witness). Partial: exactly what each of any number of subscribers gets (C24_subscribers_partial); the property for one subscriber when at most one non-nil result is signalled early.
* **C27** Cancel is not idempotent: cancelling twice, or after completion, calls Finally again, and a cancelled stream never calls its Notify callbacks (two witnesses). Streams made with flux.Error never call Finally. Partial: the exact number of Finally calls for every run; without Cancel each Notify callback is called exactly once.
* **C28** A failing transform does not end the mapped stream: later elements are still delivered and Finally runs again (witness). Partial: exact up to and including the first failure.
* **C30** SliceResponse emits the same elements for ever when demand arrives inside OnNext (witness). Partial: FromSlice in full; SliceResponse exactly when the first request exceeds the slice (C30_slice_response_iff_partial), for subscribers that do not request from inside OnNext.
* **C31** A step whose awaitables have all finished already is run again and again, and a step with no awaitables is never followed by the next one (two witnesses). Partial: every flow in which each group has an awaitable that finishes after it was registered, for every finishing order. `C31_flow_iff` says exactly for which flows and finishing orders the claim holds, `C31_flow_finished_violated` that every flow reaching a finished group never comes back.
* **C38** The Sizer counts 258 for a 255-byte byte array (257 are written) and counts times inside dynamic values, which the Encoder does not write (two witnesses). Partial: every other sequence of calls, nested values included.
* **C39** The signed readers refuse unsigned formats even when the number fits (witness: 200 written unsigned). Partial: signed forms with all eight readers and unsigned forms with the unsigned readers in full; signed readers of unsigned forms return the exact number or an error.
* **C41** A declared length that wraps a 32-bit sum passes the bounds check and crashes the reader (witness db ff ff ff ff). Partial: all reads on all inputs except strings, byte arrays and times that declare such a length; the exception is exact.
* **C42** Skip refuses times that need the 12-byte form, and a nil written by WriteAny takes two bytes of which Skip skips one (two witnesses). Partial: every other value, of any nesting.
* **C43** A string length that wraps a 32-bit sum moves Skip backwards, so that it loops for ever (witness 92 db ff ff ff fa). Partial: Skip finishes within an explicit bound on every input in which no such length is declared.
* **C44** nil is written twice, and two map keys that are the same number in different formats collapse on reading (two witnesses). Partial: every nested value without nil, byte array keys and colliding keys.
* **C47** Unknown fields that hold a 12-byte time make decoding fail (witness). Partial: every other value in the unknown fields, any order and any number of them, for all five generated record shapes.
* **C48** A byte array of 255 bytes gets a payload with one extra byte (witness). Partial: everything else, strings and byte arrays up to the 32-bit length limit of the format.
* **C49** An end of stream reported together with the last data drops complete frames (witness; TLS connections do this). Partial: every list of frames and every segmentation when the end comes alone.
* **C50** Write has no lock and writes the length and the frame separately: two concurrent senders can interleave them (witness, with each write of the buffer taken to be atomic). Partial: schedules that do not separate a frame from its length; a single sender under every schedule.
* **C52** A frame of 2^24+20 bytes is delivered as a frame of 20 bytes, its length being truncated to 3 bytes (witness). Partial: every frame below 2^24 bytes (the guest panics before handling it); for larger ones below 4 GiB, something is delivered exactly if the length cut to three bytes fits into the buffer and is that of a header at least (`C52_exact_partial`).
* **C54** Frames are slices of the scanner's buffer, which is reused: a 4100-byte frame is overwritten by the next one (witness). Partial: contents stay while no more than 4096 bytes were received.
* **C57** A mapped flux whose transform fails keeps sending: element frames and a second terminal frame follow the error frame (witness). Partial: request/response in full; streams and channels up to mapped fluxes with a failing transform.
* **C58** Five crashes (witnesses): setup frame without data, cancel of a served stream (nil sink), request-n before the handler subscribed, request-n on a request/response call, a stream handler returning flux.Error. Partial: no history crashes in which every step avoids these (condition `polite`, per step and state); frames for unknown streams never crash (full).
* **C59** Requests being answered are never unregistered, and the first stream of each table cannot be removed (two witnesses). Partial: every stream removeStream is called for, as long as the first stream of its table is not removed; a frame that ends a stream always calls removeStream.
* **C60** 0 means both 'not found' and the index of the first export (witness). Partial: the index returned for an existing export, and 0 for a missing one, over any history of a connection: the table looked in is that of the first setup frame with a readable one.
* **C61** Each demand gets a goroutine of its own, so the request frame may carry a later demand; a cancel frame is sent after completion (two witnesses). Partial: the frames granting credit are one request frame and one request-n frame per further demand, each demand granted exactly once or still waiting for its goroutine, none dropped before completion; credit equals demand; no request or request-n after completion.
* **C62** A frame ending the stream without payload gives the caller no outcome ever, and a result received afterwards is refused; subscribing twice sends the request twice (witnesses). Partial: single subscription, any history in which the first result is not preceded by an empty end.
* **C63** Rejected requests (short metadata; stream without handler) are counted and never given back, so Close hangs; a goroutine between decrement and flag check, or a channel handler cancelling its input, lets Close return early (witnesses). Partial: no hang in every interleaving without such a rejected request; no early return if no input is cancelled and no goroutine is between decrement and check when Close is called.
* **C64** Five crashes (witnesses): two goroutines closing the completion channel, channel input cancelled and output ended, rejected fire-and-forget after Close, queued request answered after Close, frame arriving after Close. Partial: an orderly Close never crashes; before Close nothing crashes (full).
* **C65** No fragmented request is ever served, whatever payload frames follow: the first fragment is stored (always as request/response) and never looked up again (proved for every fragmented request; witness). Partial: requests in one frame.
* **C66** Disagreement: linking looks up the name only (mesh.go 237-261), so an import of one kind is linked to an export of another kind (`C66_type_violated`). Proved: `C66_names_partial` / `C66_link_partial` - for every list of loaded modules whose imports are well formed, loading succeeds and every import whose name some loaded module exports is linked to an exporter of that name with that exporter's index, whatever the load order; imports nobody exports stay unlinked. Missing: agreement of the kind.
* **C67** Disagreement: links are never redone. `C67_violated`: after the exporter is loaded again the importer still calls the old instance (which is closed 5 s later). `C67_links_never_change`: no later load ever changes an existing link. Proved: `C67_by_name_partial` - calls made by name on the mesh use the last loaded exporter. Missing: calls of importers linked before the reload.
* **C68** Disagreement: the mesh overwrites the first four metadata bytes in place and the call is lazy, so one payload used for two calls goes to the second operation twice (`C68_shared_violated`). Proved: `C68_forward_partial` - fire-and-forget always, other calls if the payload is not passed in again before the call is subscribed to. Missing: payloads used twice.
* **C69** Disagreement: `decodeCustomSection` uses one `Read`, which fails at the end of the input even for an empty buffer, so a file ending with a wanted section with empty payload is rejected (`C69_empty_violated`). Proved: `C69_read_partial` for every other well-formed binary (any valid LEB128 encoding of the sizes), and `C69_rejects` (only well-formed binaries are accepted, no input crashes). Missing: files ending with an empty wanted section. `utf8.Valid` is a parameter; the LEB128 decoder of the wabin library is modelled after the WebAssembly specification.
* **C71** Disagreement: the braced form drops the first byte and ignores the last, so any two bytes are taken for braces (`C71_braces_violated`). Proved: `C71_accepts_partial` (accepts exactly the documented texts up to that; never crashes; reformatting is stable) and `C71_unambiguous`. Missing: the check of the braces.
* **C74** Reserved blocks of 65534 or 65535 bytes are not skipped (2+length is computed in 16 bits; witness). Partial: all shorter blocks are skipped.
* **C75** doSendFrame does not compare the frame with the buffer: the host is told to read beyond it and delivers the guest memory found there (witness: one byte too many in the 16 KiB buffer). Partial: frames that fit, and frames that exceed the guest's memory.
* **C77** Three bytes crash the host; so do a channel request and a cancel frame while the handler has not subscribed to its input; a cancel frame for any served stream crashes the guest (witnesses). Partial: exact condition for a crash in every state, and no crash over whole histories of complete frames without channels.
* **C78** Setting the last index (2^32-1) crashes: index+1 wraps to 0 (witness). Partial: all other indices.
* **C79** Only request/response and fire-and-forget on the guest drop the 8 routing bytes; streams and channels on the guest and every kind on the host pass them on (witnesses). Partial: the two guest kinds; in all cases the handler gets the caller's metadata with or without the prefix.
* **C80** Close before Listen leaves the listener open for good and Listen running; a connection accepted while Close runs is refused but never closed (witnesses). Partial: if Close comes after Listen opened its listener, listener and all connections are closed and Listen returns, except for at most the one connection accepted during Close; exact behaviour for Close before Listen; Close twice is Close once.
* **C81** An ended connection stays in the server's table: nothing but the acceptor's onClose removes it and the acceptor is not given the transport to pass (witness). Partial: the table consists of exactly the connections ever served, in every history.
* **C82** NillableString, NillableBool and NillableNumeric dereference their argument before looking at the error, so an absent value and every decoding error crash (witness). Partial: exact condition for the crash, for every decoder and byte string; NillableParse, StringToTimePtr and Parse in full.
* **C83** Go conversions truncate silently (witness: 300 as int8). Partial: the value is kept exactly if it is in range, the result is always in range, the decoder's error is passed on.
* **C85** Monos made with Create, mapped monos, Just and Error: proved in full. Processors: a result arriving while another subscriber is registered, between Block's test and its subscription, is lost and the caller waits forever (witness). What a blocked caller gets is given exactly, for any number of subscribers (C85_processor_exact_partial); missing, because the code loses them, are the results in that window, those after a later subscription and all but the last of the ones before the first subscription.
* **C86** The method Block on a stream nobody subscribed to dereferences nil, always; a failing transform, or a cancel besides the end, closes the done channel twice; a mapped flux.Error is waited for forever (witnesses). Partial: exact condition for the crash of the function Block, its result without cancellation and with one, mapped streams: exactly when they crash (C86_mapper_crash_partial), the result if the transform does not fail or fails once, the method on a stream with a subscription.
* **C91** Violated for channels: when the answering end cancels the input of a channel, the calling end takes the cancel frame for the end of the answer (`C91_violated`). Proved for all streams, and for channels whose input the peer does not cancel.
* **C93** Violated: HandleFrame returns an error, which ends the connection, for the error frame that rejects a fire-and-forget call, for an element that follows one a transformation failed on, for a cancel that arrives before the goroutine of the request ran, and for channel input that arrives so early (`C93_*_violated`). Proved for ends that do none of these.
* **C94** Violated: when the caller cancels the output of a channel the handler is told that its input is complete, and an element of the input that arrives before the goroutine serving the request has run is refused while the next one is delivered (`C94_cancel_violated`, `C94_early_violated`). Proved when neither happens.
* **C95** Violated: a RequestN frame that arrives before the goroutine serving the request has registered the stream is ignored without an error, so that demand is lost (`C95_lost_violated`). The bound is proved without further conditions, the equality for requests that arrive while the stream is open. Served streams are in the table (`allKept`), as handler.go has it; the field is there for the wasm host, which leaves some out.
* **C96** Violated: when the handler completes the output of a channel the calling end forgets the stream, so what the handler requests of the still open input afterwards never reaches the source (`C96_half_violated`). The bound is proved without further conditions, the equality for requests handed over while the calling end has the stream open.
* **C97** Violated: the peer crashes (nil sink) on the cancel frame of any stream, and of a channel whose input its handler has not subscribed to (`C97_crash_violated`; `C97_crash_partial` says exactly when), and no source is ever cancelled in any run (`C97_stop_violated`). Proved: the subscriber sees nothing more, and each cancellation sends one cancel frame.
* **C100** Violated: the host does not enter the streams of the guest's stream calls in its table, so that every request for more elements after the first is dropped: the source is never asked for more than one of the subscriber's requests, in any run (`C100_once_violated`; `C100_lost_violated` is a concrete run). The bound is proved for both directions, the equality for the host calling the guest (for channels while the input has not ended). When the guest calls a stream operation of the host, the source has been asked for exactly one of the requests once the host is done (`C100_single_partial`).
* **C101** Violated: when a callback of the host sends from inside `recvOne` (a subscriber that makes a call for each element of a guest's stream, say) and the guest sends many frames in one call, the send loop can wait for the receive loop and the other way round for ever (`C101_jam_violated`: a stream of 202 elements). `C101_stuck_partial` says exactly which states these are; up to 101 frames of the guest are safe (`C101_few_partial`), and so are callbacks that send nothing from inside (`C101_flows_partial`: then everything gets through). The order holds always (`C101_order`).
* **C102** Violated: each subscription sends the request again, with the same stream id, and the operation is carried out again (`C102_violated`); of two subscribers the first never sees an outcome (`C102_unheard_violated`). `C102_sent_partial` and `C102_times_partial` say exactly how often: once for each subscription, always with the payload of the call.
* **C103** Violated: the caller's end takes the cancel frame for the end of the whole channel: the caller's subscriber is told that the output is complete (`C103_ends_violated`, in every run in which it is still waiting), what the handler says afterwards is refused as of an unknown stream (`C103_refused_violated`), which ends the connection (C93), and the source of the input is never cancelled (`C103_stop_violated`). Proved: the handler sees nothing more of the input, and each cancellation sends one cancel frame.
* **C104** Violated: the guest crashes when the host cancels a stream (`C104_crash_violated`; `C104_crash_partial` says exactly when a side crashes), the host drops the guest's cancellation of the stream of a stream operation and goes on (`C104_dropped_violated`), cancelling the input of a channel ends the caller's output (`C104_ends_violated`), and no source is ever cancelled (`C104_stop_violated`). Proved for both directions: whoever cancels sees nothing more, and each cancellation sends one frame.
* **C105** Violated: when the caller cancels the output the handler is told that the input is complete (`C105_cancel_violated`, both directions), and elements that arrive before the host's goroutine serving the request has run are lost (`C105_early_violated`). Proved when neither happens.
* **C106** Violated: once the handler has completed the output the caller has forgotten the stream and drops further requests for input (`C106_half_violated`; `C106_dropped_partial` says how). Proved: never more than requested, and exactly as much when the caller had the stream open at each request.
* **C107** Violated: the first stream a table ever had stays known after its last frame (`C107_first_violated`, for every history). Proved: the calls, that nothing happens for unknown streams, that other streams are untouched, and that streams other than the first are forgotten as long as the first has not been removed.
* **C108** Violated: a call subscribed twice sends its request twice under the same id (`C108_again_violated`). Proved: odd and even ids without further hypotheses; different ids if no call is subscribed twice; both over rsocket and over wasm.
* **C109** Violated: a frame of 16 MiB or more makes the sender crash (`C109_large_violated`, `C109_violated`), and of a frame of 4 GiB the size wraps around and the data are silently dropped (`C109_huge_violated`, `C109_unchanged_violated`). Proved, if no frame has 4 GiB or more: frames arrive unchanged, in order and without a gap; nothing is lost; the transport crashes exactly for frames of 16 MiB or more; and every run down to the bytes is a run of the model in which frames are handed over directly (`C109_same_partial`), on which C87, C91-C97, C102, C103 and C108 are proved.
* **C110** Violated: a frame of the guest a few bytes too large for its 16 KiB buffer reaches the host with bytes of the guest's memory in place of its end (`C110_leak_violated`, `C110_violated`), and a frame of the host too large for the buffer crashes its send loop (`C110_host_large`). Proved, if every frame with its three size bytes fits into the buffer: every run down to the bytes has the same outcome as the run of the model in which frames are handed over directly, and nothing is lost (`C110_same_partial`, `C110_frames_partial`); on that model C98-C100 and C104-C106 are proved.
* **C111** Violated: of a payload of 4 GiB the handler gets nothing (`C111_huge_violated`, `C111_violated`); and a peer that cancels the input of a channel ends the stream for the subscriber (`C91_violated`). Proved for requests of all four kinds if no frame has 4 GiB or more and, for channels, the peer has not cancelled the input (`C111_call_partial`, `C111_invoked_partial`, `C111_fnf_partial`, `C111_stream_partial`, `C111_stream_invoked_partial`), by composing C109 with C87, C91 and C92.
* **C112** Violated: a service that answers a string of 2^32 bytes makes the caller get the empty string (`C112_violated`). Proved for records and strings whose encoding has a 32-bit length, and, over TCP, frames below 4 GiB (`C112_tcp_partial`, `C112_wasm_partial`), by composing C47, C48, C18 with C111 and C98; and between host and guest down to the bytes in the guest's memory, for frames that fit in the buffers (`C112_memory_partial`, with C127).
* **C113** Violated: an element of 2^32 bytes arrives as the empty string (`C113_violated`). Proved for strings shorter than that, over TCP for frames below 4 GiB, and for channels whose input the peer has not cancelled (`C113_tcp_partial`, `C113_channel_partial`, `C113_wasm_partial`, `C113_wasm_channel_partial`), by composing C111 and C99 with the codecs of records (C47) and strings; and down to the bytes in the guest's memory, for frames that fit in the buffers (`C113_memory_partial`, `C113_memory_channel_partial`, with C127).
* **C114** Violated: when the caller cancels the output, the service sees the input complete (`C114_violated`). Proved for callers that do not cancel the output, input that does not arrive before the service subscribed and strings shorter than 2^32 bytes (`C114_input_partial`, `C114_wasm_partial`), by composing C94 and C105 with the codec.
* **C115** Violated (`C115_violated`): the client passes no metadata, so the peer cannot know the operation. Proved instead, for all runs (over TCP: frames below 4 GiB; the peer has sent no cancel frame for the call): no operation is invoked for the call, the subscriber sees nothing or the error "Invalid metadata", and once nothing is under way it has seen exactly that (`C115_tcp_partial`, `C115_wasm_partial`).
* **C116** Violated (`C116_violated`): what was pushed before the subscription is lost (transport/wasmrs/cmd/fbp/host pushes into a processor which nobody may have subscribed to yet). Proved for every subscriber (`C116_processor_partial`): it sees what is pushed between its subscription and the next one, in order and without a gap, up to the end, all of it unless it cancels. Missing: what was pushed before; what is pushed after somebody else has subscribed.
* **C117** Violated: a payload that only says that the port is complete is taken for a value, because the two flags are one bit (C19), and makes the handler fail (`C117_violated`); a payload without metadata crashes it (`C117_safe_violated`). Proved otherwise: for all payloads written by `PortIO.Encode` that do not merely complete the input port, with answers below 4 GiB (`C117_component_partial`, for values written as records and strings `C117_values_partial`, both components in a row `C117_pipeline_partial`; what is sent on between them `C117_forward_partial`, where the flags are those that the one bit allows). That the decoder of the record or string does not crash on the payloads (C41) is assumed there.
* **C118** Proved in full for the component, for fewer than 2^31-1 words (`C118_counts`). Violated for the handler (`C118_violated`): because next and complete are one bit (C19), every word also completes the words, so only the first one is counted. Proved for the handler: it is right if at most one payload is for the port (`C118_handler_partial`); of several words exactly the first is counted, if the decoder crashes on none (`C118_first_partial`). A first payload that is not a string is reported to the subscriber (`C118_error`).
* **C119** Violated for `Skip`, which ignores that it has run past the end when it steps over a number, a time or a short string: of a float64 the first byte is enough for it (`C119_violated`). Proved for every other read (`C119_partial`), and for `Skip` that it returns an error or every further read does (`C119_skip_partial`).
* **C120** Violated if the last field is one the record does not know: a counter counts to five though its request lost the end of such a field (`C120_violated`, because of C119). Proved in `C120_partial`: refused if the last field is one of the record, as in all requests of the generated clients; in any case refused or answered like the whole request, never with a record that was not sent.
* **C122** Fails (`C122_violated`): both errors of `Get` are dropped (main.go 33, 37), so when the call of `concat` fails, `sayHello` is called with the empty name and the caller is told "Hello, ". `C122_partial`: calls answered with strings (or not at all); `C122_exact`: what happens with any answers, failures counting as empty strings; `C122_greets`: with the handlers of the example answering, the caller gets "Hello, " and both names.
* **C124** Violated, for the same reason as C100: the host of the module that subscribes drops every request for more elements after the first (`C124_lost_violated` is a concrete run, `C124_violated`). Proved: the source is never asked for more than one of the subscriber's requests, and once all is settled and the stream goes on, it has been asked for exactly one of them (`C124_single_partial`), so never for more than all of them (`C124_bound_partial`).
* **C125** Violated in its last part: the host drops every cancellation it is handed (`C125_dropped_violated`), never sends one to the module of the export (`C125_kept_violated`), and no source is ever cancelled (`C125_stop_violated`), so the export goes on producing elements; `C125_violated` is a concrete run. Proved: the subscriber sees nothing more (`C125_quiet_partial`), its host is told once per cancellation (`C125_told_partial`), and no module crashes when it is (`C125_survives_partial`).
* **C127** Violated: if a request of the guest is one byte too large for the buffer of 16 KiB, the host invokes the operation with other data, which ends in a byte of the guest's memory behind the buffer (`C127_leak_violated`, `C127_violated`). Proved for requests of all four kinds in both directions if the frames fit in the buffers and, for channels, the other side has not cancelled the input (`C127_call_partial`, `C127_invoked_partial`, `C127_fnf_partial`, `C127_stream_partial`, `C127_stream_invoked_partial`), by composing C110 with C98 and C99.
* **C128** The first part holds (`C128_closed`), and instances whose turn has not come are unaffected (`C128_in_turn`). Violated: if the guest of one instance has sent a stream request that was rejected, Close waits for ever, and the instances after it in the order of the map are never closed (`C128_stuck_violated`); a call into an instance that is closed already, by the guest of one that is not, crashes (`C128_crash_violated`, `C128_violated`). Proved: Close returns if no request was rejected in the ways of C63 (`C128_returns_partial`), and an orderly Close never crashes (`C128_no_crash_partial`).
* **C129** Violated: with a byte array of 255 bytes among the elements the payload has an extra zero byte (`C129_violated`, as in C48). Exactly: one zero byte for every byte the Sizer counts too many, and the value is given back all the same (`C129_slice_exact`, `C129_map_exact`); nothing is left over if the Sizer is right about every element (`C129_slice_partial`, `C129_map_partial`). The other parts hold (`C129_text`, `C129_text_refused`, `C129_map_grown`, `C129_reference`).
* **C130** Violated for `to` = 2^64 - 1: the counter wraps to 0 and the stream never completes (`C130_violated`). It holds for every other `to` (`C130_partial`).
* **C131** Violated in the last two parts: elements are sent without demand, and the input is requested further after Cancel (`C131_demand_violated`, `C131_violated`); it is never cancelled in any history (`C131_cancel_violated`). The others hold: `C131_values`, `C131_outstanding`, `C131_never_idle`; and with Cancel, the subscriber sees exactly what it would see of a source that sends the elements in upper case (`C131_same`).
* **C132** Violated: a text of 4091 letters begins with the end of the text `lost` after the next message has arrived (`C132_violated`). Exactly what such a text shows is `C132_shows`, for every first frame of 4094 to 8000 bytes and every second of up to 4093. Values keep as long as no more than 4096 bytes have been received (`C132_partial`) and once the buffer they are in has been replaced by a larger one (`C132_replaced`). That the model looks at the right memory is `C132_text`, `C132_bytes` and `C132_message`.
* **C133** Violated: JSON numbers become `float64`, which no reader of integers accepts (`C133_integers_refused`), so that the counter of the examples cannot be called at all (`C133_counter_refused`) and no word count can be passed (`C133_word_count_refused`). Texts arrive (`C133_partial`).
* **C134** Violated: handlers set on a connection are never asked for; whatever is set and whenever, what can be observed is the same as without (`C134_ignored`). Requests are served by the exported operations (`C134_partial`). The handlers are kept (`C134_kept`), except under the last number, where setting one crashes (`C134_last_number_violated`).
* **C135** Violated: the handler is not told of the end and errors of sending are dropped, so the subscriber of a call that was not answered before the end, or was made after it, never sees anything (`C135_call_waits_violated`), nor that of a stream (`C135_stream_waits_violated`). What arrived before the end is seen, exactly (`C135_call_partial`, `C135_stream_partial`).
* **C136** Violated: `sendLoop` drops the error of running the guest, so nothing the host does or tells depends on whether the guest failed (`C136_unnoticed_violated`), and the subscriber of a call or stream for which the guest sends nothing never sees anything (`C136_call_waits_violated`, `C136_stream_waits_violated`). What the guest sent is seen, exactly (`C136_call_partial`, `C136_stream_partial`).
* **C137** Violated: a module without `__wasmrs_op_list_request` crashes the host (`C137_crash_violated`, exactly which modules do), one that sends more than 100 frames while it is initialised makes it hang, what `__wasmrs_init` returns is not looked at, and a table with a wrong magic number or version is taken as an empty one. `C137_partial` says exactly which modules are started and what their instances have; guests that use this library get their own table and buffers (`C137_guest_partial`). A module whose start functions call the host is refused.
* **C138** Violated: all modules get the same name, so that every module after the first whose start functions succeeded is refused, also if that one could not be used (`C138_violated`). `C138_partial` says what each of several modules comes to.
* **C140** Holds for data of 2, 4, 8 and 16 bytes in the forms without a length (`C140_partial`). Fails for one byte of data (decoder.go 669-670 discards only the type byte: success is reported and the data byte is left, `C140_fixext1_violated`) and for the forms with a length, which are always refused (`C140_ext_violated`).
* **C141** Holds for the forms without a length and with one byte of length, for all layouts and both types (`C141_partial`). Fails for every instant in a form with two or four bytes of length: parseExtLen (decoder.go 879-903) calls ReadUint16 and ReadUint32, which expect a MessagePack number and not the bare length, so the value is refused (`C141_long_length_violated`).
* **C144** Holds for truth values and numbers (`C144_scalars`), for array and map sizes, and for strings and byte arrays read from anything but arrays (`C144_partial`). Fails for every array read as a string (decoder.go 481-483, 488-493: as many bytes as the array has values are returned as the text, `C144_string_violated`) and every array of less than 16 values read as a byte array (`C144_bytes_violated`).

## 6. Not modelled

* Go's scheduler fairness, memory model (data races on plain fields), garbage collector and stack
  limits; out-of-memory.
* The wazero runtime and the wasm instruction set: linear memory is a byte list, exported functions
  are steps. TCP itself: a byte stream that may be cut anywhere; network errors only where a property
  is about them.
* `unsafe` string/byte conversions are taken to be copies, except in C132; the aliasing of received frames is modelled in C54.
* `String()` pretty printers, logging, command line programs, benchmarks, and the examples other than those of
  C118, C122, C130, C131; of the command line programs only the input of `wasmrs invoke` (C133).
* `internal/common/rand.go` (random test data).
* `host.go` module compilation and wasi wiring; environment variables and TLS set-up in `init.go`.
* Channels through the mesh (`Model/MeshSystem.lean` has the other kinds of requests), loading modules while requests are under way.
* Contexts: cancellation of a `context.Context` is modelled only where a step waits for it.

## 7. Reading seeded/LOG.jsonl

One line per wrong program: an edit of the model made in a scratch copy, of the kind a programmer would make by mistake.

* `breaks` is the claim the edit makes false.
* `helpers_failed` are the lemmas and examples whose own proof no longer checks.
* `theorems_failed` are the theorems of claims whose proof no longer checks, or uses a lemma listed in
  `helpers_failed`. The list can therefore name theorems of other claims that share the lemma.
* `theorems_tightened` are the theorems added or strengthened because the edit was not noticed.
* `note` says so when an attempt survived, was equivalent to the original, or could not be decided.
