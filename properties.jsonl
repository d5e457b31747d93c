{"id": "C01", "title": "Frame header round trip", "statement": "Writing a frame header for a stream id below 2^31, a frame type below 64 and a flag set below 1024 and then parsing the six bytes gives back the same stream id, type and flags; the bytes are the stream id as four big-endian bytes followed by the 16-bit big-endian word type*1024+flags. Conversely every six bytes parse, and re-writing the parsed fields reproduces the same bytes except that the top (reserved) bit of the first byte is cleared.", "quantifier": "every stream id < 2^31, every frame type < 64, every flag word < 1024; every six bytes", "why_tests_cant": "2^47 headers; a mask or shift error shows up only for particular bit patterns", "anchors": ["internal/frames/frame_header.go:NewFrameHeader", "internal/frames/frame_header.go:ResetFrameHeader", "internal/frames/frame_header.go:ParseFrameHeader", "internal/frames/frame_header.go:StreamID,Type,Flag"]}
{"id": "C02", "title": "Payload frame round trip", "statement": "Encoding a Payload frame into a buffer of Size() bytes and decoding it gives back the same stream id, metadata, data and the same follows/complete/next flags, and the receiver sees frame type PAYLOAD.", "quantifier": "every stream id < 2^31, every metadata shorter than 2^24 bytes, every data, every combination of the three flags", "why_tests_cant": "unbounded contents, lengths and flag combinations; off-by-one in the 24-bit length or a flag collision only shows for particular values", "anchors": ["internal/frames/payload.go:Payload.Encode", "internal/frames/payload.go:Payload.Decode", "internal/frames/payload.go:Payload.Size"]}
{"id": "C03", "title": "Request frame round trip", "statement": "Encoding a request frame (request/response, fire-and-forget, stream or channel) into a buffer of Size() bytes and decoding it gives back the same frame: type, stream id, metadata, data, initial request count (stream and channel), completion flag (channel) and the 'more fragments follow' flag.", "quantifier": "every request type, stream id < 2^31, metadata shorter than 2^24 bytes, data, initial N, complete and follows flags", "why_tests_cant": "unbounded input space; the tests only encode one frame per type and never a fragmented one", "anchors": ["internal/frames/request_payload.go:RequestPayload.Encode", "internal/frames/request_payload.go:RequestPayload.Decode", "internal/frames/request_payload.go:RequestPayload.Size"]}
{"id": "C04", "title": "RequestN, Cancel and Error frame round trip", "statement": "Encoding and decoding RequestN, Cancel and Error frames gives back the same stream id, credit, error code and error text.", "quantifier": "every stream id < 2^31, every 32-bit credit, every 32-bit error code, every error text", "why_tests_cant": "all 2^32 values and all strings", "anchors": ["internal/frames/request_n.go", "internal/frames/cancel.go", "internal/frames/error.go"]}
{"id": "C05", "title": "Setup frame round trip", "statement": "Encoding and decoding a Setup frame gives back the same versions, keepalive interval, max lifetime, resume token, mime types, metadata, data and lease flag.", "quantifier": "every setup frame whose durations are a whole non-negative number of milliseconds below 2^32, token shorter than 2^16 bytes, mime types shorter than 256 bytes and metadata shorter than 2^24 bytes", "why_tests_cant": "the existing test uses one frame without token and with small durations; truncations appear only for large durations, non-empty tokens and 255-byte mime types", "anchors": ["internal/frames/setup.go:Setup.Encode", "internal/frames/setup.go:Setup.Decode", "internal/frames/setup.go:Setup.Size"]}
{"id": "C06", "title": "Size() is exactly what Encode writes", "statement": "For every frame, Encode succeeds on a buffer of Size() bytes, and the last byte Encode writes is the last byte of that buffer: encoding into any larger buffer changes exactly the first Size() bytes.", "quantifier": "every frame of every type whose total length is below 2^32, every initial buffer content", "why_tests_cant": "needs all lengths, not samples; an over-estimate silently appends zero bytes to the payload", "anchors": ["internal/frames/payload.go:Size", "internal/frames/request_payload.go:Size", "internal/frames/setup.go:Size", "internal/frames/error.go:Size", "internal/frames/request_n.go:Size", "internal/frames/cancel.go:Size"]}
{"id": "C07", "title": "Payload fragmentation is lossless and bounded", "statement": "When a Payload frame larger than the maximum frame size is fragmented, every fragment is a Payload frame of the same stream, no fragment is larger than the maximum, concatenating the fragments' metadata and data in order gives the original metadata and data, all but the last fragment are marked 'follows', and only the last carries the original complete/next flags.", "quantifier": "every payload frame shorter than 2^32 bytes, every maximum frame size of at least 10 bytes", "why_tests_cant": "all metadata/data lengths against all maximum sizes; the boundaries (metadata exactly filling a frame, data exactly filling a frame) are exactly where such code breaks", "anchors": ["internal/frames/payload.go:Payload.Fragment", "internal/frames/util.go:splitPayloads"]}
{"id": "C08", "title": "Request fragmentation is lossless and bounded", "statement": "When a request frame larger than the maximum frame size is fragmented and the fragments are encoded, a receiver that follows the RSocket rule (a frame with the follows flag is continued by the next payload frames until one without it) recovers exactly the original metadata and data, and no fragment exceeds the maximum.", "quantifier": "every request frame shorter than 2^32 bytes, every maximum frame size of at least 14 bytes", "why_tests_cant": "all metadata/data lengths against all maximum sizes", "anchors": ["internal/frames/request_payload.go:RequestPayload.Fragment", "internal/frames/util.go:splitPayloads", "internal/frames/request_payload.go:RequestPayload.Encode"]}
{"id": "C09", "title": "Fragmentation always terminates", "statement": "Fragment returns for every frame and every maximum frame size instead of looping forever or crashing.", "quantifier": "every payload and request frame, every 32-bit maximum frame size", "why_tests_cant": "non-termination cannot be observed by a test, and it depends on the exact maximum size", "anchors": ["internal/frames/util.go:splitPayloads", "internal/frames/request_payload.go:RequestPayload.Fragment"]}
{"id": "C10", "title": "Frame decoders do not crash on arbitrary bytes", "statement": "Decoding any byte string received from the peer as a frame of any type returns a frame or an error and never crashes the process.", "quantifier": "every header and every byte string of any length, for each frame type", "why_tests_cant": "all byte strings, including truncated and adversarial ones", "anchors": ["internal/frames/payload.go:Decode", "internal/frames/request_payload.go:Decode", "internal/frames/setup.go:Decode", "internal/frames/request_n.go:Decode", "internal/frames/error.go:Decode", "internal/frames/cancel.go:Decode", "internal/frames/frame_header.go:ParseFrameHeader"]}
{"id": "C11", "title": "24-bit length round trip and overflow", "statement": "A 24-bit length field built from n reads back as n when n < 2^24, is always three bytes big-endian, and building it from n >= 2^24 reports an error (and the Must form crashes) rather than silently truncating.", "quantifier": "every 32-bit n; every three bytes", "why_tests_cant": "2^32 inputs, boundary at 2^24", "anchors": ["internal/u24/u24.go:NewUint24", "internal/u24/u24.go:MustNewUint24", "internal/u24/u24.go:AsInt", "internal/u24/u24.go:ReadUint24ToInt"]}
{"id": "C12", "title": "Stream ids are valid, of the right parity and unique", "statement": "A side that allocates stream ids gets only non-zero ids below 2^31 - odd on the client/guest side, even on the server/host side - and as long as the allocator reports 'first loop' no id is handed out twice, however the calls from concurrent goroutines interleave; so ids of the two sides never collide.", "quantifier": "every number of allocations and every interleaving of concurrent allocations, up to the 64-bit counter", "why_tests_cant": "uniqueness over 2^30 allocations and every interleaving", "anchors": ["internal/socket/stream_id.go:ServerStreamIDs.Next", "internal/socket/stream_id.go:ClientStreamIDs.Next"]}
{"id": "C13", "title": "Unbounded buffer is a FIFO", "statement": "Values received from the buffer's channel are exactly the values accepted by Put, in the order they were put, each once: at every moment, (values received) ++ (value in the channel) ++ (backlog) is the list of accepted values.", "quantifier": "every interleaving of Put, Load, receive and Dispose calls from any number of goroutines (each under the buffer's lock), any values, any length", "why_tests_cant": "all interleavings and unbounded history length", "anchors": ["internal/buffer/unbounded.go:Put", "internal/buffer/unbounded.go:Load", "internal/buffer/unbounded.go:Dispose", "internal/buffer/unbounded.go:Get"]}
{"id": "C14", "title": "Disposing the buffer drains before closing", "statement": "After Dispose, Put is rejected (returns false, changes nothing); the channel is closed only when no accepted value is left in the backlog; no operation ever sends on the closed channel; and a reader that keeps doing 'receive then Load' receives every accepted value and then sees the channel closed.", "quantifier": "every reachable buffer state and every history of operations", "why_tests_cant": "all interleavings of Dispose with Put/Load/receive; a send on a closed channel is a crash only reached by particular schedules", "anchors": ["internal/buffer/unbounded.go:Put", "internal/buffer/unbounded.go:Load", "internal/buffer/unbounded.go:Dispose", "internal/buffer/unbounded.go:close"]}
{"id": "C15", "title": "Operation table round trip", "statement": "Serialising an operation table and parsing the bytes gives the same table: same entries in the same order with the same index, request type, direction, namespace and operation name.", "quantifier": "every table of fewer than 2^32 entries whose names are shorter than 2^16 bytes", "why_tests_cant": "unbounded number of entries and name contents", "anchors": ["operations/operatons.go:ToBytes", "operations/operatons.go:FromBytes"]}
{"id": "C16", "title": "Operation table parser rejects foreign data", "statement": "Parsing reports an invalid-magic error exactly when the first four bytes are not the magic preamble, an unknown-version error exactly when the magic is right and the 16-bit version is not 1, and never returns a table in those cases.", "quantifier": "every byte string of at least 10 bytes", "why_tests_cant": "all 2^48 prefixes and arbitrary continuations", "anchors": ["operations/operatons.go:FromBytes"]}
{"id": "C17", "title": "Operation table parser does not crash on truncated input", "statement": "Parsing any byte string returns a table or an error and never crashes.", "quantifier": "every byte string of any length", "why_tests_cant": "all byte strings; lengths inside the data are attacker-controlled", "anchors": ["operations/operatons.go:FromBytes"]}
{"id": "C18", "title": "Operation ids stay bound to the operation", "statement": "Once an operation was exported or imported, its id refers to that operation for ever: importing the same (namespace, operation) again returns the same id, importing different ones returns different ids, and no later export or import changes what an id means; the published operation table lists every exported/imported operation of each kind under exactly the id that the handler lookup uses, and nothing else, in the order exports then imports.", "quantifier": "every sequence of Export*/Import* calls of the four kinds, with any names (including repeated ones)", "why_tests_cant": "unbounded histories of registrations", "anchors": ["invoke/handlers.go:Import*", "invoke/handlers.go:Export*", "invoke/handlers.go:Get*Handler", "invoke/handlers.go:GetOperationsTable"]}
{"id": "C19", "title": "Port message round trip", "statement": "Encoding a port message and decoding it gives back the same port name, data, next flag and complete flag.", "quantifier": "every port name shorter than 2^16 bytes, every data, both flags", "why_tests_cant": "unbounded contents and all four flag combinations", "anchors": ["invoke/portio.go:PortIO.Encode", "invoke/portio.go:PortIO.Decode"]}
{"id": "C20", "title": "Live instance handles", "statement": "The handle returned by Put gives back exactly that instance on Get until it is removed; Remove returns the instance once and afterwards both Get and Remove report 'not found'; handles of simultaneously live instances are distinct; operations on one handle never affect another.", "quantifier": "every history of Put/Get/Remove with any handles, and every choice of fresh addresses by the allocator", "why_tests_cant": "all histories and all allocator behaviours (address reuse after removal)", "anchors": ["invoke/instances.go:LiveInstances"]}
{"id": "C21", "title": "Stream lookup table behaves as a map", "statement": "After any sequence of adding and removing streams, looking up an id finds the stream added under that id if and only if it has been added and not removed since, and the reported size is the number of registered streams.", "quantifier": "every sequence of Add (of ids not currently registered) and Remove", "why_tests_cant": "all histories; a linked-list unlink bug depends on the position of the removed element", "anchors": ["proxy/lookup.go:Lookup.Add", "proxy/lookup.go:Lookup.Remove", "proxy/lookup.go:Lookup.Get", "proxy/lookup.go:Lookup.Size"]}
{"id": "C22", "title": "A mono delivers at most one outcome", "statement": "A subscriber of a mono receives at most one of OnSuccess / OnError, and it is the first terminal signal the source produced; later signals are ignored; Finally is called exactly once, after it, with the matching signal; the recorded value/error returned by Get is the one delivered.", "quantifier": "every sequence of Success/Error/Cancel signals the source may issue, any subset of callbacks installed", "why_tests_cant": "all signal histories", "anchors": ["rx/mono/mono.go:subscriber", "rx/mono/mono.go:mono.Get"]}
{"id": "C23", "title": "Mono completion callbacks fire exactly once", "statement": "Every callback registered with Notify is called exactly once with the final signal, whether it was registered before or after the mono terminated.", "quantifier": "every interleaving of Notify registrations with source signals", "why_tests_cant": "all histories", "anchors": ["rx/mono/mono.go:mono.Notify", "rx/mono/mono.go:subscriber.finally"]}
{"id": "C24", "title": "A mono processor does not lose an early result", "statement": "A processor that is resolved before anybody subscribes delivers the result on subscription; one resolved after subscription delivers it immediately; in either case the subscriber gets exactly one outcome, the first one signalled.", "quantifier": "every sequence of Success/Error calls before and after the subscription", "why_tests_cant": "all histories; the code prefers a stored success over an earlier stored error", "anchors": ["rx/mono/processor.go"]}
{"id": "C25", "title": "Mapping a mono", "statement": "Mapping a mono transforms the delivered value: the mapped mono succeeds with f(v) when the source succeeds with v and f succeeds, fails with the transform's error when f fails, passes source errors through unchanged, and Get on the mapped mono agrees with what was delivered.", "quantifier": "every source history, every (partial) transform function", "why_tests_cant": "all functions and histories", "anchors": ["rx/mono/mono.go:Map", "rx/mono/mono.go:mapper"]}
{"id": "C26", "title": "No stream element after termination", "statement": "A subscriber of a stream sees zero or more OnNext followed by at most one of OnComplete / OnError, and nothing after that; the OnNext values are exactly the source's values, in order, up to the first terminal or cancel.", "quantifier": "every sequence of Next/Complete/Error/Cancel/Request signals, any subset of callbacks installed", "why_tests_cant": "all signal histories", "anchors": ["rx/flux/flux.go:subscriber"]}
{"id": "C27", "title": "Stream Finally fires exactly once", "statement": "The Finally callback of a stream subscription is called exactly once over the lifetime of the subscription, and every Notify callback exactly once, whatever mixture of completion, error and cancellation occurs.", "quantifier": "every sequence of Next/Complete/Error/Cancel signals", "why_tests_cant": "all signal histories; double finalisation appears only for specific orders", "anchors": ["rx/flux/flux.go:subscriber.Cancel", "rx/flux/flux.go:subscriber.finally"]}
{"id": "C28", "title": "A failing transform terminates the mapped stream", "statement": "Mapping a stream delivers f(v) for each source value in order; when the transform fails, the subscriber gets that one error and Finally once, and nothing more (no further OnNext, OnComplete, OnError or Finally).", "quantifier": "every source history and every (partial) transform function", "why_tests_cant": "all functions and histories", "anchors": ["rx/flux/flux.go:Map", "rx/flux/flux.go:mapper.Subscribe"]}
{"id": "C29", "title": "Slice-backed streams honour demand", "statement": "A stream made from a slice never emits more elements than the total requested so far, emits the elements in order without loss or duplication, and signals completion exactly once, exactly when all elements were emitted and a request has been served.", "quantifier": "every slice and every sequence of non-negative requests (each request served before the next)", "why_tests_cant": "all slices and all demand patterns", "anchors": ["rx/flux/slice.go:FromSlice", "rx/flux/response.go:SliceResponse", "rx/flux/flux.go:subscriber.Request"]}
{"id": "C30", "title": "Slice-backed streams tolerate re-entrant demand", "statement": "A subscriber may request more elements from inside OnNext/OnRequest; on the single-threaded (wasm) build the request is served re-entrantly, and the elements must still be emitted in order, each exactly once, with completion once at the end.", "quantifier": "every slice and every batch size requested when the previous batch is exhausted", "why_tests_cant": "depends on exact re-entrancy order; non-termination cannot be observed by a test", "anchors": ["rx/flux/slice.go:FromSlice", "rx/flux/response.go:SliceResponse", "rx/flux/flux.go:subscriber.Next", "rx/flux/flux_webassembly.go"]}
{"id": "C31", "title": "A flow runs its steps once each, in order", "statement": "A flow runs its steps in order, each exactly once, starting the next step only after all awaitables of the previous one finished, and stops at the first failing step or End; the failure is delivered to the flow's result.", "quantifier": "every list of steps, every outcome of each step, every order in which awaitables finish (including awaitables that are already finished)", "why_tests_cant": "all schedules of completion; re-entrancy", "anchors": ["rx/flow/flow.go:next", "rx/flow/flow.go:check"]}
{"id": "C32", "title": "Adapters between mono and stream", "statement": "Turning a mono into a stream yields exactly one element and completion (or the error); turning a stream into a mono yields its first element or its error; turning a stream into a void mono succeeds exactly when the stream completes.", "quantifier": "every source history", "why_tests_cant": "all histories (including empty streams)", "anchors": ["transform/transform.go:MonoToFlux", "transform/transform.go:FluxToMono", "transform/transform.go:FluxToVoid"]}
{"id": "C33", "title": "Signed integer codec round trip", "statement": "Writing any signed integer with the msgpack encoder and reading it with the same-width reader gives the same value and consumes exactly the bytes written; the encoding is the shortest msgpack form of the value (of the signed family).", "quantifier": "every int8/16/32/64 value, any surrounding bytes", "why_tests_cant": "2^64 values; boundaries at each width", "anchors": ["msgpack/encoder.go:WriteInt8..64", "msgpack/decoder.go:ReadInt8..64"]}
{"id": "C34", "title": "Unsigned integer codec round trip", "statement": "Writing any unsigned integer and reading it with the same-width reader gives the same value and consumes exactly the bytes written; the encoding is the shortest msgpack unsigned form.", "quantifier": "every uint8/16/32/64 value, any surrounding bytes", "why_tests_cant": "2^64 values; boundaries at each width", "anchors": ["msgpack/encoder.go:WriteUint8..64", "msgpack/decoder.go:ReadUint8..64"]}
{"id": "C35", "title": "String and byte-array codec round trip", "statement": "Writing any string or byte array and reading it back gives the same contents and consumes exactly the bytes written.", "quantifier": "every string and byte array shorter than 2^32 bytes minus the header, any surrounding bytes", "why_tests_cant": "all lengths (boundaries at 31/32, 255/256, 65535/65536) and contents", "anchors": ["msgpack/encoder.go:WriteString", "msgpack/encoder.go:WriteByteArray", "msgpack/decoder.go:ReadString", "msgpack/decoder.go:ReadByteArray"]}
{"id": "C36", "title": "Bool, nil, float, array and map header codec round trip", "statement": "Booleans, nil markers, 32- and 64-bit floats (bit for bit), array sizes and map sizes read back exactly as written and consume exactly the bytes written.", "quantifier": "every boolean, every float bit pattern (including NaNs), every 32-bit size, any surrounding bytes", "why_tests_cant": "2^64 bit patterns, all sizes", "anchors": ["msgpack/encoder.go:WriteBool,WriteNil,WriteFloat32,WriteFloat64,WriteArraySize,WriteMapSize", "msgpack/decoder.go:ReadBool,IsNextNil,ReadFloat32,ReadFloat64,ReadArraySize,ReadMapSize"]}
{"id": "C37", "title": "Time codec round trip", "statement": "Writing a time stamp and reading it back gives the same instant (seconds and nanoseconds), in the 4-, 8- or 12-byte form msgpack prescribes for its magnitude.", "quantifier": "every instant representable by a 64-bit Unix second and nanoseconds below 10^9", "why_tests_cant": "2^64 seconds x 10^9 nanoseconds", "anchors": ["msgpack/encoder.go:WriteTime,encodeTime", "msgpack/decoder.go:ReadTime"]}
{"id": "C38", "title": "Encoded size prediction is exact", "statement": "For every value, the Sizer's length is exactly the number of bytes the Encoder writes for the same sequence of writes, so a buffer of the predicted size is filled completely, without overflow and without padding.", "quantifier": "every sequence of writes of every kind and every value", "why_tests_cant": "all lengths; a one-byte error is visible only at a boundary length", "anchors": ["msgpack/sizer.go", "msgpack/encoder.go", "msgpack/codec.go"]}
{"id": "C39", "title": "Narrow reads never truncate", "statement": "Reading an integer with a narrower reader than it was written with either returns exactly the written value (when it fits) or fails with a range error; no read silently truncates or changes sign, and a negative number is never returned by an unsigned read.", "quantifier": "every 64-bit signed and unsigned value, every reader width", "why_tests_cant": "2^64 values x 8 readers", "anchors": ["msgpack/decoder.go:ReadInt8,ReadInt16,ReadInt32,ReadUint8,ReadUint16,ReadUint32,ReadInt64,ReadUint64"]}
{"id": "C40", "title": "Decoder errors are sticky", "statement": "Once a read ran past the end of the input, every later read fails with the same error and never returns data.", "quantifier": "every input, every sequence of reads after the failing one", "why_tests_cant": "all histories", "anchors": ["msgpack/data_reader.go", "msgpack/decoder.go"]}
{"id": "C41", "title": "The decoder stays inside its buffer", "statement": "Reading any primitive from any input returns a value or an error, never crashes, never moves the position beyond the end or backwards, and a successful read consumes at least one byte.", "quantifier": "every byte string, every position, every read operation", "why_tests_cant": "all byte strings, lengths inside the data are attacker controlled (32-bit wrap-around)", "anchors": ["msgpack/data_reader.go:checkBufferSize,GetBytes,Discard", "msgpack/decoder.go"]}
{"id": "C42", "title": "Skip skips exactly one value", "statement": "Skipping over any value the encoder can write leaves the decoder exactly behind that value, so unknown fields can be ignored.", "quantifier": "every encodable value including nested arrays and maps and time stamps, any following bytes", "why_tests_cant": "unbounded nesting and all type combinations", "anchors": ["msgpack/decoder.go:Skip,getSize"]}
{"id": "C43", "title": "Skip terminates on every input", "statement": "Skipping on any byte string finishes (with or without an error).", "quantifier": "every byte string", "why_tests_cant": "non-termination cannot be observed by a test; needs all inputs", "anchors": ["msgpack/decoder.go:Skip", "msgpack/data_reader.go:Discard"]}
{"id": "C44", "title": "Dynamic values round trip", "statement": "Encoding a dynamically typed value (nil, bool, integer, float, string, bytes, list, map) and decoding it dynamically gives an equal value, numbers keeping their numeric value.", "quantifier": "every dynamically typed value built from those constructors, any nesting depth", "why_tests_cant": "unbounded trees", "anchors": ["msgpack/encoder.go:WriteAny", "msgpack/decoder.go:ReadAny", "msgpack/codec.go:AnyToBytes"]}
{"id": "C45", "title": "Typed collections round trip", "statement": "Writing a slice or map with an element writer and reading it with the matching element reader gives the same elements (slices in order, maps as the same key/value association).", "quantifier": "every slice and map of fewer than 2^32 elements, every element codec that itself round-trips", "why_tests_cant": "unbounded collections and arbitrary element codecs", "anchors": ["msgpack/utils.go:WriteSlice,ReadSlice,WriteMap,ReadMap", "transform/transform.go:SliceEncode,SliceDecode,MapEncode,MapDecode"]}
{"id": "C46", "title": "Optional values keep nil apart from zero", "statement": "Writing an optional value and reading it with the optional reader gives nil exactly when nil was written, and otherwise the same value; no value's encoding starts with the nil marker.", "quantifier": "every optional value of every primitive type", "why_tests_cant": "all values of all widths", "anchors": ["msgpack/encoder.go:WriteNillable*", "msgpack/decoder.go:ReadNillable*"]}
{"id": "C47", "title": "Generated record codecs tolerate reordering and unknown fields", "statement": "A record written as a map of named fields decodes to the same record; decoding does not depend on the order of the fields and ignores unknown fields whose values the encoder can write.", "quantifier": "every record value, every permutation of fields and every set of extra fields, any values", "why_tests_cant": "all permutations, all unknown fields and values", "anchors": ["example/greeter/greeter.go:GreetingRequest", "transport/wasmrs/example/wordfrequency/generated.go:WordCount", "transport/wasmrs/example/counter.go:CounterRequest"]}
{"id": "C48", "title": "Payload transforms are inverse", "statement": "For every primitive transform, decoding the payload produced by encoding a value gives back the value, and the payload carries no extra bytes.", "quantifier": "every value of string, bool, bytes, all integer widths, both float widths", "why_tests_cant": "all values of all types", "anchors": ["transform/transform.go"]}
{"id": "C49", "title": "TCP framing survives arbitrary segmentation", "statement": "However the byte stream carrying a sequence of length-prefixed frames is cut into reads, the receiver gets exactly the frames that were written, in order, each once, and nothing is emitted for an incomplete trailing frame.", "quantifier": "every list of frames of 6 to 2^24-1 bytes and every segmentation of their concatenation", "why_tests_cant": "exponentially many segmentations", "anchors": ["transport/rsocket/decoder.go:doSplit", "transport/rsocket/decoder.go:Read", "transport/rsocket/tcp_conn.go:Write"]}
{"id": "C50", "title": "TCP writes from concurrent senders do not interleave", "statement": "Frames sent concurrently from several goroutines over one connection arrive as whole frames in some order.", "quantifier": "every interleaving of the write steps of concurrent senders", "why_tests_cant": "all schedules", "anchors": ["transport/rsocket/tcp_conn.go:Write", "transport/rsocket/transport.go:Send"]}
{"id": "C51", "title": "Guest/host buffer framing is exact", "statement": "A sequence of frames laid out back to back in the shared buffer, each prefixed by its 3-byte length, is split by the receiving side into exactly those frames in order; a frame written by one side alone is read by the other side as that frame.", "quantifier": "every list of frames of at least a header (6 bytes) and less than 2^24 bytes", "why_tests_cant": "unbounded number and size of frames", "anchors": ["transport/wasmrs/host/instance.go:hostSend,sendLoop", "transport/wasmrs/guest/guest.go:GuestSend,doSendFrame"]}
{"id": "C52", "title": "Frames larger than the guest buffer are not silently truncated", "statement": "Sending a frame to the guest that does not fit into the shared buffer does not deliver a truncated frame as if it were complete.", "quantifier": "every frame and every buffer size", "why_tests_cant": "all sizes around the buffer boundary", "anchors": ["transport/wasmrs/host/instance.go:sendLoop"]}
{"id": "C53", "title": "A server connection requires a setup frame first", "statement": "On a server connection nothing is handed to the frame handler unless the first frame received is a setup frame; all further frames are handled in the order received, each exactly once, until the connection ends.", "quantifier": "every sequence of received frames and every interleaving of the reader and the handler goroutine", "why_tests_cant": "all interleavings and frame sequences", "anchors": ["transport/rsocket/transport.go:Start", "transport/rsocket/transport.go:loopReadBuffer"]}
{"id": "C54", "title": "Received frames keep their contents", "statement": "The contents of a frame handed to the handler are the bytes that were received, even if more data arrives before the handler looks at them.", "quantifier": "every schedule of reading and handling", "why_tests_cant": "depends on buffer reuse between schedules", "anchors": ["transport/rsocket/decoder.go:Read", "transport/rsocket/transport.go:Start"]}
{"id": "C55", "title": "Frames for unknown streams have no effect", "statement": "A payload, error or cancel frame for a stream that is not registered is reported as an error, a request-n frame for one is ignored; neither changes any state, sends any frame or invokes any callback.", "quantifier": "every handler state and every frame", "why_tests_cant": "all states", "anchors": ["handler/handler.go:HandleFrame"]}
{"id": "C56", "title": "Every rejected request is answered with one error", "statement": "A request whose metadata is shorter than 8 bytes is answered by exactly one error frame on its own stream, and so is a request for an operation id without handler; in neither case is a handler invoked. Otherwise exactly the handler registered under the operation id is invoked, once.", "quantifier": "every request frame of each of the four kinds, every registry of handlers", "why_tests_cant": "all ids and metadata lengths", "anchors": ["handler/handler.go:handleRequestResponse,handleFireAndForget,handleRequestStream,handleRequestChannel,checkMetadata"]}
{"id": "C57", "title": "Responder reply protocol", "statement": "The frames a responder sends for one request all carry the request's stream id; for request/response it is exactly one terminal frame (payload with next+complete, or error); for streams zero or more next payloads, in order, then at most one terminal frame and nothing after it.", "quantifier": "every behaviour of the application handler", "why_tests_cant": "all signal histories", "anchors": ["handler/handler.go:handleRequestResponse", "handler/handler.go:handleRequestStream", "handler/handler.go:handleRequestChannel"]}
{"id": "C58", "title": "Peer frames cannot crash the handler", "statement": "No sequence of frames sent by the peer crashes the handler.", "quantifier": "every sequence of frames, every behaviour of the application handlers", "why_tests_cant": "all sequences", "anchors": ["handler/handler.go:HandleFrame", "handler/handler.go:requestStream"]}
{"id": "C59", "title": "Finished streams are forgotten", "statement": "After a stream has terminated (terminal frame sent or received, or cancelled), it is no longer registered, so the tables do not grow without bound.", "quantifier": "every history of requests and frames", "why_tests_cant": "unbounded histories", "anchors": ["handler/handler.go", "proxy/lookup.go"]}
{"id": "C60", "title": "Import lookup finds the matching export", "statement": "Importing an operation by kind, namespace and name returns the index the peer published for exactly that export, and reports failure when there is none.", "quantifier": "every published operation table, every name", "why_tests_cant": "all tables and names", "anchors": ["handler/caller.go:ImportRequestResponse,ImportFireAndForget,ImportRequestStream,ImportRequestChannel"]}
{"id": "C61", "title": "Requester demand accounting", "statement": "For a stream request the first demand is carried by the request frame and each later demand by one request-n frame of the same stream, so the credit granted to the peer equals the total demand of the subscriber; no request frame is sent before the first demand and exactly one is sent; nothing is sent after completion.", "quantifier": "every sequence of Request(n) calls (0 <= n < 2^32), cancellations and received frames", "why_tests_cant": "all histories", "anchors": ["proxy/flux.go:streamFlux.Request,Cancel,OnComplete", "proxy/flux.go:Flux"]}
{"id": "C62", "title": "Requester outcome of a request/response call", "statement": "A request/response call sends exactly one request frame when subscribed, and delivers the first payload or error received for its stream as its only outcome.", "quantifier": "every sequence of received frames after the subscription", "why_tests_cant": "all histories (including empty completion)", "anchors": ["proxy/mono.go:streamMono", "handler/handler.go:HandleFrame"]}
{"id": "C63", "title": "Closing an instance waits for running requests and returns", "statement": "Close returns once all requests that were running have been answered; it does not block forever when every request has been answered, and it does not return while one is unanswered.", "quantifier": "every history of requests (including rejected ones) and every interleaving with Close", "why_tests_cant": "all interleavings; a hang cannot be observed by a test", "anchors": ["transport/wasmrs/host/instance.go:Close,reduceActiveRequests,handleRequestStream,checkMetadata"]}
{"id": "C64", "title": "Closing an instance never crashes", "statement": "No interleaving of Close with requests being answered crashes (double close of the completion channel, sending on a closed channel).", "quantifier": "every interleaving of Close, request arrivals and completions", "why_tests_cant": "all interleavings", "anchors": ["transport/wasmrs/host/instance.go:Close,reduceActiveRequests,SendFrame"]}
{"id": "C65", "title": "Fragmented requests received by the host are served", "statement": "A request that arrives in several fragments is handed to its handler with the reassembled data, under its own request kind.", "quantifier": "every fragmentation of every request", "why_tests_cant": "all fragmentations", "anchors": ["transport/wasmrs/host/instance.go:recvOne,checkFollows"]}
{"id": "C66", "title": "Mesh linking is complete and independent of load order", "statement": "After loading any modules in any order, every import for which some loaded module exports the operation is linked to such an export, and the list of unsatisfied imports is exactly the imports without matching export.", "quantifier": "every set of modules and every load order", "why_tests_cant": "all orders of all module sets", "anchors": ["transport/wasmrs/mesh/mesh.go:linkOperations,linkOperation"]}
{"id": "C67", "title": "Reloading a module redirects its callers", "statement": "After a module exporting an operation is loaded again, calls made by previously linked importers reach the new instance.", "quantifier": "every sequence of module loads", "why_tests_cant": "all histories", "anchors": ["transport/wasmrs/mesh/mesh.go:linkOperations,linkOperation"]}
{"id": "C68", "title": "Forwarding rewrites only the operation id", "statement": "A call forwarded by the mesh carries the target operation's id in the first four metadata bytes and otherwise exactly the caller's metadata and data.", "quantifier": "every metadata of at least 4 bytes, every data, every operation id", "why_tests_cant": "all contents", "anchors": ["transport/wasmrs/mesh/mesh.go:destination"]}
{"id": "C69", "title": "Custom section reader", "statement": "Reading custom sections of a well-formed wasm binary returns, for each wanted name present, the payload of its last occurrence, nothing else, and no error; input that does not start with the wasm magic and version is rejected.", "quantifier": "every sequence of sections (custom or not), every set of wanted names, every payload", "why_tests_cant": "unbounded section lists and LEB128 encodings", "anchors": ["transport/wasmrs/customsections/customsections.go:Read"]}
{"id": "C70", "title": "UUID text round trip", "statement": "Formatting any UUID and parsing the text gives the same UUID, for the plain, URN, braced and undashed forms, in upper or lower case.", "quantifier": "all 2^128 UUIDs", "why_tests_cant": "2^128 values", "anchors": ["types/uuid/uuid.go:String,URN,Parse,ParseBytes,encodeHex", "types/uuid/util.go:xtob", "types/uuid/marshal.go"]}
{"id": "C71", "title": "UUID parser accepts only UUIDs", "statement": "Parse fails unless the input has one of the four documented shapes with hex digits in all digit positions and dashes at the dash positions; whatever it accepts, re-formatting the result and parsing again gives the same UUID.", "quantifier": "every string", "why_tests_cant": "all strings of length 32, 36, 38 and 45", "anchors": ["types/uuid/uuid.go:Parse"]}
{"id": "C72", "title": "Random UUIDs carry version 4 and the RFC 4122 variant", "statement": "Every generated random UUID reports version 4 and variant RFC4122, keeps the other 122 random bits unchanged, and the pooled generator never reuses pool bytes: consecutive UUIDs come from consecutive disjoint 16-byte blocks of the random stream.", "quantifier": "every random source content, every number of generated UUIDs, pooled or not", "why_tests_cant": "all random streams and all positions in the pool", "anchors": ["types/uuid/version4.go:NewRandomFromReader,newRandomFromPool", "types/uuid/uuid.go:Version,Variant"]}
{"id": "C73", "title": "UUID time stamps do not repeat", "statement": "Successive (time, clock sequence) pairs handed out differ from the preceding pair even when the clock stands still or goes backwards.", "quantifier": "every sequence of clock readings", "why_tests_cant": "all clock behaviours", "anchors": ["types/uuid/time.go:getTime,setClockSequence"]}
{"id": "C74", "title": "Operation table parser skips reserved bytes and trailing bytes", "statement": "Entries of a serialised operation table may carry a reserved block (16-bit length and that many bytes) and the table may be followed by other bytes; parsing skips both and returns exactly the listed operations.", "quantifier": "every table, every reserved block shorter than 2^16 bytes in every entry, every trailing byte string", "why_tests_cant": "all lengths of reserved blocks; only block lengths near 2^16 go wrong", "anchors": ["operations/operatons.go:FromBytes"]}
{"id": "C75", "title": "The host never receives foreign guest memory", "statement": "A frame the guest sends reaches the host as exactly that frame or not at all; bytes of guest memory that are not part of the frame are never delivered as payload.", "quantifier": "every frame, every buffer size and every contents of the guest's memory", "why_tests_cant": "needs frames around the buffer size together with the memory layout behind the buffer; the tests use small frames", "anchors": ["transport/wasmrs/guest/guest.go:doSendFrame", "transport/wasmrs/host/instance.go:hostSend"]}
{"id": "C76", "title": "Requests over wasm are rejected with one error or dispatched once", "statement": "On the wasm host and on the guest an unfragmented request whose metadata is shorter than 8 bytes, or for whose operation id there is no handler of its kind, is answered by exactly one error frame on its own stream and no handler is called; every other makes exactly one call, of the handler for its kind and operation id, with its own data and initial demand. No other frame calls a handler.", "quantifier": "every state of the receiver, every request of each of the four kinds, every set of handlers; every byte string", "why_tests_cant": "all metadata lengths, ids and states", "anchors": ["transport/wasmrs/host/instance.go:recvOne,handleRequestResponse,handleFireAndForget,handleRequestStream,handleRequestChannel,checkMetadata", "transport/wasmrs/guest/guest.go:GuestSend,handleRequestResponse,handleFireAndForget,handleRequestStream,handleRequestChannel,checkMetadata"]}
{"id": "C77", "title": "A guest cannot crash its host with the frames it sends", "statement": "No sequence of frames sent by a wasm guest, well-formed or not, crashes the receive loop of its host.", "quantifier": "every sequence of byte strings, every set of handlers", "why_tests_cant": "all byte sequences, all states of the streams they address", "anchors": ["transport/wasmrs/host/instance.go:recvOne,requestStream", "transport/wasmrs/guest/guest.go:GuestSend,requestStream"]}
{"id": "C78", "title": "Host handler tables return what was set last", "statement": "After any sequence of SetXHandler calls on a host instance, GetXHandler returns for every index the handler set last for it and nil for indices never set; setting never crashes.", "quantifier": "every sequence of calls with any 32-bit indices", "why_tests_cant": "all sequences and indices, sparse and out of order", "anchors": ["transport/wasmrs/host/instance.go:SetRequestResponseHandler,getRequestResponseHandler,SetFireAndForgetHandler,SetRequestStreamHandler,SetRequestChannelHandler"]}
{"id": "C79", "title": "Handlers get the caller's metadata without the routing prefix", "statement": "Whatever the request kind, on the wasm host and on the guest, a handler gets the metadata of the caller without the 8 routing bytes (operation id and reserved word).", "quantifier": "every request, every state", "why_tests_cant": "all kinds, sides and metadata", "anchors": ["transport/wasmrs/host/instance.go:handleRequestResponse,handleFireAndForget,handleRequestStream,handleRequestChannel", "transport/wasmrs/guest/guest.go:handleRequestResponse,handleFireAndForget,handleRequestStream,handleRequestChannel"]}
{"id": "C80", "title": "Closing a TCP server", "statement": "After Close, a TCP server's listener and every connection it ever accepted are closed, and Listen returns.", "quantifier": "every interleaving of Listen, Close, incoming connections, ending connections and steps of the accept loop", "why_tests_cant": "the outcome depends on where between accepting and registering a connection Close happens", "anchors": ["transport/rsocket/tcp_transport.go:Listen,Close,putTransport"]}
{"id": "C81", "title": "Finished connections are forgotten", "statement": "A TCP server does not keep connections that have ended.", "quantifier": "every interleaving of the events of a server's life", "why_tests_cant": "needs long histories of connections; a leak is invisible to a test with one connection", "anchors": ["transport/rsocket/tcp_transport.go:Listen,putTransport"]}
{"id": "C82", "title": "Converting optional decoded values", "statement": "Converting a decoded optional value to a derived type gives nil for an absent value, passes a decoding error on, and otherwise gives the converted value or the conversion's error; it never crashes.", "quantifier": "every input byte string, every conversion function, every pair of value and error a decoder returns", "why_tests_cant": "all byte strings, in particular truncated ones and nil", "anchors": ["msgpack/convert/convert.go:NillableString,NillableBool,NillableNumeric,NillableParse,StringToTimePtr,Parse"]}
{"id": "C83", "title": "Numeric conversion keeps the value or fails", "statement": "Converting a decoded number to a narrower integer type keeps its value or reports an error.", "quantifier": "every integer, every pair of integer types", "why_tests_cant": "2^64 values per pair of types", "anchors": ["msgpack/convert/convert.go:Numeric,NillableNumeric"]}
{"id": "C84", "title": "Times in UUIDs", "statement": "The time and the clock sequence read from a time-based UUID are the ones it was made of, and converting that time to seconds and nanoseconds gives the clock reading, up to the 100 ns resolution.", "quantifier": "every time-based UUID, every clock reading", "why_tests_cant": "2^60 times and 2^14 sequences", "anchors": ["types/uuid/time.go:UnixTime,UUID.Time,UUID.ClockSequence,getTime"]}
{"id": "C85", "title": "Blocking on a mono", "statement": "Block on a mono returns exactly its outcome: the value or error of the latest subscription if that has ended, otherwise the first one its source reports; through a transform the transformed outcome; on a processor the first result signalled to it, before or after the call. It never crashes.", "quantifier": "every history of subscriptions and signals before the call, between its test and its subscription, and afterwards; every transform", "why_tests_cant": "depends on the interleaving of the source with the goroutine that subscribes", "anchors": ["rx/mono/mono_host.go:Block", "rx/mono/mono.go:Block", "rx/mono/processor.go"]}
{"id": "C86", "title": "Blocking on a stream", "statement": "Block on a stream, plain or mapped, returns when the stream ends, with the error that ended it, and never crashes whatever the subscriber does.", "quantifier": "every history of source signals, requests and cancellations, every transform", "why_tests_cant": "needs all interleavings of source and subscriber", "anchors": ["rx/flux/flux_host.go:Block", "rx/flux/flux.go:Block"]}
{"id": "C87", "title": "A call gets the answer of the peer's operation", "statement": "On a connection between two peers, a request/response call that is subscribed to gets, at any time, nothing or exactly what the peer's application answered to that very call: the value or error its operation's mono came to, or the error for a request that names no exported operation. The operation is invoked at most once, with the payload of the call, and once nothing is under way the caller has seen the answer. Whatever other calls, streams and channels go on in both directions.", "quantifier": "every registry at both ends, every history of calls, subscriptions, signals and cancellations at both ends, every interleaving of goroutines and frame deliveries; fewer than 2^30 calls per end, each call subscribed once", "why_tests_cant": "quantifies over all interleavings of two concurrent peers with any number of other exchanges", "anchors": ["handler/handler.go:HandleFrame", "handler/handler.go:handleRequestResponse", "handler/caller.go:RequestResponse", "proxy/mono.go", "transport/rsocket/transport.go:Send,loopReadBuffer", "internal/socket/stream_id.go"]}
{"id": "C88", "title": "The last value of a repeated key wins", "statement": "Reading a map from any input gives for every key the last value the input has for it, and every key once, also when keys are repeated; exactly the bytes of the map are consumed.", "quantifier": "every list of entries on the wire, typed (any key type but floats) and dynamic", "why_tests_cant": "needs arbitrary repetitions of keys at arbitrary positions", "anchors": ["msgpack/utils.go:ReadMap", "msgpack/decoder.go:readMap"]}
{"id": "C89", "title": "A buffer that is too small is reported and not overrun", "statement": "Writing any sequence of values into a buffer never crashes and never writes outside it; if the encoding fits the buffer starts with exactly it and no error is reported, otherwise the Encoder reports a range error for good, later writes have no effect, and the buffer holds a prefix of the encoding in front of what it held.", "quantifier": "every sequence of Writer calls (including nested dynamic values) and every buffer, together below 4 GiB", "why_tests_cant": "the number of bytes at which the room runs out can be any position inside any value", "anchors": ["msgpack/data_reader.go:Set*", "msgpack/data_reader.go:checkBufferSize", "msgpack/encoder.go"]}
{"id": "C90", "title": "A stream subscriber sees what arrives", "statement": "The subscriber of a stream or channel call sees nothing before it subscribes, and then exactly what the frames arriving with the id of the call carry: every element once, in order, up to and including the first completion, error or cancellation, then Finally, and nothing afterwards. If it cancels, it has seen a prefix of that. Frames of other streams and everything else going on at that end make no difference.", "quantifier": "every registry, every history of calls, subscriptions, frames and goroutine steps in which no stream id is opened twice; every set of installed callbacks", "why_tests_cant": "quantifies over all interleavings with other streams and all sequences of frames", "anchors": ["proxy/flux.go:Subscribe,OnNext,OnComplete,OnError", "handler/handler.go:HandleFrame", "rx/flux/flux.go:subscriber"]}
{"id": "C91", "title": "A stream subscriber gets the peer's stream", "statement": "On a connection between two peers, the subscriber of a stream or channel call sees, at any time, the beginning of what the peer's application said on the flux its operation returned for that very call (or the error for a request that names no exported operation): the same elements in the same order without gaps or repetitions, up to the first end. Once nothing is under way, a subscriber that asked for elements and did not cancel has seen all of it. The operation is invoked at most once, with the payload of the call.", "quantifier": "every registry at both ends, every history of calls, subscriptions, signals and cancellations at both ends, every interleaving of goroutines and frame deliveries; fewer than 2^30 calls per end, each call subscribed once", "why_tests_cant": "quantifies over all interleavings of two concurrent peers with any number of other exchanges and streams of any length", "anchors": ["handler/handler.go:HandleFrame", "handler/handler.go:handleRequestStream,handleRequestChannel", "handler/caller.go:RequestStream,RequestChannel", "proxy/flux.go", "rx/flux/flux.go:subscriber"]}
{"id": "C92", "title": "A fire-and-forget call is carried out once", "statement": "On a connection between two peers, a fire-and-forget call is at any time either not yet processed or has had exactly one effect at the peer: the operation it names has been invoked once, with the data and the metadata of the call (without the eight routing bytes), or, if it names no exported operation, the request has been refused. Once nothing is under way it has had this effect; so it is neither lost nor repeated.", "quantifier": "every registry at both ends, every history of calls, subscriptions, signals and cancellations at both ends, every interleaving of goroutines and frame deliveries; fewer than 2^30 calls per end, each call subscribed once", "why_tests_cant": "quantifies over all interleavings of two concurrent peers with any number of other exchanges", "anchors": ["handler/handler.go:HandleFrame", "handler/handler.go:handleFireAndForget", "handler/caller.go:FireAndForget"]}
{"id": "C93", "title": "A failed exchange does not end the connection of the others", "statement": "HandleFrame of one end does not return an error for any frame the other end sends it, whatever the exchanges did: rejected requests, handlers that fail, streams that end with an error. (An error of HandleFrame ends the connection: at most one more frame is read; without such an error, and with an open connection, reading goes on.)", "quantifier": "every registry at both ends, every history of calls, subscriptions, signals and cancellations at both ends, every interleaving of goroutines and frame deliveries; fewer than 2^30 calls per end, each call subscribed once", "why_tests_cant": "quantifies over all interleavings of two concurrent peers with any number of exchanges; the trigger is an order of events rather than an input", "anchors": ["handler/handler.go:HandleFrame", "handler/handler.go:getStream", "transport/rsocket/transport.go:Start,loopReadBuffer", "proxy/lookup.go"]}
{"id": "C94", "title": "A channel handler gets the caller's input", "statement": "On a connection between two peers, the handler of a channel that subscribed to its input sees, at any time, the beginning of what the caller's application said on the input flux of that very call: the same elements in the same order without gaps or repetitions, up to the first end. Once nothing is under way to it, a handler that did not cancel its input has seen all of it.", "quantifier": "every registry at both ends, every history of calls, subscriptions, signals and cancellations at both ends, every interleaving of goroutines and frame deliveries; fewer than 2^30 calls per end, each call subscribed once", "why_tests_cant": "quantifies over all interleavings of two concurrent peers with any number of other exchanges and inputs of any length", "anchors": ["handler/handler.go:HandleFrame", "handler/handler.go:handleRequestChannel", "handler/caller.go:RequestChannel", "proxy/flux.go", "rx/flux/flux.go:subscriber"]}
{"id": "C95", "title": "The demand of a stream's subscriber reaches the source at the other end", "statement": "On a connection between two peers, the source of the flux a stream or channel handler returned is never asked, in total, for more elements than the caller's subscriber has requested. Once nothing is under way and the stream goes on, it has been asked for exactly as many.", "quantifier": "every registry at both ends, every history of calls, subscriptions, requests, signals and cancellations at both ends, every interleaving of goroutines and frame deliveries; requests between 0 and 2^32-1, a source that calls OnSubscribe once and says elements only when asked, fewer than 2^30 calls per end, each call subscribed once", "why_tests_cant": "quantifies over all interleavings of two concurrent peers with any number of requests; loss of demand depends on when a goroutine runs", "anchors": ["handler/handler.go:HandleFrame", "handler/handler.go:handleRequestStream,handleRequestChannel", "proxy/flux.go", "rx/flux/flux.go:subscriber", "rx/flux/flux_host.go"]}
{"id": "C96", "title": "The demand of a channel handler reaches the source of the caller's input", "statement": "On a connection between two peers, the source of the input flux a caller gave to a channel is never asked, in total, for more elements than the channel's handler has requested of its input. Once nothing is under way and the handler has its input still open, the source has been asked for exactly as many.", "quantifier": "every registry at both ends, every history of calls, subscriptions, requests, signals and cancellations at both ends, every interleaving of goroutines and frame deliveries; requests between 0 and 2^32-1, a source that calls OnSubscribe once and says elements only when asked, fewer than 2^30 calls per end, each call subscribed once", "why_tests_cant": "quantifies over all interleavings of two concurrent peers with any number of requests; loss of demand depends on what became of the other direction of the channel", "anchors": ["handler/handler.go:HandleFrame", "handler/handler.go:handleRequestChannel", "handler/caller.go:RequestChannel", "proxy/flux.go", "rx/flux/flux.go:subscriber", "rx/flux/flux_host.go"]}
{"id": "C97", "title": "Cancelling a stream over a connection", "statement": "When the subscriber of a stream or channel call cancels, it sees no further element, completion or error of it. The peer is told: a cancel frame for the stream is sent. The peer survives being told, and the source of the flux its handler returned is cancelled.", "quantifier": "every registry at both ends, every history of calls, subscriptions, requests, signals and cancellations at both ends, every interleaving of goroutines and frame deliveries; fewer than 2^30 calls per end, each call subscribed once", "why_tests_cant": "quantifies over all interleavings of two concurrent peers; a test sees one order of cancellation and elements under way, and that nothing is ever seen later is a statement about all continuations", "anchors": ["handler/handler.go:HandleFrame", "handler/handler.go:requestStream.OnComplete", "proxy/flux.go", "rx/flux/flux.go:subscriber.Cancel"]}
{"id": "C98", "title": "Calls between a wasm host and its guest", "statement": "Between a wasm host and the guest it runs, in either direction: what the callbacks of a request/response call see is, at any time, nothing or exactly what the other side's application answered to this very call (its payload, its error message, or a refusal if the request names no exported operation), once; when nothing is under way they have seen it if there is an answer. A request/response or fire-and-forget call has, once nothing is under way, had exactly one effect: the operation it names was invoked once with the data of the call and its metadata (for the guest's operations without the eight routing bytes), or it was refused.", "quantifier": "every registry at both ends, host calling guest and guest calling host, every history of calls, subscriptions, signals and cancellations at both ends, every interleaving of steps and frame deliveries; fewer than 2^30 calls per end, each call subscribed once", "why_tests_cant": "quantifies over all interleavings of host and guest with any number of other exchanges; needs a wasm runtime to test at all", "anchors": ["transport/wasmrs/host/instance.go:recvOne", "transport/wasmrs/host/instance.go:handleRequestResponse,handleFireAndForget", "transport/wasmrs/host/caller.go", "transport/wasmrs/guest/guest.go:GuestSend", "transport/wasmrs/guest/caller.go", "proxy/mono.go"]}
{"id": "C99", "title": "Streams between a wasm host and its guest", "statement": "Between a wasm host and the guest it runs, in either direction: the subscriber of a stream call, or of a channel call whose input the other side has not cancelled, sees at any time the beginning of what the other side's application said on the flux its operation returned for that very call (or the refusal of a request that names no exported operation): the same elements in the same order without gaps or repetitions, up to the first end. Once nothing is under way, a subscriber that asked for elements and did not cancel has seen all of it. The operation is invoked at most once, with the payload of the call.", "quantifier": "every registry at both ends, host calling guest and guest calling host, every history of calls, subscriptions, signals and cancellations at both ends, every interleaving of steps and frame deliveries; fewer than 2^30 calls per end, each call subscribed once", "why_tests_cant": "quantifies over all interleavings of host and guest with any number of other exchanges and streams of any length; needs a wasm runtime to test at all", "anchors": ["transport/wasmrs/host/instance.go:recvOne", "transport/wasmrs/host/instance.go:handleRequestStream,handleRequestChannel", "transport/wasmrs/guest/guest.go:GuestSend,handleRequestStream,handleRequestChannel", "proxy/flux.go", "rx/flux/flux.go:subscriber"]}
{"id": "C100", "title": "The demand of a stream's subscriber reaches the source between a wasm host and its guest", "statement": "Between a wasm host and the guest it runs, in either direction, the source of the flux a stream or channel operation returned is never asked, in total, for more elements than the caller's subscriber has requested. Once nothing is under way and the stream goes on, it has been asked for exactly as many.", "quantifier": "every registry at both ends, host calling guest and guest calling host, every history of calls, subscriptions, requests, signals and cancellations at both ends, every interleaving of steps and frame deliveries (the guest finishing what it does before it is handed the next frame); requests between 0 and 2^32-1, a source that calls OnSubscribe once and says elements only when asked, fewer than 2^30 calls per end, each call subscribed once", "why_tests_cant": "quantifies over all interleavings of host and guest with any number of requests; whether demand arrives depends on which side registers which streams", "anchors": ["transport/wasmrs/host/instance.go:recvOne", "transport/wasmrs/host/instance.go:handleRequestStream,handleRequestChannel", "transport/wasmrs/guest/guest.go:GuestSend,handleRequestStream,handleRequestChannel", "proxy/flux.go", "rx/flux/flux.go:subscriber"]}
{"id": "C101", "title": "Traffic between a wasm host and its guest", "statement": "The guest is called with the frames of the host in the order in which SendFrame took them, each once, and the host handles the frames of the guest in the order in which the guest sends them, each once; at most 100 wait in each direction. Traffic never stops for good: whatever waits gets through.", "quantifier": "every sequence of frames of any number of goroutines, everything the guest may send when it is called, everything the host's callbacks may send from inside, every interleaving", "why_tests_cant": "a deadlock depends on the fill of two queues of 100 and on the interleaving of three or more goroutines; tests that pass say nothing about it", "anchors": ["transport/wasmrs/host/instance.go:NewInstance", "transport/wasmrs/host/instance.go:SendFrame", "transport/wasmrs/host/instance.go:sendLoop,recvLoop", "transport/wasmrs/host/instance.go:hostSend"]}
{"id": "C102", "title": "Asking again for the result of a call", "statement": "The operation of a request/response call is carried out at most once, however often the caller asks for the result (Subscribe, Block, Async).", "quantifier": "every registry at both ends, every history before and after the call, every number of subscriptions, every interleaving of steps and frame deliveries; fewer than 2^30 calls of the caller", "why_tests_cant": "quantifies over all interleavings of both ends and any number of subscriptions; tests subscribe once", "anchors": ["proxy/mono.go:Subscribe", "proxy/mono_host.go:Block", "proxy/mono.go:Async", "rx/mono/processor.go", "handler/handler.go:handleRequestResponse"]}
{"id": "C103", "title": "Cancelling the input of a channel", "statement": "When the handler of a channel operation cancels the input (Cancel of its subscription), it sees nothing more of the input, the caller's end is told once for each cancellation, and the caller's source is cancelled; the output of the channel goes on: the caller's subscriber of the output is not ended by it.", "quantifier": "every registry at both ends, every history of calls and signals at both ends, every interleaving of steps and frame deliveries; fewer than 2^30 calls of the caller", "why_tests_cant": "quantifies over all interleavings of two ends with elements of both directions in flight; a test cancels at one moment of one run", "anchors": ["handler/handler.go:HandleFrame", "handler/handler.go:handleRequestChannel", "proxy/flux.go", "rx/flux/flux.go:subscriber"]}
{"id": "C104", "title": "Cancelling between a wasm host and its guest", "statement": "When the subscriber of a stream between a wasm host and its guest cancels it, or the handler of a channel operation cancels its input, the one who cancels sees nothing more of it, the other side is told once for each cancellation and does not crash, the source over there is cancelled, and the other direction of the channel goes on.", "quantifier": "the host or the guest as the caller, every set of handlers on both sides, every history of calls and signals on both sides, every interleaving of steps and frame deliveries; fewer than 2^30 calls of the caller", "why_tests_cant": "quantifies over all interleavings of host and guest with elements in flight in both directions; what happens depends on which side registers which streams", "anchors": ["transport/wasmrs/host/instance.go:recvOne", "transport/wasmrs/host/instance.go:handleRequestStream,handleRequestChannel", "transport/wasmrs/guest/guest.go:GuestSend,handleRequestStream,handleRequestChannel", "proxy/flux.go", "rx/flux/flux.go:subscriber"]}
{"id": "C105", "title": "The input of a channel between a wasm host and its guest", "statement": "What the handler of a channel operation sees of the caller's input, between a wasm host and its guest, is at any moment the beginning of what the caller's application has said on that input since it was subscribed to, in the same order, without gaps or repetitions; and once nothing is under way a handler that has not cancelled has seen all of it.", "quantifier": "the host or the guest as the caller, every set of handlers on both sides, every history of calls, subscriptions, signals and cancellations on both sides, every interleaving of steps and frame deliveries; fewer than 2^30 calls per side, each call subscribed once", "why_tests_cant": "quantifies over all interleavings of the two sides, in particular over when the handler runs compared with the arrival of the input", "anchors": ["transport/wasmrs/host/instance.go:recvOne,handleRequestChannel", "transport/wasmrs/host/caller.go:RequestChannel", "transport/wasmrs/guest/guest.go:GuestSend,handleRequestChannel", "transport/wasmrs/guest/caller.go:RequestChannel", "proxy/flux.go", "rx/flux/flux.go:subscriber"]}
{"id": "C106", "title": "Demand for the input of a channel between a wasm host and its guest", "statement": "The source of a channel's input, between a wasm host and its guest, is never asked for more elements than the handler has requested, and once nothing is under way it has been asked for exactly as many.", "quantifier": "the host or the guest as the caller, every set of handlers on both sides, every history of calls, subscriptions, requests, signals and cancellations on both sides, every interleaving of steps and frame deliveries; requests between 0 and 2^32-1, a source that calls OnSubscribe once and says elements only when asked, fewer than 2^30 calls per side, each call subscribed once", "why_tests_cant": "adds up demand over whole executions of two sides under every interleaving", "anchors": ["transport/wasmrs/host/instance.go:recvOne,handleRequestChannel", "transport/wasmrs/host/caller.go:RequestChannel", "transport/wasmrs/guest/guest.go:GuestSend,handleRequestChannel", "transport/wasmrs/guest/caller.go:RequestChannel", "proxy/flux.go", "rx/flux/flux.go:subscriber", "rx/flux/flux_host.go"]}
{"id": "C107", "title": "How streams end on the wasm host and on its guest", "statement": "On the wasm host and on its guest a frame for a stream that is known makes exactly the calls on that stream that the frame asks for, a frame for an unknown stream has no effect, and after its last frame (a cancel frame, an error frame or a payload frame with the complete flag) a stream is not known any more, while all other streams are as before.", "quantifier": "the host and the guest, every set of handlers, tables left by any history of streams coming and going, every frame for a stream as its bytes; ids below 2^31, metadata below 2^24 bytes", "why_tests_cant": "depends on which streams came and went before, in any order", "anchors": ["transport/wasmrs/host/instance.go:recvOne,removeStream,getStream", "transport/wasmrs/guest/guest.go:GuestSend,removeStream,getStream", "proxy/lookup.go"]}
{"id": "C108", "title": "Stream ids of the requests on a connection", "statement": "On one connection, over rsocket or between a wasm host and its guest, no two requests have the same stream id, whichever end sent them; the ids of one end are all odd, those of the other all even.", "quantifier": "every registry at both ends, every history of calls, subscriptions and signals at both ends, every interleaving of goroutines and frame deliveries; fewer than 2^30 calls per end", "why_tests_cant": "quantifies over all interleavings of calls at both ends", "anchors": ["handler/caller.go:getNextStreamID", "transport/wasmrs/host/caller.go:getNextStreamID", "transport/wasmrs/guest/caller.go:getNextStreamID", "proxy/mono.go"]}
{"id": "C109", "title": "Two ends connected by TCP get each other's frames, down to the bytes", "statement": "When two ends are connected by TCP, each is handed exactly the frames the other sent, unchanged, in order and without a gap, however TCP cuts the bytes into pieces and whenever the receivers read; everything sent can still arrive; and writing and reading never make an end crash that would not have crashed by itself.", "quantifier": "every registry at both ends, every history of calls, subscriptions and signals at both ends, every interleaving with deliveries of any number of bytes and with reads; frames are written one at a time (otherwise see C50) and a frame that was read is not overwritten before it is handled (otherwise see C54)", "why_tests_cant": "quantifies over all executions of both ends and all ways to cut the bytes on the wire", "anchors": ["transport/rsocket/tcp_conn.go:Read", "transport/rsocket/tcp_conn.go:Write", "transport/rsocket/decoder.go:Read", "transport/rsocket/transport.go:Send", "transport/rsocket/transport.go:Start", "transport/rsocket/transport.go:loopReadBuffer"]}
{"id": "C110", "title": "A wasm host and its guest get each other's frames, down to the bytes in the guest's memory", "statement": "A wasm host and its guest each handle exactly the frames the other sent, unchanged, in order and without a gap, although the frames cross as bytes in two buffers in the guest's memory; nothing sent is lost; and crossing never makes an end crash that would not have crashed by itself.", "quantifier": "every registry at both ends, every history of calls, subscriptions and signals at both ends, every interleaving with the send loop and the receive loop of the host, every size of the two buffers and every content of the memory around them", "why_tests_cant": "quantifies over all executions of both ends, all buffer sizes and all memory contents", "anchors": ["transport/wasmrs/host/instance.go:SendFrame", "transport/wasmrs/host/instance.go:sendLoop", "transport/wasmrs/host/instance.go:hostSend", "transport/wasmrs/host/instance.go:recvLoop", "transport/wasmrs/guest/guest.go:GuestSend", "transport/wasmrs/guest/guest.go:doSendFrame"]}
{"id": "C111", "title": "Calls and streams over TCP are answered by the peer's application, down to the bytes", "statement": "Over TCP, the callbacks of a call see nothing or what the peer's application has answered to this very call, and the subscriber of a stream sees the beginning of what the peer's application has said, in order and without a gap; once all frames sent were handed over, they have seen all of it. The peer serves each request at most once, with the payload of the call, and exactly once when nothing is under way. All this however TCP cuts the bytes into pieces.", "quantifier": "every registry at both ends, every payload, every history of calls, subscriptions and signals at both ends before, between and after, every interleaving with deliveries of any number of bytes and with reads; no end makes 2^30 calls or subscribes twice to a call", "why_tests_cant": "quantifies over all executions of both ends and all ways to cut the bytes on the wire", "anchors": ["transport/rsocket/tcp_conn.go:Read", "transport/rsocket/tcp_conn.go:Write", "transport/rsocket/decoder.go:Read", "transport/rsocket/transport.go:Start", "handler/handler.go:HandleFrame"]}
{"id": "C112", "title": "A generated client gets the string the service answered to its own record", "statement": "When an application calls an operation through the generated client (`SayHello` of the two greeters and of the mesh, `Concat`) and the peer has exported the generated handler under that number, the service is given exactly the caller's record, and the caller's subscriber sees nothing or exactly the string or error the service has answered to this call; once nothing is under way it has seen it.", "quantifier": "every record, every service (whatever it returns for a record), every registry at the calling end, every sequence of exports at the other, every history of both ends and every interleaving, over TCP down to the bytes and between wasm host and guest in both directions; no end makes 2^30 calls or subscribes twice to a call", "why_tests_cant": "quantifies over all records, all services and all executions of both ends", "anchors": ["example/greeter/greeter.go:sayHelloWrapper", "example/greeter/greeter.go:SayHello", "transport/wasmrs/example/greeting.go:SayHello", "transport/wasmrs/mesh/modules/greeting/import.go:SayHello", "transport/wasmrs/mesh/modules/concat/import.go:Concat", "transform/transform.go:String"]}
{"id": "C113", "title": "Generated clients of streams see the strings the service said", "statement": "The subscriber of a generated client of a stream operation sees the beginning of what the service says on the flux it returned for the very record the caller passed, in order, without a gap and string for string; once everything was carried over, it has seen all of it, with the end. The same for the output of a channel operation of strings.", "quantifier": "every record of strings and integers, every exported operation, every flux of strings the service returns, every history of both ends, every interleaving, over TCP (however the bytes are cut) and between a wasm host and its guest in either direction", "why_tests_cant": "quantifies over all records, all streams of strings and all executions of both ends; composes the codec of records and strings, dispatch, mapping and the transports", "anchors": ["transport/wasmrs/example/counter.go:CountToN", "transport/wasmrs/example/counter.go:counterWrapper", "transport/wasmrs/example/uppercase.go:Uppercase", "transport/wasmrs/example/uppercase.go:uppercaseWrapper", "transform/transform.go:String", "rx/flux/flux.go:Map"]}
{"id": "C114", "title": "The service of a channel of strings sees the strings the caller said", "statement": "The service of a generated channel handler sees, on the flux of strings it is given, the beginning of what the caller's application has said on the flux it passed to the client, in order, without a gap and string for string; if it does not cancel and nothing is under way, it has seen all of it, with the end.", "quantifier": "every flux of strings passed by the caller, every operation id, all callbacks installed by the service, every history of both ends, every interleaving, between two rsocket ends and between a wasm host and its guest in either direction", "why_tests_cant": "quantifies over all inputs and all executions of both ends", "anchors": ["transport/wasmrs/example/uppercase.go:Uppercase", "transport/wasmrs/example/uppercase.go:uppercaseWrapper", "transform/transform.go:String", "rx/flux/flux.go:Map", "handler/caller.go:RequestChannel"]}
{"id": "C115", "title": "Greeting.Uppercase reaches the operation of the peer", "statement": "A call of `Greeting.Uppercase` reaches a channel operation of the other end: once nothing is under way, an operation was invoked for it. (It is not: in every run the call is refused with \"Invalid metadata\", and no operation is invoked.)", "quantifier": "every set of operations exported by the peer, every input, all callbacks, every history of both ends, every interleaving, over TCP and between a wasm host and its guest in either direction", "why_tests_cant": "that no run whatever serves the call is a statement about all executions and all registries", "anchors": ["transport/wasmrs/example/greeting.go:Uppercase", "transport/wasmrs/cmd/host/main.go:main", "payload/payload.go:New", "handler/handler.go:handleRequestChannel"]}
{"id": "C116", "title": "Stream processors hand on what is pushed into them", "statement": "The first subscriber of a `flux.Processor` sees all that is pushed into it, in order and without a gap, up to the completion or the error: also what was pushed before it subscribed.", "quantifier": "every sequence of pushes, of subscriptions with any callbacks, and of calls of the subscribers on their subscriptions, also from inside callbacks", "why_tests_cant": "order and completeness over all interleavings of pushes, subscriptions, requests and cancellations", "anchors": ["rx/flux/processor.go:NewProcessor", "rx/flux/processor.go:Next", "rx/flux/processor.go:Complete", "rx/flux/processor.go:Error", "rx/flux/processor.go:OnSubscribe", "rx/flux/flux.go:Subscribe"]}
{"id": "C117", "title": "Components with one input and one output answer the first value", "statement": "The generated handlers of the components Concat and Greeter answer the first value sent to their input port: the subscriber of the output sees, on the output port, what the component makes of it, and then the end; if the value cannot be decoded it sees the error; without a value nothing. Payloads for other ports, payloads that only end a port, and later values make no difference, and no payload crashes the handler. Connected in a row as in transport/wasmrs/cmd/fbp/host, they turn the record (l, r) into the greeting \"Hello, l r\". In such a row, the payloads of the output port of the one, and no others, are sent on to the input port of the next, as they are.", "quantifier": "every sequence of payloads with any ports, flags and data; all records and strings", "why_tests_cant": "all sequences of payloads and values; the flags of the metadata go through bytes that another component wrote", "anchors": ["transport/wasmrs/example/concat/generated.go:concatHandler", "transport/wasmrs/example/concat/concat.go:Process", "transport/wasmrs/example/greeter/generated.go:greeterHandler", "transport/wasmrs/example/greeter/greeter.go:Process", "transport/wasmrs/cmd/fbp/host/main.go:main", "invoke/portio.go:Decode"]}
{"id": "C118", "title": "WordFrequency counts the words it is sent", "statement": "The component WordFrequency gives its subscriber, once the words are complete, each word that was sent and is not on the list of ignored words exactly once, in lower case, with the number of its occurrences, the most frequent ones first, and then the end. The same holds for its generated handler and the words sent to its port. If the first payload for the port is not a string, the subscriber of the handler sees that error.", "quantifier": "every sequence of words; every sequence of payloads for the handler, with any ports and flags; every order in which Go goes through a map and leaves equal elements when it sorts", "why_tests_cant": "all sequences of words, and Go's map order and sort are not determined", "anchors": ["transport/wasmrs/example/wordfrequency/wordfrequency.go:Process", "transport/wasmrs/example/wordfrequency/wordfrequency.go:makeWordCounts", "transport/wasmrs/example/wordfrequency/generated.go:wordFrequencyHandler", "rx/flux/response.go:SliceResponse", "invoke/portio.go:Decode"]}
{"id": "C119", "title": "No read takes part of a value for the value", "statement": "If a read of the msgpack Decoder (any of the typed reads, the nillable ones, the sizes of arrays and maps, ReadAny, Skip) succeeds on some input, then on the same input cut off anywhere within the bytes it consumed it returns an error; it neither succeeds nor panics.", "quantifier": "every kind of read, every input with any bytes before and after, every place to cut", "why_tests_cant": "all inputs a read accepts, including nested values of any depth, and all places to cut them", "anchors": ["msgpack/decoder.go:Skip", "msgpack/decoder.go:getSize", "msgpack/decoder.go:ReadAny", "msgpack/decoder.go:ReadString", "msgpack/data_reader.go:checkBufferSize"]}
{"id": "C120", "title": "A request that was cut short is refused", "statement": "The generated handlers of operations that take a record (greeting, concat, counter, word counts, names) answer a request that lost its last bytes with an error; the service is not asked. The request may hold the fields of the record in any order, and other fields.", "quantifier": "all records, all orders of their fields, all other fields with values that can be skipped (C42), every place to cut, every service", "why_tests_cant": "all records and all places to cut; depends on every read on the way noticing the end", "anchors": ["example/greeter/greeter.go:Decode", "example/greeter/greeter.go:sayHelloWrapper", "transport/wasmrs/example/counter.go:counterWrapper", "transport/wasmrs/example/counter.go:Decode", "transport/wasmrs/example/concat/generated.go:Decode", "transport/wasmrs/example/wordfrequency/generated.go:Decode", "msgpack/decoder.go:Skip"]}
{"id": "C121", "title": "Calls from one module of a mesh to another are answered by it", "statement": "If the guest of a module of a mesh calls a request/response import that is linked to an export of another (or the same) module, the caller gets what that export answered to this call, with the same data, and nobody else's answer: the call is passed on once, to the module and operation the import is linked to, and no two calls are passed on as the same one; the metadata arrives with the operation id replaced. If nothing of the call is under way any more in either module, the caller has got its answer as soon as the export has resolved. A fire-and-forget call is passed on once, and its handler is invoked once. Imports are linked to exports of the same name.", "quantifier": "any number of modules with any handlers, all interleavings of what goes on in all modules and between them, any other calls in any direction, and all loaded modules with well-formed tables", "why_tests_cant": "interleavings of four ends and two connections per call, with other calls going on in all modules; the guarantee spans the mesh, two hosts and two guests", "anchors": ["transport/wasmrs/mesh/mesh.go:RequestResponse", "transport/wasmrs/mesh/mesh.go:FireAndForget", "transport/wasmrs/mesh/mesh.go:linkOperation", "transport/wasmrs/host/instance.go:handleRequestResponse", "transport/wasmrs/host/instance.go:handleFireAndForget", "transport/wasmrs/host/caller.go:RequestResponse", "transport/wasmrs/host/caller.go:FireAndForget", "transport/wasmrs/guest/guest.go:GuestSend"]}
{"id": "C122", "title": "NewCustomer greets with the concatenated name, or fails with the call that failed", "statement": "`NewCustomer` of the mesh example calls `concat.v1/concat` with the first and the last name, once; when that is answered with a string, it calls `greeting.v1/sayHello` with this string, once; when that is answered with a string, its own caller gets this string. If one of the calls fails, or is not answered with a string, its caller gets that error.", "quantifier": "all names, all orders and contents of answers to the calls, including late, early, repeated and malformed ones", "why_tests_cant": "the flow depends on the order in which answers arrive and on every possible content of them; the tests of the example, if run at all, see one successful run", "anchors": ["transport/wasmrs/mesh/modules/customer/cmd/main.go:NewCustomer", "rx/flow/flow.go:next", "rx/flow/flow.go:check", "rx/flow/flow.go:Success", "rx/mono/mono.go:Get", "transport/wasmrs/mesh/modules/concat/import.go:Concat", "transport/wasmrs/mesh/modules/greeting/import.go:SayHello", "transport/wasmrs/mesh/modules/concat/cmd/main.go:Concat", "transport/wasmrs/mesh/modules/greeting/cmd/main.go:SayHello"]}
{"id": "C123", "title": "Streams from one module of a mesh to another arrive in order and whole", "statement": "If the guest of a module of a mesh subscribes to a stream import that is linked to an export of another (or the same) module, its subscriber sees, at any time, the beginning of what that export has answered to this request, in order, without gaps, and nothing from any other stream; errors arrive with their message. The request is passed on once, with the same data and the operation id replaced, and the linked export is invoked once for it. If nothing of the stream is under way any more in either module and the subscriber has not cancelled, it has seen all of the answer.", "quantifier": "any number of modules with any handlers, all interleavings of what goes on in all modules and between them, any other requests in any direction, all subscribers", "why_tests_cant": "interleavings of four ends and two connections per stream, with other requests going on in all modules; the guarantee spans the mesh, two hosts and two guests", "anchors": ["transport/wasmrs/mesh/mesh.go:RequestStream", "transport/wasmrs/mesh/mesh.go:linkOperation", "transport/wasmrs/host/instance.go:handleRequestStream", "transport/wasmrs/host/caller.go:RequestStream", "transport/wasmrs/guest/guest.go:GuestSend"]}
{"id": "C124", "title": "The demand of a stream's subscriber reaches the source through a mesh", "statement": "If the guest of a module of a mesh subscribes to a stream import that is linked to an export of another (or the same) module, the source of the flux that export returned is never asked, in total, for more elements than the subscriber has requested. Once nothing is under way in the two modules and the stream goes on, it has been asked for exactly as many.", "quantifier": "any number of modules with any handlers, all interleavings of what goes on in all modules and between them (guests finishing what they do before they are handed the next frame), any other requests in any direction; requests between 0 and 2^32-1, a source that calls OnSubscribe once and says elements only when asked, fewer than 2^30 calls per end, each call subscribed once", "why_tests_cant": "demand passes through two hosts, two guests and the mesh, in four streams that are driven by different goroutines; quantifies over all interleavings with any number of requests", "anchors": ["transport/wasmrs/mesh/mesh.go:RequestStream", "transport/wasmrs/host/instance.go:handleRequestStream", "transport/wasmrs/host/caller.go:RequestStream", "transport/wasmrs/guest/guest.go:GuestSend", "proxy/flux.go", "rx/flux/flux.go:subscriber"]}
{"id": "C125", "title": "Cancelling a stream through a mesh", "statement": "If the guest of a module of a mesh cancels its subscription of a stream import that is linked to an export of another (or the same) module, it sees no further element and no end of the stream. The host of its module is told once for every cancellation, and does not crash from it. Once the host has been told and nothing is under way any more, the cancellation was passed on to the module that exports the operation, and the source of the flux that the export returned was cancelled.", "quantifier": "any number of modules with any handlers, all interleavings of what goes on in all modules and between them, cancellations at any point and any number of them, any other requests in any direction; fewer than 2^30 calls per end, each call subscribed once", "why_tests_cant": "the cancellation races with elements on their way through two guests, two hosts and the mesh; quantifies over all interleavings with any number of requests", "anchors": ["transport/wasmrs/mesh/mesh.go:RequestStream", "transport/wasmrs/host/instance.go:handleRequestStream", "transport/wasmrs/host/instance.go:recvOne", "transport/wasmrs/host/caller.go:RequestStream", "proxy/flux.go:Cancel", "rx/flux/flux.go:subscriber"]}
{"id": "C126", "title": "Calls through a mesh reach the handler registered under the imported name", "statement": "If the guest of a module registers a handler under a namespace and operation name, and the guest of another (or the same) module imports that name, then after both modules were loaded into a mesh, in either order, a request with the id the import returned is passed on to a module that registered a handler under exactly that name, and a handler that it registered under that name is invoked, once, with the caller's data. An import that nobody exports is linked to nothing. A request by name on the mesh itself reaches the last handler registered under that name by the module loaded last of those that have one, and none if there is none.", "quantifier": "any number of modules in any order, each with any registrations and imports in any order (names under 2^16 bytes, fewer than 2^32 registrations, tables under 4 GiB; every name has one kind of request, see C66); request/response, fire-and-forget and streams, all interleavings of what goes on in the modules and between them, any other requests", "why_tests_cant": "composes the registry of one guest, the table it writes, the table the host parses, the linking of the mesh and the lookup in the registry of another guest; quantifies over all sets of modules and all schedules", "anchors": ["invoke/handlers.go:GetOperationsTable", "invoke/handlers.go:ExportRequestResponse", "invoke/handlers.go:ImportRequestResponse", "operations/operatons.go:ToBytes", "operations/operatons.go:FromBytes", "transport/wasmrs/guest/guest.go:OperationList", "transport/wasmrs/host/instance.go:opList", "transport/wasmrs/mesh/mesh.go:LoadModules", "transport/wasmrs/mesh/mesh.go:linkOperations", "transport/wasmrs/mesh/mesh.go:linkOperation"]}
{"id": "C127", "title": "Calls and streams between a wasm host and its guest are answered by the other side's application, down to the bytes in memory", "statement": "Between a wasm host and its guest, whichever of them calls, the callbacks of a call see nothing or what the other side's application has answered to this very call, and the subscriber of a stream sees the beginning of what the other side's application has said, in order and without a gap; once no frame is left in the queues of the host, they have seen all of it. The other side serves each request at most once, with the payload of the call, and exactly once when nothing is under way. All this although the frames cross as bytes in two buffers in the guest's memory.", "quantifier": "host or guest as the caller, every registry at both sides, every payload, every history of calls, subscriptions and signals at both sides before, between and after, every interleaving with the send loop and the receive loop of the host, every size of the two buffers and every content of the memory around them; no side makes 2^30 calls or subscribes twice to a call", "why_tests_cant": "quantifies over all executions of both sides, all buffer sizes and all memory contents", "anchors": ["transport/wasmrs/host/instance.go:SendFrame", "transport/wasmrs/host/instance.go:sendLoop", "transport/wasmrs/host/instance.go:hostSend", "transport/wasmrs/host/instance.go:recvLoop", "transport/wasmrs/guest/guest.go:GuestSend", "transport/wasmrs/guest/guest.go:doSendFrame", "transport/wasmrs/host/instance.go:handleRequestResponse", "transport/wasmrs/guest/guest.go:handleRequestResponse"]}
{"id": "C128", "title": "Closing a mesh closes every loaded instance", "statement": "When Close of a mesh returns, every instance loaded into it is closed. It returns once nothing is left to do in the instances. It crashes neither the requests that are being answered nor callers.", "quantifier": "every number of instances, every order in which they are closed, every interleaving of Close with requests arriving at and answered by the instances, with calls into their guests, and with Close of single instances", "why_tests_cant": "all interleavings of Close with the goroutines of all instances", "anchors": ["transport/wasmrs/mesh/mesh.go:Close", "transport/wasmrs/host/instance.go:Close", "transport/wasmrs/host/instance.go:SendFrame", "transport/wasmrs/host/instance.go:reduceActiveRequests"]}
{"id": "C129", "title": "Slices, maps, values with a text form and object references survive their transforms", "statement": "Decoding the payload that SliceEncode or MapEncode makes gives back the same slice or map and leaves nothing over, although a map is visited twice, in an order that Go leaves open each time. What ToStringEncode makes is decoded to the value if its text can be parsed back. The payload that InterfaceEncode makes is decoded to a handle under which the tracker finds the object until it is removed.", "quantifier": "every slice and map of fewer than 2^32 elements, every element codec that itself round-trips, every pair of orders of the map; every text form; every history of the tracker and every choice of fresh addresses", "why_tests_cant": "quantifies over all element codecs, values, map orders and histories", "anchors": ["transform/transform.go:SliceEncode", "transform/transform.go:SliceDecode", "transform/transform.go:MapEncode", "transform/transform.go:MapDecode", "transform/transform.go:ToStringEncode", "transform/transform.go:ToStringDecode", "transform/transform.go:InterfaceEncode", "msgpack/codec.go:MapToBytes", "invoke/instances.go:Put"]}
{"id": "C130", "title": "The example counter counts every number once and only on demand", "statement": "The subscriber of CountToN(to) sees the numbers from 1 to `to`, each once and in order, never more of them than it has requested, and completion once `to` has been sent.", "quantifier": "every `to` and every sequence of requests, negative and excessive ones included", "why_tests_cant": "quantifies over all limits and all request histories; the failing limit needs 2^64 requests", "anchors": ["transport/wasmrs/cmd/host/main.go:CountToN", "rx/flux/flux_host.go:doRequest"]}
{"id": "C131", "title": "Uppercase passes its input on, on demand", "statement": "The subscriber of Uppercase(in) sees the elements of the input in upper case, in order, and the input's completion or error. Of the input it always has one or two elements requested that have not been delivered yet, never more. It sends no more elements than its subscriber has requested, and cancels the input when it is cancelled.", "quantifier": "every input, every interleaving of the input's signals with the subscriber's requests and Cancel, from outside and from inside its callbacks", "why_tests_cant": "quantifies over all histories of two coupled subscriptions", "anchors": ["transport/wasmrs/cmd/host/main.go:Uppercase", "transport/wasmrs/cmd/guest/main.go:Uppercase", "rx/flux/flux.go:Subscribe"]}
{"id": "C132", "title": "Decoded texts and byte arrays keep their value", "statement": "A string or byte array that the application has decoded from a message received by TCP keeps its value for as long as the application holds it, whatever is received later.", "quantifier": "every sequence of frames, cut into pieces in any way, every value read from any position of any message", "why_tests_cant": "depends on where the slice lies in a buffer that is reused after thousands of bytes, and a Go string is assumed never to change", "anchors": ["msgpack/decoder.go:ReadString", "msgpack/decoder.go:ReadByteArray", "msgpack/unsafe.go:UnsafeString", "msgpack/data_reader.go:GetBytes", "internal/frames/payload.go:Decode", "transport/rsocket/decoder.go:Read"]}
{"id": "C133", "title": "The invoke command passes its JSON input to the operation", "statement": "When `wasmrs invoke` is given a JSON object on standard input, the operation receives it: every field of its parameter that the object has arrives with the value given, in whatever order the fields are and whatever other fields there are.", "quantifier": "every object and every value of its fields, for the parameters of the example operations", "why_tests_cant": "the JSON goes through two libraries before the decoder of the operation sees it, and a test has one object with texts only", "anchors": ["transport/wasmrs/cmd/wasmrs/commands/invoke.go:Run", "msgpack/decoder.go:ReadUint64", "msgpack/decoder.go:ReadInt64", "msgpack/decoder.go:ReadString", "msgpack/decoder.go:Skip"]}
{"id": "C134", "title": "Handlers set on a connection serve its requests", "statement": "After an application has set handlers on the handler of a connection (`SetRequestResponseHandler` and the other three), every request received is served once: by the handler set last for its kind and number, by the operation exported under the number if none is set, and with one error if there is neither.", "quantifier": "every sequence of handlers set, exported operations, both roles, every history of the connection", "why_tests_cant": "a test sets a handler and reads it back; that requests of a whole history reach it needs all histories", "anchors": ["handler/handler.go:SetRequestResponseHandler", "handler/handler.go:SetFireAndForgetHandler", "handler/handler.go:SetRequestStreamHandler", "handler/handler.go:SetRequestChannelHandler", "handler/handler.go:getRequestResponseHandler", "handler/handler.go:handleRequestResponse"]}
{"id": "C135", "title": "The end of a connection ends the calls on it", "statement": "When a TCP connection ends, for whatever reason, every call, stream or channel that is subscribed on it, before or after the end, ends too: its subscriber is told the result or an error, so that nobody waits for ever.", "quantifier": "every history of the connection before and after its end, every registry, both roles, every call on it", "why_tests_cant": "what matters is that something is never told, in any continuation; a test can only wait for some time", "anchors": ["transport/rsocket/transport.go:Start", "transport/rsocket/transport.go:Send", "handler/handler.go:Close", "proxy/mono.go:Subscribe", "proxy/flux.go:Request"]}
{"id": "C136", "title": "A guest that fails ends the calls it was handling", "statement": "When the code of a wasm guest fails while it handles a request of the host (it traps, panics or exits), the call, stream or channel ends: its subscriber on the host is told a result or an error, so that nobody waits for ever.", "quantifier": "every history of the host, every guest (anything that sends frames and fails at any time), every registry, every call", "why_tests_cant": "what matters is that something is never told, in any continuation, whatever the guest sends before it fails; a test can only wait for some time", "anchors": ["transport/wasmrs/host/instance.go:sendLoop", "transport/wasmrs/host/instance.go:hostSend", "transport/wasmrs/host/instance.go:recvLoop", "transport/wasmrs/host/instance.go:SendFrame"]}
{"id": "C137", "title": "Starting a wasm module gives a working instance or an error", "statement": "Instantiating a wasm module never crashes the host program and never hangs. It reports an error, or gives an instance of a module that has all the functions the protocol asks for, has said that its initialisation succeeded, and whose buffers and operation table are those the module announced.", "quantifier": "every module: whatever functions it exports, whatever calls of the host its start functions, its initialisation and its operation list make, in any order, with any memory, and whether they fail", "why_tests_cant": "the modules are arbitrary programs; tests start a few well-behaved ones", "anchors": ["transport/wasmrs/host/host.go:Instantiate", "transport/wasmrs/host/host.go:initBuffers,opList,send", "transport/wasmrs/host/instance.go:NewInstance", "transport/wasmrs/host/instance.go:opList", "transport/wasmrs/guest/guest.go:Init,OperationList"]}
{"id": "C138", "title": "One host runs several modules", "statement": "Each of several modules instantiated on one host, one after the other, is started as it would be on a host of its own.", "quantifier": "every list of modules", "why_tests_cant": "depends on what the modules before did when they were started, for any number of them", "anchors": ["transport/wasmrs/host/host.go:New,Instantiate", "transport/wasmrs/host/instance.go:Close"]}
{"id": "C139", "title": "The result of a flow is what its steps report", "statement": "The subscriber of a mono made by a flow sees the first value or error that a step reports or returns, exactly once; the subscriber of a stream made by a flow sees every element reported before the first end, in order, and then that end once. A report that does not fit the kind of result crashes the flow and changes nothing of what was delivered before.", "quantifier": "every list of steps that run as in C31, every list of reports each of them makes, every order in which awaitables finish, every choice of callbacks", "why_tests_cant": "an error is both reported and returned, and later steps go on reporting after the end; any number of reports and steps", "anchors": ["rx/flow/flow.go:Next,Complete,Success,Error,Mono,Flux,next", "rx/mono/mono.go:Success,Error", "rx/flux/flux.go:Next,Complete,Error"]}
{"id": "C140", "title": "Skip passes over extension values of other MessagePack programs", "statement": "Skipping over an extension value of any type and length, in any of the eight forms of the MessagePack specification, leaves the decoder exactly behind that value, so that a field this library does not know cannot spoil the fields after it.", "quantifier": "every type byte, every data of every length, each of the eight forms, whatever surrounds the value", "why_tests_cant": "256 types, unbounded data, and a skip that stops one byte short reports no error", "anchors": ["msgpack/decoder.go:Skip,getSize"]}
{"id": "C141", "title": "Times written by other MessagePack programs are read", "statement": "An instant written by another program, in any of the three layouts of the MessagePack specification that has room for it and in any form of an extension value, with the type for times or the one NodeJS uses, is read back as the same instant to the nanosecond, and the decoder is left behind it.", "quantifier": "every instant, each layout with room for it, each form of an extension value, both types, whatever surrounds the value", "why_tests_cant": "2^64 seconds times 10^9 nanoseconds in several layouts and forms, of which this library's own encoder writes only one each", "anchors": ["msgpack/decoder.go:ReadTime,decodeTime,extHeader,parseExtLen,readCode"]}
{"id": "C142", "title": "Skip does not depend on the form another program chose", "statement": "Skipping over any MessagePack value that contains no extension value leaves the decoder exactly behind it, also when numbers, strings, byte arrays, arrays or maps in it are written in a longer form than they need.", "quantifier": "every value of any nesting, every form of each of its parts, whatever surrounds the value", "why_tests_cant": "unbounded nesting and size, and this library's encoder writes only one form of each value, so round-trip tests never see the others", "anchors": ["msgpack/decoder.go:Skip,getSize"]}
{"id": "C143", "title": "Strings, byte arrays and sizes are read in every form", "statement": "A string, a byte array or the size of an array or a map is read back exactly, and nothing behind it is consumed, whichever of the forms with room for it the writer chose.", "quantifier": "every string and byte array, every count, every form with room for it, whatever surrounds the value", "why_tests_cant": "this library's encoder writes only the shortest form, so round-trip tests never see the others; all lengths up to 2^32", "anchors": ["msgpack/decoder.go:ReadString,readStringLength,readString,ReadByteArray,readBinLength,ReadArraySize,ReadMapSize,ReadAny,readArray"]}
{"id": "C144", "title": "A value of another kind is refused", "statement": "Reading a truth value, an integer, a float, a string, a byte array, an array size or a map size from a value of another kind fails with an error instead of returning something else; nil counts as an empty byte array, array or map.", "quantifier": "every first byte, whatever surrounds it", "why_tests_cant": "every pair of what is read and what is there, in every form; a wrong success returns plausible data", "anchors": ["msgpack/decoder.go:ReadBool,ReadInt8,ReadInt16,ReadInt32,ReadInt64,ReadUint8,ReadUint16,ReadUint32,ReadUint64,ReadFloat32,ReadFloat64,ReadString,readStringLength,ReadByteArray,readBinLength,ReadArraySize,ReadMapSize"]}
