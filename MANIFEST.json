{
 "claims": [
  {
   "property": "C01",
   "status": "proved",
   "theorems": [
    "Verif.Props.C01_header_roundtrip",
    "Verif.Props.C01_header_reencode"
   ],
   "note": "Frame header round trip"
  },
  {
   "property": "C02",
   "status": "proved",
   "theorems": [
    "Verif.Props.C02_payload_roundtrip"
   ],
   "note": "Payload frame round trip"
  },
  {
   "property": "C03",
   "status": "partial",
   "theorems": [
    "Verif.Props.C03_request_roundtrip_violated",
    "Verif.Props.C03_request_roundtrip_partial"
   ],
   "note": "Code drops the 'more fragments follow' flag when encoding a request frame (witness). Partial: exact wire bytes and round trip of every request frame that is not marked follows."
  },
  {
   "property": "C04",
   "status": "proved",
   "theorems": [
    "Verif.Props.C04_requestN_roundtrip",
    "Verif.Props.C04_cancel_roundtrip",
    "Verif.Props.C04_error_roundtrip"
   ],
   "note": "RequestN, Cancel and Error frame round trip"
  },
  {
   "property": "C05",
   "status": "partial",
   "theorems": [
    "Verif.Props.C05_setup_roundtrip_violated",
    "Verif.Props.C05_setup_token_violated",
    "Verif.Props.C05_setup_mime255_violated",
    "Verif.Props.C05_setup_roundtrip_partial",
    "Verif.Props.C05_setup_no_token_partial"
   ],
   "note": "Durations are cut to 32 bits of nanoseconds before the division (5 s arrives as 705 ms); a resume token leaves that many stray bytes after the data; a 255-byte mime type makes the receiver panic (three witnesses). Partial: durations below 2^32 ns and mime types below 255 bytes round trip, up to the stray bytes; exact round trip without token."
  },
  {
   "property": "C06",
   "status": "partial",
   "theorems": [
    "Verif.Props.C06_payload_size",
    "Verif.Props.C06_request_size",
    "Verif.Props.C06_requestN_size",
    "Verif.Props.C06_cancel_size",
    "Verif.Props.C06_error_size",
    "Verif.Props.C06_setup_size_violated",
    "Verif.Props.C06_setup_size_partial"
   ],
   "note": "Proved for Payload, Request, RequestN, Cancel and Error. Setup.Size() counts the token twice (witness); partial: exact without token."
  },
  {
   "property": "C07",
   "status": "proved",
   "theorems": [
    "Verif.Props.C07_payload_fragmentation",
    "Verif.Props.C07_payload_fits"
   ],
   "note": "Payload fragmentation is lossless and bounded"
  },
  {
   "property": "C08",
   "status": "partial",
   "theorems": [
    "Verif.Props.C08_request_fragmentation_violated",
    "Verif.Props.C08_metadata_duplicated_violated",
    "Verif.Props.C08_request_fragmentation_partial",
    "Verif.Props.C08_exact_partial"
   ],
   "note": "The follows mark of the first fragment is lost by the encoder, and short metadata is repeated in the second fragment (two witnesses). Partial: before encoding, fragmentation is lossless and bounded when metadata is empty or fills the first fragment, and otherwise delivers exactly the metadata twice."
  },
  {
   "property": "C09",
   "status": "partial",
   "theorems": [
    "Verif.Props.C09_fragment_terminates_violated",
    "Verif.Props.C09_fragment_crash_violated",
    "Verif.Props.C09_payload_terminates_partial",
    "Verif.Props.C09_request_terminates_partial",
    "Verif.Props.C09_request_exact_partial"
   ],
   "note": "Fragmentation loops for ever or crashes for tiny maximum sizes (two witnesses). Partial: the exact termination condition for payload frames and for request frames."
  },
  {
   "property": "C10",
   "status": "partial",
   "theorems": [
    "Verif.Props.C10_decode_violated",
    "Verif.Props.C10_payload_partial",
    "Verif.Props.C10_request_partial",
    "Verif.Props.C10_requestN_partial",
    "Verif.Props.C10_error_partial",
    "Verif.Props.C10_cancel_partial",
    "Verif.Props.C10_header_partial",
    "Verif.Props.C10_setup_partial"
   ],
   "note": "Short frames crash the decoders (witness). Partial: exact characterisation, per frame type, of the inputs that do not crash."
  },
  {
   "property": "C11",
   "status": "proved",
   "theorems": [
    "Verif.Props.C11_u24_roundtrip",
    "Verif.Props.C11_u24_overflow",
    "Verif.Props.C11_u24_read"
   ],
   "note": "24-bit length round trip and overflow"
  },
  {
   "property": "C12",
   "status": "partial",
   "theorems": [
    "Verif.Props.C12_client_ids",
    "Verif.Props.C12_server_ids_violated",
    "Verif.Props.C12_server_ids_partial",
    "Verif.Props.C12_sides_disjoint"
   ],
   "note": "Client ids proved for every number of allocations. Server ids wrap to 0 after 2^30 allocations (witness); partial: distinct below 2^30 allocations."
  },
  {
   "property": "C13",
   "status": "proved",
   "theorems": [
    "Verif.Props.C13_unbounded_fifo"
   ],
   "note": "Unbounded buffer is a FIFO"
  },
  {
   "property": "C14",
   "status": "proved",
   "theorems": [
    "Verif.Props.C14_put_after_dispose",
    "Verif.Props.C14_closed_only_drained",
    "Verif.Props.C14_drain_after_dispose"
   ],
   "note": "Disposing the buffer drains before closing"
  },
  {
   "property": "C15",
   "status": "proved",
   "theorems": [
    "Verif.Props.C15_table_roundtrip"
   ],
   "note": "Operation table round trip"
  },
  {
   "property": "C16",
   "status": "proved",
   "theorems": [
    "Verif.Props.C16_table_rejects",
    "Verif.Props.C16_table_only_if_valid"
   ],
   "note": "Operation table parser rejects foreign data"
  },
  {
   "property": "C17",
   "status": "partial",
   "theorems": [
    "Verif.Props.C17_table_no_crash_violated",
    "Verif.Props.C17_table_no_crash_partial",
    "Verif.Props.C17_exact_partial"
   ],
   "note": "Truncated tables crash the parser (witnesses). Partial: no crash on complete tables (with reserved and trailing bytes) nor on a wrong magic or version; and the exact set of inputs that do not crash."
  },
  {
   "property": "C18",
   "status": "proved",
   "theorems": [
    "Verif.Props.C18_handler_lookup",
    "Verif.Props.C18_export_stable",
    "Verif.Props.C18_import_stable",
    "Verif.Props.C18_table",
    "Verif.Props.C18_import_in_table"
   ],
   "note": "Operation ids stay bound to the operation"
  },
  {
   "property": "C19",
   "status": "partial",
   "theorems": [
    "Verif.Props.C19_port_roundtrip_violated",
    "Verif.Props.C19_port_roundtrip_partial"
   ],
   "note": "The flags next and complete share one bit, so a message with either flag arrives with both (witness). Partial: name and data always arrive; flags arrive when both are equal."
  },
  {
   "property": "C20",
   "status": "proved",
   "theorems": [
    "Verif.Props.C20_get",
    "Verif.Props.C20_remove",
    "Verif.Props.C20_put"
   ],
   "note": "Live instance handles"
  },
  {
   "property": "C21",
   "status": "partial",
   "theorems": [
    "Verif.Props.C21_lookup_violated",
    "Verif.Props.C21_lookup_partial",
    "Verif.Props.C21_live_found_partial",
    "Verif.Props.C21_exact_partial",
    "Verif.Props.C21_oldest_violated"
   ],
   "note": "Removing the first-added stream never unlinks it, and its successor can then not be removed either (witness). Partial: an exact map as long as the first-added stream is not removed; live streams are always found if ids are not reused; and, for every history whatsoever, exactly what the table does: which entries can never be removed again."
  },
  {
   "property": "C22",
   "status": "partial",
   "theorems": [
    "Verif.Props.C22_mono_outcome_violated",
    "Verif.Props.C22_mono_outcome_partial",
    "Verif.Props.C22_mono_get",
    "Verif.Props.C22_just_get"
   ],
   "note": "Monos made with Just and Error never call Finally (witness). Partial: created monos in full (any subscriptions, signals and callbacks, and Get); Just and Error without Finally."
  },
  {
   "property": "C23",
   "status": "partial",
   "theorems": [
    "Verif.Props.C23_notify_violated",
    "Verif.Props.C23_notify_twice_violated",
    "Verif.Props.C23_notify_partial",
    "Verif.Props.C23_resolved",
    "Verif.Props.C23_many_partial"
   ],
   "note": "A callback registered from inside OnError is told COMPLETE, and a second subscription calls callbacks again (two witnesses). Partial: one subscription, callbacks registered at any time except inside OnError; any number of subscriptions, callbacks registered before the first: exactly how often they are called (C23_many_partial)."
  },
  {
   "property": "C24",
   "status": "partial",
   "theorems": [
    "Verif.Props.C24_processor_violated",
    "Verif.Props.C24_processor_nil_violated",
    "Verif.Props.C24_processor_partial",
    "Verif.Props.C24_subscribers_partial",
    "Verif.Props.C24_second_subscriber_violated"
   ],
   "note": "A success signalled before the subscription overrides an earlier error or success, and Error(nil) is lost (two witnesses). A second subscriber takes the place of the first, which then gets nothing (witness). Partial: exactly what each of any number of subscribers gets (C24_subscribers_partial); the property for one subscriber when at most one non-nil result is signalled early."
  },
  {
   "property": "C25",
   "status": "proved",
   "theorems": [
    "Verif.Props.C25_map_outcome",
    "Verif.Props.C25_map_just_error",
    "Verif.Props.C25_map_get",
    "Verif.Props.C25_map_just_get"
   ],
   "note": "Mapping a mono"
  },
  {
   "property": "C26",
   "status": "proved",
   "theorems": [
    "Verif.Props.C26_flux_signals_step",
    "Verif.Props.C26_flux_signals",
    "Verif.Props.C26_flux_grammar",
    "Verif.Props.C26_error_flux"
   ],
   "note": "No stream element after termination"
  },
  {
   "property": "C27",
   "status": "partial",
   "theorems": [
    "Verif.Props.C27_finally_once_violated",
    "Verif.Props.C27_notify_cancel_violated",
    "Verif.Props.C27_finally_once_partial",
    "Verif.Props.C27_notify_once_partial",
    "Verif.Props.C27_error_flux_violated"
   ],
   "note": "Cancel is not idempotent: cancelling twice, or after completion, calls Finally again, and a cancelled stream never calls its Notify callbacks (two witnesses). Streams made with flux.Error never call Finally. Partial: the exact number of Finally calls for every run; without Cancel each Notify callback is called exactly once."
  },
  {
   "property": "C28",
   "status": "partial",
   "theorems": [
    "Verif.Props.C28_map_violated",
    "Verif.Props.C28_map_partial",
    "Verif.Props.C28_failure_reported"
   ],
   "note": "A failing transform does not end the mapped stream: later elements are still delivered and Finally runs again (witness). Partial: exact up to and including the first failure."
  },
  {
   "property": "C29",
   "status": "proved",
   "theorems": [
    "Verif.Props.C29_from_slice",
    "Verif.Props.C29_slice_response",
    "Verif.Props.C29_unasked"
   ],
   "note": "Slice-backed streams honour demand"
  },
  {
   "property": "C30",
   "status": "partial",
   "theorems": [
    "Verif.Props.C30_slice_response_iff_partial",
    "Verif.Props.C30_slice_response_violated",
    "Verif.Props.C30_reentrant_partial"
   ],
   "note": "SliceResponse emits the same elements for ever when demand arrives inside OnNext (witness). Partial: FromSlice in full; SliceResponse exactly when the first request exceeds the slice (C30_slice_response_iff_partial), for subscribers that do not request from inside OnNext."
  },
  {
   "property": "C31",
   "status": "partial",
   "theorems": [
    "Verif.Props.C31_flow_violated",
    "Verif.Props.C31_flow_empty_group_violated",
    "Verif.Props.C31_flow_partial",
    "Verif.Props.C31_flow_iff",
    "Verif.Props.C31_flow_finished_violated"
   ],
   "note": "A step whose awaitables have all finished already is run again and again, and a step with no awaitables is never followed by the next one (two witnesses). Partial: every flow in which each group has an awaitable that finishes after it was registered, for every finishing order. `C31_flow_iff` says exactly for which flows and finishing orders the claim holds, `C31_flow_finished_violated` that every flow reaching a finished group never comes back."
  },
  {
   "property": "C32",
   "status": "proved",
   "theorems": [
    "Verif.Props.C32_mono_to_flux",
    "Verif.Props.C32_flux_to_mono",
    "Verif.Props.C32_flux_to_void"
   ],
   "note": "Adapters between mono and stream"
  },
  {
   "property": "C33",
   "status": "proved",
   "theorems": [
    "Verif.Props.C33_int64",
    "Verif.Props.C33_int32",
    "Verif.Props.C33_int16",
    "Verif.Props.C33_int8"
   ],
   "note": "Signed integer codec round trip"
  },
  {
   "property": "C34",
   "status": "proved",
   "theorems": [
    "Verif.Props.C34_uint64",
    "Verif.Props.C34_uint32",
    "Verif.Props.C34_uint16",
    "Verif.Props.C34_uint8"
   ],
   "note": "Unsigned integer codec round trip"
  },
  {
   "property": "C35",
   "status": "proved",
   "theorems": [
    "Verif.Props.C35_string",
    "Verif.Props.C35_bytes"
   ],
   "note": "String and byte-array codec round trip"
  },
  {
   "property": "C36",
   "status": "proved",
   "theorems": [
    "Verif.Props.C36_bool",
    "Verif.Props.C36_nil",
    "Verif.Props.C36_float32",
    "Verif.Props.C36_float64",
    "Verif.Props.C36_array",
    "Verif.Props.C36_map"
   ],
   "note": "Bool, nil, float, array and map header codec round trip"
  },
  {
   "property": "C37",
   "status": "proved",
   "theorems": [
    "Verif.Props.C37_time"
   ],
   "note": "Time codec round trip"
  },
  {
   "property": "C38",
   "status": "partial",
   "theorems": [
    "Verif.Props.C38_violated_bytes",
    "Verif.Props.C38_violated_time",
    "Verif.Props.C38_violated",
    "Verif.Props.C38_partial"
   ],
   "note": "The Sizer counts 258 for a 255-byte byte array (257 are written) and counts times inside dynamic values, which the Encoder does not write (two witnesses). Partial: every other sequence of calls, nested values included."
  },
  {
   "property": "C39",
   "status": "partial",
   "theorems": [
    "Verif.Props.C39_violated",
    "Verif.Props.C39_partial"
   ],
   "note": "The signed readers refuse unsigned formats even when the number fits (witness: 200 written unsigned). Partial: signed forms with all eight readers and unsigned forms with the unsigned readers in full; signed readers of unsigned forms return the exact number or an error."
  },
  {
   "property": "C40",
   "status": "proved",
   "theorems": [
    "Verif.Props.C40_sticky"
   ],
   "note": "Decoder errors are sticky"
  },
  {
   "property": "C41",
   "status": "partial",
   "theorems": [
    "Verif.Props.C41_violated",
    "Verif.Props.C41_partial"
   ],
   "note": "A declared length that wraps a 32-bit sum passes the bounds check and crashes the reader (witness db ff ff ff ff). Partial: all reads on all inputs except strings, byte arrays and times that declare such a length; the exception is exact."
  },
  {
   "property": "C42",
   "status": "partial",
   "theorems": [
    "Verif.Props.C42_violated_time",
    "Verif.Props.C42_violated_nil",
    "Verif.Props.C42_partial"
   ],
   "note": "Skip refuses times that need the 12-byte form, and a nil written by WriteAny takes two bytes of which Skip skips one (two witnesses). Partial: every other value, of any nesting."
  },
  {
   "property": "C43",
   "status": "partial",
   "theorems": [
    "Verif.Props.C43_violated",
    "Verif.Props.C43_partial"
   ],
   "note": "A string length that wraps a 32-bit sum moves Skip backwards, so that it loops for ever (witness 92 db ff ff ff fa). Partial: Skip finishes within an explicit bound on every input in which no such length is declared."
  },
  {
   "property": "C44",
   "status": "partial",
   "theorems": [
    "Verif.Props.C44_violated_nil",
    "Verif.Props.C44_violated_keys",
    "Verif.Props.C44_partial"
   ],
   "note": "nil is written twice, and two map keys that are the same number in different formats collapse on reading (two witnesses). Partial: every nested value without nil, byte array keys and colliding keys."
  },
  {
   "property": "C45",
   "status": "proved",
   "theorems": [
    "Verif.Props.C45_slice",
    "Verif.Props.C45_map"
   ],
   "note": "Typed collections round trip"
  },
  {
   "property": "C46",
   "status": "proved",
   "theorems": [
    "Verif.Props.C46_optional"
   ],
   "note": "Optional values keep nil apart from zero"
  },
  {
   "property": "C47",
   "status": "partial",
   "theorems": [
    "Verif.Props.C47_partial",
    "Verif.Props.C47_violated"
   ],
   "note": "Unknown fields that hold a 12-byte time make decoding fail (witness). Partial: every other value in the unknown fields, any order and any number of them, for all five generated record shapes."
  },
  {
   "property": "C48",
   "status": "partial",
   "theorems": [
    "Verif.Props.C48_violated",
    "Verif.Props.C48_partial"
   ],
   "note": "A byte array of 255 bytes gets a payload with one extra byte (witness). Partial: everything else, strings and byte arrays up to the 32-bit length limit of the format."
  },
  {
   "property": "C49",
   "status": "partial",
   "theorems": [
    "Verif.Props.C49_partial",
    "Verif.Props.C49_violated",
    "Verif.Props.C49_broken_partial"
   ],
   "note": "An end of stream reported together with the last data drops complete frames (witness; TLS connections do this). Partial: every list of frames and every segmentation when the end comes alone."
  },
  {
   "property": "C50",
   "status": "partial",
   "theorems": [
    "Verif.Props.C50_interleave_violated",
    "Verif.Props.C50_interleave_partial",
    "Verif.Props.C50_single_sender_partial"
   ],
   "note": "Write has no lock and writes the length and the frame separately: two concurrent senders can interleave them (witness, with each write of the buffer taken to be atomic). Partial: schedules that do not separate a frame from its length; a single sender under every schedule."
  },
  {
   "property": "C51",
   "status": "proved",
   "theorems": [
    "Verif.Props.C51_guest_splits",
    "Verif.Props.C51_host_splits",
    "Verif.Props.C51_host_to_guest",
    "Verif.Props.C51_guest_to_host"
   ],
   "note": "Guest/host buffer framing is exact"
  },
  {
   "property": "C52",
   "status": "partial",
   "theorems": [
    "Verif.Props.C52_oversize_partial",
    "Verif.Props.C52_exact_partial",
    "Verif.Props.C52_oversize_violated"
   ],
   "note": "A frame of 2^24+20 bytes is delivered as a frame of 20 bytes, its length being truncated to 3 bytes (witness). Partial: every frame below 2^24 bytes (the guest panics before handling it); for larger ones below 4 GiB, something is delivered exactly if the length cut to three bytes fits into the buffer and is that of a header at least (`C52_exact_partial`)."
  },
  {
   "property": "C53",
   "status": "proved",
   "theorems": [
    "Verif.Props.C53_setup_first",
    "Verif.Props.C53_drains"
   ],
   "note": "A server connection requires a setup frame first"
  },
  {
   "property": "C54",
   "status": "partial",
   "theorems": [
    "Verif.Props.C54_violated",
    "Verif.Props.C54_partial"
   ],
   "note": "Frames are slices of the scanner's buffer, which is reused: a 4100-byte frame is overwritten by the next one (witness). Partial: contents stay while no more than 4096 bytes were received."
  },
  {
   "property": "C55",
   "status": "proved",
   "theorems": [
    "Verif.Props.C55_unknown_stream",
    "Verif.Props.C55_unused_id"
   ],
   "note": "Frames for unknown streams have no effect"
  },
  {
   "property": "C56",
   "status": "proved",
   "theorems": [
    "Verif.Props.C56_dispatch",
    "Verif.Props.C56_rejected",
    "Verif.Props.C56_invoked",
    "Verif.Props.C56_accounted"
   ],
   "note": "Every rejected request is answered with one error"
  },
  {
   "property": "C57",
   "status": "partial",
   "theorems": [
    "Verif.Props.C57_mapped_violated",
    "Verif.Props.C57_replies_violated",
    "Verif.Props.C57_request_response",
    "Verif.Props.C57_request_response_content",
    "Verif.Props.C57_stream_partial",
    "Verif.Props.C57_stream_content"
   ],
   "note": "A mapped flux whose transform fails keeps sending: element frames and a second terminal frame follow the error frame (witness). Partial: request/response in full; streams and channels up to mapped fluxes with a failing transform."
  },
  {
   "property": "C58",
   "status": "partial",
   "theorems": [
    "Verif.Props.C58_setup_violated",
    "Verif.Props.C58_cancel_violated",
    "Verif.Props.C58_early_request_violated",
    "Verif.Props.C58_mono_request_violated",
    "Verif.Props.C58_failed_flux_violated",
    "Verif.Props.C58_crash_violated",
    "Verif.Props.C58_no_crash_partial",
    "Verif.Props.C58_unknown_stream"
   ],
   "note": "Five crashes (witnesses): setup frame without data, cancel of a served stream (nil sink), request-n before the handler subscribed, request-n on a request/response call, a stream handler returning flux.Error. Partial: no history crashes in which every step avoids these (condition `polite`, per step and state); frames for unknown streams never crash (full)."
  },
  {
   "property": "C59",
   "status": "partial",
   "theorems": [
    "Verif.Props.C59_served_violated",
    "Verif.Props.C59_answered_violated",
    "Verif.Props.C59_forgotten_violated",
    "Verif.Props.C59_forgotten_partial",
    "Verif.Props.C59_ending_frame_closes"
   ],
   "note": "Requests being answered are never unregistered, and the first stream of each table cannot be removed (two witnesses). Partial: every stream removeStream is called for, as long as the first stream of its table is not removed; a frame that ends a stream always calls removeStream."
  },
  {
   "property": "C60",
   "status": "partial",
   "theorems": [
    "Verif.Props.C60_import_violated",
    "Verif.Props.C60_import_partial",
    "Verif.Props.C60_table_partial",
    "Verif.Props.C60_published_partial"
   ],
   "note": "0 means both 'not found' and the index of the first export (witness). Partial: the index returned for an existing export, and 0 for a missing one, over any history of a connection: the table looked in is that of the first setup frame with a readable one."
  },
  {
   "property": "C61",
   "status": "partial",
   "theorems": [
    "Verif.Props.C61_order_violated",
    "Verif.Props.C61_cancel_violated",
    "Verif.Props.C61_demand_violated",
    "Verif.Props.C61_grants_partial",
    "Verif.Props.C61_credit",
    "Verif.Props.C61_complete_partial",
    "Verif.Props.C61_completion"
   ],
   "note": "Each demand gets a goroutine of its own, so the request frame may carry a later demand; a cancel frame is sent after completion (two witnesses). Partial: the frames granting credit are one request frame and one request-n frame per further demand, each demand granted exactly once or still waiting for its goroutine, none dropped before completion; credit equals demand; no request or request-n after completion."
  },
  {
   "property": "C62",
   "status": "partial",
   "theorems": [
    "Verif.Props.C62_one_request",
    "Verif.Props.C62_outcome_partial",
    "Verif.Props.C62_outcome_violated",
    "Verif.Props.C62_no_outcome_violated",
    "Verif.Props.C62_twice_violated"
   ],
   "note": "A frame ending the stream without payload gives the caller no outcome ever, and a result received afterwards is refused; subscribing twice sends the request twice (witnesses). Partial: single subscription, any history in which the first result is not preceded by an empty end."
  },
  {
   "property": "C63",
   "status": "partial",
   "theorems": [
    "Verif.Props.C63_hang_violated",
    "Verif.Props.C63_hang_metadata_violated",
    "Verif.Props.C63_early_violated",
    "Verif.Props.C63_cancel_violated",
    "Verif.Props.C63_no_hang_partial",
    "Verif.Props.C63_returns",
    "Verif.Props.C63_no_early_return_partial"
   ],
   "note": "Rejected requests (short metadata; stream without handler) are counted and never given back, so Close hangs; a goroutine between decrement and flag check, or a channel handler cancelling its input, lets Close return early (witnesses). Partial: no hang in every interleaving without such a rejected request; no early return if no input is cancelled and no goroutine is between decrement and check when Close is called."
  },
  {
   "property": "C64",
   "status": "partial",
   "theorems": [
    "Verif.Props.C64_double_close_violated",
    "Verif.Props.C64_cancel_violated",
    "Verif.Props.C64_send_violated",
    "Verif.Props.C64_late_violated",
    "Verif.Props.C64_arrive_violated",
    "Verif.Props.C64_violated",
    "Verif.Props.C64_orderly_close_partial",
    "Verif.Props.C64_before_close"
   ],
   "note": "Five crashes (witnesses): two goroutines closing the completion channel, channel input cancelled and output ended, rejected fire-and-forget after Close, queued request answered after Close, frame arriving after Close. Partial: an orderly Close never crashes; before Close nothing crashes (full)."
  },
  {
   "property": "C65",
   "status": "partial",
   "theorems": [
    "Verif.Props.C65_fragmented_never",
    "Verif.Props.C65_violated",
    "Verif.Props.C65_unfragmented_partial"
   ],
   "note": "No fragmented request is ever served, whatever payload frames follow: the first fragment is stored (always as request/response) and never looked up again (proved for every fragmented request; witness). Partial: requests in one frame."
  },
  {
   "property": "C66",
   "status": "partial",
   "theorems": [
    "Verif.Props.C66_names_partial",
    "Verif.Props.C66_link_partial",
    "Verif.Props.C66_type_violated"
   ],
   "note": "Disagreement: linking looks up the name only (mesh.go 237-261), so an import of one kind is linked to an export of another kind (`C66_type_violated`). Proved: `C66_names_partial` / `C66_link_partial` - for every list of loaded modules whose imports are well formed, loading succeeds and every import whose name some loaded module exports is linked to an exporter of that name with that exporter's index, whatever the load order; imports nobody exports stay unlinked. Missing: agreement of the kind."
  },
  {
   "property": "C67",
   "status": "partial",
   "theorems": [
    "Verif.Props.C67_stale_violated",
    "Verif.Props.C67_links_never_change",
    "Verif.Props.C67_violated",
    "Verif.Props.C67_by_name_partial"
   ],
   "note": "Disagreement: links are never redone. `C67_violated`: after the exporter is loaded again the importer still calls the old instance (which is closed 5 s later). `C67_links_never_change`: no later load ever changes an existing link. Proved: `C67_by_name_partial` - calls made by name on the mesh use the last loaded exporter. Missing: calls of importers linked before the reload."
  },
  {
   "property": "C68",
   "status": "partial",
   "theorems": [
    "Verif.Props.C68_shared_violated",
    "Verif.Props.C68_forward_partial"
   ],
   "note": "Disagreement: the mesh overwrites the first four metadata bytes in place and the call is lazy, so one payload used for two calls goes to the second operation twice (`C68_shared_violated`). Proved: `C68_forward_partial` - fire-and-forget always, other calls if the payload is not passed in again before the call is subscribed to. Missing: payloads used twice."
  },
  {
   "property": "C69",
   "status": "partial",
   "theorems": [
    "Verif.Props.C69_empty_violated",
    "Verif.Props.C69_read_partial",
    "Verif.Props.C69_rejects"
   ],
   "note": "Disagreement: `decodeCustomSection` uses one `Read`, which fails at the end of the input even for an empty buffer, so a file ending with a wanted section with empty payload is rejected (`C69_empty_violated`). Proved: `C69_read_partial` for every other well-formed binary (any valid LEB128 encoding of the sizes), and `C69_rejects` (only well-formed binaries are accepted, no input crashes). Missing: files ending with an empty wanted section. `utf8.Valid` is a parameter; the LEB128 decoder of the wabin library is modelled after the WebAssembly specification."
  },
  {
   "property": "C70",
   "status": "proved",
   "theorems": [
    "Verif.Props.C70_round_trip",
    "Verif.Props.C70_binary"
   ],
   "note": "Proved for all UUIDs, all four forms and any mixture of upper and lower case (`C70_round_trip`), and for the binary form (`C70_binary`)."
  },
  {
   "property": "C71",
   "status": "partial",
   "theorems": [
    "Verif.Props.C71_braces_violated",
    "Verif.Props.C71_accepts_partial",
    "Verif.Props.C71_unambiguous"
   ],
   "note": "Disagreement: the braced form drops the first byte and ignores the last, so any two bytes are taken for braces (`C71_braces_violated`). Proved: `C71_accepts_partial` (accepts exactly the documented texts up to that; never crashes; reformatting is stable) and `C71_unambiguous`. Missing: the check of the braces."
  },
  {
   "property": "C72",
   "status": "proved",
   "theorems": [
    "Verif.Props.C72_random",
    "Verif.Props.C72_consecutive",
    "Verif.Props.C72_reader"
   ],
   "note": "Proved for every random stream and every sequence of NewRandom / EnableRandPool / DisableRandPool calls (`C72_random`, `C72_consecutive`, `C72_reader`)."
  },
  {
   "property": "C73",
   "status": "proved",
   "theorems": [
    "Verif.Props.C73_pairs_differ",
    "Verif.Props.C73_time"
   ],
   "note": "Proved for every sequence of clock readings: any 16384 consecutive pairs are pairwise different (`C73_pairs_differ`). Calls of SetClockSequence are excluded, as in the English (two of them can bring a pair back, shown as an example)."
  },
  {
   "property": "C74",
   "status": "partial",
   "theorems": [
    "Verif.Props.C74_table_reserved_partial",
    "Verif.Props.C74_table_reserved_violated"
   ],
   "note": "Reserved blocks of 65534 or 65535 bytes are not skipped (2+length is computed in 16 bits; witness). Partial: all shorter blocks are skipped."
  },
  {
   "property": "C75",
   "status": "partial",
   "theorems": [
    "Verif.Props.C75_guest_memory_partial",
    "Verif.Props.C75_guest_memory_violated"
   ],
   "note": "doSendFrame does not compare the frame with the buffer: the host is told to read beyond it and delivers the guest memory found there (witness: one byte too many in the 16 KiB buffer). Partial: frames that fit, and frames that exceed the guest's memory."
  },
  {
   "property": "C76",
   "status": "proved",
   "theorems": [
    "Verif.Props.C76_dispatch",
    "Verif.Props.C76_only_requests"
   ],
   "note": "Requests over wasm are rejected with one error or dispatched once"
  },
  {
   "property": "C77",
   "status": "partial",
   "theorems": [
    "Verif.Props.C77_truncated_violated",
    "Verif.Props.C77_cancel_violated",
    "Verif.Props.C77_guest_cancel_violated",
    "Verif.Props.C77_violated",
    "Verif.Props.C77_crash_iff_partial",
    "Verif.Props.C77_no_channels_partial"
   ],
   "note": "Three bytes crash the host; so do a channel request and a cancel frame while the handler has not subscribed to its input; a cancel frame for any served stream crashes the guest (witnesses). Partial: exact condition for a crash in every state, and no crash over whole histories of complete frames without channels."
  },
  {
   "property": "C78",
   "status": "partial",
   "theorems": [
    "Verif.Props.C78_violated",
    "Verif.Props.C78_last_set_partial"
   ],
   "note": "Setting the last index (2^32-1) crashes: index+1 wraps to 0 (witness). Partial: all other indices."
  },
  {
   "property": "C79",
   "status": "partial",
   "theorems": [
    "Verif.Props.C79_violated",
    "Verif.Props.C79_host_violated",
    "Verif.Props.C79_guest_partial",
    "Verif.Props.C79_suffix_partial"
   ],
   "note": "Only request/response and fire-and-forget on the guest drop the 8 routing bytes; streams and channels on the guest and every kind on the host pass them on (witnesses). Partial: the two guest kinds; in all cases the handler gets the caller's metadata with or without the prefix."
  },
  {
   "property": "C80",
   "status": "partial",
   "theorems": [
    "Verif.Props.C80_close_first_violated",
    "Verif.Props.C80_listen_hangs_violated",
    "Verif.Props.C80_race_violated",
    "Verif.Props.C80_violated",
    "Verif.Props.C80_partial",
    "Verif.Props.C80_close_first_partial",
    "Verif.Props.C80_idempotent_partial"
   ],
   "note": "Close before Listen leaves the listener open for good and Listen running; a connection accepted while Close runs is refused but never closed (witnesses). Partial: if Close comes after Listen opened its listener, listener and all connections are closed and Listen returns, except for at most the one connection accepted during Close; exact behaviour for Close before Listen; Close twice is Close once."
  },
  {
   "property": "C81",
   "status": "partial",
   "theorems": [
    "Verif.Props.C81_violated",
    "Verif.Props.C81_partial"
   ],
   "note": "An ended connection stays in the server's table: nothing but the acceptor's onClose removes it and the acceptor is not given the transport to pass (witness). Partial: the table consists of exactly the connections ever served, in every history."
  },
  {
   "property": "C82",
   "status": "partial",
   "theorems": [
    "Verif.Props.C82_violated",
    "Verif.Props.C82_partial",
    "Verif.Props.C82_error_partial",
    "Verif.Props.C82_decode_partial",
    "Verif.Props.C82_parse_partial",
    "Verif.Props.C82_time_partial",
    "Verif.Props.C82_required_partial",
    "Verif.Props.C82_plain_partial",
    "Verif.Props.C82_format_partial",
    "Verif.Props.C82_text_time_partial",
    "Verif.Props.C82_decode_parse_partial"
   ],
   "note": "NillableString, NillableBool and NillableNumeric dereference their argument before looking at the error, so an absent value and every decoding error crash (witness). Partial: exact condition for the crash, for every decoder and byte string; NillableParse, StringToTimePtr and Parse in full."
  },
  {
   "property": "C83",
   "status": "partial",
   "theorems": [
    "Verif.Props.C83_violated",
    "Verif.Props.C83_partial"
   ],
   "note": "Go conversions truncate silently (witness: 300 as int8). Partial: the value is kept exactly if it is in range, the result is always in range, the decoder's error is passed on."
  },
  {
   "property": "C84",
   "status": "proved",
   "theorems": [
    "Verif.Props.C84_fields",
    "Verif.Props.C84_unix",
    "Verif.Props.C84_reading"
   ],
   "note": "Proved for every time-based UUID and every clock reading."
  },
  {
   "property": "C85",
   "status": "partial",
   "theorems": [
    "Verif.Props.C85_violated",
    "Verif.Props.C85_second_violated",
    "Verif.Props.C85_mono",
    "Verif.Props.C85_mapper",
    "Verif.Props.C85_just_error",
    "Verif.Props.C85_processor_partial",
    "Verif.Props.C85_processor_exact_partial",
    "Verif.Props.C85_ended_partial"
   ],
   "note": "Monos made with Create, mapped monos, Just and Error: proved in full. Processors: a result arriving while another subscriber is registered, between Block's test and its subscription, is lost and the caller waits forever (witness). What a blocked caller gets is given exactly, for any number of subscribers (C85_processor_exact_partial); missing, because the code loses them, are the results in that window, those after a later subscription and all but the last of the ones before the first subscription."
  },
  {
   "property": "C86",
   "status": "partial",
   "theorems": [
    "Verif.Props.C86_fresh_violated",
    "Verif.Props.C86_violated",
    "Verif.Props.C86_mapper_violated",
    "Verif.Props.C86_error_violated",
    "Verif.Props.C86_cancel_violated",
    "Verif.Props.C86_crash_partial",
    "Verif.Props.C86_result_partial",
    "Verif.Props.C86_cancel_once_partial",
    "Verif.Props.C86_mapper_partial",
    "Verif.Props.C86_method_partial",
    "Verif.Props.C86_mapper_crash_partial",
    "Verif.Props.C86_mapper_failed_partial",
    "Verif.Props.C86_flux_error_partial"
   ],
   "note": "The method Block on a stream nobody subscribed to dereferences nil, always; a failing transform, or a cancel besides the end, closes the done channel twice; a mapped flux.Error is waited for forever (witnesses). Partial: exact condition for the crash of the function Block, its result without cancellation and with one, mapped streams: exactly when they crash (C86_mapper_crash_partial), the result if the transform does not fail or fails once, the method on a stream with a subscription."
  },
  {
   "property": "C87",
   "status": "proved",
   "theorems": [
    "Verif.Props.C87_answer",
    "Verif.Props.C87_completes",
    "Verif.Props.C87_invoked"
   ],
   "note": "Proved over a model of the whole connection: two handlers joined by two ordered wires. The wires deliver frames intact and in order; that the code's TCP writer and reader do not always provide such a wire is C50 and C54."
  },
  {
   "property": "C88",
   "status": "proved",
   "theorems": [
    "Verif.Props.C88_all_keys",
    "Verif.Props.C88_typed",
    "Verif.Props.C88_dynamic"
   ],
   "note": "Proved for typed maps with any key type whose == is equality (all but floats) and for dynamic maps with keys of every kind (`C88_all_keys`)."
  },
  {
   "property": "C89",
   "status": "proved",
   "theorems": [
    "Verif.Props.C89_overflow"
   ],
   "note": "Proved for all sequences of Writer calls. Sizes are kept below 4 GiB because offsets are 32-bit."
  },
  {
   "property": "C90",
   "status": "proved",
   "theorems": [
    "Verif.Props.C90_received"
   ],
   "note": "Proved for every history in which no stream id is opened twice; histories that crash the endpoint are C58."
  },
  {
   "property": "C91",
   "status": "partial",
   "theorems": [
    "Verif.Props.C91_stream_partial",
    "Verif.Props.C91_completes_partial",
    "Verif.Props.C91_invoked",
    "Verif.Props.C91_violated"
   ],
   "note": "Violated for channels: when the answering end cancels the input of a channel, the calling end takes the cancel frame for the end of the answer (`C91_violated`). Proved for all streams, and for channels whose input the peer does not cancel."
  },
  {
   "property": "C92",
   "status": "proved",
   "theorems": [
    "Verif.Props.C92_invoked"
   ],
   "note": "Proved over the model of the whole connection of C87."
  },
  {
   "property": "C93",
   "status": "partial",
   "theorems": [
    "Verif.Props.C93_partial",
    "Verif.Props.C93_fnf_violated",
    "Verif.Props.C93_map_violated",
    "Verif.Props.C93_cancel_violated",
    "Verif.Props.C93_channel_violated",
    "Verif.Props.C93_ends",
    "Verif.Props.C93_goes_on"
   ],
   "note": "Violated: HandleFrame returns an error, which ends the connection, for the error frame that rejects a fire-and-forget call, for an element that follows one a transformation failed on, for a cancel that arrives before the goroutine of the request ran, and for channel input that arrives so early (`C93_*_violated`). Proved for ends that do none of these."
  },
  {
   "property": "C94",
   "status": "partial",
   "theorems": [
    "Verif.Props.C94_input_partial",
    "Verif.Props.C94_completes_partial",
    "Verif.Props.C94_cancel_violated",
    "Verif.Props.C94_violated",
    "Verif.Props.C94_early_violated"
   ],
   "note": "Violated: when the caller cancels the output of a channel the handler is told that its input is complete, and an element of the input that arrives before the goroutine serving the request has run is refused while the next one is delivered (`C94_cancel_violated`, `C94_early_violated`). Proved when neither happens."
  },
  {
   "property": "C95",
   "status": "partial",
   "theorems": [
    "Verif.Props.C95_bound_partial",
    "Verif.Props.C95_exact_partial",
    "Verif.Props.C95_lost_violated",
    "Verif.Props.C95_violated"
   ],
   "note": "Violated: a RequestN frame that arrives before the goroutine serving the request has registered the stream is ignored without an error, so that demand is lost (`C95_lost_violated`). The bound is proved without further conditions, the equality for requests that arrive while the stream is open. Served streams are in the table (`allKept`), as handler.go has it; the field is there for the wasm host, which leaves some out."
  },
  {
   "property": "C96",
   "status": "partial",
   "theorems": [
    "Verif.Props.C96_bound_partial",
    "Verif.Props.C96_exact_partial",
    "Verif.Props.C96_half_violated",
    "Verif.Props.C96_violated"
   ],
   "note": "Violated: when the handler completes the output of a channel the calling end forgets the stream, so what the handler requests of the still open input afterwards never reaches the source (`C96_half_violated`). The bound is proved without further conditions, the equality for requests handed over while the calling end has the stream open."
  },
  {
   "property": "C97",
   "status": "partial",
   "theorems": [
    "Verif.Props.C97_quiet_partial",
    "Verif.Props.C97_told_partial",
    "Verif.Props.C97_crash_partial",
    "Verif.Props.C97_stop_violated",
    "Verif.Props.C97_crash_violated",
    "Verif.Props.C97_violated"
   ],
   "note": "Violated: the peer crashes (nil sink) on the cancel frame of any stream, and of a channel whose input its handler has not subscribed to (`C97_crash_violated`; `C97_crash_partial` says exactly when), and no source is ever cancelled in any run (`C97_stop_violated`). Proved: the subscriber sees nothing more, and each cancellation sends one cancel frame."
  },
  {
   "property": "C98",
   "status": "proved",
   "theorems": [
    "Verif.Props.C98_answer",
    "Verif.Props.C98_completes",
    "Verif.Props.C98_invoked",
    "Verif.Props.C98_fnf"
   ],
   "note": "Proved over the model of host and guest (Model/Wasm.lean), by a simulation in the model of the rsocket connection (Props/WasmSim.lean)."
  },
  {
   "property": "C99",
   "status": "proved",
   "theorems": [
    "Verif.Props.C99_stream",
    "Verif.Props.C99_completes",
    "Verif.Props.C99_invoked"
   ],
   "note": "Proved as stated, by the same simulation. For channels whose input is cancelled see C91."
  },
  {
   "property": "C100",
   "status": "partial",
   "theorems": [
    "Verif.Props.C100_bound_partial",
    "Verif.Props.C100_exact_partial",
    "Verif.Props.C100_once_violated",
    "Verif.Props.C100_single_partial",
    "Verif.Props.C100_lost_violated",
    "Verif.Props.C100_violated"
   ],
   "note": "Violated: the host does not enter the streams of the guest's stream calls in its table, so that every request for more elements after the first is dropped: the source is never asked for more than one of the subscriber's requests, in any run (`C100_once_violated`; `C100_lost_violated` is a concrete run). The bound is proved for both directions, the equality for the host calling the guest (for channels while the input has not ended). When the guest calls a stream operation of the host, the source has been asked for exactly one of the requests once the host is done (`C100_single_partial`)."
  },
  {
   "property": "C101",
   "status": "partial",
   "theorems": [
    "Verif.Props.C101_order",
    "Verif.Props.C101_stuck_partial",
    "Verif.Props.C101_few_partial",
    "Verif.Props.C101_flows_partial",
    "Verif.Props.C101_jam_violated",
    "Verif.Props.C101_violated"
   ],
   "note": "Violated: when a callback of the host sends from inside `recvOne` (a subscriber that makes a call for each element of a guest's stream, say) and the guest sends many frames in one call, the send loop can wait for the receive loop and the other way round for ever (`C101_jam_violated`: a stream of 202 elements). `C101_stuck_partial` says exactly which states these are; up to 101 frames of the guest are safe (`C101_few_partial`), and so are callbacks that send nothing from inside (`C101_flows_partial`: then everything gets through). The order holds always (`C101_order`)."
  },
  {
   "property": "C102",
   "status": "partial",
   "theorems": [
    "Verif.Props.C102_sent_partial",
    "Verif.Props.C102_times_partial",
    "Verif.Props.C102_unheard_violated",
    "Verif.Props.C102_violated"
   ],
   "note": "Violated: each subscription sends the request again, with the same stream id, and the operation is carried out again (`C102_violated`); of two subscribers the first never sees an outcome (`C102_unheard_violated`). `C102_sent_partial` and `C102_times_partial` say exactly how often: once for each subscription, always with the payload of the call."
  },
  {
   "property": "C103",
   "status": "partial",
   "theorems": [
    "Verif.Props.C103_quiet_partial",
    "Verif.Props.C103_told_partial",
    "Verif.Props.C103_ends_violated",
    "Verif.Props.C103_stop_violated",
    "Verif.Props.C103_refused_violated",
    "Verif.Props.C103_violated"
   ],
   "note": "Violated: the caller's end takes the cancel frame for the end of the whole channel: the caller's subscriber is told that the output is complete (`C103_ends_violated`, in every run in which it is still waiting), what the handler says afterwards is refused as of an unknown stream (`C103_refused_violated`), which ends the connection (C93), and the source of the input is never cancelled (`C103_stop_violated`). Proved: the handler sees nothing more of the input, and each cancellation sends one cancel frame."
  },
  {
   "property": "C104",
   "status": "partial",
   "theorems": [
    "Verif.Props.C104_quiet_partial",
    "Verif.Props.C104_told_partial",
    "Verif.Props.C104_crash_partial",
    "Verif.Props.C104_dropped_violated",
    "Verif.Props.C104_ends_violated",
    "Verif.Props.C104_stop_violated",
    "Verif.Props.C104_crash_violated",
    "Verif.Props.C104_violated"
   ],
   "note": "Violated: the guest crashes when the host cancels a stream (`C104_crash_violated`; `C104_crash_partial` says exactly when a side crashes), the host drops the guest's cancellation of the stream of a stream operation and goes on (`C104_dropped_violated`), cancelling the input of a channel ends the caller's output (`C104_ends_violated`), and no source is ever cancelled (`C104_stop_violated`). Proved for both directions: whoever cancels sees nothing more, and each cancellation sends one frame."
  },
  {
   "property": "C105",
   "status": "partial",
   "theorems": [
    "Verif.Props.C105_input_partial",
    "Verif.Props.C105_completes_partial",
    "Verif.Props.C105_cancel_violated",
    "Verif.Props.C105_violated",
    "Verif.Props.C105_early_violated"
   ],
   "note": "Violated: when the caller cancels the output the handler is told that the input is complete (`C105_cancel_violated`, both directions), and elements that arrive before the host's goroutine serving the request has run are lost (`C105_early_violated`). Proved when neither happens."
  },
  {
   "property": "C106",
   "status": "partial",
   "theorems": [
    "Verif.Props.C106_bound_partial",
    "Verif.Props.C106_exact_partial",
    "Verif.Props.C106_dropped_partial",
    "Verif.Props.C106_half_violated",
    "Verif.Props.C106_violated"
   ],
   "note": "Violated: once the handler has completed the output the caller has forgotten the stream and drops further requests for input (`C106_half_violated`; `C106_dropped_partial` says how). Proved: never more than requested, and exactly as much when the caller had the stream open at each request."
  },
  {
   "property": "C107",
   "status": "partial",
   "theorems": [
    "Verif.Props.C107_calls_partial",
    "Verif.Props.C107_others_partial",
    "Verif.Props.C107_ends_partial",
    "Verif.Props.C107_first_violated",
    "Verif.Props.C107_violated"
   ],
   "note": "Violated: the first stream a table ever had stays known after its last frame (`C107_first_violated`, for every history). Proved: the calls, that nothing happens for unknown streams, that other streams are untouched, and that streams other than the first are forgotten as long as the first has not been removed."
  },
  {
   "property": "C108",
   "status": "partial",
   "theorems": [
    "Verif.Props.C108_parity",
    "Verif.Props.C108_differ_partial",
    "Verif.Props.C108_wasm_parity",
    "Verif.Props.C108_wasm_differ_partial",
    "Verif.Props.C108_again_violated",
    "Verif.Props.C108_violated"
   ],
   "note": "Violated: a call subscribed twice sends its request twice under the same id (`C108_again_violated`). Proved: odd and even ids without further hypotheses; different ids if no call is subscribed twice; both over rsocket and over wasm."
  },
  {
   "property": "C109",
   "status": "partial",
   "theorems": [
    "Verif.Props.C109_unchanged_partial",
    "Verif.Props.C109_same_partial",
    "Verif.Props.C109_arrives_partial",
    "Verif.Props.C109_crash_partial",
    "Verif.Props.C109_large_violated",
    "Verif.Props.C109_huge_violated",
    "Verif.Props.C109_violated",
    "Verif.Props.C109_unchanged_violated"
   ],
   "note": "Violated: a frame of 16 MiB or more makes the sender crash (`C109_large_violated`, `C109_violated`), and of a frame of 4 GiB the size wraps around and the data are silently dropped (`C109_huge_violated`, `C109_unchanged_violated`). Proved, if no frame has 4 GiB or more: frames arrive unchanged, in order and without a gap; nothing is lost; the transport crashes exactly for frames of 16 MiB or more; and every run down to the bytes is a run of the model in which frames are handed over directly (`C109_same_partial`), on which C87, C91-C97, C102, C103 and C108 are proved."
  },
  {
   "property": "C110",
   "status": "partial",
   "theorems": [
    "Verif.Props.C110_same_partial",
    "Verif.Props.C110_frames_partial",
    "Verif.Props.C110_host_large",
    "Verif.Props.C110_leak_violated",
    "Verif.Props.C110_violated"
   ],
   "note": "Violated: a frame of the guest a few bytes too large for its 16 KiB buffer reaches the host with bytes of the guest's memory in place of its end (`C110_leak_violated`, `C110_violated`), and a frame of the host too large for the buffer crashes its send loop (`C110_host_large`). Proved, if every frame with its three size bytes fits into the buffer: every run down to the bytes has the same outcome as the run of the model in which frames are handed over directly, and nothing is lost (`C110_same_partial`, `C110_frames_partial`); on that model C98-C100 and C104-C106 are proved."
  },
  {
   "property": "C111",
   "status": "partial",
   "theorems": [
    "Verif.Props.C111_call_partial",
    "Verif.Props.C111_invoked_partial",
    "Verif.Props.C111_fnf_partial",
    "Verif.Props.C111_stream_partial",
    "Verif.Props.C111_stream_invoked_partial",
    "Verif.Props.C111_huge_violated",
    "Verif.Props.C111_violated"
   ],
   "note": "Violated: of a payload of 4 GiB the handler gets nothing (`C111_huge_violated`, `C111_violated`); and a peer that cancels the input of a channel ends the stream for the subscriber (`C91_violated`). Proved for requests of all four kinds if no frame has 4 GiB or more and, for channels, the peer has not cancelled the input (`C111_call_partial`, `C111_invoked_partial`, `C111_fnf_partial`, `C111_stream_partial`, `C111_stream_invoked_partial`), by composing C109 with C87, C91 and C92."
  },
  {
   "property": "C112",
   "status": "partial",
   "theorems": [
    "Verif.Props.C112_tcp_partial",
    "Verif.Props.C112_wasm_partial",
    "Verif.Props.C112_violated",
    "Verif.Props.C112_memory_partial"
   ],
   "note": "Violated: a service that answers a string of 2^32 bytes makes the caller get the empty string (`C112_violated`). Proved for records and strings whose encoding has a 32-bit length, and, over TCP, frames below 4 GiB (`C112_tcp_partial`, `C112_wasm_partial`), by composing C47, C48, C18 with C111 and C98; and between host and guest down to the bytes in the guest's memory, for frames that fit in the buffers (`C112_memory_partial`, with C127)."
  },
  {
   "property": "C113",
   "status": "partial",
   "theorems": [
    "Verif.Props.C113_memory_partial",
    "Verif.Props.C113_memory_channel_partial",
    "Verif.Props.C113_tcp_partial",
    "Verif.Props.C113_channel_partial",
    "Verif.Props.C113_wasm_partial",
    "Verif.Props.C113_wasm_channel_partial",
    "Verif.Props.C113_violated"
   ],
   "note": "Violated: an element of 2^32 bytes arrives as the empty string (`C113_violated`). Proved for strings shorter than that, over TCP for frames below 4 GiB, and for channels whose input the peer has not cancelled (`C113_tcp_partial`, `C113_channel_partial`, `C113_wasm_partial`, `C113_wasm_channel_partial`), by composing C111 and C99 with the codecs of records (C47) and strings; and down to the bytes in the guest's memory, for frames that fit in the buffers (`C113_memory_partial`, `C113_memory_channel_partial`, with C127)."
  },
  {
   "property": "C114",
   "status": "partial",
   "theorems": [
    "Verif.Props.C114_input_partial",
    "Verif.Props.C114_wasm_partial",
    "Verif.Props.C114_violated"
   ],
   "note": "Violated: when the caller cancels the output, the service sees the input complete (`C114_violated`). Proved for callers that do not cancel the output, input that does not arrive before the service subscribed and strings shorter than 2^32 bytes (`C114_input_partial`, `C114_wasm_partial`), by composing C94 and C105 with the codec."
  },
  {
   "property": "C115",
   "status": "partial",
   "theorems": [
    "Verif.Props.C115_tcp_partial",
    "Verif.Props.C115_wasm_partial",
    "Verif.Props.C115_violated"
   ],
   "note": "Violated (`C115_violated`): the client passes no metadata, so the peer cannot know the operation. Proved instead, for all runs (over TCP: frames below 4 GiB; the peer has sent no cancel frame for the call): no operation is invoked for the call, the subscriber sees nothing or the error \"Invalid metadata\", and once nothing is under way it has seen exactly that (`C115_tcp_partial`, `C115_wasm_partial`)."
  },
  {
   "property": "C116",
   "status": "partial",
   "theorems": [
    "Verif.Props.C116_processor_partial",
    "Verif.Props.C116_violated"
   ],
   "note": "Violated (`C116_violated`): what was pushed before the subscription is lost (transport/wasmrs/cmd/fbp/host pushes into a processor which nobody may have subscribed to yet). Proved for every subscriber (`C116_processor_partial`): it sees what is pushed between its subscription and the next one, in order and without a gap, up to the end, all of it unless it cancels. Missing: what was pushed before; what is pushed after somebody else has subscribed."
  },
  {
   "property": "C117",
   "status": "partial",
   "theorems": [
    "Verif.Props.C117_component_partial",
    "Verif.Props.C117_values_partial",
    "Verif.Props.C117_pipeline_partial",
    "Verif.Props.C117_forward_partial",
    "Verif.Props.C117_violated",
    "Verif.Props.C117_safe_violated"
   ],
   "note": "Violated: a payload that only says that the port is complete is taken for a value, because the two flags are one bit (C19), and makes the handler fail (`C117_violated`); a payload without metadata crashes it (`C117_safe_violated`). Proved otherwise: for all payloads written by `PortIO.Encode` that do not merely complete the input port, with answers below 4 GiB (`C117_component_partial`, for values written as records and strings `C117_values_partial`, both components in a row `C117_pipeline_partial`; what is sent on between them `C117_forward_partial`, where the flags are those that the one bit allows). That the decoder of the record or string does not crash on the payloads (C41) is assumed there."
  },
  {
   "property": "C118",
   "status": "partial",
   "theorems": [
    "Verif.Props.C118_counts",
    "Verif.Props.C118_handler_partial",
    "Verif.Props.C118_first_partial",
    "Verif.Props.C118_error",
    "Verif.Props.C118_violated"
   ],
   "note": "Proved in full for the component, for fewer than 2^31-1 words (`C118_counts`). Violated for the handler (`C118_violated`): because next and complete are one bit (C19), every word also completes the words, so only the first one is counted. Proved for the handler: it is right if at most one payload is for the port (`C118_handler_partial`); of several words exactly the first is counted, if the decoder crashes on none (`C118_first_partial`). A first payload that is not a string is reported to the subscriber (`C118_error`)."
  },
  {
   "property": "C119",
   "status": "partial",
   "theorems": [
    "Verif.Props.C119_partial",
    "Verif.Props.C119_skip_partial",
    "Verif.Props.C119_violated"
   ],
   "note": "Violated for `Skip`, which ignores that it has run past the end when it steps over a number, a time or a short string: of a float64 the first byte is enough for it (`C119_violated`). Proved for every other read (`C119_partial`), and for `Skip` that it returns an error or every further read does (`C119_skip_partial`)."
  },
  {
   "property": "C120",
   "status": "partial",
   "theorems": [
    "Verif.Props.C120_partial",
    "Verif.Props.C120_violated"
   ],
   "note": "Violated if the last field is one the record does not know: a counter counts to five though its request lost the end of such a field (`C120_violated`, because of C119). Proved in `C120_partial`: refused if the last field is one of the record, as in all requests of the generated clients; in any case refused or answered like the whole request, never with a record that was not sent."
  },
  {
   "property": "C121",
   "status": "proved",
   "theorems": [
    "Verif.Props.C121_answer",
    "Verif.Props.C121_completes",
    "Verif.Props.C121_invoked",
    "Verif.Props.C121_fnf",
    "Verif.Props.C121_one",
    "Verif.Props.C121_names"
   ],
   "note": "Proved for request/response and fire-and-forget between the modules of a mesh (`Model/MeshSystem.lean`), under the same limits as C98: fewer than 2^30 calls per end, monos subscribed to at most once. `C121_answer`: what the caller is told, if anything, is what the guest of the linked module resolved the request with (errors lose nothing but their type); `C121_completes`: once nothing is under way, it has been told; `C121_invoked`/`C121_fnf`: which handler is invoked, with which payload, once; `C121_one`: passed on once, and no two calls as one; `C121_names`: where the links come from. Streams and channels through the mesh are not modelled."
  },
  {
   "property": "C122",
   "status": "partial",
   "theorems": [
    "Verif.Props.C122_exact",
    "Verif.Props.C122_partial",
    "Verif.Props.C122_greets",
    "Verif.Props.C122_violated"
   ],
   "note": "Fails (`C122_violated`): both errors of `Get` are dropped (main.go 33, 37), so when the call of `concat` fails, `sayHello` is called with the empty name and the caller is told \"Hello, \". `C122_partial`: calls answered with strings (or not at all); `C122_exact`: what happens with any answers, failures counting as empty strings; `C122_greets`: with the handlers of the example answering, the caller gets \"Hello, \" and both names."
  },
  {
   "property": "C123",
   "status": "proved",
   "theorems": [
    "Verif.Props.C123_sent",
    "Verif.Props.C123_stream",
    "Verif.Props.C123_completes",
    "Verif.Props.C123_invoked"
   ],
   "note": "Proved for streams between the modules of a mesh (`Model/MeshSystem.lean`), under the same limits as C99 and C121: fewer than 2^30 calls per end, fluxes subscribed to at most once. `C123_stream`: what is seen is a beginning of what the guest of the linked module answered; `C123_completes`: once nothing is under way, it is all of it; `C123_invoked`: which operation is invoked there, with which payload; `C123_sent`: a stream that was passed on is sent to the other module once the goroutines of the hosts have run. Channels through the mesh are not modelled."
  },
  {
   "property": "C124",
   "status": "partial",
   "theorems": [
    "Verif.Props.C124_single_partial",
    "Verif.Props.C124_bound_partial",
    "Verif.Props.C124_lost_violated",
    "Verif.Props.C124_violated"
   ],
   "note": "Violated, for the same reason as C100: the host of the module that subscribes drops every request for more elements after the first (`C124_lost_violated` is a concrete run, `C124_violated`). Proved: the source is never asked for more than one of the subscriber's requests, and once all is settled and the stream goes on, it has been asked for exactly one of them (`C124_single_partial`), so never for more than all of them (`C124_bound_partial`)."
  },
  {
   "property": "C125",
   "status": "partial",
   "theorems": [
    "Verif.Props.C125_quiet_partial",
    "Verif.Props.C125_told_partial",
    "Verif.Props.C125_dropped_violated",
    "Verif.Props.C125_survives_partial",
    "Verif.Props.C125_kept_violated",
    "Verif.Props.C125_stop_violated",
    "Verif.Props.C125_violated"
   ],
   "note": "Violated in its last part: the host drops every cancellation it is handed (`C125_dropped_violated`), never sends one to the module of the export (`C125_kept_violated`), and no source is ever cancelled (`C125_stop_violated`), so the export goes on producing elements; `C125_violated` is a concrete run. Proved: the subscriber sees nothing more (`C125_quiet_partial`), its host is told once per cancellation (`C125_told_partial`), and no module crashes when it is (`C125_survives_partial`)."
  },
  {
   "property": "C126",
   "status": "proved",
   "theorems": [
    "Verif.Props.C126_import",
    "Verif.Props.C126_call",
    "Verif.Props.C126_stream",
    "Verif.Props.C126_fnf",
    "Verif.Props.C126_by_name"
   ],
   "note": "`C126_import`: what the id of an import is linked to; `C126_call`, `C126_fnf` and `C126_stream`: a request with that id in a running mesh; `C126_by_name`: requests by name. It composes C15, C18, C66, C67, C121 and C123."
  },
  {
   "property": "C127",
   "status": "partial",
   "theorems": [
    "Verif.Props.C127_call_partial",
    "Verif.Props.C127_invoked_partial",
    "Verif.Props.C127_fnf_partial",
    "Verif.Props.C127_stream_partial",
    "Verif.Props.C127_stream_invoked_partial",
    "Verif.Props.C127_leak_violated",
    "Verif.Props.C127_violated"
   ],
   "note": "Violated: if a request of the guest is one byte too large for the buffer of 16 KiB, the host invokes the operation with other data, which ends in a byte of the guest's memory behind the buffer (`C127_leak_violated`, `C127_violated`). Proved for requests of all four kinds in both directions if the frames fit in the buffers and, for channels, the other side has not cancelled the input (`C127_call_partial`, `C127_invoked_partial`, `C127_fnf_partial`, `C127_stream_partial`, `C127_stream_invoked_partial`), by composing C110 with C98 and C99."
  },
  {
   "property": "C128",
   "status": "partial",
   "theorems": [
    "Verif.Props.C128_closed",
    "Verif.Props.C128_in_turn",
    "Verif.Props.C128_returns_partial",
    "Verif.Props.C128_no_crash_partial",
    "Verif.Props.C128_stuck_violated",
    "Verif.Props.C128_crash_violated",
    "Verif.Props.C128_violated"
   ],
   "note": "The first part holds (`C128_closed`), and instances whose turn has not come are unaffected (`C128_in_turn`). Violated: if the guest of one instance has sent a stream request that was rejected, Close waits for ever, and the instances after it in the order of the map are never closed (`C128_stuck_violated`); a call into an instance that is closed already, by the guest of one that is not, crashes (`C128_crash_violated`, `C128_violated`). Proved: Close returns if no request was rejected in the ways of C63 (`C128_returns_partial`), and an orderly Close never crashes (`C128_no_crash_partial`)."
  },
  {
   "property": "C129",
   "status": "partial",
   "theorems": [
    "Verif.Props.C129_slice_exact",
    "Verif.Props.C129_map_exact",
    "Verif.Props.C129_slice_partial",
    "Verif.Props.C129_map_partial",
    "Verif.Props.C129_text",
    "Verif.Props.C129_text_refused",
    "Verif.Props.C129_map_grown",
    "Verif.Props.C129_reference",
    "Verif.Props.C129_violated"
   ],
   "note": "Violated: with a byte array of 255 bytes among the elements the payload has an extra zero byte (`C129_violated`, as in C48). Exactly: one zero byte for every byte the Sizer counts too many, and the value is given back all the same (`C129_slice_exact`, `C129_map_exact`); nothing is left over if the Sizer is right about every element (`C129_slice_partial`, `C129_map_partial`). The other parts hold (`C129_text`, `C129_text_refused`, `C129_map_grown`, `C129_reference`)."
  },
  {
   "property": "C130",
   "status": "partial",
   "theorems": [
    "Verif.Props.C130_partial",
    "Verif.Props.C130_violated"
   ],
   "note": "Violated for `to` = 2^64 - 1: the counter wraps to 0 and the stream never completes (`C130_violated`). It holds for every other `to` (`C130_partial`)."
  },
  {
   "property": "C131",
   "status": "partial",
   "theorems": [
    "Verif.Props.C131_same",
    "Verif.Props.C131_values",
    "Verif.Props.C131_outstanding",
    "Verif.Props.C131_never_idle",
    "Verif.Props.C131_cancel_violated",
    "Verif.Props.C131_demand_violated",
    "Verif.Props.C131_violated"
   ],
   "note": "Violated in the last two parts: elements are sent without demand, and the input is requested further after Cancel (`C131_demand_violated`, `C131_violated`); it is never cancelled in any history (`C131_cancel_violated`). The others hold: `C131_values`, `C131_outstanding`, `C131_never_idle`; and with Cancel, the subscriber sees exactly what it would see of a source that sends the elements in upper case (`C131_same`)."
  },
  {
   "property": "C132",
   "status": "partial",
   "theorems": [
    "Verif.Props.C132_text",
    "Verif.Props.C132_bytes",
    "Verif.Props.C132_message",
    "Verif.Props.C132_partial",
    "Verif.Props.C132_replaced",
    "Verif.Props.C132_mixed",
    "Verif.Props.C132_shows",
    "Verif.Props.C132_violated"
   ],
   "note": "Violated: a text of 4091 letters begins with the end of the text `lost` after the next message has arrived (`C132_violated`). Exactly what such a text shows is `C132_shows`, for every first frame of 4094 to 8000 bytes and every second of up to 4093. Values keep as long as no more than 4096 bytes have been received (`C132_partial`) and once the buffer they are in has been replaced by a larger one (`C132_replaced`). That the model looks at the right memory is `C132_text`, `C132_bytes` and `C132_message`."
  },
  {
   "property": "C133",
   "status": "partial",
   "theorems": [
    "Verif.Props.C133_partial",
    "Verif.Props.C133_integers_refused",
    "Verif.Props.C133_counter_refused",
    "Verif.Props.C133_word_count_refused",
    "Verif.Props.C133_violated"
   ],
   "note": "Violated: JSON numbers become `float64`, which no reader of integers accepts (`C133_integers_refused`), so that the counter of the examples cannot be called at all (`C133_counter_refused`) and no word count can be passed (`C133_word_count_refused`). Texts arrive (`C133_partial`)."
  },
  {
   "property": "C134",
   "status": "partial",
   "theorems": [
    "Verif.Props.C134_ignored",
    "Verif.Props.C134_partial",
    "Verif.Props.C134_kept",
    "Verif.Props.C134_last_number_violated",
    "Verif.Props.C134_violated"
   ],
   "note": "Violated: handlers set on a connection are never asked for; whatever is set and whenever, what can be observed is the same as without (`C134_ignored`). Requests are served by the exported operations (`C134_partial`). The handlers are kept (`C134_kept`), except under the last number, where setting one crashes (`C134_last_number_violated`)."
  },
  {
   "property": "C135",
   "status": "partial",
   "theorems": [
    "Verif.Props.C135_over_iff",
    "Verif.Props.C135_call_partial",
    "Verif.Props.C135_stream_partial",
    "Verif.Props.C135_call_waits_violated",
    "Verif.Props.C135_stream_waits_violated",
    "Verif.Props.C135_violated"
   ],
   "note": "Violated: the handler is not told of the end and errors of sending are dropped, so the subscriber of a call that was not answered before the end, or was made after it, never sees anything (`C135_call_waits_violated`), nor that of a stream (`C135_stream_waits_violated`). What arrived before the end is seen, exactly (`C135_call_partial`, `C135_stream_partial`)."
  },
  {
   "property": "C136",
   "status": "partial",
   "theorems": [
    "Verif.Props.C136_call_partial",
    "Verif.Props.C136_stream_partial",
    "Verif.Props.C136_call_waits_violated",
    "Verif.Props.C136_stream_waits_violated",
    "Verif.Props.C136_each_frame_once",
    "Verif.Props.C136_unnoticed_violated",
    "Verif.Props.C136_violated"
   ],
   "note": "Violated: `sendLoop` drops the error of running the guest, so nothing the host does or tells depends on whether the guest failed (`C136_unnoticed_violated`), and the subscriber of a call or stream for which the guest sends nothing never sees anything (`C136_call_waits_violated`, `C136_stream_waits_violated`). What the guest sent is seen, exactly (`C136_call_partial`, `C136_stream_partial`)."
  },
  {
   "property": "C137",
   "status": "partial",
   "theorems": [
    "Verif.Props.C137_partial",
    "Verif.Props.C137_guest_partial",
    "Verif.Props.C137_crash_violated",
    "Verif.Props.C137_hang_violated",
    "Verif.Props.C137_not_initialised_violated",
    "Verif.Props.C137_no_table_violated",
    "Verif.Props.C137_start_refused",
    "Verif.Props.C137_violated"
   ],
   "note": "Violated: a module without `__wasmrs_op_list_request` crashes the host (`C137_crash_violated`, exactly which modules do), one that sends more than 100 frames while it is initialised makes it hang, what `__wasmrs_init` returns is not looked at, and a table with a wrong magic number or version is taken as an empty one. `C137_partial` says exactly which modules are started and what their instances have; guests that use this library get their own table and buffers (`C137_guest_partial`). A module whose start functions call the host is refused."
  },
  {
   "property": "C138",
   "status": "partial",
   "theorems": [
    "Verif.Props.C138_partial",
    "Verif.Props.C138_violated"
   ],
   "note": "Violated: all modules get the same name, so that every module after the first whose start functions succeeded is refused, also if that one could not be used (`C138_violated`). `C138_partial` says what each of several modules comes to."
  },
  {
   "property": "C139",
   "status": "proved",
   "theorems": [
    "Verif.Props.C139_mono",
    "Verif.Props.C139_stream",
    "Verif.Props.C139_unfit"
   ],
   "note": "Holds in full for flows that run as C31 asks: `C139_mono`, `C139_stream`, `C139_unfit`. The subscriber's callbacks do not call back into the stream."
  },
  {
   "property": "C140",
   "status": "partial",
   "theorems": [
    "Verif.Props.C140_partial",
    "Verif.Props.C140_fixext1_violated",
    "Verif.Props.C140_ext_violated",
    "Verif.Props.C140_violated"
   ],
   "note": "Holds for data of 2, 4, 8 and 16 bytes in the forms without a length (`C140_partial`). Fails for one byte of data (decoder.go 669-670 discards only the type byte: success is reported and the data byte is left, `C140_fixext1_violated`) and for the forms with a length, which are always refused (`C140_ext_violated`)."
  },
  {
   "property": "C141",
   "status": "partial",
   "theorems": [
    "Verif.Props.C141_partial",
    "Verif.Props.C141_long_length_violated",
    "Verif.Props.C141_violated"
   ],
   "note": "Holds for the forms without a length and with one byte of length, for all layouts and both types (`C141_partial`). Fails for every instant in a form with two or four bytes of length: parseExtLen (decoder.go 879-903) calls ReadUint16 and ReadUint32, which expect a MessagePack number and not the bare length, so the value is refused (`C141_long_length_violated`)."
  },
  {
   "property": "C142",
   "status": "proved",
   "theorems": [
    "Verif.Props.C142_plain",
    "Verif.Props.C142_nested"
   ],
   "note": "Holds in full: `C142_plain`, `C142_nested`. Extension values are the subject of C140. Go's stack is taken to be unbounded."
  },
  {
   "property": "C143",
   "status": "proved",
   "theorems": [
    "Verif.Props.C143_any",
    "Verif.Props.C143_any_array",
    "Verif.Props.C143_string",
    "Verif.Props.C143_bytes",
    "Verif.Props.C143_sizes"
   ],
   "note": "Holds in full: `C143_string`, `C143_bytes`, `C143_sizes`, and through ReadAny `C143_any`, `C143_any_array`."
  },
  {
   "property": "C144",
   "status": "partial",
   "theorems": [
    "Verif.Props.C144_partial",
    "Verif.Props.C144_string_violated",
    "Verif.Props.C144_bytes_violated",
    "Verif.Props.C144_violated",
    "Verif.Props.C144_scalars"
   ],
   "note": "Holds for truth values and numbers (`C144_scalars`), for array and map sizes, and for strings and byte arrays read from anything but arrays (`C144_partial`). Fails for every array read as a string (decoder.go 481-483, 488-493: as many bytes as the array has values are returned as the text, `C144_string_violated`) and every array of less than 16 values read as a byte array (`C144_bytes_violated`)."
  }
 ]
}