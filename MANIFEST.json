{
 "claims": [
  {
   "property": "C01",
   "status": "proved",
   "theorems": [
    "Thrift.C01_binary_scalar_roundtrip",
    "Thrift.C01_readBool"
   ],
   "note": ""
  },
  {
   "property": "C02",
   "status": "proved",
   "theorems": [
    "Thrift.C02_binary_conforms",
    "Thrift.C02_binary_message_conforms"
   ],
   "note": ""
  },
  {
   "property": "C03",
   "status": "proved",
   "theorems": [
    "Thrift.C03_binary_value_roundtrip"
   ],
   "note": ""
  },
  {
   "property": "C04",
   "status": "proved",
   "theorems": [
    "Thrift.C04_binary_message_roundtrip"
   ],
   "note": ""
  },
  {
   "property": "C05",
   "status": "proved",
   "theorems": [
    "Thrift.C05_binary_version_rejected",
    "Thrift.C05_binary_version_accepted"
   ],
   "note": ""
  },
  {
   "property": "C06",
   "status": "proved",
   "theorems": [
    "Thrift.C06_binary_scalar_truncation",
    "Thrift.C06_binary_value_truncation",
    "Thrift.C06_binary_message_truncation"
   ],
   "note": ""
  },
  {
   "property": "C07",
   "status": "partial",
   "theorems": [
    "Thrift.C07_readString_negative",
    "Thrift.C07_readBinary_negative",
    "Thrift.C07_violated",
    "Thrift.C07_negative_length_partial"
   ],
   "note": "Violated by the code: without a read limit ReadString accepts every negative length as an empty string and ReadBinary panics (both proved). The partial theorem covers readers whose limit is used up."
  },
  {
   "property": "C08",
   "status": "proved",
   "theorems": [
    "Thrift.C08_binary_limit_bound",
    "Thrift.C08_binary_limit_error"
   ],
   "note": ""
  },
  {
   "property": "C09",
   "status": "proved",
   "theorems": [
    "Thrift.C09_skip_exact",
    "Thrift.C09_skip_stop"
   ],
   "note": ""
  },
  {
   "property": "C10",
   "status": "proved",
   "theorems": [
    "Thrift.C10_skip_total"
   ],
   "note": ""
  },
  {
   "property": "C11",
   "status": "partial",
   "theorems": [
    "Thrift.C11_skip_depth_ignored",
    "Thrift.C11_violated",
    "Thrift.C11_skip_depth_partial"
   ],
   "note": "Violated by the code: the recursion limit is passed along but never tested (proved: Skip does not depend on it). The partial theorem covers data within the limit."
  },
  {
   "property": "C12",
   "status": "partial",
   "theorems": [
    "Thrift.C12_violated",
    "Thrift.C12_struct_never_reported",
    "Thrift.C12_skip_truncated_partial"
   ],
   "note": "Violated by the code: errors inside structs and container elements are dropped. The partial theorem covers scalars and container headers."
  },
  {
   "property": "C13",
   "status": "proved",
   "theorems": [
    "Thrift.C13_zigzag_bijection"
   ],
   "note": ""
  },
  {
   "property": "C14",
   "status": "proved",
   "theorems": [
    "Thrift.C14_varint",
    "Thrift.C14_varint_injective",
    "Thrift.C14_varint32_injective"
   ],
   "note": ""
  },
  {
   "property": "C15",
   "status": "proved",
   "theorems": [
    "Thrift.C15_compact_scalar_roundtrip"
   ],
   "note": ""
  },
  {
   "property": "C16",
   "status": "proved",
   "theorems": [
    "Thrift.C16_compact_container_headers"
   ],
   "note": ""
  },
  {
   "property": "C17",
   "status": "partial",
   "theorems": [
    "Thrift.C17_violated",
    "Thrift.C17_false_field_unreadable",
    "Thrift.C17_field_headers_partial"
   ],
   "note": "Violated by the code: the header of a boolean field with value false is always rejected by the reader (proved for every id and state). The partial theorem covers every field sequence whose boolean values are true."
  },
  {
   "property": "C18",
   "status": "partial",
   "theorems": [
    "Thrift.C18_compact_message_read",
    "Thrift.C18_violated",
    "Thrift.C18_compact_message_partial"
   ],
   "note": "Violated by the code: a ONEWAY header is read back as another type, since the reader keeps two of the three type bits. The exact value read is proved for every type word; the partial theorem covers CALL, REPLY and EXCEPTION."
  },
  {
   "property": "C19",
   "status": "partial",
   "theorems": [
    "Thrift.C19_compact_conforms",
    "Thrift.C19_false_field_violated",
    "Thrift.C19_nesting_violated",
    "Thrift.C19_compact_value_partial",
    "Thrift.C19_compact_two_deep_partial"
   ],
   "note": "Violated by the code in two ways: false boolean fields, and structs nested three deep, whose remaining fields get wrong ids. Writer conformance is proved for every value; the partial theorems cover values without false fields whose field ids do not depend on the lost state, in particular structs nested at most two deep."
  },
  {
   "property": "C20",
   "status": "partial",
   "theorems": [
    "Thrift.C20_string_cut_silently",
    "Thrift.C20_violated",
    "Thrift.C20_compact_truncation_partial"
   ],
   "note": "Violated by the code: strings and byte arrays cut inside their bytes are returned without error (proved for every value and cut point). The partial theorem covers scalars, container, field and message headers, and cuts inside the length."
  },
  {
   "property": "C21",
   "status": "partial",
   "theorems": [
    "Thrift.C21_negative_length_panics",
    "Thrift.C21_violated",
    "Thrift.C21_compact_total_partial"
   ],
   "note": "Violated by the code: a byte array with negative length panics (proved for all negative lengths). The partial theorem covers the read calls that do not read a byte array with a length from the wire."
  },
  {
   "property": "C22",
   "status": "partial",
   "theorems": [
    "Thrift.C22_reader_growth",
    "Thrift.C22_reader_growth_history",
    "Thrift.C22_violated",
    "Thrift.C22_writer_state_restored",
    "Thrift.C22_reader_state_partial"
   ],
   "note": "Violated by the code: each struct read adds exactly one entry to the reader's stack (proved for every value and history). Writer state is proved to be restored. The partial theorem covers values without structs."
  },
  {
   "property": "C23",
   "status": "partial",
   "theorems": [
    "Thrift.C23_binary_headers",
    "Thrift.C23_compact_binary_panics",
    "Thrift.C23_violated",
    "Thrift.C23_compact_headers_partial"
   ],
   "note": "Violated by the code: under the compact protocol every header call for BINARY panics (proved). The binary protocol is proved for all declared types; the partial theorem covers all types but binary under the compact protocol."
  },
  {
   "property": "C24",
   "status": "proved",
   "theorems": [
    "Thrift.C24_readall_chunking",
    "Thrift.C24_readall_chunks"
   ],
   "note": ""
  },
  {
   "property": "C25",
   "status": "partial",
   "theorems": [
    "Thrift.C25_idle_read_succeeds",
    "Thrift.C25_violated",
    "Thrift.C25_readall_missing_partial"
   ],
   "note": "Violated by the code: when the transport answers a read with no bytes and no error, ReadAll returns success with a short count (proved for every such reader). The partial theorem covers transports that never answer so."
  },
  {
   "property": "C26",
   "status": "partial",
   "theorems": [
    "Thrift.C26_readall_last_error",
    "Thrift.C26_violated",
    "Thrift.C26_readall_complete_partial"
   ],
   "note": "Violated by the code: an error that comes together with the last bytes makes ReadAll fail although everything asked for has arrived (proved for every such reader). The partial theorem covers deliveries whose last chunk comes without an error."
  },
  {
   "property": "C27",
   "status": "partial",
   "theorems": [
    "Thrift.C27_short_readall",
    "Thrift.C27_violated",
    "Thrift.C27_empty_read",
    "Thrift.C27_close",
    "Thrift.C27_memory_fifo_partial"
   ],
   "note": "Violated by the code: a ReadAll that asks for more than is buffered empties the buffer and reports a count of zero with an error (proved for every buffer). The partial theorem covers all histories in which no ReadAll fails."
  },
  {
   "property": "C28",
   "status": "proved",
   "theorems": [
    "Thrift.C28_framed_output"
   ],
   "note": ""
  },
  {
   "property": "C29",
   "status": "partial",
   "theorems": [
    "Thrift.C29_zero_read_loses",
    "Thrift.C29_violated",
    "Thrift.C29_framed_read_partial"
   ],
   "note": "Violated by the code: a zero-length Read while the buffer is not empty fetches the next frame over the unread bytes (proved for every state). The partial theorem covers all histories of reads of positive size."
  },
  {
   "property": "C30",
   "status": "partial",
   "theorems": [
    "Thrift.C30_empty_flush_sends",
    "Thrift.C30_empty_frame_is_eof",
    "Thrift.C30_violated",
    "Thrift.C30_empty_flush_partial"
   ],
   "note": "Violated by the code: a reader that meets an empty frame reports end of file (proved for every stream). The partial theorem: nothing is lost or reordered if the caller reads on, and everything arrives within a stated number of reads."
  },
  {
   "property": "C31",
   "status": "partial",
   "theorems": [
    "Thrift.C31_violated",
    "Thrift.C31_retry_wire",
    "Thrift.C31_short_write",
    "Thrift.C31_failed_flush_partial"
   ],
   "note": "Violated by the code: a repeated Flush sends the length again, so the peer sees a wrong frame (the exact bytes are proved for every payload and failure point). The partial theorem covers every failure without retry, and a retry after a first write that accepted nothing."
  },
  {
   "property": "C32",
   "status": "proved",
   "theorems": [
    "Thrift.C32_chunk_independence",
    "Thrift.C32_chunk_independence_framed",
    "Thrift.C32_chunk_independence_any"
   ],
   "note": ""
  },
  {
   "property": "C33",
   "status": "partial",
   "theorems": [
    "Thrift.C33_violated",
    "Thrift.C33_interrupt_sticks",
    "Thrift.C33_lifecycle_partial"
   ],
   "note": "Violated by the code: when closing the connection fails (for instance after Interrupt), the socket stays open for ever (proved). The partial theorem covers all histories and network behaviours with the rule that only a successful Close closes; it is the full statement when every Close succeeds. Both socket kinds."
  },
  {
   "property": "C34",
   "status": "partial",
   "theorems": [
    "Thrift.C34_violated",
    "Thrift.C34_stale_bytes_sent",
    "Thrift.C34_no_stale_bytes_partial",
    "Thrift.C34_nonblocking"
   ],
   "note": "Violated by the code for TSocket: the write buffer survives Close and Open (the exact effect is proved). The partial theorem covers histories whose buffer is empty at each Open; the non-blocking socket is proved in full."
  },
  {
   "property": "C35",
   "status": "partial",
   "theorems": [
    "Thrift.C35_violated",
    "Thrift.C35_shared_stream_still_written",
    "Thrift.C35_closed_stream_partial",
    "Thrift.C35_constructors"
   ],
   "note": "Violated by the code: a shared stream with a Close method keeps its Writer, so Write and Flush still reach the closed stream (proved for every such stream). The partial theorem covers all other streams and constructors, Read in all cases, and everything after a second Close."
  },
  {
   "property": "C36",
   "status": "partial",
   "theorems": [
    "Thrift.C36_violated",
    "Thrift.C36_partial",
    "Thrift.C36_remove_partial",
    "Thrift.C36_nested_partial"
   ],
   "note": "Violated by the code: a value below all members is silently dropped. Proved for every history on every scalar type: nothing is lost, and the new value becomes a member exactly if the set was empty or has a member not above it; Remove is exact. Also proved for nested lists and sets as members."
  },
  {
   "property": "C37",
   "status": "partial",
   "theorems": [
    "Thrift.C37_violated",
    "Thrift.C37_sorted_partial",
    "Thrift.C37_order_independent_partial",
    "Thrift.C37_nested_partial"
   ],
   "note": "Violated by the code only for NaN, whose place depends on when it was added. The partial theorems cover every history of values other than NaN on every scalar type, coerced values included."
  },
  {
   "property": "C38",
   "status": "partial",
   "theorems": [
    "Thrift.C38_violated",
    "Thrift.C38_partial"
   ],
   "note": "Violated by the code: an empty set reports the capacity given at construction. The partial theorem gives Len after every history."
  },
  {
   "property": "C39",
   "status": "partial",
   "theorems": [
    "Thrift.C39_only_largest",
    "Thrift.C39_violated",
    "Thrift.C39_partial"
   ],
   "note": "Violated by the code: of every non-empty set of scalars only the largest member comes back (proved for all such sets). The partial theorem covers sets of at most one member."
  },
  {
   "property": "C40",
   "status": "proved",
   "theorems": [
    "Thrift.C40_step",
    "Thrift.C40_history",
    "Thrift.C40_default"
   ],
   "note": "Every history of calls, with answers; the exact set of panicking calls. Set beyond the position after the last appends."
  },
  {
   "property": "C41",
   "status": "partial",
   "theorems": [
    "Thrift.C41_violated",
    "Thrift.C41_partial",
    "Thrift.C41_entries_partial",
    "Thrift.C41_contains_partial"
   ],
   "note": "Violated by the code: boolean maps report absent keys as present, and empty maps with binary keys report their capacity as length. Get, Len and the entries are characterised exactly after every history of Set calls for every scalar key type other than NaN keys. Maps keyed by containers and structs are not covered."
  },
  {
   "property": "C42",
   "status": "partial",
   "theorems": [
    "Thrift.C42_violated",
    "Thrift.C42_partial",
    "Thrift.C42_order_partial"
   ],
   "note": "Violated by the code only for NaN. The partial theorem is the whole statement for all other values."
  },
  {
   "property": "C43",
   "status": "partial",
   "theorems": [
    "Thrift.C43_list_partial",
    "Thrift.C43_list_violated",
    "Thrift.C43_set_partial",
    "Thrift.C43_set_violated",
    "Thrift.C43_map_partial",
    "Thrift.C43_violated",
    "Thrift.C43_partial"
   ],
   "note": "Violated by the code: Less is the order with its sides exchanged (proved for all values), so sorting with it sorts downwards. Less of a list says yes for any two elements (also proved). Less of sets is the exchanged order too, exactly (C43_set_partial, C43_set_violated), and Less of maps is CompareTo exchanged (C43_map_partial)."
  },
  {
   "property": "C44",
   "status": "partial",
   "theorems": [
    "Thrift.C44_violated",
    "Thrift.C44_partial"
   ],
   "note": "Violated by the code: the error test is inverted, so exactly the decimal 64-bit integers are refused and all other text is accepted (proved for every text)."
  },
  {
   "property": "C45",
   "status": "proved",
   "theorems": [
    "Thrift.C45_int",
    "Thrift.C45_bool",
    "Thrift.C45_idempotent"
   ],
   "note": ""
  },
  {
   "property": "C46",
   "status": "proved",
   "theorems": [
    "Thrift.C46_present",
    "Thrift.C46_absent",
    "Thrift.C46_len"
   ],
   "note": "For every list of fields."
  },
  {
   "property": "C47",
   "status": "partial",
   "theorems": [
    "Thrift.C47_violated",
    "Thrift.C47_partial",
    "Thrift.C47_meaning_partial"
   ],
   "note": "Violated by the code: symmetry fails when a container has two fields with one type and id. Reflexivity and transitivity are proved for all containers, symmetry for containers without such repetition."
  },
  {
   "property": "C48",
   "status": "partial",
   "theorems": [
    "Thrift.C48_all_equal",
    "Thrift.C48_violated",
    "Thrift.C48_names_partial"
   ],
   "note": "Violated by the code: all instances of one generated struct compare equal (proved for every struct and all contents). The partial theorem: instances of structs with different names never compare equal."
  },
  {
   "property": "C49",
   "status": "proved",
   "theorems": [
    "Thrift.C49_binary",
    "Thrift.C49_compact",
    "Thrift.C49_extra_fields"
   ],
   "note": "Every message below 2^31 bytes and every type; the binary reader also with extra fields around and between the two known ones. Compact: the reader object keeps its last field id but grows its stack (C22)."
  },
  {
   "property": "C50",
   "status": "partial",
   "theorems": [
    "Thrift.C50_violated",
    "Thrift.C50_partial",
    "Thrift.C50_transport_codes_partial"
   ],
   "note": "Violated by the code: generated code wraps a transport error under its own number, so END_OF_FILE (4) is reported as BAD_VERSION. The partial theorems cover everything else and say exactly which codes change meaning."
  },
  {
   "property": "C51",
   "status": "partial",
   "theorems": [
    "Thrift.C51_violated",
    "Thrift.C51_partial"
   ],
   "note": "Violated by the code: lists of enumerators come back as zeros. The partial theorem covers every schema and all values without lists or sets of enums or binaries, sets of more than one member, maps with other than primitive keys, and empty optional containers; nesting is unrestricted. Binary protocol."
  },
  {
   "property": "C52",
   "status": "proved",
   "theorems": [
    "Thrift.C52_unknown_fields_binary",
    "Thrift.C52_unknown_fields_compact"
   ],
   "note": "Every schema, every struct on the wire, undeclared fields at every depth; binary protocol in full, compact protocol for what it can carry (C19)."
  },
  {
   "property": "C53",
   "status": "partial",
   "theorems": [
    "Thrift.C53_violated",
    "Thrift.C53_type_ignored",
    "Thrift.C53_void_partial"
   ],
   "note": "Violated by the code: the wire type is ignored and the field is read as the declared type (proved for every struct and type). The partial theorem covers VOID headers."
  },
  {
   "property": "C54",
   "status": "partial",
   "theorems": [
    "Thrift.C54_violated",
    "Thrift.C54_partial"
   ],
   "note": "Violated by the code: all negative ids are resolved to -1, so a second implicit field is read into the first. The partial theorem covers one implicit id per struct, with the values of C51. The generator does not print compilable Go for such structs."
  },
  {
   "property": "C55",
   "status": "partial",
   "theorems": [
    "Thrift.C55_violated",
    "Thrift.C55_reply_partial",
    "Thrift.C55_exception_partial",
    "Thrift.C55_malformed_partial"
   ],
   "note": "Violated by the code: a handler result that is a map with maps as keys makes the processor panic in the middle of the reply, with nothing flushed. The partial theorems cover successful handlers (results as in C51), failing handlers and unreadable arguments, over any working connection. Binary protocol."
  },
  {
   "property": "C56",
   "status": "proved",
   "theorems": [
    "Thrift.C56_unknown_method"
   ],
   "note": "Binary protocol, any working connection, any well formed argument struct."
  },
  {
   "property": "C57",
   "status": "partial",
   "theorems": [
    "Thrift.C57_violated",
    "Thrift.C57_partial"
   ],
   "note": "Violated by the code: the processor answers oneway requests with an empty reply. The partial theorem states what is written instead."
  },
  {
   "property": "C58",
   "status": "partial",
   "theorems": [
    "Thrift.C58_oneway_violated",
    "Thrift.C58_error_violated",
    "Thrift.C58_violated",
    "Thrift.C58_partial",
    "Thrift.C58_error_partial"
   ],
   "note": "Violated by the code in two ways: the reply to a oneway call is taken for the reply to the next call, and after a handler error the server drops the connection. The partial theorems cover sequences of two-way calls without handler errors, and sequences up to and including the first handler error, from any sequence id. Binary protocol, values as in C51."
  },
  {
   "property": "C59",
   "status": "partial",
   "theorems": [
    "Thrift.C59_violated",
    "Thrift.C59_partial",
    "Thrift.C59_any_partial"
   ],
   "note": "Violated by the code: an EXCEPTION message is handed to the caller without comparing sequence ids. The partial theorem covers all other message types. Binary protocol. `C59_any_partial` proves the same for every protocol and transport: protocol and transport are left as reading the head of the message left them."
  },
  {
   "property": "C60",
   "status": "partial",
   "theorems": [
    "Thrift.C60_always_violated",
    "Thrift.C60_violated",
    "Thrift.C60_partial"
   ],
   "note": "Violated by the code: the constructor leaves the protocol factory nil and every send panics, for every protocol and transport (C60_always_violated). The partial theorem covers clients made from a factory."
  },
  {
   "property": "C61",
   "status": "partial",
   "theorems": [
    "Thrift.C61_violated",
    "Thrift.C61_header_violated",
    "Thrift.C61_partial"
   ],
   "note": "Violated by the code in two ways: the error of the flush is dropped, and so is the error of writing the message header. The partial theorem covers connections that stay broken after a failure and whose flush does not fail. Binary and compact protocol."
  },
  {
   "property": "C62",
   "status": "partial",
   "theorems": [
    "Thrift.C62_violated",
    "Thrift.C62_crash_violated",
    "Thrift.C62_early_violated",
    "Thrift.C62_connections_partial",
    "Thrift.C62_stop_partial",
    "Thrift.C62_busy_partial",
    "Thrift.C62_progress_partial"
   ],
   "note": "Violated by the code: if Stop runs between the loop condition and Accept, Accept makes a new listener and goes on accepting after Stop has returned (C62_violated); if it runs between the test and the use of the listener, Serve panics (C62_crash_violated). Proved for every interleaving of Serve and Stop on a server socket: connections are served one after another and both transports closed, also on panics; a stopped server accepts at most one more connection and none if it is serving one, and takes a bounded number of steps besides the requests of that connection; a started server is never stuck. C62_early_violated: a Stop that returns just before Serve resets the flag is lost."
  },
  {
   "property": "C63",
   "status": "proved",
   "theorems": [
    "Thrift.C63_write_failures_reported"
   ],
   "note": ""
  },
  {
   "property": "C64",
   "status": "proved",
   "theorems": [
    "Thrift.C64_generated_write_failures_reported"
   ],
   "note": ""
  },
  {
   "property": "C65",
   "status": "partial",
   "theorems": [
    "Thrift.C65_violated",
    "Thrift.C65_partial"
   ],
   "note": "Violated by the code: the compact protocol drops the error of reading the bytes of a string. The partial theorem covers all read calls of the binary protocol and all of the compact protocol except ReadString, ReadBinary and ReadMessageBegin."
  },
  {
   "property": "C66",
   "status": "proved",
   "theorems": [
    "Thrift.C66_tjson_document",
    "Thrift.C66_tjson_message"
   ],
   "note": ""
  },
  {
   "property": "C67",
   "status": "partial",
   "theorems": [
    "Thrift.C67_violated",
    "Thrift.C67_partial",
    "Thrift.C67_long_violated"
   ],
   "note": "Violated by the code: the name of I16 in a field header is not recognised (C67_violated), and a struct whose member ends where the reader's buffer of 4096 bytes ends is cut there (C67_long_violated). The partial theorem covers structs without fields, map keys or map values of type I16 whose document fits into the buffer. Only one NaN is considered, since JSON has one name for all."
  },
  {
   "property": "C68",
   "status": "partial",
   "theorems": [
    "Thrift.C68_violated",
    "Thrift.C68_partial"
   ],
   "note": "Violated by the code as C67. The partial theorem has the same restrictions."
  },
  {
   "property": "C69",
   "status": "partial",
   "theorems": [
    "Thrift.C69_violated",
    "Thrift.C69_partial"
   ],
   "note": "Violated by the code: it looks only at bytes that happen to be buffered. The partial theorem covers every transport that delivers the whole document with its first read."
  },
  {
   "property": "C70",
   "status": "partial",
   "theorems": [
    "Thrift.C70_violated",
    "Thrift.C70_partial"
   ],
   "note": "Violated by the code: TypeIdToString gives i16, StringToTypeId knows 16. All other wire types are proved."
  },
  {
   "property": "C71",
   "status": "partial",
   "theorems": [
    "Thrift.C71_violated",
    "Thrift.C71_partial"
   ],
   "note": "Violated by the code: white space before the document is not skipped, since nothing is buffered yet. White space after it is proved."
  },
  {
   "property": "C72",
   "status": "partial",
   "theorems": [
    "Thrift.C72_violated",
    "Thrift.C72_partial"
   ],
   "note": "Violated by the code as C67 (I16). The partial theorem has the same restrictions as for C67."
  },
  {
   "property": "C73",
   "status": "partial",
   "theorems": [
    "Thrift.C73_violated",
    "Thrift.C73_partial"
   ],
   "note": "Violated by the code: ReadBool returns false and ReadFieldBegin returns STOP, both without an error. All other calls are proved, over every transport and in every context."
  },
  {
   "property": "C74",
   "status": "partial",
   "theorems": [
    "Thrift.C74_violated",
    "Thrift.C74_partial",
    "Thrift.C74_accepted",
    "Thrift.C74_words"
   ],
   "note": "Violated by the code: 4294967297 is read as 1, fractions are cut off. The partial theorem covers text whose first character cannot begin a number, null, NaN, Infinity or a quoted number. C74_accepted says exactly which texts over the characters of numbers are accepted, C74_words refuses words that go on differently or break off, null included."
  },
  {
   "property": "C75",
   "status": "partial",
   "theorems": [
    "Thrift.C75_violated",
    "Thrift.C75_partial"
   ],
   "note": "Violated by the code: a call without arguments ends in {}] and the reader peeks at four bytes from the brace. The partial theorem covers messages whose struct has at least one field."
  },
  {
   "property": "C76",
   "status": "partial",
   "theorems": [
    "Thrift.C76_violated",
    "Thrift.C76_partial"
   ],
   "note": "Violated by the code: WriteBinary of the tagged protocol drops the errors of writing the quotes and the last block. Everything else is proved for both protocols."
  },
  {
   "property": "C77",
   "status": "proved",
   "theorems": [
    "Thrift.C77_binary_roundtrip"
   ],
   "note": ""
  },
  {
   "property": "C78",
   "status": "partial",
   "theorems": [
    "Thrift.C78_violated",
    "Thrift.C78_partial"
   ],
   "note": "Violated by the code: if the closing quote is the first quote and the text cannot be unquoted, the nil error of the read is returned with an empty string. The partial theorem covers text that contains an escaped quote."
  },
  {
   "property": "C79",
   "status": "partial",
   "theorems": [
    "Thrift.C79_violated",
    "Thrift.C79_stream_violated",
    "Thrift.C79_partial"
   ],
   "note": "Violated by the code: Write of the nonblocking socket hands on the raw error of the connection, and writing nothing to a stream panics. The partial theorem covers everything else."
  },
  {
   "property": "C80",
   "status": "partial",
   "theorems": [
    "Thrift.C80_violated",
    "Thrift.C80_partial"
   ],
   "note": "Violated by the code: TSocket stays open after Interrupt. The partial theorem gives the exact effect of both."
  },
  {
   "property": "C81",
   "status": "proved",
   "theorems": [
    "Thrift.C81_order",
    "Thrift.C81_total",
    "Thrift.C81_equals"
   ],
   "note": ""
  },
  {
   "property": "C82",
   "status": "partial",
   "theorems": [
    "Thrift.C82_violated",
    "Thrift.C82_crossed_violated",
    "Thrift.C82_partial"
   ],
   "note": "Violated by the code in both directions: the outcome depends on the order of enumeration, and keys and values are enumerated separately. The partial theorem says exactly what is compared."
  },
  {
   "property": "C83",
   "status": "partial",
   "theorems": [
    "Thrift.C83_violated",
    "Thrift.C83_partial"
   ],
   "note": "Violated by the code: Equals ignores the name. The order itself is proved."
  },
  {
   "property": "C84",
   "status": "partial",
   "theorems": [
    "Thrift.C84_violated",
    "Thrift.C84_partial"
   ],
   "note": "Violated by the code: each of two containers can be greater than the other. The partial theorem shows when the outcome is zero."
  },
  {
   "property": "C85",
   "status": "partial",
   "theorems": [
    "Thrift.C85_violated",
    "Thrift.C85_partial"
   ],
   "note": "Violated by the code: as I16, I32, I64 and DOUBLE a Numeric becomes a bool. The partial theorem gives the outcome for every type."
  },
  {
   "property": "C86",
   "status": "partial",
   "theorems": [
    "Thrift.C86_violated",
    "Thrift.C86_partial"
   ],
   "note": "Violated by the code: 65 becomes the letter A. The partial theorem gives the text for every integer."
  },
  {
   "property": "C87",
   "status": "proved",
   "theorems": [
    "Thrift.C87_unfit",
    "Thrift.C87_nil"
   ],
   "note": ""
  },
  {
   "property": "C88",
   "status": "proved",
   "theorems": [
    "Thrift.C88_enum"
   ],
   "note": ""
  },
  {
   "property": "C89",
   "status": "partial",
   "theorems": [
    "Thrift.C89_violated",
    "Thrift.C89_unsigned_violated",
    "Thrift.C89_partial"
   ],
   "note": "Violated by the code: an int beyond 32 bits is cut, unsigned numbers are stored as nil. The partial theorem covers the other values."
  },
  {
   "property": "C90",
   "status": "partial",
   "theorems": [
    "Thrift.C90_violated",
    "Thrift.C90_partial"
   ],
   "note": "Violated by the code: iterating a map with MAP keys panics. The partial theorem covers all other key types for a map with one entry."
  },
  {
   "property": "C91",
   "status": "proved",
   "theorems": [
    "Thrift.C91_compact_protocol_id",
    "Thrift.C91_compact_version",
    "Thrift.C91_compact_accepted"
   ],
   "note": ""
  },
  {
   "property": "C92",
   "status": "partial",
   "theorems": [
    "Thrift.C92_violated",
    "Thrift.C92_binary_violated",
    "Thrift.C92_partial"
   ],
   "note": "Violated by the code: maps with maps for keys panic, and the compact protocol panics on binary. The partial theorem covers all other schemas and instances."
  },
  {
   "property": "C93",
   "status": "partial",
   "theorems": [
    "Thrift.C93_violated",
    "Thrift.C93_partial"
   ],
   "note": "Violated by the code: required references that are nil are left out. The partial theorem says exactly when a required field is written."
  },
  {
   "property": "C94",
   "status": "partial",
   "theorems": [
    "Thrift.C94_violated",
    "Thrift.C94_reply_partial",
    "Thrift.C94_partial"
   ],
   "note": "Violated by the code: Skip drops the errors of nested values. Proved for sending the reply on any connection and for all of Process on connections that stay broken."
  },
  {
   "property": "C95",
   "status": "proved",
   "theorems": [
    "Thrift.C95_ok_iff_no_error",
    "Thrift.C95_header_error"
   ],
   "note": ""
  },
  {
   "property": "C96",
   "status": "partial",
   "theorems": [
    "Thrift.C96_violated",
    "Thrift.C96_partial"
   ],
   "note": "Violated by the code: the version is cut to 32 bits, 4294967297 is taken for 1. The partial theorem covers all 32-bit versions."
  },
  {
   "property": "C97",
   "status": "partial",
   "theorems": [
    "Thrift.C97_violated",
    "Thrift.C97_partial"
   ],
   "note": "Violated by the code: null is taken for the end of a list. The partial theorem covers all calls and contexts at all characters but n and closing brackets."
  },
  {
   "property": "C98",
   "status": "partial",
   "theorems": [
    "Thrift.C98_violated",
    "Thrift.C98_partial"
   ],
   "note": "Violated by the code: line breaks are passed over. The partial theorem is exact when line breaks are left out of account."
  },
  {
   "property": "C99",
   "status": "partial",
   "theorems": [
    "Thrift.C99_violated",
    "Thrift.C99_partial"
   ],
   "note": "Violated by the code: types are cut to 8 bits, 264 is taken for 8. The partial theorem covers text that does not begin like a number, a string or a word."
  },
  {
   "property": "C101",
   "status": "partial",
   "theorems": [
    "Thrift.C101_violated",
    "Thrift.C101_partial",
    "Thrift.C101_binary_partial"
   ],
   "note": "Violated by the code: Infinity cut in the middle is refused. The partial theorems cover all other scalars and binary data."
  },
  {
   "property": "C103",
   "status": "partial",
   "theorems": [
    "Thrift.C103_violated",
    "Thrift.C103_partial"
   ],
   "note": "Violated by the code: a map with maps for keys panics. The partial theorem covers all structs whose maps have no maps for keys and whose containers have no binary elements."
  },
  {
   "property": "C104",
   "status": "partial",
   "theorems": [
    "Thrift.C104_violated",
    "Thrift.C104_binary_violated",
    "Thrift.C104_partial",
    "Thrift.C104_document_partial"
   ],
   "note": "Violated by the code: i16 fields (written as i16, recognised as 16) and binary fields (written without a type name) are refused. The partial theorem covers structs without them whose document fits into the buffer; C104_document_partial says what is written."
  },
  {
   "property": "C105",
   "status": "partial",
   "theorems": [
    "Thrift.C105_partial",
    "Thrift.C105_violated"
   ],
   "note": "Violated by the code: a document whose first member ends at the end of the 4096-byte buffer is refused. The partial theorem covers documents that fit into the buffer and structs whose containers have no binary elements."
  },
  {
   "property": "C106",
   "status": "partial",
   "theorems": [
    "Thrift.C106_violated",
    "Thrift.C106_partial"
   ],
   "note": "Violated by the code: an undeclared field of type i16 (written as i16, recognised as 16) makes the reader fail. The partial theorem covers undeclared fields without i16 fields, map keys or map values, schemas without binary and documents that fit into the buffer."
  },
  {
   "property": "C107",
   "status": "partial",
   "theorems": [
    "Thrift.C107_violated",
    "Thrift.C107_partial"
   ],
   "note": "Violated by the code: the reader stops at an undeclared member and ReadStructEnd fails. The partial theorem says that the member is never passed over in silence: after any declared members, whatever follows the name, a reader that ends reports an error."
  },
  {
   "property": "C108",
   "status": "partial",
   "theorems": [
    "Thrift.C108_violated",
    "Thrift.C108_nested_violated",
    "Thrift.C108_partial",
    "Thrift.C108_simple_partial"
   ],
   "note": "Violated by the code: a struct whose boolean field is false is refused, and a field after a struct that contains a struct is lost without an error. The partial theorems cover structs without binary whose value is tame (C19) and has no empty maps, in particular all structs of numbers, strings, enums and lists and sets of them."
  },
  {
   "property": "C100",
   "status": "partial",
   "theorems": [
    "Thrift.C100_violated",
    "Thrift.C100_compact_violated",
    "Thrift.C100_partial",
    "Thrift.C100_json_violated"
   ],
   "note": "Violated by all four protocols: the byte count returned by Write is dropped everywhere except in OutputStringData, so a transport that takes less than it is given without an error loses bytes unnoticed. C100_partial: JSON scalars where no separator is written before them. io.Writer asks implementations to return an error with a short count; the statement is about transports that do not."
  },
  {
   "property": "C102",
   "status": "partial",
   "theorems": [
    "Thrift.C102_violated",
    "Thrift.C102_field_violated",
    "Thrift.C102_partial",
    "Thrift.C102_begin"
   ],
   "note": "Violated by ReadBool (returns false, no error) and ReadFieldBegin (returns STOP, no error): both ignore the error of Peek. C102_partial: all other calls. C102_begin: lists, sets, maps and messages are also refused when the connection breaks before four bytes have come."
  },
  {
   "property": "C109",
   "status": "partial",
   "theorems": [
    "Thrift.C109_violated",
    "Thrift.C109_response_violated",
    "Thrift.C109_partial"
   ],
   "note": "Violated twice: Write and Flush on a closed client panic (nil request buffer), and Close on a client that has received a response drops only the response, so that the client stays open. C109_partial: Read answers NOT_OPEN after any Close, and after a second Close the client is not open."
  },
  {
   "property": "C110",
   "status": "partial",
   "theorems": [
    "Thrift.C110_violated",
    "Thrift.C110_partial",
    "Thrift.C110_suffix_partial"
   ],
   "note": "Violated after a failed post: what http.Post left in the buffer is sent again in front of the next request. C110_partial: webs that take every request whole. C110_suffix_partial: whatever happens, one request per flush, ending with what was written since the flush before."
  },
  {
   "property": "C111",
   "status": "partial",
   "theorems": [
    "Thrift.C111_violated",
    "Thrift.C111_partial",
    "Thrift.C111_reported"
   ],
   "note": "Violated: a failed Flush keeps the response of the request before, and Read goes on with it. C111_partial: flushes that succeed, and flushes that fail while there is no response. C111_reported says which error a response with a bad status is."
  },
  {
   "property": "C112",
   "status": "partial",
   "theorems": [
    "Thrift.C112_violated",
    "Thrift.C112_status_violated",
    "Thrift.C112_partial"
   ],
   "note": "Violated: Flush replaces the response of the request before without closing its body, and drops responses with a status other than 200. C112_partial: clients that call Close after every request, webs that answer with status 200 or an error."
  },
  {
   "property": "C113",
   "status": "proved",
   "theorems": [
    "Thrift.C113_http_calls"
   ],
   "note": "Within Sound (what generated code can carry) and the binary protocol. Unlike over a plain connection (C58) oneway calls and errors do not disturb later calls, because every flush replaces the response."
  },
  {
   "property": "C114",
   "status": "partial",
   "theorems": [
    "Thrift.C114_violated",
    "Thrift.C114_closed_violated",
    "Thrift.C114_partial"
   ],
   "note": "Violated: a client for GET requests has no request buffer, so Write and Flush panic; so do they on a closed POST client. C114_partial: POST clients before Close."
  },
  {
   "property": "C115",
   "status": "proved",
   "theorems": [
    "Thrift.C115_hanging_connection"
   ],
   "note": "The work on the connection is deleted from the trace and the rest is still an execution. Holds because Serve starts a goroutine per connection; the simple server has no such theorem (C62 says connections are served one after another)."
  },
  {
   "property": "C116",
   "status": "proved",
   "theorems": [
    "Thrift.C116_connection_life"
   ],
   "note": ""
  },
  {
   "property": "C117",
   "status": "partial",
   "theorems": [
    "Thrift.C117_violated",
    "Thrift.C117_race_violated",
    "Thrift.C117_partial"
   ],
   "note": "Violated twice: no goroutine recovers, so a panic in the processor of one client ends the program with all other connections open; and Accept tests the listener and loads it again, so a Stop in between makes it call a method on nil. Partial: a crash needs a panicking processor or a call of Stop."
  },
  {
   "property": "C118",
   "status": "partial",
   "theorems": [
    "Thrift.C118_violated",
    "Thrift.C118_close_violated",
    "Thrift.C118_partial",
    "Thrift.C118_soon_partial"
   ],
   "note": "Violated: a Stop before Serve has made its listener leaves that listener open for good; an error while closing the listener is dropped and one more connection is accepted. Partial: if the listener can be closed nothing is accepted after Stop has returned; in any case at most one more connection is accepted and Serve makes at most four more steps."
  },
  {
   "property": "C119",
   "status": "partial",
   "theorems": [
    "Thrift.C119_violated",
    "Thrift.C119_again_violated",
    "Thrift.C119_partial"
   ],
   "note": "Violated: a server on a socket made from a listener returns ALREADY_OPEN at once and never accepts anything, because Listen is Open; and after one failed Accept every later Serve returns ALREADY_OPEN. Partial: true for a socket made from an address and one call of Serve."
  },
  {
   "property": "C120",
   "status": "partial",
   "theorems": [
    "Thrift.C120_violated",
    "Thrift.C120_list_violated",
    "Thrift.C120_partial"
   ],
   "note": "Violated for enum fields with a default and for containers with a default that has elements. Partial: fields without default, and scalar fields with one."
  },
  {
   "property": "C121",
   "status": "partial",
   "theorems": [
    "Thrift.C121_violated",
    "Thrift.C121_zero_violated",
    "Thrift.C121_partial"
   ],
   "note": "Violated: an optional container that was given no elements is not set (and so is not sent), and neither is a double that was given the negative zero. Partial: all other values."
  },
  {
   "property": "C122",
   "status": "partial",
   "theorems": [
    "Thrift.C122_violated",
    "Thrift.C122_partial"
   ],
   "note": "Violated (C122_violated): if Stop runs before Serve has made its listener, that listener is left open and every later call of Serve fails with ALREADY_OPEN. Proved: another call of Serve can accept a connection exactly if no listener is left (NbExec.canServe), and that is so whenever Serve had made its listener before Stop was called (C122_partial), with any interleaving and any number of connections."
  },
  {
   "property": "C123",
   "status": "partial",
   "theorems": [
    "Thrift.C123_argument_violated",
    "Thrift.C123_result_violated",
    "Thrift.C123_nested_violated",
    "Thrift.C123_violated",
    "Thrift.C123_error_partial",
    "Thrift.C123_partial",
    "Thrift.C123_simple_partial"
   ],
   "note": "Violated by an argument that is false (C123_argument_violated), by a false that the handler returns (C123_result_violated), and by an argument after a struct with a struct in it, which is silently lost so that the handler gets 0 (C123_nested_violated). Proved for all sequences of calls whose values are kept by the protocol's reader (C123_partial), up to and including the first error of the handler and from any state of client and server (C123_error_partial), and by types alone for numbers, strings, enums, lists and sets of them (C123_simple_partial)."
  },
  {
   "property": "C124",
   "status": "partial",
   "theorems": [
    "Thrift.C124_partial",
    "Thrift.C124_panic_partial",
    "Thrift.C124_attack",
    "Thrift.C124_exact_partial",
    "Thrift.C124_violated"
   ],
   "note": "Violated: C124_attack gives, for every service with binary or a container anywhere in its arguments, a request that panics (negative length; element type 5). C124_exact_partial: without those, and only then, Process returns on every input. C124_panic_partial: the same over connections that fail in any way."
  },
  {
   "property": "C125",
   "status": "proved",
   "theorems": [
    "Thrift.C125_depth",
    "Thrift.C125_containers"
   ],
   "note": "Values are trees in the model: a list that contains itself is not covered."
  },
  {
   "property": "C126",
   "status": "proved",
   "theorems": [
    "Thrift.C126_binary",
    "Thrift.C126_compact"
   ],
   "note": "No typing assumption on services or handlers."
  },
  {
   "property": "C127",
   "status": "proved",
   "theorems": [
    "Thrift.C127_binary",
    "Thrift.C127_compact"
   ],
   "note": ""
  },
  {
   "property": "C128",
   "status": "partial",
   "theorems": [
    "Thrift.C128_partial",
    "Thrift.C128_client_partial",
    "Thrift.C128_write_partial",
    "Thrift.C128_attack",
    "Thrift.C128_violated",
    "Thrift.C128_client_violated"
   ],
   "note": "Violated by eight bytes that work against every service and, as a reply, against every client: the length of the method name is negative and is used as the size of a slice. Partial: on input without four bytes in a row from 128 on, services without containers in arguments and without binary in results return, and so do clients; writing objects without binary does not panic whatever the transport does."
  },
  {
   "property": "C129",
   "status": "proved",
   "theorems": [
    "Thrift.Emit.C129_keywords",
    "Thrift.Emit.C129_error",
    "Thrift.Emit.C129_kept"
   ],
   "note": ""
  },
  {
   "property": "C130",
   "status": "partial",
   "theorems": [
    "Thrift.Emit.C130_violated",
    "Thrift.Emit.C130_case_violated",
    "Thrift.Emit.C130_keyword_violated",
    "Thrift.Emit.C130_partial"
   ],
   "note": "Violated: a_b and aB, id and Id, type and typeA1 share a Go field, so the generated code does not compile. Partial: injective on names that begin with a small letter, have no underscore and are no reserved words."
  },
  {
   "property": "C131",
   "status": "partial",
   "theorems": [
    "Thrift.Emit.C131_violated",
    "Thrift.Emit.C131_partial",
    "Thrift.Emit.C131_underscore"
   ],
   "note": "Violated by names with a leading underscore, which are never exported. Partial: every name that begins with a letter."
  },
  {
   "property": "C132",
   "status": "partial",
   "theorems": [
    "Thrift.Emit.C132_violated",
    "Thrift.Emit.C132_double_violated",
    "Thrift.Emit.C132_processor",
    "Thrift.Emit.C132_partial"
   ],
   "note": "Violated: for methods called get_ or get__it the client asks for a struct that is not declared (publicize applied after privatize). The processor always agrees; the client agrees for names without two underscores in a row or one at the end."
  },
  {
   "property": "C133",
   "status": "partial",
   "theorems": [
    "Thrift.Emit.C133_violated",
    "Thrift.Emit.C133_partial"
   ],
   "note": "Violated by a service with the functions mail and sendMail. Partial: no public name begins with Send or Recv."
  },
  {
   "property": "C134",
   "status": "partial",
   "theorems": [
    "Thrift.Emit.C134_violated",
    "Thrift.Emit.C134_err_violated",
    "Thrift.Emit.C134_keyword_violated",
    "Thrift.Emit.C134_partial"
   ],
   "note": "Violated by arguments called p or err, and by type with Type. Partial: no argument or exception is a reserved word or called p, err or retval with something behind."
  },
  {
   "property": "C135",
   "status": "partial",
   "theorems": [
    "Thrift.Emit.C135_violated",
    "Thrift.Emit.C135_round_trip",
    "Thrift.Emit.C135_unset",
    "Thrift.Emit.C135_partial",
    "Thrift.Emit.C135_numbers",
    "Thrift.Emit.C135_explicit"
   ],
   "note": "Violated by enums with the value -10000, which is also the answer for unknown texts. Partial: all other enums. Implicit values count up from zero or from the last explicit value."
  },
  {
   "property": "C136",
   "status": "partial",
   "theorems": [
    "Thrift.Emit.C136_violated",
    "Thrift.Emit.C136_partial",
    "Thrift.Emit.C136_nearest"
   ],
   "note": "Violated by 1234567: the stream prints six significant digits. Partial: numbers below a million, and exactly those larger ones that end in zeros behind the sixth digit; fractions are not modelled."
  },
  {
   "property": "C137",
   "status": "partial",
   "theorems": [
    "Thrift.Emit.C137_violated",
    "Thrift.Emit.C137_constants",
    "Thrift.Emit.C137_fresh",
    "Thrift.Emit.C137_partial"
   ],
   "note": "Violated by every container or struct default with contents: the statements that fill it refer to the name of the member instead of the field of output. Partial: holds exactly for base values and empty containers. The initialisation of constants is in order for all values."
  },
  {
   "property": "C138",
   "status": "partial",
   "theorems": [
    "Thrift.Emit.C138_violated",
    "Thrift.Emit.C138_partial"
   ],
   "note": "Violated by structs with a negative id (members without explicit ids): their fields are declared with type constants like thrift.I32. Partial: all structs without negative ids."
  },
  {
   "property": "C139",
   "status": "partial",
   "theorems": [
    "Thrift.Emit.C139_violated",
    "Thrift.Emit.C139_single",
    "Thrift.Emit.C139_partial"
   ],
   "note": "Violated: an unused id below a used one is a blank interface field, a single member with id 1000 makes a struct of 1000 fields. Partial: ids 1, 2, 3 and so on."
  },
  {
   "property": "C140",
   "status": "proved",
   "theorems": [
    "Thrift.Emit.C140_extends",
    "Thrift.Emit.C140_service",
    "Thrift.Emit.C140_chain"
   ],
   "note": ""
  },
  {
   "property": "C141",
   "status": "partial",
   "theorems": [
    "Thrift.C141_violated",
    "Thrift.C141_nonblocking",
    "Thrift.C141_partial",
    "Thrift.C141_no_data"
   ],
   "note": "Violated by TServerSocket: an Accept that fails has opened the socket. Proved in full for TNonblockingServerSocket and for TServerSocket when nothing is accepted while it is closed."
  },
  {
   "property": "C142",
   "status": "partial",
   "theorems": [
    "Thrift.C142_violated",
    "Thrift.C142_accept_violated",
    "Thrift.C142_nonblocking",
    "Thrift.C142_partial"
   ],
   "note": "Violated by TServerSocket.Listen and Accept, which always listen on tcp, so unix addresses are listened on as TCP. Proved for TNonblockingServerSocket, and for TServerSocket on TCP or when only Open is used."
  },
  {
   "property": "C143",
   "status": "partial",
   "theorems": [
    "Thrift.C143_violated",
    "Thrift.C143_reopens",
    "Thrift.C143_partial",
    "Thrift.C143_accepts",
    "Thrift.C143_of_listener",
    "Thrift.C143_accept_fails"
   ],
   "note": "Violated by TServerSocket, which listens again and accepts. Proved for TNonblockingServerSocket."
  },
  {
   "property": "C144",
   "status": "proved",
   "theorems": [
    "Thrift.C144_listeners"
   ],
   "note": ""
  },
  {
   "property": "C145",
   "status": "partial",
   "theorems": [
    "Thrift.C145_violated",
    "Thrift.C145_partial"
   ],
   "note": "Violated by sockets made with a nil address, which the constructors take (TSocket checks this). Proved for all other addresses."
  },
  {
   "property": "C146",
   "status": "partial",
   "theorems": [
    "Thrift.C146_partial",
    "Thrift.C146_call_partial",
    "Thrift.C146_attack",
    "Thrift.C146_exact_partial",
    "Thrift.C146_violated"
   ],
   "note": "Violated by every method with binary or a container in its result or its exceptions; C146_exact_partial shows that exactly these methods are affected. Partial: all other methods, also for whole calls with arguments of the declared types."
  },
  {
   "property": "C147",
   "status": "partial",
   "theorems": [
    "Thrift.C147_partial",
    "Thrift.C147_stuck",
    "Thrift.C147_violated",
    "Thrift.C147_level",
    "Thrift.C147_i16_violated"
   ],
   "note": "C147_partial proves that a conversation of sound calls never panics, waits or goes wrong: it ends with all calls answered, with the handler's first error, or at a message that is longer than the buffer or whose struct is empty. Violated by methods without arguments or without a result (C147_violated: the server waits for more after the request) and by i16 arguments (C147_i16_violated: the request is refused). Missing: schemas with binary members."
  },
  {
   "property": "C148",
   "status": "proved",
   "theorems": [
    "Thrift.C148_reads"
   ],
   "note": "C148_reads, proved in full on a model with a clock and peers that answer after a delay."
  },
  {
   "property": "C149",
   "status": "partial",
   "theorems": [
    "Thrift.C149_violated",
    "Thrift.C149_late_violated",
    "Thrift.C149_nonblocking",
    "Thrift.C149_partial"
   ],
   "note": "C149_nonblocking: proved for non-blocking sockets. Violated by TSocket: Write sets the deadline and Flush sends, so a Flush longer than the timeout after the last Write is cut off at once (C149_violated), and SetTimeout after Write has no effect on it (C149_late_violated). C149_partial: with nothing but waiting since the last Write the timeout counts from that Write."
  },
  {
   "property": "C150",
   "status": "partial",
   "theorems": [
    "Thrift.C150_violated",
    "Thrift.C150_partial"
   ],
   "note": "C150_partial: proved for TSocket. Violated by TNonblockingSocket (C150_violated), which dials without a timeout."
  },
  {
   "property": "C151",
   "status": "partial",
   "theorems": [
    "Thrift.C151_violated",
    "Thrift.C151_partial"
   ],
   "note": "Violated: every timeout is reported as UNKNOWN_TRANSPORT_EXCEPTION (C151_violated; C151_partial proves what is reported, and when, for every late peer)."
  },
  {
   "property": "C152",
   "status": "proved",
   "theorems": [
    "Thrift.C152_written",
    "Thrift.C152_sticky",
    "Thrift.C152_held"
   ],
   "note": "C152_written, proved in full; bufio.Writer is modelled after the Go library."
  },
  {
   "property": "C153",
   "status": "proved",
   "theorems": [
    "Thrift.C153_read",
    "Thrift.C153_error"
   ],
   "note": "C153_read, proved in full; bufio.Reader is modelled after the Go library."
  },
  {
   "property": "C154",
   "status": "partial",
   "theorems": [
    "Thrift.C154_violated",
    "Thrift.C154_partial"
   ],
   "note": "Violated: Close drops the buffer (C154_violated). C154_partial: holds after a successful Flush."
  },
  {
   "property": "C155",
   "status": "partial",
   "theorems": [
    "Thrift.C155_violated",
    "Thrift.C155_never",
    "Thrift.C155_partial"
   ],
   "note": "C155_partial: proved for transports of a single stream. Violated by the three buffered kinds (C155_violated; C155_never: none of them ever closes anything, since bufio has no Close)."
  },
  {
   "property": "C156",
   "status": "proved",
   "theorems": [
    "Thrift.C156_directions"
   ],
   "note": "C156_directions, proved in full."
  },
  {
   "property": "C157",
   "status": "partial",
   "theorems": [
    "Thrift.C157_partial",
    "Thrift.C157_violated",
    "Thrift.C157_stream_violated",
    "Thrift.C157_http_violated",
    "Thrift.C157_framed_violated",
    "Thrift.C157_framed_partial"
   ],
   "note": "C157_partial: proved for both kinds of sockets; C157_framed_partial: what a framed transport inherits. Violated by memory buffers and streams (always open), HTTP clients (Open does nothing) and framed transports (Write of a closed one succeeds)."
  },
  {
   "property": "C158",
   "status": "partial",
   "theorems": [
    "Thrift.C158_partial",
    "Thrift.C158_violated"
   ],
   "note": "C158_partial: proved for connections that know their peer, and in full for the non-blocking socket. Violated by TSocket without a remote address: it dials its own (C158_violated)."
  },
  {
   "property": "C159",
   "status": "partial",
   "theorems": [
    "Thrift.C159_violated",
    "Thrift.C159_write_violated",
    "Thrift.C159_partial"
   ],
   "note": "Violated: neither buffer is emptied (C159_violated, C159_write_violated). C159_partial: holds when both buffers are empty."
  },
  {
   "property": "C160",
   "status": "partial",
   "theorems": [
    "Thrift.C160_violated",
    "Thrift.C160_nonblocking_violated",
    "Thrift.C160_http_violated",
    "Thrift.C160_stream_violated",
    "Thrift.C160_partial",
    "Thrift.C160_kinds",
    "Thrift.C160_stream_open"
   ],
   "note": "C160_partial: proved for the default factory, the framed one around it, and the one for streams unless the transport is a closed single stream. Violated by memory buffers (C160_violated), non-blocking sockets (the answer is never connected, C160_nonblocking_violated), HTTP clients (C160_http_violated) and, with a panic, a closed single stream (C160_stream_violated)."
  },
  {
   "property": "C161",
   "status": "proved",
   "theorems": [
    "Thrift.C161_fresh"
   ],
   "note": "C161_fresh, proved in full (defaults that are containers, structs and enums are left to C118-C121)."
  },
  {
   "property": "C162",
   "status": "proved",
   "theorems": [
    "Thrift.C162_exception"
   ],
   "note": "C162_exception, proved in full over the binary protocol."
  },
  {
   "property": "C163",
   "status": "proved",
   "theorems": [
    "Thrift.C163_first",
    "Thrift.C163_equal"
   ],
   "note": "C163_first and C163_equal, proved in full."
  },
  {
   "property": "C164",
   "status": "partial",
   "theorems": [
    "Thrift.C164_violated",
    "Thrift.C164_partial"
   ],
   "note": "Violated: two empty sets made with different sizes differ, since Len of an empty set is the size given. C164_partial: equal exactly when not empty or made with the same size."
  },
  {
   "property": "C165",
   "status": "partial",
   "theorems": [
    "Thrift.C165_violated",
    "Thrift.C165_panics_violated",
    "Thrift.C165_partial",
    "Thrift.C165_empty"
   ],
   "note": "Violated: an empty map made with size n lists n nils, and panics for negative n (C165_panics_violated). C165_partial: histories with at least one Set, up to the iteration order of Go maps."
  },
  {
   "property": "C166",
   "status": "partial",
   "theorems": [
    "Thrift.C166_violated",
    "Thrift.C166_partial"
   ],
   "note": "Violated: a nil in a list of binary values. C166_partial: every other list of scalars."
  },
  {
   "property": "C167",
   "status": "partial",
   "theorems": [
    "Thrift.C167_violated",
    "Thrift.C167_partial"
   ],
   "note": "Violated: a loop left early leaves the goroutine behind. C167_partial: it ends exactly when all elements are received, which arrive in order."
  },
  {
   "property": "C168",
   "status": "partial",
   "theorems": [
    "Thrift.C168_violated",
    "Thrift.C168_partial",
    "Thrift.C168_single_partial"
   ],
   "note": "Violated: NaN is greater than itself (and everything greater than NaN). C168_partial: value order without NaN, 1 with; C168_single_partial for float32 operands."
  },
  {
   "property": "C169",
   "status": "partial",
   "theorems": [
    "Thrift.C169_violated",
    "Thrift.C169_nan_violated",
    "Thrift.C169_partial",
    "Thrift.C169_texts"
   ],
   "note": "Violated: CompareInt64 takes int32, so 2^32 compares equal to 0; NaN equals every number. C169_partial excludes both; C169_texts covers texts."
  },
  {
   "property": "C170",
   "status": "partial",
   "theorems": [
    "Thrift.C170_never_violated",
    "Thrift.C170_violated",
    "Thrift.C170_partial",
    "Thrift.C170_widths",
    "Thrift.C170_constants"
   ],
   "note": "Violated for every integer (C170_never_violated): string(i) is the character with that number. C170_partial: values are right; texts in decimal keep value and text; the special numbers are found by their texts."
  },
  {
   "property": "C171",
   "status": "partial",
   "theorems": [
    "Thrift.C171_violated",
    "Thrift.C171_partial",
    "Thrift.C171_integers"
   ],
   "note": "Violated: ENUM and UTF8 are the same number, a number and a text. C171_partial: the only exception."
  },
  {
   "property": "C172",
   "status": "partial",
   "theorems": [
    "Thrift.C172_violated",
    "Thrift.C172_partial",
    "Thrift.C172_others"
   ],
   "note": "Violated: int16 and uint16 are missing and give STOP. C172_partial: all other integer types."
  },
  {
   "property": "C173",
   "status": "partial",
   "theorems": [
    "Thrift.Emit.C173_types",
    "Thrift.Emit.C173_services",
    "Thrift.Emit.C173_violated",
    "Thrift.Emit.C173_include_violated",
    "Thrift.Emit.C173_extends_violated",
    "Thrift.Emit.C173_partial",
    "Thrift.Emit.C173_base",
    "Thrift.Emit.C173_parent",
    "Thrift.Emit.C173_mentions"
   ],
   "note": "Violated: programs without structs import fmt for nothing; includes and parents of services are imported behind a function (and the parent's package may be the own one). C173_types and C173_services say exactly which files are accepted."
  },
  {
   "property": "C174",
   "status": "partial",
   "theorems": [
    "Thrift.Emit.C174_never_violated",
    "Thrift.Emit.C174_violated",
    "Thrift.Emit.C174_partial",
    "Thrift.Emit.C174_closed",
    "Thrift.Emit.C174_slashed",
    "Thrift.Emit.C174_parsed"
   ],
   "note": "Violated for every service: math is imported and never used (C174_never_violated). C174_partial: all others are used, strconv exactly when some function takes a number or enum."
  },
  {
   "property": "C175",
   "status": "partial",
   "theorems": [
    "Thrift.Emit.C175_violated",
    "Thrift.Emit.C175_new_violated",
    "Thrift.Emit.C175_partial"
   ],
   "note": "Violated: two services with a function of one name; a function newUser beside user. C175_partial: exactly when all public names of the program differ and none is another with New before it."
  },
  {
   "property": "C176",
   "status": "partial",
   "theorems": [
    "Thrift.Emit.C176_violated",
    "Thrift.Emit.C176_partial"
   ],
   "note": "Violated for user__store. C176_partial: exactly the names without a letter behind two underscores."
  },
  {
   "property": "C177",
   "status": "partial",
   "theorems": [
    "Thrift.Emit.C177_violated",
    "Thrift.Emit.C177_embedded_violated",
    "Thrift.Emit.C177_isSet_violated",
    "Thrift.Emit.C177_reserved_violated",
    "Thrift.Emit.C177_partial",
    "Thrift.Emit.C177_clash_violated",
    "Thrift.Emit.C177_methods"
   ],
   "note": "Violated by members called string, t_struct, is_set_name beside name, goTo beside go_to. C177_partial: all members whose names begin with a letter, differ after publicize and avoid the names of methods; C177_clash_violated: every clash is one."
  },
  {
   "property": "C178",
   "status": "partial",
   "theorems": [
    "Thrift.Emit.C178_violated",
    "Thrift.Emit.C178_partial",
    "Thrift.Emit.C178_enum",
    "Thrift.Emit.C178_apart"
   ],
   "note": "Violated: a typedef of a struct is a named pointer type, which has no methods. C178_partial: exactly the types with no typedef of a struct in them."
  },
  {
   "property": "C179",
   "status": "partial",
   "theorems": [
    "Thrift.Emit.C179_violated",
    "Thrift.Emit.C179_partial",
    "Thrift.Emit.C179_set"
   ],
   "note": "Violated: a field of a typedef'd enum that is not optional is sent as 2147483647, which the receiver takes for set. C179_partial: exactly optional fields and enums without typedef. C179_set: values that are set arrive."
  },
  {
   "property": "C180",
   "status": "partial",
   "theorems": [
    "Thrift.Emit.C180_lost",
    "Thrift.Emit.C180_lost_map",
    "Thrift.Emit.C180_violated",
    "Thrift.Emit.C180_partial"
   ],
   "note": "Violated: elements of base types behind a typedef are dropped, so that lists stay empty; sets stay empty but have the announced length (C180_lost); maps stay empty (C180_lost_map). C180_partial: exactly the types that are neither enums nor base types behind typedefs."
  },
  {
   "property": "C181",
   "status": "partial",
   "theorems": [
    "Thrift.Emit.C181_violated",
    "Thrift.Emit.C181_iprot_violated",
    "Thrift.Emit.C181_partial"
   ],
   "note": "Violated by error (declared error_a1, assigned as error) and by iprot. C181_partial: exactly when no exception is called like a reserved word or like something the function uses."
  },
  {
   "property": "C182",
   "status": "partial",
   "theorems": [
    "Thrift.Emit.C182_violated",
    "Thrift.Emit.C182_port_violated",
    "Thrift.Emit.C182_partial",
    "Thrift.Emit.C182_http",
    "Thrift.Emit.C182_framed"
   ],
   "note": "Violated: the parsed URL is a variable of an inner block, so HTTP always is for the empty URL (C182_http); a host with a port, as the usage asks for, gets a second port. C182_partial: exactly without URL and HTTP, for hosts without port."
  },
  {
   "property": "C183",
   "status": "partial",
   "theorems": [
    "Thrift.Emit.C183_violated",
    "Thrift.Emit.C183_binary_violated",
    "Thrift.Emit.C183_struct_violated",
    "Thrift.Emit.C183_partial"
   ],
   "note": "Violated by i16 (passed as byte), binary (passed as string) and typedefs of structs (no constructor). C183_partial: exactly the others are accepted."
  },
  {
   "property": "C184",
   "status": "partial",
   "theorems": [
    "Thrift.Emit.C184_violated",
    "Thrift.Emit.C184_partial",
    "Thrift.Emit.C184_others"
   ],
   "note": "Violated when the id is not the position: the method read with is that of another argument, or none. C184_partial: exactly when the argument of that id has the field; for names that are no reserved words when the id is the position."
  },
  {
   "property": "C185",
   "status": "partial",
   "theorems": [
    "Thrift.Emit.C185_violated",
    "Thrift.Emit.C185_partial",
    "Thrift.Emit.C185_bool",
    "Thrift.Emit.C185_widths"
   ],
   "note": "Violated: 300 is passed as 44 for a byte; numbers of 16 bits are cut to 8. C185_partial: nothing for texts that are no 64 bit numbers, and the number itself exactly in the range of the type converted to. C185_bool: only true is true."
  },
  {
   "property": "C186",
   "status": "partial",
   "theorems": [
    "Thrift.Emit.C186_violated",
    "Thrift.Emit.C186_partial",
    "Thrift.Emit.C186_connects",
    "Thrift.Emit.C186_protocols",
    "Thrift.Emit.C186_arity"
   ],
   "note": "Violated: unknown functions and protocols, wrong arguments and unparsable URLs end with status 0. C186_partial: when a call is made and which, and that status 1 means that no transport could be made or opened. C186_connects: an unknown function is noticed only after connecting."
  },
  {
   "property": "C187",
   "status": "partial",
   "theorems": [
    "Thrift.Emit.C187_violated",
    "Thrift.Emit.C187_partial"
   ],
   "note": "Violated for functions of parents. C187_partial: exactly the functions of the service itself."
  },
  {
   "property": "C188",
   "status": "partial",
   "theorems": [
    "Thrift.C188_numeral64",
    "Thrift.C188_numeral32",
    "Thrift.C188_canonical",
    "Thrift.C188_canonical_careful",
    "Thrift.C188_violated",
    "Thrift.C188_elem2",
    "Thrift.C188_elem2_long",
    "Thrift.C188_elem2_map",
    "Thrift.C188_falseField",
    "Thrift.C188_partial",
    "Thrift.C188_determined",
    "Thrift.C188_message"
   ],
   "note": "Violated: type code 2 is refused in list headers and field headers and read as STOP in map headers (C188_elem2, C188_elem2_long, C188_elem2_map, C188_falseField); short headers after fields with structs two or more deep are not read either (C19). C188_partial: all other forms are read, with any numerals and headers. C188_canonical: what this library writes is one of the permitted encodings. C188_determined: no bytes denote two values. C188_message: message headers in any form."
  },
  {
   "property": "C189",
   "status": "proved",
   "theorems": [
    "Thrift.C189_order",
    "Thrift.C189_last",
    "Thrift.C189_order_compact"
   ],
   "note": "C189_order: binary, any two field sequences which agree on every declared id give the same attributes. C189_last: the attribute is what a struct of that last field alone gives. C189_order_compact: the compact protocol, for what it can carry (C19)."
  },
  {
   "property": "C190",
   "status": "partial",
   "theorems": [
    "Thrift.C190_empty_partial",
    "Thrift.C190_violated",
    "Thrift.C190_partial"
   ],
   "note": "Violated: the generator emits no check, so the empty struct is read without error as any struct (C190_violated, C190_empty_partial). C190_partial: leaving a field out never turns a successful read into a failing one and changes no other attribute."
  },
  {
   "property": "C191",
   "status": "partial",
   "theorems": [
    "Thrift.C191_violated",
    "Thrift.C191_negative_violated",
    "Thrift.C191_type_violated",
    "Thrift.C191_partial",
    "Thrift.C191_fuel_partial",
    "Thrift.C191_length",
    "Thrift.C191_tight",
    "Thrift.C191_determined",
    "Thrift.C191_message"
   ],
   "note": "Violated: every byte but 1 is false (C191_violated), negative lengths and counts are 0 (C191_negative_violated) and empty containers may have any element type (C191_type_violated). C191_partial, C191_fuel_partial: these are the only liberties, as an equivalence: a value is read iff a prefix of the bytes denotes it in this lenient sense, and the reader stops behind it. C191_length: all forms have the length of the encoding. C191_tight: values without booleans and without anything empty are read from their encoding only. C191_determined: no bytes denote two values of a type. C191_message: the same equivalence for message headers (third byte of the version word is free; names as lenient as strings)."
  },
  {
   "property": "C192",
   "status": "partial",
   "theorems": [
    "Thrift.C192_violated",
    "Thrift.C192_message_violated",
    "Thrift.C192_digits_violated",
    "Thrift.C192_partial",
    "Thrift.C192_message_partial",
    "Thrift.C192_determined",
    "Thrift.C192_equals",
    "Thrift.C192_new",
    "Thrift.C192_default",
    "Thrift.C192_less",
    "Thrift.C192_nil"
   ],
   "note": "Violated: string(int) makes a character of the number, so ids that are no code points all print alike (C192_violated, C192_message_violated) and field 65 prints as A (C192_digits_violated). C192_partial, C192_message_partial: exactly when two texts agree. C192_determined: ids that are code points are told apart. C192_equals, C192_default, C192_less, C192_nil: Equals, the default message, the sort order and nil fields. C192_new: messages made with different names, types or sequence numbers are different."
  },
  {
   "property": "C193",
   "status": "partial",
   "theorems": [
    "Thrift.C193_violated",
    "Thrift.C193_address_violated",
    "Thrift.C193_other_violated",
    "Thrift.C193_partial",
    "Thrift.C193_accepts",
    "Thrift.C193_fresh",
    "Thrift.C193_unlimited",
    "Thrift.C193_before",
    "Thrift.C193_factory_partial",
    "Thrift.C193_closed"
   ],
   "note": "C193_partial: connections observe the timeout, for all histories. Violated for factories: given a server socket of the other kind (C193_violated, C193_other_violated) or one without address (C193_address_violated) they use their own timeout, for nonblocking sockets none. C193_factory_partial: exactly when the timeout is kept. C193_before: setting it later changes nothing for connections accepted before. C193_closed: what factories make is not listening. C193_accepts, C193_fresh, C193_unlimited: every connection the listener gives is accepted, its socket is open with nothing to flush, and that of a server socket made without a timeout waits for ever."
  },
  {
   "property": "C194",
   "status": "partial",
   "theorems": [
    "Thrift.C194_violated",
    "Thrift.C194_stop_violated",
    "Thrift.C194_string_violated",
    "Thrift.C194_negative_violated",
    "Thrift.C194_cut_violated",
    "Thrift.C194_type_violated",
    "Thrift.C194_id_violated",
    "Thrift.C194_fuel_partial",
    "Thrift.C194_idle",
    "Thrift.C194_partial",
    "Thrift.C194_new",
    "Thrift.C194_determined",
    "Thrift.C194_careful",
    "Thrift.C194_taken",
    "Thrift.C194_message"
   ],
   "note": "Violated: every byte but 1 is false (C194_violated), any byte with lower half 0 ends a struct (C194_stop_violated), strings are filled with zeros at the end of input (C194_string_violated), negative counts are 0 (C194_negative_violated), numbers are cut to their width (C194_cut_violated), empty lists may have elements of no type (C194_type_violated), ids after deep structs are wrong (C194_id_violated). C194_partial, C194_fuel_partial: these are the only liberties, as an equivalence with a relation that also describes where the reader stops and what it remembers; the second one gives the exact fuel. C194_idle: no success leaves a boolean pending. C194_determined: an input is taken for one value of a type at most. C194_careful: what C188 says is read is among it. C194_taken: no input gives a struct with a field that is false, a length out of range or an element of another type. C194_message: the equivalence for message headers (two bits of the type count)."
  },
  {
   "property": "C195",
   "status": "partial",
   "theorems": [
    "Thrift.C195_error_violated",
    "Thrift.C195_unknown_violated",
    "Thrift.C195_violated",
    "Thrift.C195_until_error_partial",
    "Thrift.C195_partial",
    "Thrift.C195_flag"
   ],
   "note": "Violated: after a request that is answered with an exception (error of the handler, C195_error_violated, or unknown method, C195_unknown_violated) the connection is closed and the requests behind it are never read. C195_until_error_partial: exactly what is answered and what is left, for all proper requests; C195_partial: known methods and handlers without errors get all answers; C195_flag: the flag plays no role for any protocol and connection. Missing: requests whose arguments cannot be read (C55_malformed_partial covers one of them)."
  },
  {
   "property": "C196",
   "status": "partial",
   "theorems": [
    "Thrift.C196_violated",
    "Thrift.C196_partial"
   ],
   "note": "Violated: Recv compares the sequence id of a reply with that of the last request sent. C196_partial: after two requests the first reply is refused on every connection and its body is left in the stream."
  },
  {
   "property": "C197",
   "status": "partial",
   "theorems": [
    "Thrift.C197_session",
    "Thrift.C197_factories",
    "Thrift.C197_violated",
    "Thrift.C197_partial",
    "Thrift.C197_default"
   ],
   "note": "Violated: a factory with strict reading and non-strict writing makes objects that refuse each other's headers. C197_partial: all other settings work for all calls; C197_session and C197_factories: the wiring of all six constructors; C197_default: the defaults understand every binary client."
  },
  {
   "property": "C198",
   "status": "partial",
   "theorems": [
    "Thrift.C198_partial",
    "Thrift.C198_digit",
    "Thrift.C198_violated",
    "Thrift.C198_lost",
    "Thrift.C198_error_violated"
   ],
   "note": "Violated: the reader looks at four bytes before it reads a number, so a request or reply whose last value is a single digit is never answered on an open connection (C198_violated); a handler's error arrives as an INVALID_DATA error of the protocol, because exceptions are read by field numbers, which this protocol does not send (C198_error_violated). C198_partial: exactly what the client gets for every list of calls, up to the first message that ends with an empty struct or a single digit, or does not fit. Missing: binary elements of containers."
  },
  {
   "property": "C199",
   "status": "partial",
   "theorems": [
    "Thrift.C199_partial",
    "Thrift.C199_direct_partial",
    "Thrift.C199_violated",
    "Thrift.C199_settled",
    "Thrift.C199_count"
   ],
   "note": "Violated: the generated reader panics on some arguments with containers or `binary` (as in C124), and that panic takes the server down (`C199_violated`). `C199_partial` is the whole truth (ends or panics, with exactly the answers described), `C199_direct_partial` is the statement for arguments without containers and `binary`, `C199_settled` says the bytes settle the end and the number of answers, `C199_count` that there is at most one answer for nine bytes."
  },
  {
   "property": "C200",
   "status": "partial",
   "theorems": [
    "Thrift.Emit.C200_generic_partial",
    "Thrift.Emit.C200_structs_partial",
    "Thrift.Emit.C200_lines_partial",
    "Thrift.Emit.C200_violated"
   ],
   "note": "Violated: typedefs, enums and services print the lines behind ` *` without a blank, so a line that begins with `/` closes the comment and the rest is Go source (`C200_violated`). `C200_generic_partial` is the exact condition; `C200_structs_partial` is the statement in full for structs, exceptions and functions."
  },
  {
   "property": "C201",
   "status": "partial",
   "theorems": [
    "Thrift.Emit.C201_partial",
    "Thrift.Emit.C201_violated",
    "Thrift.Emit.C201_remote_partial",
    "Thrift.Emit.C201_made_partial",
    "Thrift.Emit.C201_package_partial"
   ],
   "note": "Violated: the module `a.b` is put into `a/b` but imported as `a.b` (`C201_violated`); exact condition `C201_partial`: no dot in the name. The command line program uses the right path (`C201_remote_partial`), the directories are made in order (`C201_made_partial`), the package clause agrees with the directory (`C201_package_partial`)."
  },
  {
   "property": "C202",
   "status": "partial",
   "theorems": [
    "Thrift.Emit.C202_violated",
    "Thrift.Emit.C202_enum_violated",
    "Thrift.Emit.C202_underscore_violated",
    "Thrift.Emit.C202_partial",
    "Thrift.Emit.C202_enum_partial",
    "Thrift.Emit.C202_name_partial",
    "Thrift.Emit.C202_base_partial"
   ],
   "note": "Violated by `x` and `X` (`C202_violated`), by a constant `a` of an enum `T` with a value `A` (`C202_enum_violated`), by `a__b`/`c` and `a`/`b__c` (`C202_underscore_violated`). Exact for types without underscores: `C202_partial`, `C202_enum_partial`, `C202_name_partial`; constants of base types are safe from enums (`C202_base_partial`)."
  },
  {
   "property": "C203",
   "status": "partial",
   "theorems": [
    "Thrift.Emit.C203_refs_partial",
    "Thrift.Emit.C203_never_partial",
    "Thrift.Emit.C203_violated",
    "Thrift.Emit.C203_dots_violated"
   ],
   "note": "Violated always: the literal in the constructors of a client has the key `module.ParentClient`, which is no field name (`C203_violated`, `C203_never_partial` for all names). The other references are right exactly for modules without dots (`C203_refs_partial`, `C203_dots_violated`)."
  },
  {
   "property": "C204",
   "status": "partial",
   "theorems": [
    "Thrift.Emit.C204_partial",
    "Thrift.Emit.C204_violated"
   ],
   "note": "Violated: structs, exceptions, enums and typedefs of included files are mentioned without their package (`C204_violated`). `C204_partial` is exact: right for base types, containers and types of the file itself, wrong for all others."
  },
  {
   "property": "C205",
   "status": "partial",
   "theorems": [
    "Thrift.Emit.C205_root_partial",
    "Thrift.Emit.C205_extends_partial",
    "Thrift.Emit.C205_used_partial",
    "Thrift.Emit.C205_violated",
    "Thrift.Emit.C205_hidden_violated",
    "Thrift.Emit.C205_client_violated"
   ],
   "note": "Violated by a function `transport` (`C205_violated`), which hides the field in an extending service (`C205_hidden_violated`), and by one named like the parent's client (`C205_client_violated`). Exact: `C205_root_partial`, `C205_extends_partial`, `C205_used_partial`."
  },
  {
   "property": "C206",
   "status": "partial",
   "theorems": [
    "Thrift.Emit.C206_root_partial",
    "Thrift.Emit.C206_partial",
    "Thrift.Emit.C206_new_partial",
    "Thrift.Emit.C206_body_partial",
    "Thrift.Emit.C206_violated",
    "Thrift.Emit.C206_send_violated"
   ],
   "note": "Violated if a service declares a function of its parent again with other types (`C206_violated`), or a function `mail` below a parent's `sendMail` (`C206_send_violated`). Exact: `C206_partial`; `C206_root_partial` for services that extend nothing, `C206_new_partial` if nothing is declared again."
  },
  {
   "property": "C207",
   "status": "partial",
   "theorems": [
    "Thrift.C207_binary_asks_partial",
    "Thrift.C207_compact_asks_partial",
    "Thrift.C207_framed_asks_partial",
    "Thrift.C207_binary_violated",
    "Thrift.C207_compact_violated",
    "Thrift.C207_framed_violated",
    "Thrift.C207_violated",
    "Thrift.C207_binary_partial",
    "Thrift.C207_compact_partial",
    "Thrift.C207_framed_partial",
    "Thrift.C207_limit_partial"
   ],
   "note": "Violated: four bytes call for any buffer below two gigabytes over the binary protocol (`C207_binary_asks_partial`, `C207_binary_violated`), five over the compact protocol (`C207_compact_asks_partial`, `C207_compact_violated`) and four for one below four gigabytes in frames (`C207_framed_asks_partial`, `C207_framed_violated`). `C207_binary_partial`, `C207_compact_partial` and `C207_framed_partial` for all inputs and calls: sizes stay below these bounds, at most one buffer is larger than the data, and none if any data is left. `C207_limit_partial`: under a read limit all buffers together stay below it, over any transport."
  },
  {
   "property": "C208",
   "status": "partial",
   "theorems": [
    "Thrift.C208_same_partial",
    "Thrift.C208_stop_partial",
    "Thrift.C208_cut_partial",
    "Thrift.C208_compact_cut_partial",
    "Thrift.C208_binary_violated",
    "Thrift.C208_compact_violated",
    "Thrift.C208_violated",
    "Thrift.C208_binary_partial",
    "Thrift.C208_compact_partial",
    "Thrift.C208_binary_values_partial",
    "Thrift.C208_compact_values_partial"
   ],
   "note": "Violated: five bytes, a list of 2^31-1 elements of type STOP, take 2^31 calls and no error (`C208_stop_partial`, `C208_binary_violated`); so do lists that are cut off after the header, over both protocols (`C208_cut_partial`, `C208_compact_cut_partial`, `C208_compact_violated`). For all inputs there are at most 2^32 calls for each byte (`C208_binary_partial`, `C208_compact_partial`); for what writers write there is one for each value in the value, no more than bytes (`C208_binary_values_partial`, `C208_compact_values_partial`). The counting program is Skip with a counter (`C208_same_partial`)."
  },
  {
   "property": "C209",
   "status": "partial",
   "theorems": [
    "Thrift.C209_error_violated",
    "Thrift.C209_unknown_violated",
    "Thrift.C209_result_violated",
    "Thrift.C209_violated",
    "Thrift.C209_until_error_partial",
    "Thrift.C209_partial"
   ],
   "note": "Violated: after an error of the handler (`C209_error_violated`) or a request for an unknown method (`C209_unknown_violated`) the requests behind it stay unread; a reply with `false` in it is sent and cannot be read (`C209_result_violated`). `C209_until_error_partial` says all for results that the protocol can carry: in order, up to and including the first exception, from any idle state of the protocol."
  },
  {
   "property": "C210",
   "status": "partial",
   "theorems": [
    "Thrift.C210_changed_violated",
    "Thrift.C210_added_violated",
    "Thrift.C210_removed_violated",
    "Thrift.C210_violated",
    "Thrift.C210_partial",
    "Thrift.C210_lax_partial",
    "Thrift.C210_compact_partial"
   ],
   "note": "Violated: an optional field that is set to its default value is not sent, so a version with another default (`C210_changed_violated`), with a default where there was none (`C210_added_violated`) or without the default (`C210_removed_violated`) sees its own default instead. `C210_partial` proves the claim for versions that agree on the defaults of optional fields, `C210_lax_partial` for all versions except for such fields, `C210_compact_partial` for both over the compact protocol and values that it can carry."
  },
  {
   "property": "C211",
   "status": "partial",
   "theorems": [
    "Thrift.C211_exception_violated",
    "Thrift.C211_default_violated",
    "Thrift.C211_violated",
    "Thrift.C211_partial",
    "Thrift.C211_lax_partial"
   ],
   "note": "Violated: an exception that was added to a method reaches an older client as a successful call that returns zero (`C211_exception_violated`; nobody checks that a result has any field), and an argument equal to the default of the client's version is replaced by the default of the server's (`C211_default_violated`). `C211_partial` proves the claim for versions that agree on the defaults of optional fields and methods whose exceptions the client knows, `C211_lax_partial` without the condition on defaults except for such fields; both up to and including the first error, as the server gives up the connection then (C58)."
  },
  {
   "property": "C212",
   "status": "partial",
   "theorems": [
    "Thrift.C212_enum_violated",
    "Thrift.C212_binary_violated",
    "Thrift.C212_violated",
    "Thrift.C212_partial",
    "Thrift.C212_compact_partial"
   ],
   "note": "Violated: a list of enumerators is read as a list of numbers and a list of binaries as a list of strings; the type assertion in the writer then panics (`C212_enum_violated`, `C212_binary_violated`). `C212_partial` proves that writing the received object and the original one are the same program step by step for every value that generated code can carry (those of C51), received over the binary protocol; `C212_compact_partial` when it was received over the compact protocol."
  },
  {
   "property": "C213",
   "status": "partial",
   "theorems": [
    "Thrift.C213_unknown_violated",
    "Thrift.C213_default_violated",
    "Thrift.C213_violated",
    "Thrift.C213_partial"
   ],
   "note": "Violated: a program that does not know a field drops it (`C213_unknown_violated`), and one with another default value for an optional field drops a value that equals its own default, so that 7 arrives as 5 (`C213_default_violated`). `C213_partial` proves the claim for a program in between that knows all fields with the same default values, requires the fields that they require and whose own default values can be sent (`Relays`); it may have further fields."
  },
  {
   "property": "C214",
   "status": "partial",
   "theorems": [
    "Thrift.C214_list_violated",
    "Thrift.C214_struct_violated",
    "Thrift.C214_violated",
    "Thrift.C214_read_partial",
    "Thrift.C214_write_partial",
    "Thrift.C214_single_partial"
   ],
   "note": "Violated in Write: the value of a field that is a struct is wrapped in the name of the inner struct only (C214_struct_violated) and that of a container in nothing but the word list, set or map (C214_list_violated), so the field at fault is not named. Reading always names struct and field (C214_read_partial); writing does for every struct without such fields (C214_single_partial), and otherwise tells the part of the value that failed (C214_write_partial). The field id is left out of the texts (stated simplification)."
  },
  {
   "property": "C215",
   "status": "partial",
   "theorems": [
    "Thrift.C215_any_violated",
    "Thrift.C215_violated",
    "Thrift.C215_partial"
   ],
   "note": "Violated: name and type of the message are not looked at, except for EXCEPTION. `C215_any_violated` proves for all messages over binary that the client makes of them exactly what it makes of a reply to its call; `C215_violated` has a CALL of another method as witness. `C215_partial` proves for every protocol and transport that a result comes only from a message with the sequence id of the call that is no exception."
  },
  {
   "property": "C216",
   "status": "partial",
   "theorems": [
    "Thrift.C216_always_violated",
    "Thrift.C216_violated",
    "Thrift.C216_partial"
   ],
   "note": "Violated for every method: `C216_always_violated` proves that a reply without fields is taken for a result with the fields of a new object and that no error is returned (the library declares MISSING_RESULT, tapplication_exception.go:32, but generated code does not use it). `C216_partial`: what has a nil is nil then, so that callers can tell; numbers and texts are zero."
  },
  {
   "property": "C217",
   "status": "partial",
   "theorems": [
    "Thrift.C217_partial",
    "Thrift.C217_lax_partial",
    "Thrift.C217_exception_violated",
    "Thrift.C217_default_violated",
    "Thrift.C217_false_violated",
    "Thrift.C217_violated"
   ],
   "note": "Violated as C211 is, by an exception added to a method (`C217_exception_violated`) and by a changed default (`C217_default_violated`), and besides by a false argument even between equal versions (`C217_false_violated`). `C217_partial` proves the claim for versions that agree on the defaults of optional fields, methods whose exceptions the client knows and calls whose values the compact reader keeps (`CompactAcross`; met by types alone: `compact_across_simple`), `C217_lax_partial` without the condition on defaults except for such fields; both up to and including the first error."
  },
  {
   "property": "C218",
   "status": "partial",
   "theorems": [
    "Thrift.C218_partial",
    "Thrift.C218_stale_violated",
    "Thrift.C218_violated",
    "Thrift.C218_next_partial",
    "Thrift.C218_next_violated",
    "Thrift.C218_compact_partial",
    "Thrift.C218_compact_violated"
   ],
   "note": "Violated: of an answer with another sequence id only the head is read. `C218_stale_violated` proves for all transports and all answers but exceptions that the rest is left; `C218_next_violated` has a late answer as witness, after which the next call fails although its answer has arrived (the client takes the rest of the late one for the head of a message, whose name would be 128 MB long). `C218_partial` proves that exceptions with any sequence id and any fields, and all other messages with the sequence id of the call are taken off whole; `C218_next_partial` that the next answer is delivered then. Over the compact protocol: `C218_compact_violated` (late answers, for all contents) and `C218_compact_partial` (for values without what that protocol loses, C19)."
  },
  {
   "property": "C219",
   "status": "partial",
   "theorems": [
    "Thrift.C219_partial",
    "Thrift.C219_always_violated",
    "Thrift.C219_violated"
   ],
   "note": "Violated for every sequence of more than 2^32 requests (`C219_always_violated`): the number wraps around and the first id is used again, as the client does not give up or skip ids in use. `C219_partial` proves that up to 2^32 requests have different ids, whatever the first one is. That the ids can be read off the bytes is proved by running the reader on them (`RequestsOf.unique`)."
  }
 ]
}