{"id": "C01", "title": "Binary protocol: scalar round trip", "statement": "Writing a bool, byte, i16, i32, i64, double (bit pattern), string or byte array shorter than 2^31 with the binary protocol and reading it back with the matching Read call yields the same value and no error, and consumes exactly the bytes that were written, whatever follows them on the stream.", "quantifier": "every value of every scalar type, every suffix of further bytes on the stream", "why_tests_cant": "2^64 values per type and unbounded strings and suffixes; tests sample a handful of values with nothing after them.", "anchors": ["lib/go/src/thrift/tbinary_protocol.go: WriteBool..WriteBinaryFromReader, ReadBool..ReadBinary, readAll, readStringBody"]}
{"id": "C02", "title": "Binary protocol: bytes conform to the Thrift binary encoding", "statement": "For every value (scalars, structs, maps, sets, lists nested to any depth) the byte sequence sent by the binary protocol's write calls is exactly the one given by an independently stated big-endian Thrift binary encoding.", "quantifier": "every value tree of any depth and width with container and string lengths below 2^31", "why_tests_cant": "the set of value trees is infinite; a golden test fixes only a few of them.", "anchors": ["lib/go/src/thrift/tbinary_protocol.go: Write*; lib/go/src/thrift/ttype.go: ThriftTypeId"]}
{"id": "C03", "title": "Binary protocol: nested values round trip and are self-delimiting", "statement": "Reading back any written value tree with the dynamic read calls (types taken from field and container headers) returns the same tree with no error and leaves every following byte unread.", "quantifier": "every value tree, every suffix", "why_tests_cant": "needs induction on nesting; tests stop at fixed shapes.", "anchors": ["lib/go/src/thrift/tbinary_protocol.go: ReadFieldBegin, ReadMapBegin, ReadListBegin, ReadSetBegin and the scalar reads"]}
{"id": "C04", "title": "Binary protocol: message header round trip", "statement": "A message header (name, type 0..255, sequence id) written in strict mode is read back identically by both strict and non-strict readers; one written in non-strict mode is read back identically by a non-strict reader.", "quantifier": "every name below 2^31 bytes, every type 0..255, every 32-bit sequence id, all admissible mode pairs", "why_tests_cant": "unbounded names and 2^40 header fields times modes.", "anchors": ["lib/go/src/thrift/tbinary_protocol.go: WriteMessageBegin, ReadMessageBegin"]}
{"id": "C05", "title": "Binary protocol: version gate", "statement": "A reader reports BAD_VERSION, before reading anything past the first word, for every negative leading word whose top 16 bits are not 0x8001; a strict reader also does so for every non-negative leading word. No other leading word is rejected for its version.", "quantifier": "all 2^32 leading words, any following bytes, both modes", "why_tests_cant": "2^32 words times arbitrary tails.", "anchors": ["lib/go/src/thrift/tbinary_protocol.go: ReadMessageBegin; lib/go/src/thrift/tprotocol.go: VERSION_MASK, VERSION_1"]}
{"id": "C06", "title": "Binary protocol: truncated data is reported", "statement": "If the stream ends before the last byte of an encoded scalar, string, byte array, field header, container header or message header, the Read call returns a non-nil error (it never reports success for data that was not received).", "quantifier": "every value and every cut point strictly inside its encoding", "why_tests_cant": "every cut point of every value, i.e. all crash points of the peer.", "anchors": ["lib/go/src/thrift/tbinary_protocol.go: Read*, readAll; lib/go/src/thrift/ttransport.go: ReadAllTransport"]}
{"id": "C07", "title": "Binary protocol: negative lengths are rejected", "statement": "A string or byte array whose length prefix is negative makes the Read call return an error; it neither succeeds nor panics.", "quantifier": "all 2^31 negative length prefixes, any following bytes", "why_tests_cant": "tests use well formed peers only.", "anchors": ["lib/go/src/thrift/tbinary_protocol.go: ReadString, readStringBody, ReadBinary"]}
{"id": "C08", "title": "Binary protocol: read limit is honoured", "statement": "After a read limit of N bytes has been set, any sequence of read calls consumes at most N bytes from the transport, and every call that would exceed the limit returns an error.", "quantifier": "every limit, every byte stream, every finite sequence of read calls", "why_tests_cant": "histories of calls on hostile data are unbounded.", "anchors": ["lib/go/src/thrift/tbinary_protocol.go: setReadLength, checkReadLength, readAll, readStringBody, ReadBinary"]}
{"id": "C09", "title": "Skip consumes exactly one value (binary)", "statement": "Skipping a value of a declared type from a stream that starts with the binary encoding of a value of that type succeeds and consumes exactly that encoding.", "quantifier": "every value tree of any depth, every suffix", "why_tests_cant": "needs induction over nesting.", "anchors": ["lib/go/src/thrift/tprotocol.go: Skip, SkipDefaultDepth; lib/go/src/thrift/tbinary_protocol.go: Skip"]}
{"id": "C10", "title": "Skip is total on hostile data (binary)", "statement": "For every type byte and every finite byte stream, Skip over the binary protocol returns (no panic, no endless loop).", "quantifier": "every type byte, every byte string", "why_tests_cant": "infinitely many malformed inputs.", "anchors": ["lib/go/src/thrift/tprotocol.go: Skip; lib/go/src/thrift/tbinary_protocol.go: Read*"]}
{"id": "C11", "title": "Skip honours its depth limit", "statement": "Skip called with recursion limit d returns an error instead of descending into data nested deeper than d.", "quantifier": "every limit d and every input", "why_tests_cant": "depends on all nesting depths.", "anchors": ["lib/go/src/thrift/tprotocol.go: Skip, MaxSkipDepth, SetMaxSkipDepth"]}
{"id": "C12", "title": "Skip reports truncated data", "statement": "If the stream ends inside the value being skipped, Skip returns an error.", "quantifier": "every value, every cut point strictly inside its encoding", "why_tests_cant": "all crash points of the peer inside all values.", "anchors": ["lib/go/src/thrift/tprotocol.go: Skip"]}
{"id": "C13", "title": "Zigzag mapping is a size preserving bijection", "statement": "The 32- and 64-bit zigzag conversions are mutually inverse on all integers, and integers of magnitude below 2^k map below 2^(k+1), so small magnitudes give short encodings.", "quantifier": "all 2^32 and 2^64 integers", "why_tests_cant": "the 64-bit domain cannot be enumerated.", "anchors": ["lib/go/src/thrift/tcompact_protocol.go: int32ToZigzag, int64ToZigzag, zigzagToInt32, zigzagToInt64"]}
{"id": "C14", "title": "Varints round trip, are minimal and bounded", "statement": "Every 32-bit (64-bit) value is written as 1..5 (1..10) bytes, with no shorter base-128 form, reading returns the same value and consumes exactly those bytes, and two different values never share an encoding.", "quantifier": "all 2^32 and 2^64 values, every suffix", "why_tests_cant": "64-bit domain and unbounded suffixes.", "anchors": ["lib/go/src/thrift/tcompact_protocol.go: writeVarint32, writeVarint64, readVarint32, readVarint64"]}
{"id": "C15", "title": "Compact protocol: scalar round trip", "statement": "Writing a byte, i16, i32, i64, double (bit pattern), string, byte array or a bool outside a field header with the compact protocol and reading it back yields the same value, no error, and consumes exactly the written bytes.", "quantifier": "every value of every scalar type, every suffix", "why_tests_cant": "2^64 values, unbounded strings and suffixes.", "anchors": ["lib/go/src/thrift/tcompact_protocol.go: WriteBool..WriteBinary, ReadBool..ReadBinary"]}
{"id": "C16", "title": "Compact protocol: container headers round trip", "statement": "A list, set or map header written with any supported element types and any size 0 <= n < 2^31 is read back with the same size and (for non-empty maps and all lists and sets) the same element types, consuming exactly the header.", "quantifier": "every supported type, every size below 2^31, every suffix", "why_tests_cant": "2^31 sizes times type pairs, with a format switch at 14/15.", "anchors": ["lib/go/src/thrift/tcompact_protocol.go: writeCollectionBegin, WriteMapBegin, ReadListBegin, ReadMapBegin, getTType, getCompactType"]}
{"id": "C17", "title": "Compact protocol: field headers round trip for any id sequence", "statement": "For every sequence of fields of a struct (any ids, any order, any supported types, both booleans) the ids, types and boolean values read back are those written.", "quantifier": "every finite sequence of (id, type) pairs and boolean values", "why_tests_cant": "delta encoding depends on the history of ids.", "anchors": ["lib/go/src/thrift/tcompact_protocol.go: WriteFieldBegin, writeFieldBeginInternal, WriteBool, ReadFieldBegin, ReadBool, getTType"]}
{"id": "C18", "title": "Compact protocol: message header round trip", "statement": "A message header (name, type, sequence id) with any of the four message types CALL, REPLY, EXCEPTION, ONEWAY is read back identically.", "quantifier": "every name below 2^31 bytes, all four message types, every 32-bit sequence id", "why_tests_cant": "unbounded names and 2^32 ids; existing tests write only some types.", "anchors": ["lib/go/src/thrift/tcompact_protocol.go: WriteMessageBegin, ReadMessageBegin"]}
{"id": "C19", "title": "Compact protocol: nested values round trip", "statement": "Reading back any value tree written with the compact protocol (structs nested to any depth) returns the same tree, up to the element types of empty maps, with no error and leaves every following byte unread.", "quantifier": "every value tree, every suffix, every prior history of the reading protocol object", "why_tests_cant": "the reader carries a stack of ids across the whole history; errors appear only from a certain nesting shape on.", "anchors": ["lib/go/src/thrift/tcompact_protocol.go: ReadStructBegin, ReadStructEnd, WriteStructBegin, WriteStructEnd, ReadFieldBegin, writeFieldBeginInternal"]}
{"id": "C20", "title": "Compact protocol: truncated data is reported", "statement": "If the stream ends before the last byte of an encoded scalar, string, byte array or header, the Read call returns a non-nil error.", "quantifier": "every value and every cut point strictly inside its encoding", "why_tests_cant": "all crash points of the peer.", "anchors": ["lib/go/src/thrift/tcompact_protocol.go: ReadBinary, ReadString, ReadByte, readVarint64, ReadDouble"]}
{"id": "C21", "title": "Compact protocol: no read call panics on hostile data", "statement": "For every finite byte stream every read call of the compact protocol (and Skip) returns; none panics or loops for ever.", "quantifier": "every byte string, every read call, every reader state", "why_tests_cant": "infinitely many malformed inputs.", "anchors": ["lib/go/src/thrift/tcompact_protocol.go: ReadBinary, readVarint64, ReadFieldBegin, ReadMapBegin, ReadListBegin; lib/go/src/thrift/tprotocol.go: Skip"]}
{"id": "C22", "title": "Compact protocol: reader state stays bounded", "statement": "The memory held by a compact protocol object does not grow with the number of structs read over the life of a connection: after each complete top-level struct the bookkeeping has its initial size.", "quantifier": "every finite history of structs read on one protocol object", "why_tests_cant": "needs arbitrarily long histories.", "anchors": ["lib/go/src/thrift/tcompact_protocol.go: ReadStructBegin, ReadStructEnd"]}
{"id": "C23", "title": "Every declared type can be written by every protocol", "statement": "For each field or element type the code generator can emit (including binary) the header write calls of the binary and compact protocols complete without panic and the reader sees the corresponding wire type.", "quantifier": "all field and element types the generator emits, all ids, all sizes, all writer states", "why_tests_cant": "depends on every writer state.", "anchors": ["lib/go/src/thrift/tcompact_protocol.go: getCompactType, _TTypeToCompactType; lib/go/src/thrift/tbinary_protocol.go: WriteFieldBegin; compiler/cpp/src/generate/t_go_generator.cc: type_to_enum"]}
{"id": "C24", "title": "ReadAll is independent of chunking", "statement": "If the underlying stream delivers its bytes in arbitrary non-empty chunks, ReadAll of n bytes returns exactly the next n bytes in order with no error and consumes no more, for every chunking.", "quantifier": "every byte stream, every n, every way the transport splits the stream into reads", "why_tests_cant": "exponentially many schedules of partial reads.", "anchors": ["lib/go/src/thrift/ttransport.go: ReadAllTransport"]}
{"id": "C25", "title": "ReadAll never reports success for missing data", "statement": "If fewer than n bytes arrive, ReadAll of n bytes returns a non-nil error.", "quantifier": "every stream, every n, every behaviour of the underlying Read permitted by io.Reader", "why_tests_cant": "depends on all schedules including empty reads.", "anchors": ["lib/go/src/thrift/ttransport.go: ReadAllTransport"]}
{"id": "C26", "title": "ReadAll succeeds when all data arrived", "statement": "If n bytes arrive, ReadAll of n bytes reports success even when the last chunk is delivered together with end-of-file, as io.Reader permits.", "quantifier": "every stream, every n, every permitted schedule", "why_tests_cant": "depends on reader behaviour that the test doubles never show.", "anchors": ["lib/go/src/thrift/ttransport.go: ReadAllTransport"]}
{"id": "C27", "title": "Memory buffer is a FIFO byte queue", "statement": "For every interleaving of Write, Read, ReadAll and Flush calls on a memory buffer, the concatenation of bytes read is a prefix of the concatenation of bytes written, nothing is lost or duplicated, and the remainder is what Bytes reports.", "quantifier": "every finite history of operations", "why_tests_cant": "unbounded interleavings.", "anchors": ["lib/go/src/thrift/tmemory_buffer.go: TMemoryBuffer"]}
{"id": "C28", "title": "Framed transport: nothing leaves before Flush, then exactly one frame", "statement": "Any sequence of writes to a framed transport sends nothing to the underlying transport until Flush; Flush sends the 4-byte big-endian length followed by exactly the concatenation of the writes since the previous Flush, and empties the buffer.", "quantifier": "every finite history of writes and flushes with frames below 2^32 bytes", "why_tests_cant": "unbounded histories.", "anchors": ["lib/go/src/thrift/tframed_transport.go: Write, Flush"]}
{"id": "C29", "title": "Framed transport: reader sees the concatenation of non-empty frames", "statement": "Whatever way the sender splits data into non-empty frames and the network splits the frames into chunks, a framed reader using any sequence of reads obtains the concatenated payloads in order.", "quantifier": "every list of non-empty payloads below 2^32, every chunking of the wire, every sequence of read sizes", "why_tests_cant": "product of two unbounded schedules.", "anchors": ["lib/go/src/thrift/tframed_transport.go: Read, readFrame; lib/go/src/thrift/ttransport.go: ReadAllTransport"]}
{"id": "C30", "title": "Framed transport: an empty Flush is harmless", "statement": "Calling Flush with nothing written does not disturb the peer: later data is still delivered without the reader seeing end of file.", "quantifier": "every history containing an empty Flush", "why_tests_cant": "needs all histories.", "anchors": ["lib/go/src/thrift/tframed_transport.go: Flush, Read, readFrame"]}
{"id": "C31", "title": "Framed transport: a failed Flush does not corrupt the stream", "statement": "If the underlying transport fails during Flush at any point, either the bytes that reach the peer can still be completed to the intended frames by retrying Flush, or the transport stays failed; the peer never decodes a frame that was not sent.", "quantifier": "every failure point of the underlying writes, every payload", "why_tests_cant": "all crash points.", "anchors": ["lib/go/src/thrift/tframed_transport.go: Flush"]}
{"id": "C32", "title": "Decoding does not depend on how the transport splits the stream", "statement": "Reading any message or value with the binary or compact protocol gives the same result (values, errors and panics alike) over a stream delivered in arbitrary non-empty chunks as over one contiguous buffer.", "quantifier": "every byte stream, every chunking, every sequence of protocol read calls (including Skip and generated struct readers)", "why_tests_cant": "exponentially many schedules times all inputs.", "anchors": ["lib/go/src/thrift/tbinary_protocol.go: readAll; lib/go/src/thrift/tcompact_protocol.go: ReadByte, ReadBinary, ReadDouble; lib/go/src/thrift/ttransport.go: ReadAllTransport"]}
{"id": "C33", "title": "Socket transport life cycle", "statement": "A socket transport is open exactly between a successful Open and the next Close; Open on an open socket fails with ALREADY_OPEN without touching the connection, Read, Write and Flush on a closed one fail with NOT_OPEN, and Close is idempotent.", "quantifier": "every finite history of Open/Close/Read/Write/Flush calls and every outcome of the network operations", "why_tests_cant": "unbounded histories times network outcomes.", "anchors": ["lib/go/src/thrift/tsocket.go: Open, Close, IsOpen, Read, Write, Flush"]}
{"id": "C34", "title": "Socket transport: bytes of one connection never reach another", "statement": "Bytes written to a socket transport but not flushed before Close are not sent on a connection opened later.", "quantifier": "every history of writes, closes and opens", "why_tests_cant": "history dependent.", "anchors": ["lib/go/src/thrift/tsocket.go: Write, Flush, Close, Open"]}
{"id": "C35", "title": "Stream transport: Close makes all further I/O fail", "statement": "After Close, Read, Write and Flush on a stream transport return NOT_OPEN and never touch the underlying streams.", "quantifier": "every kind of underlying stream (closable or not, shared or separate) and every history", "why_tests_cant": "depends on the dynamic capabilities of the wrapped stream.", "anchors": ["lib/go/src/thrift/tiostream_transport.go: Close, Read, Write, Flush"]}
{"id": "C36", "title": "TSet: every added value is a member", "statement": "After Add(x) on a set of a scalar element type, Contains(x) holds and all earlier members are still members, until removed.", "quantifier": "every element type with a total order, every history of Add and Remove", "why_tests_cant": "violations need particular insertion orders.", "anchors": ["lib/go/src/thrift/tset.go: Add, Contains, find; lib/go/src/thrift/ttype.go: Compare"]}
{"id": "C37", "title": "TSet: no duplicates and deterministic order", "statement": "After any history of Add and Remove the members enumerated by a set are pairwise different and sorted, so enumeration order does not depend on insertion order.", "quantifier": "every history of Add and Remove", "why_tests_cant": "unbounded histories.", "anchors": ["lib/go/src/thrift/tset.go: Add, Remove, Values, Front"]}
{"id": "C38", "title": "TSet: Len counts the members", "statement": "Len equals the number of members enumerated, after every history and for every capacity given at construction.", "quantifier": "every capacity, every history", "why_tests_cant": "unbounded histories.", "anchors": ["lib/go/src/thrift/tset.go: Len, NewTSet"]}
{"id": "C39", "title": "Sets survive a round trip through generated code", "statement": "Writing a set field with generated code and reading it with generated code yields a set with the same members.", "quantifier": "every set of every size", "why_tests_cant": "depends on enumeration order and all sets of size two or more.", "anchors": ["lib/go/src/thrift/tset.go: Add; compiler/cpp/src/generate/t_go_generator.cc: generate_serialize_container, generate_deserialize_set_element"]}
{"id": "C40", "title": "TList behaves as a sequence", "statement": "Push, At, Set, Insert, Delete, Pop and Len on a list whose values need no coercion behave as on a mathematical sequence, for every history; out of range indices are the only calls that panic.", "quantifier": "every history of list operations", "why_tests_cant": "unbounded histories.", "anchors": ["lib/go/src/thrift/tlist.go"]}
{"id": "C41", "title": "TMap behaves as a finite map", "statement": "After any history of Set and Delete calls Get returns the last value set for a key and reports presence truthfully, other keys are unaffected, and Len is the number of keys.", "quantifier": "every key type, every history", "why_tests_cant": "unbounded histories.", "anchors": ["lib/go/src/thrift/tmap.go: Set, Get, Contains, Delete, Len"]}
{"id": "C42", "title": "Compare is a total order on every scalar type", "statement": "For two values of one scalar type Compare reports success, is 0 exactly for equal values, changes sign when the arguments are swapped, and is transitive.", "quantifier": "all triples of values of each scalar type", "why_tests_cant": "2^192 triples for i64.", "anchors": ["lib/go/src/thrift/ttype.go: Compare; lib/go/src/thrift/tcompare.go"]}
{"id": "C43", "title": "Less means strictly smaller", "statement": "Less(a, b) holds exactly when a is ordered before b by Compare (and for lists Less(i, j) orders the elements at those positions), as sort.Interface requires.", "quantifier": "all pairs of values", "why_tests_cant": "infinite domain.", "anchors": ["lib/go/src/thrift/ttype.go: Less; lib/go/src/thrift/tlist.go: Less; lib/go/src/thrift/tset.go: Less"]}
{"id": "C44", "title": "Coercion of textual numbers", "statement": "Coercing a string to an integer type succeeds exactly for strings that are decimal integers, with their value.", "quantifier": "every string, every integer type", "why_tests_cant": "infinitely many strings.", "anchors": ["lib/go/src/thrift/ttype.go: CoerceData"]}
{"id": "C45", "title": "Coercion is exact on values that fit and idempotent", "statement": "Coercing a bool or an integer to an integer type that can represent it keeps its value; coercing the result again succeeds and changes nothing.", "quantifier": "all values of all integer types, all target types", "why_tests_cant": "2^64 values per pair of types.", "anchors": ["lib/go/src/thrift/ttype.go: CoerceData"]}
{"id": "C46", "title": "Field container look-ups agree with the declared fields", "statement": "For fields with distinct ids and distinct non-empty names, looking up by id and by name returns the declared field; looking up an absent id or name returns the documented defaults; Len is the number of fields.", "quantifier": "every list of fields", "why_tests_cant": "unbounded lists.", "anchors": ["lib/go/src/thrift/tfield.go: NewTFieldContainer, FieldFromFieldId, FieldFromFieldName, FieldIdFromFieldName, FieldNameFromFieldId"]}
{"id": "C47", "title": "Equality of field containers is an equivalence", "statement": "Equals on field containers is reflexive, symmetric and transitive.", "quantifier": "all triples of field lists", "why_tests_cant": "infinite domain.", "anchors": ["lib/go/src/thrift/tfield.go: tFieldContainer.Equals, Contains"]}
{"id": "C48", "title": "Generated structs with different contents differ", "statement": "Two instances of one generated struct compare equal only if all their fields are equal.", "quantifier": "every struct type, every pair of instances", "why_tests_cant": "infinite domain.", "anchors": ["compiler/cpp/src/generate/t_go_generator.cc: generate_go_struct_definition (AttributeByFieldId, CompareTo); lib/go/src/thrift/ttype.go: Compare; lib/go/src/thrift/tstruct.go: AttributeFromFieldId"]}
{"id": "C49", "title": "Application exceptions round trip", "statement": "An application exception written with a protocol is read back with the same type and message.", "quantifier": "every message below 2^31 bytes, every 32-bit type, binary and compact protocols", "why_tests_cant": "unbounded messages.", "anchors": ["lib/go/src/thrift/tapplication_exception.go: Read, Write"]}
{"id": "C50", "title": "Error wrapping keeps the failure class", "statement": "Wrapping a non-nil error never loses it, wrapping nil gives nil, struct and field wrappers keep every specific code and replace only the unknown one by INVALID_DATA, end-of-file becomes END_OF_FILE, and a transport error surfaced by a protocol is not reported under a protocol code of a different meaning.", "quantifier": "every error value and code", "why_tests_cant": "all codes and nestings of wrappers.", "anchors": ["lib/go/src/thrift/tprotocol_exception.go; lib/go/src/thrift/ttransport_exception.go"]}
{"id": "C51", "title": "Generated struct round trip", "statement": "For every struct schema with distinct non-negative field ids and every instance, reading what the generated Write method produced gives an equal instance: set fields keep their values, unset fields stay at their defaults.", "quantifier": "every schema, every instance, every suffix", "why_tests_cant": "infinitely many schemas and instances.", "anchors": ["compiler/cpp/src/generate/t_go_generator.cc: generate_go_struct_reader, generate_go_struct_writer; tests/generation/golden/gen-go/simple/ttypes.go"]}
{"id": "C52", "title": "Unknown fields are skipped", "statement": "A generated reader given a struct with additional fields it does not know, anywhere among the known ones and of any type, returns the same instance as without them.", "quantifier": "every schema, every instance, every set of extra fields with values of any nesting", "why_tests_cant": "forward compatibility ranges over all future schemas.", "anchors": ["compiler/cpp/src/generate/t_go_generator.cc: generate_go_struct_reader; lib/go/src/thrift/tprotocol.go: Skip"]}
{"id": "C53", "title": "Fields with an unexpected wire type are skipped", "statement": "If a known field id arrives with a wire type other than the declared one, the generated reader skips it and continues with the next field.", "quantifier": "every schema, every wire type, every value", "why_tests_cant": "all combinations of evolved schemas.", "anchors": ["compiler/cpp/src/generate/t_go_generator.cc: generate_go_struct_reader"]}
{"id": "C54", "title": "Fields with negative ids round trip", "statement": "Fields that the IDL compiler numbers negatively (implicit ids) are read back into the field they were written from.", "quantifier": "every schema with negative ids", "why_tests_cant": "schema dependent.", "anchors": ["compiler/cpp/src/generate/t_go_generator.cc: generate_go_struct_reader (fieldId < 0)"]}
{"id": "C55", "title": "Processor answers each call exactly once with its own sequence id", "statement": "For every well formed request (known method) the processor writes exactly one reply message, carrying the request's name and sequence id, with type REPLY if the handler succeeds and EXCEPTION otherwise, and flushes it.", "quantifier": "every request, every handler outcome, every sequence id", "why_tests_cant": "all handlers and arguments.", "anchors": ["tests/generation/golden/gen-go/simple/ContainerOfEnumsTestService.go: Process; compiler/cpp/src/generate/t_go_generator.cc: generate_process_function"]}
{"id": "C56", "title": "Unknown methods are refused cleanly", "statement": "A request for an unknown method is consumed completely and answered with an UNKNOWN_METHOD exception carrying the same name and sequence id.", "quantifier": "every method name not served, every well formed argument struct", "why_tests_cant": "all names and arguments.", "anchors": ["compiler/cpp/src/generate/t_go_generator.cc: generate_service_server"]}
{"id": "C57", "title": "Oneway calls get no reply", "statement": "Processing a oneway request writes nothing to the output protocol.", "quantifier": "every request of a oneway method", "why_tests_cant": "all requests.", "anchors": ["compiler/cpp/src/generate/t_go_generator.cc: generate_process_function"]}
{"id": "C58", "title": "A call returns what the handler returned", "statement": "Over a transport that delivers bytes faithfully, a client call returns exactly the result of the handler on the arguments given, or an application exception carrying the handler's message, for every call of a sequence of calls on one connection.", "quantifier": "every handler, every sequence of arguments, sequence ids up to wrap-around", "why_tests_cant": "all handlers and histories.", "anchors": ["tests/generation/golden/gen-go/simple/ContainerOfEnumsTestService.go; compiler/cpp/src/generate/t_go_generator.cc: generate_service_client, generate_service_server"]}
{"id": "C59", "title": "Out of sequence replies are rejected", "statement": "A client never accepts as the answer to its call a message (reply or exception) whose sequence id differs from the one it sent.", "quantifier": "every pair of ids, every message type and content", "why_tests_cant": "2^64 id pairs.", "anchors": ["compiler/cpp/src/generate/t_go_generator.cc: generate_service_client (Recv)"]}
{"id": "C60", "title": "A client built from explicit protocols works", "statement": "A client constructed from an input and an output protocol can send calls.", "quantifier": "every method, every argument", "why_tests_cant": "the constructor is never exercised.", "anchors": ["compiler/cpp/src/generate/t_go_generator.cc: generate_service_client (ClientProtocol constructor, Send)"]}
{"id": "C61", "title": "Send failures are reported", "statement": "If any write or the flush of a request fails, the call returns an error.", "quantifier": "every failure point of the transport", "why_tests_cant": "all crash points.", "anchors": ["compiler/cpp/src/generate/t_go_generator.cc: generate_service_client (Send)"]}
{"id": "C62", "title": "Server life cycle", "statement": "The simple server closes both transports of every accepted connection when its request loop ends, handles connections one after another in accept order, and after Stop has been called Serve returns without accepting further connections.", "quantifier": "every interleaving of Stop with accepts and requests, every outcome of processing", "why_tests_cant": "all schedules.", "anchors": ["lib/go/src/thrift/tsimple_server.go: Serve, Stop, processRequest; lib/go/src/thrift/tnonblocking_server.go"]}
{"id": "C63", "title": "Failed writes are reported by the call in which they happen", "statement": "A write call (or Flush) of the binary or compact protocol that returns no error met no failing Write or Flush of the transport.", "quantifier": "every write call and argument, every transport, every protocol state and failure point", "why_tests_cant": "all failure points of all calls; tests use transports that never fail.", "anchors": ["lib/go/src/thrift/tbinary_protocol.go: Write*, Flush; lib/go/src/thrift/tcompact_protocol.go: Write*, Flush"]}
{"id": "C64", "title": "Generated writers report failed writes", "statement": "Writing a generated struct, a generated result struct or an application exception without an error means that no Write of the transport failed on the way.", "quantifier": "every schema and value, every transport and failure point, binary and compact protocol", "why_tests_cant": "all schemas, values and failure points.", "anchors": ["compiler/cpp/src/generate/t_go_generator.cc: generate_go_struct_writer; lib/go/src/thrift/tapplication_exception.go: Write"]}
{"id": "C65", "title": "Failed reads are reported by the call in which they happen", "statement": "A read call of the binary or compact protocol that returns no error met no Read of the transport that failed without delivering bytes.", "quantifier": "every read call, every transport, every protocol state and failure point", "why_tests_cant": "all failure points of all calls.", "anchors": ["lib/go/src/thrift/tbinary_protocol.go: Read*; lib/go/src/thrift/tcompact_protocol.go: Read*, ReadBinary"]}
{"id": "C66", "title": "The tagged JSON protocol writes the specified document", "statement": "Writing a value appends the document of the tagged format (structs are objects id -> {type: value}, lists and sets [type, length, ...], maps [key type, value type, length, key, value, ...]), reports no error and leaves the context stack as it was; if all strings are text, the document is a value of the JSON grammar. The same for messages.", "quantifier": "every well-formed value, every message header, any library that keeps the promises of encoding/json and strconv", "why_tests_cant": "all values, nested without limit.", "anchors": ["lib/go/src/thrift/tjson_protocol.go: Write*; lib/go/src/thrift/tsimple_json_protocol.go: Output*"]}
{"id": "C67", "title": "Struct round trip of the tagged JSON protocol", "statement": "A struct whose strings are text is read back from its document with no error and nothing left over.", "quantifier": "every struct, any library that keeps the promises of encoding/json and strconv", "why_tests_cant": "all values; the length of the document matters (buffer boundary).", "anchors": ["lib/go/src/thrift/tjson_protocol.go: ReadFieldBegin, StringToTypeId; lib/go/src/thrift/tsimple_json_protocol.go: Parse*, Read*"]}
{"id": "C68", "title": "Message round trip of the tagged JSON protocol", "statement": "Name, type, sequence number and struct of a message are read back from its document with no error and nothing left over.", "quantifier": "every header with a name that is text and every struct", "why_tests_cant": "all headers and values.", "anchors": ["lib/go/src/thrift/tjson_protocol.go: WriteMessageBegin, ReadMessageBegin, ReadMessageEnd"]}
{"id": "C69", "title": "Reading JSON does not depend on chunking", "statement": "A document that fits into the buffer is read in the same way however the transport cuts it into reads.", "quantifier": "every struct, every way of cutting its document", "why_tests_cant": "all ways of cutting.", "anchors": ["lib/go/src/thrift/tsimple_json_protocol.go: ParsePreValue, readIfNull, readNonSignificantWhitespace, ReadFieldBegin (Buffered)"]}
{"id": "C70", "title": "Type names of the tagged JSON protocol are inverse", "statement": "The type read from the name written for a wire type is that type.", "quantifier": "every wire type", "why_tests_cant": "the two tables are maintained by hand and must agree in full.", "anchors": ["lib/go/src/thrift/tjson_protocol.go: TypeIdToString, StringToTypeId"]}
{"id": "C71", "title": "White space around a JSON document does not matter", "statement": "A document with white space before and after it is read like the document.", "quantifier": "every struct, all amounts of white space", "why_tests_cant": "all structs.", "anchors": ["lib/go/src/thrift/tsimple_json_protocol.go: readNonSignificantWhitespace, ParsePreValue"]}
{"id": "C72", "title": "Skip over tagged JSON", "statement": "Skipping a struct in its document reports no error and consumes exactly the document.", "quantifier": "every struct of text, every depth limit", "why_tests_cant": "all values.", "anchors": ["lib/go/src/thrift/tprotocol.go: Skip; lib/go/src/thrift/tjson_protocol.go: Read*"]}
{"id": "C73", "title": "JSON read calls report the end of the data", "statement": "A read call of the tagged protocol that finds no more data reports an error.", "quantifier": "every read call, every parse context, every transport at its end", "why_tests_cant": "all calls in all contexts.", "anchors": ["lib/go/src/thrift/tsimple_json_protocol.go: ReadBool; lib/go/src/thrift/tjson_protocol.go: ReadFieldBegin"]}
{"id": "C74", "title": "JSON integers are checked", "statement": "ReadI32 rejects text that is not the decimal form of a 32-bit integer.", "quantifier": "every text without delimiters, white space or quotes", "why_tests_cant": "all texts.", "anchors": ["lib/go/src/thrift/tsimple_json_protocol.go: readNumeric, ParseI64, ReadI32; lib/go/src/thrift/tnumeric.go: NewNumericFromJSONString"]}
{"id": "C75", "title": "Reading a JSON message needs nothing after the message", "statement": "On a connection on which one message has arrived and nothing follows, reading the message ends.", "quantifier": "every message that fits into the buffer", "why_tests_cant": "blocking shows only for some messages.", "anchors": ["lib/go/src/thrift/tsimple_json_protocol.go: ParseObjectStart, ParseListBegin (Peek)"]}
{"id": "C76", "title": "JSON write calls report failed writes", "statement": "A write call of either JSON protocol that returns no error met no failing Write of the transport.", "quantifier": "every call, every transport, every failure point", "why_tests_cant": "all failure points.", "anchors": ["lib/go/src/thrift/tsimple_json_protocol.go: Output*, WriteBinary; lib/go/src/thrift/tjson_protocol.go: WriteBinary"]}
{"id": "C77", "title": "Binary data in JSON", "statement": "Both JSON protocols write binary data as the same JSON string in base64, and ReadBinary gives the data back, whatever follows.", "quantifier": "all byte strings", "why_tests_cant": "all lengths (three cases of padding, blocks of 768 bytes) and contents.", "anchors": ["lib/go/src/thrift/tsimple_json_protocol.go: WriteBinary, ReadBinary, ParseBase64EncodedBody; lib/go/src/thrift/tjson_protocol.go: WriteBinary"]}
{"id": "C78", "title": "JSON strings are checked", "statement": "ReadString rejects text in quotes that is not a JSON string.", "quantifier": "every text in quotes", "why_tests_cant": "all texts.", "anchors": ["lib/go/src/thrift/tsimple_json_protocol.go: ParseStringBody"]}
{"id": "C79", "title": "Errors of a connection are reported as transport exceptions", "statement": "Read, Write and Flush of the socket and stream transports report an error exactly when the connection gave one (or when bytes were left over); errors without an exception type become transport exceptions with the same text, of type END_OF_FILE at the end of the data.", "quantifier": "all connections, all errors, all buffers", "why_tests_cant": "errors of real connections are rare and few kinds can be provoked; here the connection is arbitrary.", "anchors": ["lib/go/src/thrift/tsocket.go: Read, Write, Flush", "lib/go/src/thrift/tnonblocking_socket.go: Read, Write, Flush", "lib/go/src/thrift/tiostream_transport.go: Read, Write, Flush", "lib/go/src/thrift/ttransport_exception.go: NewTTransportExceptionFromOsError"]}
{"id": "C80", "title": "Interrupt closes the socket", "statement": "After Interrupt a socket is not open and holds no connection.", "quantifier": "all sockets and connections", "why_tests_cant": "all states of the socket and all outcomes of closing the connection.", "anchors": ["lib/go/src/thrift/tsocket.go: Interrupt, IsOpen", "lib/go/src/thrift/tnonblocking_socket.go: Interrupt, IsOpen"]}
{"id": "C81", "title": "Order of nested lists and sets", "statement": "Compare on lists and sets of any nesting always succeeds and is a total order in which equal means equal contents: shorter before longer, then by the first difference; Equals agrees with it.", "quantifier": "all nesting depths, all contents without NaN", "why_tests_cant": "nesting and contents are unbounded; transitivity ranges over triples.", "anchors": ["lib/go/src/thrift/ttype.go: Compare, Equals, compareArrays", "lib/go/src/thrift/tlist.go: CompareTo, Equals", "lib/go/src/thrift/tset.go: CompareTo, Equals"]}
{"id": "C82", "title": "Equality of maps", "statement": "Compare on two maps gives zero exactly when they hold the same entries.", "quantifier": "all maps with scalar keys and values, all orders of enumeration", "why_tests_cant": "the order in which Go enumerates a map is random.", "anchors": ["lib/go/src/thrift/ttype.go: Compare", "lib/go/src/thrift/tmap.go: CompareTo, Keys, Values"]}
{"id": "C83", "title": "Order of fields", "statement": "CompareTo of fields orders by id, then type, then name and gives zero exactly for fields that Equals calls equal.", "quantifier": "all pairs of fields", "why_tests_cant": "all names, types and ids.", "anchors": ["lib/go/src/thrift/tfield.go: CompareTo, Equals"]}
{"id": "C84", "title": "Order of field containers", "statement": "CompareTo of field containers is antisymmetric and gives zero exactly for the same fields.", "quantifier": "all field lists with distinct ids", "why_tests_cant": "all lists.", "anchors": ["lib/go/src/thrift/tfield.go: CompareTo of TFieldContainer"]}
{"id": "C85", "title": "Coercion of Numeric values", "statement": "CoerceData gives the integer, the floating point number or the text of a Numeric, according to the type.", "quantifier": "all Numeric values, all scalar types", "why_tests_cant": "all values.", "anchors": ["lib/go/src/thrift/ttype.go: CoerceData"]}
{"id": "C86", "title": "Coercion of integers to text", "statement": "CoerceData of an integer to STRING gives its decimal text.", "quantifier": "all integers of all Go integer types", "why_tests_cant": "all numbers.", "anchors": ["lib/go/src/thrift/ttype.go: CoerceData"]}
{"id": "C87", "title": "Values that do not fit sort first", "statement": "Compare places a value that the type cannot take, and nil, below every value that it can take; two values that do not fit are not comparable.", "quantifier": "all types, all values", "why_tests_cant": "all dynamic values.", "anchors": ["lib/go/src/thrift/ttype.go: Compare"]}
{"id": "C88", "title": "Order of enums", "statement": "Compare on two enum values orders them by name.", "quantifier": "all enum values of all enum types", "why_tests_cant": "all names.", "anchors": ["lib/go/src/thrift/ttype.go: Compare"]}
{"id": "C89", "title": "A list without element type keeps its first value", "statement": "Pushing a value onto a list without an element type stores that value.", "quantifier": "all Go values other than nil", "why_tests_cant": "all dynamic types and values.", "anchors": ["lib/go/src/thrift/tlist.go: Push", "lib/go/src/thrift/ttype.go: TypeFromValue"]}
{"id": "C90", "title": "Maps can be iterated", "statement": "Iterating a map gives the entries that were set.", "quantifier": "all key and value types", "why_tests_cant": "all types and values.", "anchors": ["lib/go/src/thrift/tmap.go: Iter"]}
{"id": "C91", "title": "Version gate of the compact protocol", "statement": "ReadMessageBegin rejects every header with a wrong protocol id or a wrong version with a BAD_VERSION exception and accepts the right ones.", "quantifier": "all first and second bytes, whatever follows", "why_tests_cant": "all headers and continuations.", "anchors": ["lib/go/src/thrift/tcompact_protocol.go: ReadMessageBegin"]}
{"id": "C92", "title": "Generated writers send what the struct holds", "statement": "Write of a generated struct puts exactly the encoding of the value that the struct stands for on the wire: the fields that are set, in the order of their ids, each with its value.", "quantifier": "all schemas, all typed struct instances, binary and compact protocol", "why_tests_cant": "schemas and instances are unbounded trees.", "anchors": ["compiler/cpp/src/generate/t_go_generator.cc: generate_go_struct_writer, generate_isset_helpers, generate_serialize_field"]}
{"id": "C93", "title": "Required fields are always written", "statement": "Write of a generated struct never leaves out a required field.", "quantifier": "all schemas, all typed struct instances", "why_tests_cant": "all schemas and instances.", "anchors": ["compiler/cpp/src/generate/t_go_generator.cc: generate_go_struct_writer"]}
{"id": "C94", "title": "Process reports failures of the connection", "statement": "A call of Process that returns no error met no failed Read, Write or Flush; in particular every failed step of sending the reply is reported.", "quantifier": "all services, schemas, connections and failure patterns", "why_tests_cant": "failure patterns of a connection cannot be enumerated.", "anchors": ["compiler/cpp/src/generate/t_go_generator.cc: generate_service_server, generate_process_function", "lib/go/src/thrift/tprotocol.go: Skip"]}
{"id": "C95", "title": "Process returns true exactly without an error", "statement": "Process returns true exactly when it returns no error; if the message header cannot be read it returns that error, calls no handler and sends nothing.", "quantifier": "all protocols, services, connections", "why_tests_cant": "all protocols and connections.", "anchors": ["compiler/cpp/src/generate/t_go_generator.cc: generate_service_server, generate_process_function"]}
{"id": "C96", "title": "Version check of tagged JSON messages", "statement": "ReadMessageBegin of the tagged JSON protocol refuses every message whose version is not 1.", "quantifier": "every integer version, every rest of the message", "why_tests_cant": "all versions.", "anchors": ["lib/go/src/thrift/tjson_protocol.go: ReadMessageBegin"]}
{"id": "C97", "title": "Missing separators in JSON are reported", "statement": "Where a comma or colon is due and another character stands, every read call of the tagged protocol reports an error.", "quantifier": "every read call, every context that needs a separator, every character, every rest", "why_tests_cant": "20 calls in three contexts at all characters.", "anchors": ["lib/go/src/thrift/tsimple_json_protocol.go: ParsePreValue, readIfNull, ParseListEnd, ParseObjectEnd"]}
{"id": "C98", "title": "Exactly base64 is accepted as binary data", "statement": "ReadBinary reports no error on a text in quotes exactly if the text is base64.", "quantifier": "every text without quotes, every transport, every way to cut the text into reads", "why_tests_cant": "all texts and cuts.", "anchors": ["lib/go/src/thrift/tsimple_json_protocol.go: ReadBinary, ParseBase64EncodedBody"]}
{"id": "C99", "title": "List headers in JSON are checked", "statement": "ReadListBegin and ReadSetBegin refuse a list whose element type is not a number from 0 to 255.", "quantifier": "every text in the place of the element type", "why_tests_cant": "all texts.", "anchors": ["lib/go/src/thrift/tsimple_json_protocol.go: ParseElemListBegin, ReadListBegin, ReadSetBegin"]}
{"id": "C101", "title": "JSON scalars do not depend on how they arrive", "statement": "The text of a scalar is read back, however long it is and however the transport cuts it into reads.", "quantifier": "every scalar, every transport that delivers the text in non-empty pieces", "why_tests_cant": "all texts longer than the buffer and all cuts.", "anchors": ["lib/go/src/thrift/tsimple_json_protocol.go: ReadBool, ReadI64, ReadDouble, ReadString, ReadBinary, readNumeric"]}
{"id": "C103", "title": "Generated structs over simple JSON: the document", "statement": "Write of a generated struct over the simple JSON protocol gives the JSON document, with the names of the fields, of the value that the struct stands for.", "quantifier": "every schema, every struct of the schema, every object, every transport", "why_tests_cant": "all schemas and all nested objects.", "anchors": ["lib/go/src/thrift/tsimple_json_protocol.go: WriteFieldBegin, WriteMapBegin, WriteBinary", "compiler/cpp/src/generate/t_go_generator.cc: generate_go_struct_writer"]}
{"id": "C104", "title": "Generated structs come back over tagged JSON", "statement": "A generated struct written over the tagged JSON protocol is read back as an equal struct.", "quantifier": "every schema, every struct of the schema, every legible object, every lawful text library", "why_tests_cant": "all schemas and all nested objects.", "anchors": ["lib/go/src/thrift/tjson_protocol.go: WriteFieldBegin, ReadFieldBegin, TypeIdToString", "compiler/cpp/src/generate/t_go_generator.cc: generate_go_struct_reader"]}
{"id": "C105", "title": "Generated structs come back over simple JSON", "statement": "A generated struct written over the simple JSON protocol is read back as an equal struct.", "quantifier": "every schema, every struct of the schema, every legible object, every lawful text library", "why_tests_cant": "all schemas and all nested objects.", "anchors": ["lib/go/src/thrift/tsimple_json_protocol.go: ReadFieldBegin, ReadMapBegin, ReadBinary", "compiler/cpp/src/generate/t_go_generator.cc: generate_go_struct_reader"]}
{"id": "C106", "title": "Undeclared fields over tagged JSON", "statement": "Reading a struct over the tagged JSON protocol gives the same with and without the fields, at every depth, that the reader's schema does not declare.", "quantifier": "every schema, every struct on the wire, undeclared fields at every depth, every lawful text library", "why_tests_cant": "all schemas, all values of undeclared fields and all positions.", "anchors": ["lib/go/src/thrift/tjson_protocol.go: ReadFieldBegin, TypeIdToString", "lib/go/src/thrift/tprotocol.go: Skip", "compiler/cpp/src/generate/t_go_generator.cc: generate_go_struct_reader"]}
{"id": "C107", "title": "Undeclared members over simple JSON", "statement": "Reading a struct over the simple JSON protocol gives the same with and without a member that the reader's schema does not declare.", "quantifier": "every schema, every readable list of declared members, every undeclared name, every value", "why_tests_cant": "all schemas, all names and all positions of the member.", "anchors": ["lib/go/src/thrift/tsimple_json_protocol.go: ReadFieldBegin, ParseObjectEnd", "compiler/cpp/src/generate/t_go_generator.cc: generate_go_struct_reader"]}
{"id": "C108", "title": "Generated structs come back over compact", "statement": "A generated struct written over the compact protocol is read back as an equal struct.", "quantifier": "every schema, every struct of the schema, every object, whatever follows on the wire", "why_tests_cant": "all schemas and all nested objects.", "anchors": ["lib/go/src/thrift/tcompact_protocol.go: WriteFieldBegin, ReadFieldBegin, ReadStructEnd, ReadBool", "compiler/cpp/src/generate/t_go_generator.cc: generate_go_struct_reader, generate_go_struct_writer"]}
{"id": "C100", "title": "Short writes are noticed", "statement": "A write call of a protocol that returns no error had all its bytes taken by the transport.", "quantifier": "every write call, every protocol state, every transport behaviour", "why_tests_cant": "all transports that may take only part of what they are given, at every point of every call.", "anchors": ["lib/go/src/thrift/tbinary_protocol.go: WriteByte, WriteI16, WriteI32, WriteI64, WriteString, WriteBinary", "lib/go/src/thrift/tcompact_protocol.go: writeByteDirect, writeVarint32", "lib/go/src/thrift/tsimple_json_protocol.go: OutputStringData, OutputPreValue, OutputListBegin"]}
{"id": "C102", "title": "JSON reads report a broken connection", "statement": "Where every Read of the transport fails and nothing is buffered, every read call of the JSON protocols that has something to read returns an error.", "quantifier": "every read call but ReadFieldEnd, every parser state, every failing transport", "why_tests_cant": "all parser states and all errors of the transport.", "anchors": ["lib/go/src/thrift/tsimple_json_protocol.go: ReadBool, ReadFieldBegin, ParseListBegin, ParseObjectStart, ParseListEnd, ParseObjectEnd, readNumeric, ReadString"]}
{"id": "C109", "title": "Closed HTTP clients", "statement": "After a Close that reports success an HTTP client is not open, and Read, Write and Flush answer NOT_OPEN and change nothing.", "quantifier": "every state of the client, every behaviour of the web, every later state of the outside", "why_tests_cant": "all states and all answers of the web.", "anchors": ["lib/go/src/thrift/thttp_client.go: Close, IsOpen, Read, Write, Flush"]}
{"id": "C110", "title": "HTTP requests", "statement": "The requests that a POST client sends are what was written since the flush before, one request per flush, in order.", "quantifier": "every history of calls before Close, every behaviour of the web", "why_tests_cant": "all histories and all answers of the web.", "anchors": ["lib/go/src/thrift/thttp_client.go: Write, Flush"]}
{"id": "C111", "title": "HTTP responses", "statement": "After a flush, Read hands over the response to that flush, and nothing if the flush failed.", "quantifier": "every state of the client, every behaviour of the web", "why_tests_cant": "all states and all answers of the web.", "anchors": ["lib/go/src/thrift/thttp_client.go: Read, Flush"]}
{"id": "C112", "title": "HTTP responses are closed", "statement": "After a Close no response that the web handed over is left open.", "quantifier": "every history of calls, every behaviour of the web", "why_tests_cant": "all histories.", "anchors": ["lib/go/src/thrift/thttp_client.go: Close, Flush"]}
{"id": "C113", "title": "Calls over HTTP", "statement": "Calls with a generated client over a POST client, to a site that answers every request with what Process writes, return what the handler returned, for any sequence of calls, oneway or not, whether the handler returns values or errors.", "quantifier": "every schema, service, sequence of calls, handler state, site, and cutting of the responses into pieces", "why_tests_cant": "all schemas, all call sequences and all ways in which responses arrive.", "anchors": ["lib/go/src/thrift/thttp_client.go: Read, Write, Flush", "compiler/cpp/src/generate/t_go_generator.cc: generate_service_client, generate_service_server"]}
{"id": "C114", "title": "HTTP clients do not panic", "statement": "No call on an HTTP client panics.", "quantifier": "every history of calls on a client from either constructor, every behaviour of the web", "why_tests_cant": "all histories and all answers of the web.", "anchors": ["lib/go/src/thrift/thttp_client.go: NewTHttpClient, Write, Flush, Close"]}
{"id": "C115", "title": "A hanging connection holds up nobody else", "statement": "In the non-blocking server, if all work on one accepted connection is put off forever, everything else that could happen - other connections accepted and served, Serve, Stop - can still happen in the same order.", "quantifier": "for every execution of the server with any number of connections, every connection that does not panic, any network, factories and processor", "why_tests_cant": "Tests would need to hang one connection under every interleaving; they run one schedule.", "anchors": ["lib/go/src/thrift/tnonblocking_server.go:123-139", "lib/go/src/thrift/tnonblocking_server.go:151-175"]}
{"id": "C116", "title": "The life of a connection", "statement": "What is seen of a connection is always an initial part of: accepted, transports made, requests, output transport closed, input transport closed, end; each at most once and in this order, also when the processor panics. A connection that has ended has had every transport closed exactly once. A connection that has not ended can go on whatever the others do, as long as the program lives.", "quantifier": "for every execution, every connection, any factories and processor", "why_tests_cant": "The order must hold under all interleavings of any number of goroutines.", "anchors": ["lib/go/src/thrift/tnonblocking_server.go:151-175"]}
{"id": "C117", "title": "The server survives its processors and Stop", "statement": "No execution of the non-blocking server ends in a panic of the program.", "quantifier": "for every execution", "why_tests_cant": "The race needs Stop exactly between two loads of the listener; the other case needs a panicking handler.", "anchors": ["lib/go/src/thrift/tnonblocking_server.go:135", "lib/go/src/thrift/tnonblocking_server.go:164", "lib/go/src/thrift/tnonblocking_server_socket.go:139-142"]}
{"id": "C118", "title": "Stop stops the non-blocking server", "statement": "Once Stop has returned, a server that was running when it was called accepts no connection, and after Serve has returned no listener is left open.", "quantifier": "for every execution in which Serve has begun before Stop and is not called again", "why_tests_cant": "Depends on where in Serve the call of Stop falls.", "anchors": ["lib/go/src/thrift/tnonblocking_server.go:123-145", "lib/go/src/thrift/tnonblocking_server_socket.go:97-107", "lib/go/src/thrift/tnonblocking_server_socket.go:156-170"]}
{"id": "C119", "title": "Serve fails of nothing but the network", "statement": "If nobody calls Stop, an error returned by Serve comes from the network.", "quantifier": "for every execution, with a socket made from an address or from a listener", "why_tests_cant": "Needs a socket made from a listener, or a second call of Serve.", "anchors": ["lib/go/src/thrift/tnonblocking_server_socket.go:58-66", "lib/go/src/thrift/tnonblocking_server_socket.go:73-75", "lib/go/src/thrift/tnonblocking_server_socket.go:97-107"]}
{"id": "C120", "title": "No field of a new object is set", "statement": "On an object fresh from its constructor every IsSet helper says no.", "quantifier": "every schema and every field that has a helper", "why_tests_cant": "All types and all defaults.", "anchors": ["compiler/cpp/src/generate/t_go_generator.cc:944-960", "compiler/cpp/src/generate/t_go_generator.cc:1045-1139"]}
{"id": "C121", "title": "An assigned field is set", "statement": "A field that was given a value of its type other than the one it starts with is reported as set by its IsSet helper.", "quantifier": "every schema, every field that has a helper, every value of its type", "why_tests_cant": "All types, defaults and values.", "anchors": ["compiler/cpp/src/generate/t_go_generator.cc:1045-1139"]}
{"id": "C122", "title": "A stopped server can serve again", "statement": "When Stop and Serve of the non-blocking server have returned, Serve can be called again and accepts connections.", "quantifier": "for every execution in which Serve had begun before Stop was called and the listener could be closed", "why_tests_cant": "Depends on where in Serve the call of Stop falls; tests stop a server once and end.", "anchors": ["lib/go/src/thrift/tnonblocking_server.go:123-145", "lib/go/src/thrift/tnonblocking_server_socket.go:97-107", "lib/go/src/thrift/tnonblocking_server_socket.go:156-170"]}
{"id": "C123", "title": "Calls over the compact protocol return what the handler returned", "statement": "A generated client and a processor that use the compact protocol over transports that work: every call in a sequence of calls returns what the handler returned for the arguments of that call.", "quantifier": "for all services, methods with a reply, arguments, results, transports, sequences of calls, and all earlier states of client and server", "why_tests_cant": "The reader's and the writer's state lives through all calls of a connection, and whether a value arrives depends on what surrounds it; tests make a few calls with few types.", "anchors": ["lib/go/src/thrift/tcompact_protocol.go:127-226", "lib/go/src/thrift/tcompact_protocol.go:352-442", "compiler/cpp/src/generate/t_go_generator.cc:1529-1790", "compiler/cpp/src/generate/t_go_generator.cc:2183-2480"]}
{"id": "C124", "title": "No request makes a processor panic", "statement": "Whatever bytes arrive on a connection, Process of a generated service over the binary protocol returns (with a reply, an exception or an error); it neither panics nor runs for ever.", "quantifier": "all schemas, services whose handlers return values of the declared types, protocol states, inputs and connections", "why_tests_cant": "Tests send well-formed requests; which of the infinitely many malformed ones take the server down depends on the declared argument types.", "anchors": ["compiler/cpp/src/generate/t_go_generator.cc:2242-2257", "compiler/cpp/src/generate/t_go_generator.cc:2319-2391", "compiler/cpp/src/generate/t_go_generator.cc:2451-2739", "lib/go/src/thrift/tbinary_protocol.go:429-442"]}
{"id": "C125", "title": "Comparing values ends", "statement": "Compare of any two values against any declared type returns or panics, looking no deeper than the values are nested; so do Push, Add and Set of the containers.", "quantifier": "all values, all types, all containers", "why_tests_cant": "Compare, CoerceData and the container comparisons call each other over values of any nesting; a test can not tell a long run from one without end.", "anchors": ["lib/go/src/thrift/ttype.go:260-488", "lib/go/src/thrift/ttype.go:490-530"]}
{"id": "C126", "title": "No request keeps a processor busy for ever", "statement": "Whatever finite input arrives on a connection, Process of a generated service over the binary or the compact protocol returns or panics.", "quantifier": "all schemas, services, protocol states, inputs and connections", "why_tests_cant": "All malformed inputs; the loops over fields, elements and varint bytes are driven by the input.", "anchors": ["compiler/cpp/src/generate/t_go_generator.cc:2242-2257", "compiler/cpp/src/generate/t_go_generator.cc:2319-2391", "compiler/cpp/src/generate/t_go_generator.cc:2451-2739", "lib/go/src/thrift/tprotocol.go:120-178", "lib/go/src/thrift/tcompact_protocol.go:745-760"]}
{"id": "C127", "title": "No reply keeps a client busy for ever", "statement": "Whatever finite input arrives on a connection, a call of a generated client over the binary or the compact protocol returns or panics.", "quantifier": "all schemas, methods, arguments, client states, inputs and connections", "why_tests_cant": "All malformed replies.", "anchors": ["compiler/cpp/src/generate/t_go_generator.cc:1633-1782", "lib/go/src/thrift/tapplication_exception.go:73-138"]}
{"id": "C128", "title": "No request makes a processor panic (compact)", "statement": "Whatever bytes arrive on a connection, Process of a generated service over the compact protocol does not panic.", "quantifier": "all schemas, services, protocol states and inputs", "why_tests_cant": "Tests send well-formed requests.", "anchors": ["lib/go/src/thrift/tcompact_protocol.go:352-376", "lib/go/src/thrift/tcompact_protocol.go:595-612"]}
{"id": "C129", "title": "Parameters are not Go keywords", "statement": "Whatever a name in the IDL is, the Go variable made from it is not a keyword of Go and not the predeclared name error; names unlike any of these words are kept.", "quantifier": "all byte strings", "why_tests_cant": "Tests use the names of a few IDL files.", "anchors": ["compiler/cpp/src/generate/t_go_generator.cc:294-413"]}
{"id": "C130", "title": "Distinct members are distinct Go fields", "statement": "Two members of a struct with different names become Go fields with different names.", "quantifier": "all pairs of IDL identifiers", "why_tests_cant": "Needs all pairs of names.", "anchors": ["compiler/cpp/src/generate/t_go_generator.cc:250-271", "compiler/cpp/src/generate/t_go_generator.cc:294-413", "compiler/cpp/src/generate/t_go_generator.cc:906"]}
{"id": "C131", "title": "Go fields are exported", "statement": "The Go name of every member and type begins with a capital letter.", "quantifier": "all IDL identifiers", "why_tests_cant": "Tests use names that begin with letters.", "anchors": ["compiler/cpp/src/generate/t_go_generator.cc:250-271", "compiler/cpp/src/generate/t_go_generator.cc:906"]}
{"id": "C132", "title": "Declaration, client and processor name the structs of a method alike", "statement": "The names under which client and processor use the argument and result structs of a method are the names under which these are declared.", "quantifier": "all IDL identifiers as method names", "why_tests_cant": "Tests use a few tidy method names.", "anchors": ["compiler/cpp/src/generate/t_go_generator.cc:866", "compiler/cpp/src/generate/t_go_generator.cc:1461", "compiler/cpp/src/generate/t_go_generator.cc:1675-1686", "compiler/cpp/src/generate/t_go_generator.cc:1704", "compiler/cpp/src/generate/t_go_generator.cc:1756", "compiler/cpp/src/generate/t_go_generator.cc:2310-2311"]}
{"id": "C133", "title": "A client type has no two methods of one name", "statement": "If the functions of a service have different public names then the call, Send and Recv methods of its client all have different names.", "quantifier": "all lists of function names", "why_tests_cant": "Needs all combinations of names.", "anchors": ["compiler/cpp/src/generate/t_go_generator.cc:1635", "compiler/cpp/src/generate/t_go_generator.cc:1673", "compiler/cpp/src/generate/t_go_generator.cc:1707"]}
{"id": "C134", "title": "The names in the head of a client method differ", "statement": "If the arguments and exceptions of a function have different names, then receiver, parameters and results of its client method have different names.", "quantifier": "all argument lists, exception lists and temporaries", "why_tests_cant": "Needs all argument names.", "anchors": ["compiler/cpp/src/generate/t_go_generator.cc:1635", "compiler/cpp/src/generate/t_go_generator.cc:3127-3185"]}
{"id": "C135", "title": "Enum values and texts correspond", "statement": "The text of a declared enum value leads back to the value, every other text to a value that is not declared, and exactly the values that are not declared have the text <UNSET>.", "quantifier": "all enum declarations with distinct names and values, all values, all texts", "why_tests_cant": "Infinitely many declarations and texts.", "anchors": ["compiler/cpp/src/generate/t_go_generator.cc:590-649"]}
{"id": "C136", "title": "Double constants are printed exactly", "statement": "A constant of type double has in Go the value that it has in the IDL.", "quantifier": "all natural numbers below 2^53", "why_tests_cant": "Tests have no double constants with more than six digits.", "anchors": ["compiler/cpp/src/generate/t_go_generator.cc:702-709"]}
{"id": "C137", "title": "Default values refer to declared variables", "statement": "The constructor of a struct uses only variables that are in scope.", "quantifier": "all member names and all default values", "why_tests_cant": "Needs all nested constants.", "anchors": ["compiler/cpp/src/generate/t_go_generator.cc:673-819", "compiler/cpp/src/generate/t_go_generator.cc:944-956", "compiler/cpp/src/generate/t_go_generator.cc:663-668"]}
{"id": "C138", "title": "Struct fields have Go types", "statement": "Every member of a struct becomes a Go field with the Go type of the member.", "quantifier": "all struct declarations", "why_tests_cant": "Tests use explicit field ids.", "anchors": ["compiler/cpp/src/generate/t_go_generator.cc:892-919"]}
{"id": "C139", "title": "The size of a Go struct is that of its members", "statement": "A Go struct has as many fields as the struct has members.", "quantifier": "all struct declarations with distinct ids", "why_tests_cant": "Needs all ids.", "anchors": ["compiler/cpp/src/generate/t_go_generator.cc:893-911"]}
{"id": "C140", "title": "Extending services answer their parents' methods", "statement": "The processor of a service that extends another finds its own methods and, as the parent does, every method it does not declare itself; through chains of any length.", "quantifier": "all chains of services", "why_tests_cant": "Needs all chains and method lists.", "anchors": ["compiler/cpp/src/generate/t_go_generator.cc:2219-2237", "compiler/cpp/src/generate/t_go_generator.cc:2258-2293"]}
{"id": "C141", "title": "A server socket is open from a successful open to a successful close", "statement": "After any calls IsOpen is what their answers say; Open on an open socket reports ALREADY_OPEN and changes nothing, Close on a closed one succeeds and changes nothing; read, write and flush always report an error.", "quantifier": "all networks, addresses and call histories, both server sockets", "why_tests_cant": "Infinitely many histories and answers of the network.", "anchors": ["lib/go/src/thrift/tserver_socket.go:86-191", "lib/go/src/thrift/tnonblocking_server_socket.go:73-169"]}
{"id": "C142", "title": "A server socket listens on the network of its address", "statement": "Whatever is called on a server socket, net.Listen is only called with the network name and the text of its address.", "quantifier": "all networks, addresses and call histories, both server sockets", "why_tests_cant": "Tests use TCP addresses.", "anchors": ["lib/go/src/thrift/tserver_socket.go:86-93", "lib/go/src/thrift/tserver_socket.go:121-132", "lib/go/src/thrift/tnonblocking_server_socket.go:97-107"]}
{"id": "C143", "title": "A closed server socket accepts nothing", "statement": "On a server socket that is not open Accept reports NOT_OPEN and leaves the network alone.", "quantifier": "all networks and sockets that are not open, both server sockets", "why_tests_cant": "Needs all states and networks.", "anchors": ["lib/go/src/thrift/tserver_socket.go:95-109", "lib/go/src/thrift/tnonblocking_server_socket.go:137-146"]}
{"id": "C144", "title": "Server sockets lose no listener", "statement": "At any time the listeners that were made and not closed are exactly the one the socket holds, or none.", "quantifier": "all networks, addresses and call histories, both server sockets", "why_tests_cant": "Infinitely many histories.", "anchors": ["lib/go/src/thrift/tserver_socket.go:86-132", "lib/go/src/thrift/tserver_socket.go:169-191", "lib/go/src/thrift/tnonblocking_server_socket.go:97-107", "lib/go/src/thrift/tnonblocking_server_socket.go:155-169"]}
{"id": "C145", "title": "Server sockets do not panic", "statement": "No call on a server socket panics.", "quantifier": "all networks, addresses including nil, call histories, both server sockets", "why_tests_cant": "Infinitely many histories.", "anchors": ["lib/go/src/thrift/tserver_socket.go:77-132", "lib/go/src/thrift/tnonblocking_server_socket.go:63-107"]}
{"id": "C146", "title": "No reply makes a client panic", "statement": "Whatever a server answers, Recv of a generated client over the binary protocol comes back with a result or an error; it neither panics nor runs for ever.", "quantifier": "all schemas, methods, client states, replies and connections", "why_tests_cant": "Tests use servers that answer correctly; which of the infinitely many malformed replies take the client down depends on the declared result types.", "anchors": ["compiler/cpp/src/generate/t_go_generator.cc:1706-1782", "compiler/cpp/src/generate/t_go_generator.cc:2451-2739", "lib/go/src/thrift/tbinary_protocol.go:429-442"]}
{"id": "C147", "title": "Calls over the tagged JSON protocol are answered", "statement": "A generated client and a processor talk over the tagged JSON protocol on a connection that stays open and delivers one message with each read. As long as the messages fit into the reader's buffer, every call is answered: the handler gets the arguments of the call, and the client gets the result, or the error, which ends the conversation.", "quantifier": "all services, schemas, sequences of calls, arguments, results, handler states and handler errors", "why_tests_cant": "Both objects keep state and buffers through all calls, and whether a message can be read without waiting for the next one depends on its content; tests read complete documents from memory.", "anchors": ["lib/go/src/thrift/tjson_protocol.go:48-536", "lib/go/src/thrift/tsimple_json_protocol.go:947-1000", "compiler/cpp/src/generate/t_go_generator.cc:1529-1790", "compiler/cpp/src/generate/t_go_generator.cc:2183-2480", "lib/go/src/thrift/tsimple_server.go:149-160"]}
{"id": "C148", "title": "Reads observe the socket's timeout", "statement": "A Read of an open socket with a timeout ends within the timeout, whatever the other side does. An answer that comes in time, and any answer if there is no timeout, is handed over unchanged at the time it comes.", "quantifier": "all peers, delays, timeouts, clocks and socket states", "why_tests_cant": "Depends on a deadline being set anew before every read; needs every relation of delay and timeout, and peers that never answer.", "anchors": ["lib/go/src/thrift/tsocket.go:102-119", "lib/go/src/thrift/tsocket.go:185-192", "lib/go/src/thrift/tnonblocking_socket.go:79-99", "lib/go/src/thrift/tnonblocking_socket.go:133-140"]}
{"id": "C149", "title": "Sending observes the socket's timeout", "statement": "Whatever was done with a socket before, a Flush (a Write of a non-blocking socket) ends within the timeout, and succeeds if the other side takes the data within it.", "quantifier": "all histories of calls and waiting, peers, delays, timeouts", "why_tests_cant": "The deadline is set by Write and used by Flush; a test that flushes at once after writing does not see the difference.", "anchors": ["lib/go/src/thrift/tsocket.go:107-119", "lib/go/src/thrift/tsocket.go:198-217", "lib/go/src/thrift/tnonblocking_socket.go:149-155"]}
{"id": "C150", "title": "Open observes the socket's timeout", "statement": "Open of a socket that can be opened ends within the timeout, and hands over the outcome of dialling if that comes in time.", "quantifier": "all peers, delays, timeouts, addresses", "why_tests_cant": "Needs hosts that never answer.", "anchors": ["lib/go/src/thrift/tsocket.go:141-167", "lib/go/src/thrift/tnonblocking_socket.go:108-128"]}
{"id": "C151", "title": "A timeout is reported as TIMED_OUT", "statement": "When the other side does not answer a Read in time, the error is a transport exception of type TIMED_OUT.", "quantifier": "all peers that are late, timeouts, socket states", "why_tests_cant": "The type is only visible when a deadline passes.", "anchors": ["lib/go/src/thrift/tsocket.go:185-192", "lib/go/src/thrift/ttransport_exception.go:25-85"]}
{"id": "C152", "title": "Buffered streams pass on what is written", "statement": "After any calls but Close on a buffered stream transport, the underlying stream has accepted a beginning of what the users were told is written, all but at most a buffer full; after a successful Flush all of it. A Write without an error is complete.", "quantifier": "all underlying streams that keep io.Writer's contract, histories of calls, chunk sizes, failures in between", "why_tests_cant": "The buffer is passed on in pieces that depend on all sizes so far and on short writes and errors of the stream.", "anchors": ["lib/go/src/thrift/tiostream_transport.go:99-131", "lib/go/src/thrift/tiostream_transport.go:201-228"]}
{"id": "C153", "title": "Buffered streams hand over what they read", "statement": "After any calls but Close, what users of a buffered stream transport have read is a beginning of what was read from the underlying stream, in order, and all of it when they are told of an error.", "quantifier": "all underlying streams, histories of calls, read sizes", "why_tests_cant": "Reads of any size are served from or past a buffer, with errors remembered for later.", "anchors": ["lib/go/src/thrift/tiostream_transport.go:99-131", "lib/go/src/thrift/tiostream_transport.go:186-192"]}
{"id": "C154", "title": "Close loses no written bytes", "statement": "When Close of a buffered stream transport reports no error, the stream has accepted everything that was written.", "quantifier": "all streams that keep io.Writer's contract, histories of calls", "why_tests_cant": "Tests flush before they close.", "anchors": ["lib/go/src/thrift/tiostream_transport.go:99-131", "lib/go/src/thrift/tiostream_transport.go:157-181"]}
{"id": "C155", "title": "Close closes the streams", "statement": "Close of a stream transport closes the streams it was made of, if they can be closed, exactly once.", "quantifier": "all streams, all four constructors", "why_tests_cant": "Needs streams that record being closed, for each constructor.", "anchors": ["lib/go/src/thrift/tiostream_transport.go:88-131", "lib/go/src/thrift/tiostream_transport.go:157-181"]}
{"id": "C156", "title": "One-way stream transports", "statement": "A stream transport made for reading refuses to write and flush, one made for writing refuses to read, with NOT_OPEN and without touching the streams; otherwise Read asks the reader and Write the writer.", "quantifier": "all streams, sizes, data", "why_tests_cant": "Each constructor and direction, with streams that record every call.", "anchors": ["lib/go/src/thrift/tiostream_transport.go:88-131", "lib/go/src/thrift/tiostream_transport.go:186-228"]}
{"id": "C157", "title": "IsOpen tells the truth", "statement": "After an Open without error a transport says it is open, after a Close without error it says it is not, and a transport that says so answers NOT_OPEN to Read, Write and Flush and stays as it is.", "quantifier": "all transports of the library, all states", "why_tests_cant": "A contract of an interface over all its implementations and states.", "anchors": ["lib/go/src/thrift/ttransport.go:36-83", "lib/go/src/thrift/tsocket.go:131-217", "lib/go/src/thrift/tnonblocking_socket.go:101-194", "lib/go/src/thrift/tiostream_transport.go:139-181", "lib/go/src/thrift/thttp_client.go:91-145", "lib/go/src/thrift/tmemory_buffer.go:63-78", "lib/go/src/thrift/tframed_transport.go:51-108"]}
{"id": "C158", "title": "A socket made from a connection can be opened again", "statement": "A socket made from a connection and closed without error dials the address of the connection's peer when it is opened; if the connection does not tell it, Open answers NOT_OPEN without dialling.", "quantifier": "all connections, addresses, networks", "why_tests_cant": "Needs connections without a remote address.", "anchors": ["lib/go/src/thrift/tsocket.go:49-71", "lib/go/src/thrift/tsocket.go:141-183", "lib/go/src/thrift/tnonblocking_socket.go:59-62", "lib/go/src/thrift/tnonblocking_socket.go:108-128"]}
{"id": "C159", "title": "Nothing of the old connection in the new one", "statement": "A framed transport that is closed and opened again is like new: what was left of the last frame is not read, what was not flushed is not sent.", "quantifier": "all transports inside, frames, reads and writes before", "why_tests_cant": "Tests do not reopen a transport in the middle of a frame.", "anchors": ["lib/go/src/thrift/tframed_transport.go:45-108"]}
{"id": "C160", "title": "Factories keep the connection", "statement": "The transport that a factory's GetTransport makes for a given one reads what could be read from that one.", "quantifier": "all factories that make transports for transports of their own kind, all states", "why_tests_cant": "The servers call GetTransport for every accepted client; tests pass nil.", "anchors": ["lib/go/src/thrift/ttransport_factory.go:29-47", "lib/go/src/thrift/tmemory_buffer.go:40-48", "lib/go/src/thrift/tnonblocking_socket.go:43-53", "lib/go/src/thrift/tiostream_transport.go:46-80", "lib/go/src/thrift/thttp_client.go:42-60", "lib/go/src/thrift/tframed_transport.go:41-49"]}
{"id": "C161", "title": "What a new object is worth", "statement": "A new object of a struct, written at once over the binary protocol, consists of its members in the order of their ids: required numbers, truth values and texts with their default or else zero, false and the empty text; nothing for any other member.", "quantifier": "all schemas, structs with distinct ids and defaults of the declared types, writer states", "why_tests_cant": "Constructor, IsSet and Write of a generated struct must agree for every type, requiredness and default.", "anchors": ["compiler/cpp/src/generate/t_go_generator.cc:924-968", "compiler/cpp/src/generate/t_go_generator.cc:1339-1390", "compiler/cpp/src/generate/t_go_generator.cc:1269-1330"]}
{"id": "C162", "title": "Exceptions of any server reach the caller", "statement": "When the reply is an application exception, whatever its name, sequence number and further fields, the caller gets an application error with its type as a signed number and its message, and the connection is left at the end of the reply.", "quantifier": "all methods, client states, names, sequence numbers, type codes, messages and unknown fields around the two known ones", "why_tests_cant": "Servers in other languages put other fields and orders into exceptions; type codes are any 32 bit number.", "anchors": ["compiler/cpp/src/generate/t_go_generator.cc:1706-1782", "lib/go/src/thrift/tapplication_exception.go:61-140"]}
{"id": "C163", "title": "Lists and sets are compared by their first difference", "statement": "Two lists (or sets with the same element type and size) of the same length compare as the first pair of elements that do not compare equal; a panic or a type mismatch of that pair is passed on; without such a pair they are equal.", "quantifier": "all element types, element rows, pairs of elements, results of the element comparison", "why_tests_cant": "The loop over elements calls the comparison of any element type recursively.", "anchors": ["lib/go/src/thrift/ttype.go:260-504", "lib/go/src/thrift/tlist.go:160-200"]}
{"id": "C164", "title": "Sets with the same members are equal", "statement": "Two sets of scalars with the same members compare equal, whatever the order in which members were added and removed and whatever the size given to the constructor.", "quantifier": "all scalar element types, histories of Add and Remove, sizes", "why_tests_cant": "Histories are unbounded; the sets are slices kept sorted.", "anchors": ["lib/go/src/thrift/tset.go:49-95", "lib/go/src/thrift/ttype.go:260-504"]}
{"id": "C165", "title": "Keys and Values list the entries of a map", "statement": "Keys and Values of a map with scalar keys list every key once and the value last set for each.", "quantifier": "all scalar key types, value types, histories of Set, sizes", "why_tests_cant": "Size, entries and the hint of the constructor are kept apart in the map.", "anchors": ["lib/go/src/thrift/tmap.go:101-126", "lib/go/src/thrift/tmap.go:750-770"]}
{"id": "C166", "title": "Contains never panics", "statement": "Contains of a list of scalars does not panic, whatever was pushed before and is asked for.", "quantifier": "all scalar element types, pushed values, values asked for", "why_tests_cant": "Values are of any dynamic type; comparisons panic on uncomparable ones.", "anchors": ["lib/go/src/thrift/tlist.go:117-233", "lib/go/src/thrift/ttype.go:260-504"]}
{"id": "C167", "title": "Iteration leaves no goroutine behind", "statement": "The goroutine started by Iter ends, however many elements the caller receives.", "quantifier": "all lists, numbers of receives", "why_tests_cant": "A loop left early is an execution with a goroutine that waits for ever; tests do not look for it.", "anchors": ["lib/go/src/thrift/tlist.go:126-137", "lib/go/src/thrift/tmap.go:568-734"]}
{"id": "C168", "title": "Doubles are ordered by value", "statement": "Doubles compare as their values; equal bits compare equal.", "quantifier": "all pairs of 64 bit patterns", "why_tests_cant": "2^128 pairs, with infinities, zeros, subnormals and NaN.", "anchors": ["lib/go/src/thrift/ttype.go:260-504"]}
{"id": "C169", "title": "Comparison helpers", "statement": "CompareInt16, -32, -64, Byte, Bool, Double and Float have the sign of the difference; CompareString is the order of bytes; CompareStringArray goes by length, then first difference.", "quantifier": "all arguments", "why_tests_cant": "Too many arguments; the defect is a parameter type.", "anchors": ["lib/go/src/thrift/tcompare.go:22-126"]}
{"id": "C170", "title": "Numerics keep value and text", "statement": "A Numeric made of an integer has that value and the decimal text of it.", "quantifier": "all 64 bit integers", "why_tests_cant": "All integers.", "anchors": ["lib/go/src/thrift/tnumeric.go:54-164"]}
{"id": "C171", "title": "Names and classes of types", "statement": "Numbers, texts, containers, structs and empty types exclude each other, base types are numbers and texts, and names tell types apart.", "quantifier": "all 256 types", "why_tests_cant": "Unlisted type numbers come from the wire.", "anchors": ["lib/go/src/thrift/ttype.go:56-214"]}
{"id": "C172", "title": "Types from numbers", "statement": "Coerce makes the type with that number of an integer of any Go type, and Equals and LessType go by it.", "quantifier": "all integers from 0 to 255 in all integer types, all types", "why_tests_cant": "The type switch lists Go types one by one.", "anchors": ["lib/go/src/thrift/ttype.go:216-253", "lib/go/src/thrift/ttype.go:506-508"]}
{"id": "C173", "title": "Generated files import what they use, first", "statement": "Every file generated for a program stands up to Go's rules about imports: they stand before other declarations, every imported package is used, and no package imports itself.", "quantifier": "all programs: includes, typedefs, enums, constants, structs, services", "why_tests_cant": "A test compiles the files of one program; which packages a file mentions depends on everything declared.", "anchors": ["compiler/cpp/src/generate/t_go_generator.cc:471-551", "compiler/cpp/src/generate/t_go_generator.cc:570-582", "compiler/cpp/src/generate/t_go_generator.cc:1402-1430"]}
{"id": "C174", "title": "The command line program uses its imports", "statement": "The program generated for calling a service from the command line uses every package it imports.", "quantifier": "all services and modules", "why_tests_cant": "Depends on the argument types of all functions.", "anchors": ["compiler/cpp/src/generate/t_go_generator.cc:1796-1825", "compiler/cpp/src/generate/t_go_generator.cc:1954-2028"]}
{"id": "C175", "title": "Functions have helper types of their own", "statement": "If the functions of each service have different public names then the argument and result structs of a program and their constructors have different names.", "quantifier": "all programs: any number of services and functions, all names", "why_tests_cant": "All pairs of names in a package.", "anchors": ["compiler/cpp/src/generate/t_go_generator.cc:866-868", "compiler/cpp/src/generate/t_go_generator.cc:925", "compiler/cpp/src/generate/t_go_generator.cc:1438-1479"]}
{"id": "C176", "title": "Processors enter the handlers they declare", "statement": "The types that the constructor of a processor enters into its map are declared.", "quantifier": "all names of services and functions", "why_tests_cant": "Two conversions of the same name, one applied twice.", "anchors": ["compiler/cpp/src/generate/t_go_generator.cc:2191", "compiler/cpp/src/generate/t_go_generator.cc:2207-2237", "compiler/cpp/src/generate/t_go_generator.cc:2305-2320", "compiler/cpp/src/generate/t_go_generator.cc:250-292"]}
{"id": "C177", "title": "Fields and methods of a struct differ", "statement": "If the members of a struct have different ids and field names then no two fields or methods of its Go type share a name.", "quantifier": "all structs: any members, ids, names", "why_tests_cant": "All names that a member can have.", "anchors": ["compiler/cpp/src/generate/t_go_generator.cc:855-1040", "compiler/cpp/src/generate/t_go_generator.cc:1045-1062", "compiler/cpp/src/generate/t_go_generator.cc:1144-1260", "compiler/cpp/src/generate/t_go_generator.cc:1261-1395"]}
{"id": "C178", "title": "The code for a field has the right types", "statement": "Every assignment, conversion and method call in the code that reads and writes a field is one that Go accepts.", "quantifier": "all declared types: base types, enums, structs, containers and typedefs, nested in any way", "why_tests_cant": "Declared types nest without bound; a test compiles a few.", "anchors": ["compiler/cpp/src/generate/t_go_generator.cc:2444-2741", "compiler/cpp/src/generate/t_go_generator.cc:2744-2987", "compiler/cpp/src/generate/t_go_generator.cc:3257-3320"]}
{"id": "C179", "title": "An enum that nobody set is not sent", "statement": "A new struct sends no enum field that has no default.", "quantifier": "all enum types, also behind typedefs, optional or not; all values for the fields that are set", "why_tests_cant": "Depends on which of two tests of the generator looks through typedefs.", "anchors": ["compiler/cpp/src/generate/t_go_generator.cc:947-960", "compiler/cpp/src/generate/t_go_generator.cc:1055-1062", "compiler/cpp/src/generate/t_go_generator.cc:1340-1360", "compiler/cpp/src/generate/t_go_generator.cc:2817-2819"]}
{"id": "C180", "title": "Lists keep the elements read into them", "statement": "A list read from the wire has the elements that were sent.", "quantifier": "all element types and lists of values", "why_tests_cant": "All types, any number of elements.", "anchors": ["compiler/cpp/src/generate/t_go_generator.cc:2519-2548", "compiler/cpp/src/generate/t_go_generator.cc:2646-2741", "lib/go/src/thrift/tlist.go:85-93", "lib/go/src/thrift/tset.go:80-95", "lib/go/src/thrift/tmap.go:313-345", "lib/go/src/thrift/ttype.go:593-1097"]}
{"id": "C181", "title": "The function that receives an answer is accepted", "statement": "Go accepts the names in Recv\u2026, whatever the exceptions of a function are called.", "quantifier": "all lists of exceptions and names", "why_tests_cant": "All names.", "anchors": ["compiler/cpp/src/generate/t_go_generator.cc:1703-1785", "compiler/cpp/src/generate/t_go_generator.cc:3166-3185", "compiler/cpp/src/generate/t_go_generator.cc:294-413"]}
{"id": "C182", "title": "The command line program connects where it is told", "statement": "The transport is made for the address asked for: the URL if one is given, the host and port otherwise.", "quantifier": "all flags, all URLs, whatever url.Parse answers", "why_tests_cant": "A test runs the program with a few flags.", "anchors": ["compiler/cpp/src/generate/t_go_generator.cc:1843-1903"]}
{"id": "C183", "title": "The command line program passes arguments of the right types", "statement": "Go accepts the type of every argument that the command line program passes to a function.", "quantifier": "all declared argument types", "why_tests_cant": "Types nest without bound.", "anchors": ["compiler/cpp/src/generate/t_go_generator.cc:1954-2143"]}
{"id": "C184", "title": "Container arguments are passed as read", "statement": "What the command line program reads for a container argument is what it passes.", "quantifier": "all argument lists, ids, names and positions", "why_tests_cant": "All ids and names.", "anchors": ["compiler/cpp/src/generate/t_go_generator.cc:2047-2080", "compiler/cpp/src/generate/t_go_generator.cc:1244-1256"]}
{"id": "C185", "title": "Numbers are passed as typed", "statement": "The number typed for an integer argument is passed if the type can hold it, and nothing is passed otherwise.", "quantifier": "all texts, all integer types and enums", "why_tests_cant": "All texts and numbers.", "anchors": ["compiler/cpp/src/generate/t_go_generator.cc:1959-2011"]}
{"id": "C186", "title": "The exit status tells whether a function was called", "statement": "The command line program ends with status 0 if and only if it was asked for its usage or has called a function.", "quantifier": "all flags, arguments, functions and outside worlds", "why_tests_cant": "All combinations of failures.", "anchors": ["compiler/cpp/src/generate/t_go_generator.cc:1826-1945", "compiler/cpp/src/generate/t_go_generator.cc:2145-2157"]}
{"id": "C187", "title": "Every function of a service can be called from the command line", "statement": "With everything in order outside, every function of a service, its parents' included, can be called with arguments that can be read.", "quantifier": "all services, chains of parents, functions and arguments", "why_tests_cant": "All services.", "anchors": ["compiler/cpp/src/generate/t_go_generator.cc:1798", "compiler/cpp/src/generate/t_go_generator.cc:1946-1957"]}
{"id": "C188", "title": "Every compact encoding of a value is read", "statement": "Whatever forms another writer chooses among those that the compact encoding permits (long numerals, long or short field headers, long or short list headers, either code for booleans), the bytes are read as the value they denote and the reader stops at their end.", "quantifier": "all values, all permitted encodings of them, all reader histories", "why_tests_cant": "Every numeral has unboundedly many forms and every value combines them.", "anchors": ["lib/go/src/thrift/tcompact_protocol.go:352-376", "lib/go/src/thrift/tcompact_protocol.go:403-442", "lib/go/src/thrift/tcompact_protocol.go:451-498", "lib/go/src/thrift/tcompact_protocol.go:519-620", "lib/go/src/thrift/tcompact_protocol.go:734-775", "lib/go/src/thrift/tcompact_protocol.go:812-845"]}
{"id": "C189", "title": "Fields may come in any order and the last occurrence counts", "statement": "A generated reader that is given the fields of a struct in another order, with other fields between them, leaves the object with the same attributes; of several occurrences of a field the last counts, and a field that does not come leaves its attribute as the object held it.", "quantifier": "all schemas, structs, field sequences, prior contents of the object, both binary encodings and the compact encoding", "why_tests_cant": "The orders and repetitions of fields are unbounded.", "anchors": ["compiler/cpp/src/generate/t_go_generator.cc:1152-1241", "compiler/cpp/src/generate/t_go_generator.cc:1184-1227"]}
{"id": "C190", "title": "A missing required field is reported", "statement": "Reading a struct in which a field that is neither optional nor has a default value is absent reports an error.", "quantifier": "all schemas, structs, field sequences, prior contents of the object", "why_tests_cant": "A test shows the absence of one field of one struct.", "anchors": ["compiler/cpp/src/generate/t_go_generator.cc:1152-1241", "compiler/cpp/src/generate/t_go_generator.cc:924-968"]}
{"id": "C191", "title": "The binary reader accepts nothing but encodings", "statement": "Whatever bytes the binary protocol reads as a value without reporting an error are the encoding of that value and the value is well formed; likewise for message headers.", "quantifier": "all byte strings, all types, all values, all reader settings without a read limit", "why_tests_cant": "The inputs that are no encodings are unboundedly many; a test tries a few.", "anchors": ["lib/go/src/thrift/tbinary_protocol.go:244-282", "lib/go/src/thrift/tbinary_protocol.go:288-374", "lib/go/src/thrift/tbinary_protocol.go:378-442", "lib/go/src/thrift/tbinary_protocol.go:456-492"]}
{"id": "C192", "title": "Texts of fields and messages tell them apart", "statement": "Two fields, or two messages, that print the same text are the same; equality of messages is equality of name, type and sequence number, and the order fields are sorted by is that of their comparison.", "quantifier": "all names, types, ids and sequence numbers", "why_tests_cant": "Names and ids are unboundedly many and the texts are built with a conversion of integers to characters.", "anchors": ["lib/go/src/thrift/tfield.go:53-79", "lib/go/src/thrift/tfield.go:118-120", "lib/go/src/thrift/tmessage.go:38-70"]}
{"id": "C193", "title": "Accepted connections observe the timeout of the server socket", "statement": "Reading from a connection that a server socket has accepted observes the timeout the server socket had when it accepted it, and the factories of server sockets keep the timeout of the server socket they are given.", "quantifier": "all histories of calls on server sockets of both kinds, all networks, all addresses and timeouts", "why_tests_cant": "Histories are unbounded and tests do not wait for timeouts.", "anchors": ["lib/go/src/thrift/tserver_socket.go:53-84", "lib/go/src/thrift/tserver_socket.go:95-109", "lib/go/src/thrift/tnonblocking_server_socket.go:42-85", "lib/go/src/thrift/tnonblocking_server_socket.go:137-146", "lib/go/src/thrift/tsocket.go:64-71"]}
{"id": "C194", "title": "The compact reader accepts nothing but encodings", "statement": "Whatever bytes the compact protocol reads as a value without reporting an error are an encoding of that value which the format permits, and the value is well formed (types of empty maps apart); likewise for message headers.", "quantifier": "all byte strings, all types, all values, all states of the protocol without a pending boolean", "why_tests_cant": "The inputs that are no encodings are unboundedly many; a test tries a few.", "anchors": ["lib/go/src/thrift/tcompact_protocol.go:346-398", "lib/go/src/thrift/tcompact_protocol.go:403-442", "lib/go/src/thrift/tcompact_protocol.go:451-468", "lib/go/src/thrift/tcompact_protocol.go:478-510", "lib/go/src/thrift/tcompact_protocol.go:519-607", "lib/go/src/thrift/tcompact_protocol.go:734-760"]}
{"id": "C195", "title": "All requests on a connection are answered in order", "statement": "When several requests of the binary protocol arrive on one connection, the request loop of a server answers every one of them, in order and each with its own name and sequence id, hands the state left by one call to the next, and stops at the end of the input; stopping the server does not change what is done on a connection.", "quantifier": "all services, schemas, handlers, lists of requests for known and unknown methods, working connections (any division into pieces), protocol settings, and all values of the flag over time", "why_tests_cant": "Tests send one request and wait; what happens to requests that arrive together, behind a failing one, or while the server is being stopped depends on all combinations.", "anchors": ["lib/go/src/thrift/tsimple_server.go:137-161", "lib/go/src/thrift/tnonblocking_server.go:151-175", "compiler/cpp/src/generate/t_go_generator.cc:2242-2257", "compiler/cpp/src/generate/t_go_generator.cc:2319-2391"]}
{"id": "C196", "title": "Requests may be sent ahead of replies", "statement": "A generated client whose two halves are used separately, two requests sent and then two replies received, delivers the results of the two calls.", "quantifier": "all services, methods, arguments, connections and compatible protocol settings; the rule for sequence ids for all protocols and transports", "why_tests_cant": "Test clients call one method at a time; the check of the sequence id is only wrong for requests under way.", "anchors": ["compiler/cpp/src/generate/t_go_generator.cc:1672-1701", "compiler/cpp/src/generate/t_go_generator.cc:1706-1782"]}
{"id": "C197", "title": "Clients and servers made with the same factory understand each other", "statement": "The constructors of both servers put the given processor, transports and protocols in the right places for every connection, close both transports in the end, and use the documented defaults; a client and a server that are made with the same factory for the binary protocol understand each other, and a server with defaults understands every binary client.", "quantifier": "all processors, factories, connections, settings of the binary factory, services, calls and working connections", "why_tests_cant": "Tests use one constructor with one factory; swapped or mixed factories show only with factories that differ.", "anchors": ["lib/go/src/thrift/tsimple_server.go:26-111", "lib/go/src/thrift/tsimple_server.go:137-148", "lib/go/src/thrift/tnonblocking_server.go:35-121", "lib/go/src/thrift/tprocessor_factory.go:30-40", "lib/go/src/thrift/ttransport_factory.go:33-47", "lib/go/src/thrift/tbinary_protocol.go:38-62"]}
{"id": "C198", "title": "Calls over the simple JSON protocol are answered", "statement": "Every conversation over the simple JSON protocol whose messages fit into the reader's buffer is answered: the handler gets the arguments of every call and the client its result, or its error, which ends the conversation.", "quantifier": "all schemas with names that are text, all services and handlers, all lists of calls, all lawful text libraries", "why_tests_cant": "Whether the reader waits depends on the last bytes of the last value of every message, so a test with larger numbers passes; errors of handlers are rarely sent over this protocol.", "anchors": ["lib/go/src/thrift/tsimple_json_protocol.go:171-187", "lib/go/src/thrift/tsimple_json_protocol.go:305-374", "lib/go/src/thrift/tsimple_json_protocol.go:901-922", "lib/go/src/thrift/tapplication_exception.go:73-138", "compiler/cpp/src/generate/t_go_generator.cc:1706-1782"]}
{"id": "C199", "title": "Whatever arrives on a connection, the server sends whole answers and nothing else", "statement": "For every service over the binary protocol and every byte sequence that arrives on a connection, the request loop of a server ends, and what it has sent is one whole answer for each message header found at the place where one is due, in their order: the result for arguments that can be read, an exception with code 7 and the text of the error for arguments that cannot (the handler is not called), code 6 for handler errors, code 1 for unknown methods; at the first exception and at the first thing that is no message header the connection ends; handler calls, number of answers and end are settled by the bytes.", "quantifier": "all endpoints, schemas, services with results that generated code can carry, handler states, reader and writer settings, input byte sequences, flag histories, fuel from some bound on", "why_tests_cant": "Tests send well-formed requests; the input here is any byte sequence whatever, truncated, mistyped or hostile, with requests before and after.", "anchors": ["lib/go/src/thrift/tsimple_server.go:137-161", "compiler/cpp/src/generate/t_go_generator.cc:2242-2257", "compiler/cpp/src/generate/t_go_generator.cc:2319-2391", "lib/go/src/thrift/tbinary_protocol.go:244-282"]}
{"id": "C200", "title": "Documentation stays in comments", "statement": "Documentation of typedefs, enums, services, structs, exceptions and functions that contains no end of a comment is printed as exactly one Go comment, whatever follows it in the file.", "quantifier": "all documentation texts without `*/`, all indentations, all lists of members with identifiers for names and documentation of their own", "why_tests_cant": "Documentation is arbitrary text; the line that breaks out of the comment begins with a slash, which the tested files do not have.", "anchors": ["compiler/cpp/src/generate/t_go_generator.cc:2988-3066"]}
{"id": "C201", "title": "Modules are imported from where they are put", "statement": "The import path of an included file is the path from the output directory to the directory its files are put into; directories are made one inside the other; the package clause carries the name under which importing files know the package.", "quantifier": "all output directories and module names", "why_tests_cant": "The tested IDL files have modules without dots or include nothing.", "anchors": ["compiler/cpp/src/generate/t_go_generator.cc:422-456", "compiler/cpp/src/generate/t_go_generator.cc:491", "compiler/cpp/src/generate/t_go_generator.cc:525-528", "compiler/cpp/src/generate/t_go_generator.cc:1413", "compiler/cpp/src/generate/t_go_generator.cc:1803-1822"]}
{"id": "C202", "title": "Constants and values of enums have Go names of their own", "statement": "Constants with different names in the IDL have different names in Go, and no constant has the Go name of a value of an enum.", "quantifier": "all identifiers for types, constants, enums and values", "why_tests_cant": "Clashes depend on pairs of names out of infinitely many.", "anchors": ["compiler/cpp/src/generate/t_go_generator.cc:588-657"]}
{"id": "C203", "title": "Services that extend others are accepted by Go", "statement": "The code for a service that extends another refers to the interface, client and processor of the other by the names its package declares, and the literals that make clients give values to fields of the client.", "quantifier": "all modules and all service names", "why_tests_cant": "The tested services extend nothing; the text depends on module and service names.", "anchors": ["compiler/cpp/src/generate/t_go_generator.cc:1485-1508", "compiler/cpp/src/generate/t_go_generator.cc:1530-1606", "compiler/cpp/src/generate/t_go_generator.cc:2189-2276", "compiler/cpp/src/generate/t_go_generator.cc:3186-3192"]}
{"id": "C204", "title": "Types are named with their packages", "statement": "Where the Go code mentions a type, Go takes the text for the type of the IDL, whichever file declares it.", "quantifier": "all modules and types", "why_tests_cant": "The tested programs use no type of an included file.", "anchors": ["compiler/cpp/src/generate/t_go_generator.cc:3257-3315"]}
{"id": "C205", "title": "Fields and methods of clients differ", "statement": "In the client of a service, the fields have other names than the methods, and the fields that the methods use are found, also through clients of parents.", "quantifier": "all services and chains of services whose functions bring no two methods of one name", "why_tests_cant": "Clashes depend on the names of functions, out of infinitely many.", "anchors": ["compiler/cpp/src/generate/t_go_generator.cc:1551-1567", "compiler/cpp/src/generate/t_go_generator.cc:1635", "compiler/cpp/src/generate/t_go_generator.cc:1673", "compiler/cpp/src/generate/t_go_generator.cc:1679-1685", "compiler/cpp/src/generate/t_go_generator.cc:1707", "compiler/cpp/src/generate/t_go_generator.cc:1728-1733"]}
{"id": "C206", "title": "Clients implement the interfaces of their services", "statement": "The client of a service has every method of the interface of the service, including those of the services it extends, with the same parameters and results.", "quantifier": "all chains of services whose clients declare no two methods of one name", "why_tests_cant": "The tested services extend nothing.", "anchors": ["compiler/cpp/src/generate/t_go_generator.cc:1485-1528", "compiler/cpp/src/generate/t_go_generator.cc:1551-1557", "compiler/cpp/src/generate/t_go_generator.cc:1635", "compiler/cpp/src/generate/t_go_generator.cc:3127-3164"]}
{"id": "C207", "title": "No buffer is larger than what has arrived", "statement": "Whatever is read over the binary or the compact protocol or from a framed transport, no buffer is made to be filled that is larger than all the data there is, apart from the eight bytes of a scalar.", "quantifier": "all inputs, all sequences of read calls, of skipped values and of generated objects, all states of the protocols and transports", "why_tests_cant": "Tests read what was written; the sizes of buffers show in no result.", "anchors": ["lib/go/src/thrift/tbinary_protocol.go:421-442", "lib/go/src/thrift/tbinary_protocol.go:456-492", "lib/go/src/thrift/tcompact_protocol.go:595-607", "lib/go/src/thrift/tframed_transport.go:110-131"]}
{"id": "C208", "title": "Skipping takes work in proportion to the data", "statement": "Skipping a value calls Skip at most once, and once more for each byte taken from the input.", "quantifier": "all inputs, types, depths and states of the binary and the compact protocol", "why_tests_cant": "The number of calls shows in no result, and tests skip what was written.", "anchors": ["lib/go/src/thrift/tprotocol.go:120-200"]}
{"id": "C209", "title": "All requests on a connection over the compact protocol are answered in order", "statement": "When several requests of the compact protocol arrive on one connection, the request loop of a server answers every one of them, in order and each with its own name and sequence id, with a reply that the generated reader reads back, hands the state left by one call to the next, and stops at the end of the input.", "quantifier": "all services, schemas, handlers, lists of requests for known and unknown methods, working connections (any division into pieces), and all values of the flag over time", "why_tests_cant": "The compact protocol keeps state between fields and messages; whether a request leaves a state that the next one can be read with depends on all combinations of requests.", "anchors": ["lib/go/src/thrift/tsimple_server.go:137-161", "lib/go/src/thrift/tcompact_protocol.go:92-114", "compiler/cpp/src/generate/t_go_generator.cc:2242-2257", "compiler/cpp/src/generate/t_go_generator.cc:2319-2391"]}
{"id": "C210", "title": "Programs made from different versions of the declarations understand each other", "statement": "What the generated Write of one version of a struct writes, the generated Read of another version of it reads: fields that both versions have, at any depth in structs, lists, sets and maps, carry the same data if they were set; fields that were not set, or that only the reader's version has, are as in a new object; fields that only the writer's version has are skipped.", "quantifier": "all pairs of schemas in which fields with the same id have the same type (names, default values, requiredness and the set of fields may differ), all structs and objects, all surrounding bytes", "why_tests_cant": "Compatibility is a statement about pairs of programs generated from different declarations; the generator's tests compile one version each, and the pairs of versions cannot be enumerated.", "anchors": ["compiler/cpp/src/generate/t_go_generator.cc:944-960", "compiler/cpp/src/generate/t_go_generator.cc:1045-1139", "compiler/cpp/src/generate/t_go_generator.cc:1144-1258", "compiler/cpp/src/generate/t_go_generator.cc:1261-1400", "lib/go/src/thrift/tbinary_protocol.go:429-442"]}
{"id": "C211", "title": "Clients and servers of different versions of a service understand each other", "statement": "When a client made from one version of a service calls a server made from another version, the handler gets the arguments that both versions know as they were passed and the others as in a new object, the caller gets back what both versions know of the result, an exception thrown by the handler is not taken for a result, and a method that the server does not have is refused with UNKNOWN_METHOD.", "quantifier": "all pairs of versions of the declarations in which fields with the same id have the same type, all services and handlers, all sequences of calls, all working connections (any division into pieces), all sequence ids", "why_tests_cant": "Upgrades of client and server at different times combine every pair of versions with every sequence of calls; tests run both ends from one version.", "anchors": ["compiler/cpp/src/generate/t_go_generator.cc:1676-1702", "compiler/cpp/src/generate/t_go_generator.cc:1706-1782", "compiler/cpp/src/generate/t_go_generator.cc:2242-2257", "compiler/cpp/src/generate/t_go_generator.cc:2319-2391", "compiler/cpp/src/generate/t_go_generator.cc:1045-1139"]}
{"id": "C212", "title": "An object that was received can be passed on unchanged", "statement": "When a program reads an object that another program wrote and then writes it itself, over any protocol and any transport, it does exactly what writing the original object would have done: the same bytes, the same errors.", "quantifier": "all declarations, all objects that the exported names allow, all protocols and transports for the second writing, failing ones included", "why_tests_cant": "A proxy passes on whatever its peers send; tests compare single values read back, not the behaviour of a second write over every protocol and every failure of the transport.", "anchors": ["compiler/cpp/src/generate/t_go_generator.cc:1269-1330", "compiler/cpp/src/generate/t_go_generator.cc:1339-1390", "compiler/cpp/src/generate/t_go_generator.cc:2646-2739", "compiler/cpp/src/generate/t_go_generator.cc:2748-2987", "compiler/cpp/src/generate/t_go_generator.cc:1045-1139"]}
{"id": "C213", "title": "Objects survive a program of another version in between", "statement": "An object that one program writes and another program of the same version reads is the same if it has passed through a program made from another version of the declarations, which read it and wrote it again.", "quantifier": "all pairs of versions in which fields with the same id have the same type, all objects that generated code can carry, at any nesting", "why_tests_cant": "Chains of programs of different versions combine every pair of versions with every object; tests run all parts from one version.", "anchors": ["compiler/cpp/src/generate/t_go_generator.cc:1045-1139", "compiler/cpp/src/generate/t_go_generator.cc:1160-1266", "compiler/cpp/src/generate/t_go_generator.cc:1269-1330", "compiler/cpp/src/generate/t_go_generator.cc:1339-1390", "compiler/cpp/src/generate/t_go_generator.cc:924-968"]}
{"id": "C214", "title": "Errors of generated Read and Write tell which field failed", "statement": "Whatever protocol and transport are used, an error returned by the Write of a generated struct (method results included) begins with the place: that this struct, or which of its fields, could not be written. An error returned by Read begins likewise with this struct or the field of it that could not be read.", "quantifier": "all protocols, transports and states of both; all schemas, structs and attribute values; errors of every call", "why_tests_cant": "Each failure at each call of each struct over each protocol gives another text; tests provoke a few failures of the first write and look at err != nil.", "anchors": ["compiler/cpp/src/generate/t_go_generator.cc:1152-1241", "compiler/cpp/src/generate/t_go_generator.cc:1269-1330", "compiler/cpp/src/generate/t_go_generator.cc:1340-1375", "compiler/cpp/src/generate/t_go_generator.cc:2815-2965", "lib/go/src/thrift/tprotocol_exception.go:77-107"]}
{"id": "C215", "title": "A client takes only the reply to its call for a result", "statement": "Over any protocol and transport, a generated client delivers a result only from a message of type REPLY that bears the name of the method called and the sequence id of the call.", "quantifier": "all protocols, transports and states; all schemas, methods and clients; all messages that may arrive", "why_tests_cant": "Test servers answer with well-formed replies; messages of other types or names never arrive in tests.", "anchors": ["compiler/cpp/src/generate/t_go_generator.cc:1706-1782"]}
{"id": "C216", "title": "A reply without a result is reported", "statement": "If the reply to a call of a method that returns a value holds neither the value nor an exception, the call ends with an error.", "quantifier": "all schemas, methods that return values, clients and sequence ids, over the binary protocol", "why_tests_cant": "No server made by the generator sends such replies, so tests never meet them; other servers may.", "anchors": ["compiler/cpp/src/generate/t_go_generator.cc:1706-1790"]}
{"id": "C217", "title": "Versions of a service understand each other over the compact protocol", "statement": "When a client made from one version of a service calls a server made from another version over the compact protocol, the handler gets the arguments that both versions know as they were passed and the others as in a new object, the caller gets back what both versions know of the result, an exception thrown by the handler is not taken for a result, and a method that the server does not have is refused with UNKNOWN_METHOD.", "quantifier": "all pairs of versions of the declarations in which fields with the same id have the same type, all services and handlers, all sequences of calls, all working connections (any division into pieces), all sequence ids", "why_tests_cant": "Fields that one end does not know are skipped by a reader whose state (last field id, pending boolean) decides what the next field is; tests run both ends from one version.", "anchors": ["lib/go/src/thrift/tcompact_protocol.go:127-226", "lib/go/src/thrift/tcompact_protocol.go:352-442", "compiler/cpp/src/generate/t_go_generator.cc:1676-1702", "compiler/cpp/src/generate/t_go_generator.cc:1706-1782", "compiler/cpp/src/generate/t_go_generator.cc:2319-2391", "compiler/cpp/src/generate/t_go_generator.cc:1045-1139"]}
{"id": "C218", "title": "An answer is taken off the connection whole", "statement": "Whatever complete answer arrives, the call that receives it takes it off the connection whole, so that the next call finds its own answer.", "quantifier": "all transports and states, schemas, methods, clients, message names, types and sequence ids, and contents of the answer, over the binary protocol", "why_tests_cant": "Late answers appear only after timeouts or lost calls, and what they do to later calls depends on the bytes they leave behind.", "anchors": ["compiler/cpp/src/generate/t_go_generator.cc:1728-1763", "lib/go/src/thrift/tapplication_exception.go:73-138"]}
{"id": "C219", "title": "Requests bear sequence ids of their own", "statement": "The requests that a client sends on a connection are messages with different sequence ids, so that the answers to them can be told apart.", "quantifier": "all sequences of requests of any length, all schemas, methods, arguments, working transports and first sequence ids, over the binary protocol", "why_tests_cant": "The ids run out after 2^32 requests; no test sends that many.", "anchors": ["compiler/cpp/src/generate/t_go_generator.cc:1672-1701", "lib/go/src/thrift/tbinary_protocol.go:68-94"]}
