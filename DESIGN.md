# Design of the thrift4go model

The subject is the Go runtime library in `/repo/lib/go/src/thrift` and the code
that `/repo/compiler/cpp/src/generate/t_go_generator.cc` emits for a Thrift IDL
file. The code is read as text; nothing of it is run. The model is Lean 4.

## 1. Shape of the model

* **Go values.** `byte`, `int16`, `int32`, `int64` and `float64` (as its bit
  pattern) are `BitVec` of the right width, so wrap-around and truncation are
  Go's. A Go `string` or `[]byte` is a list of bytes. `int` is a 64-bit machine
  word; where only lengths are involved it is a `Nat` or `Int`.
* **Errors** are values: each function returns its results and an optional
  error, exactly as the Go function does, because the code often ignores an
  error and goes on with the value. An error carries its class, its type code
  and its text (text is simplified where noted).
* **Panics** (index out of range, negative `make`, nil dereference, failed type
  assertion) are a separate outcome, never a default value.
* **Unbounded loops** (`for {}` in the varint reader, in `Skip` and in struct
  readers) carry fuel. Running out of fuel is a third outcome; theorems state
  that it does not happen once the fuel exceeds the length of the input, so the
  bound is not a hidden assumption. `Lemmas/Fuel.lean` proves that a run of
  readers, writers, clients and processors that does not use up its fuel is the
  run with any larger fuel; `Lemmas/Halts.lean` that the fuel of `Compare` (the
  depth of its arguments) is always enough.
* **I/O.** A protocol method is a program (`Prog`) that issues transport calls
  (`read n`, `write bs`, `flush`) and continues with the answer. A transport is
  a state machine answering those calls. Running a program on a transport gives
  an outcome and a new transport state. Every theorem of the form "for every
  chunking" or "for every failure point" quantifies over transports.
* **Protocols** are records of programs, like the Go interface `TProtocol`, so
  `Skip`, application exceptions, generated structs, clients and processors are
  written once against the record and instantiated with the binary and compact
  protocols.

* **Printed text.** `Model/Emit.lean` models what the compiler itself does:
  names, enums, constants, defaults and struct declarations as
  `t_go_generator.cc` prints them. All other models of generated code suppose
  that the printed code compiles; C130, C132-C134, C137 and C138 say for which
  declarations it does not. In particular C138 shows that structs with negative
  ids and C137 that container defaults with contents do not compile, so what
  C51-C54 and C120 say about them is about the intended code.
  `Model/Package.lean` goes on with whole packages: what each file imports and
  mentions, the names of helper types, the fields and methods of a struct
  (C173-C177).
  `Model/Typedef.lean` has the Go types of declared types, what the code for a field
  asks of them, what enums and elements behind typedefs become, and the names in
  `Recv…` (C178-C181). `Model/Remote.lean` is the command line program of a service:
  its flags, the address it connects to, its arguments and exit status (C182-C187).
  What it reads as JSON and what `net/url`, `net` and `strconv.ParseFloat` do are
  parameters.

## 2. Files

`lean/Verif/Model/*` are the definitions taken from the code, each with file
and lines. `lean/Verif/Spec/*` are independent specifications (wire formats,
sequences, finite maps, grammars); they do not use the model. `lean/Verif/Lemmas/*`
are helper lemmas. `lean/Verif/Props/*` hold the property theorems and, beside
each, an `example` showing that its hypotheses are met by a concrete
non-trivial case.

## 3. Properties: what is modelled and how it is proved

Where the code violates the property, the negation is proved with a concrete
witness and the part that does hold is proved under the suffix `_partial`.

| id | model | proof |
|----|-------|-------|
| C01 | binary writes and reads over a memory buffer | bit-level lemmas on big-endian split/join, then evaluation |
| C02 | value driver on the binary protocol | mutual induction on the value tree against `Spec` encoder |
| C03 | dynamic reader on the binary protocol | mutual induction, fuel >= size |
| C04, C05 | message header functions | evaluation, bit lemmas on the version word |
| C06 | reads over a buffer holding a strict prefix | `ReadAll` lemma for short buffers |
| C07 | `ReadString`, `ReadBinary` | violated (success, panic): characterised for all negative lengths |
| C08 | read limit in the protocol state | invariant over any sequence of read calls |
| C09, C10 | `Skip` | mutual induction; well-foundedness through fuel |
| C11 | `Skip` | violated: independence of the limit is proved for all inputs |
| C12 | `Skip` | violated for structs and containers; proved for scalars |
| C13, C14 | zigzag, varint | bit extensionality; induction on the value |
| C15, C16, C18 | compact scalars and headers | evaluation and varint lemmas; C18 violated for ONEWAY |
| C17 | compact field header state machine | induction on the field list; violated for `false` |
| C19 | compact value driver | violated at struct nesting 3; mutual induction for nesting <= 2 |
| C20, C21 | compact reads on short and arbitrary input | violated by `ReadBinary`; the other reads proved |
| C22 | compact reader stack | violated: exact growth proved |
| C23 | type tables | violated for BINARY under compact |
| C24-C26 | `ReadAllTransport` over any reader | induction on the delivery; C25, C26 violated for odd readers |
| C27 | memory buffer | invariant over operation histories; violated when a `ReadAll` fails |
| C28-C31 | framed transport as transport transformer | invariants over histories; C29, C30, C31 violated |
| C32 | programs over two transports | one simulation theorem on programs |
| C33-C35 | socket and stream transports over an arbitrary network | invariants over histories; all violated in a corner |
| C36-C39 | sets as descending lists | exact characterisation of reachable sets; all violated |
| C40, C41 | lists and maps | refinement to sequences and finite maps; C41 violated for boolean keys |
| C42-C45 | `Compare`, `Less`, `CoerceData` | order lemmas; C42 violated for NaN, C43, C44 violated |
| C46, C47 | field containers | induction on the field list; C47 violated with duplicates |
| C48 | generated struct comparison | violated: proved for all instances |
| C49 | application exception reader and writer | evaluation with the protocol lemmas |
| C50 | error constructors | case analysis; last clause violated |
| C51-C54 | schema-driven generated reader and writer | induction on schema and instance; C51, C53, C54 violated |
| C55-C60 | generated processor and client over any working connection | composition of the above; all but C56 violated |
| C61, C63-C65 | programs on a transport that records its own failures | syntactic predicate on programs ("tells") that implies the semantic one; C61, C65 violated |
| C62 | `Serve` and `Stop` as interleaved step machines | invariants over all interleavings; violated twice |
| C66 | tagged JSON writer over any `encoding/json` that keeps its promises | mutual induction on the value tree against a document grammar |
| C67, C68, C71, C72 | tagged JSON reader over a buffered reader | reader lemmas per call, mutual induction; violated by I16, the buffer boundary and leading white space |
| C69, C75 | the same over other transports | violated by small reads and by empty structs; proved for one read |
| C70 | type name tables | case analysis; violated for I16 |
| C73, C74, C78 | JSON read calls on ended or malformed text | evaluation at a symbolic state; violated |
| C76 | as C63 | "tells" predicate; violated by `WriteBinary` of the tagged protocol |
| C77 | base64 coder, block writer | induction in steps of three bytes |
| C79, C80 | socket and stream transports over an arbitrary network | evaluation; violated by the nonblocking `Write`, empty stream writes, `Interrupt` |
| C81 | `Compare` on nested lists and sets | self-delimiting integer keys whose lexicographic order is the order of the code |
| C82-C84 | `Compare` on maps, fields, field containers | exact characterisation; violated |
| C85-C90 | `Compare`, `CoerceData` on the other Go values, untyped lists, map iteration | case analysis; C85, C86, C89, C90 violated |
| C91 | compact message header | evaluation for all bytes |
| C92, C93 | generated writers | relation between instances and value trees, induction on typed instances; violated for map keys, `binary` under compact, nil |
| C94, C95 | `Process` | "tells" predicate and sticky connections; C94 violated through `Skip` |
| C96 | version in tagged JSON | buffer lemmas; violated by versions beyond 32 bits |
| C97 | separators in JSON | case analysis over all calls; violated by `null` |
| C98 | base64 | exact characterisation of the decoder, "supplies" relation; violated by line breaks |
| C99 | list headers in JSON | buffer lemmas; violated by types beyond 8 bits |
| C101 | scalars in pieces | "supplies" relation: induction over what the transport still delivers; violated by `Infinity` |
| C103 | document of generated structs, simple JSON | induction over the flattened object; violated by map keys |
| C104 | generated structs over tagged JSON | simulation of the driver plus decoding relation; violated by i16 and binary |
| C105 | generated structs over simple JSON | typed decoding relation, fields found by name; violated by long documents |
| C106 | undeclared fields, tagged JSON | decoding relation for both documents; violated by i16 |
| C107 | undeclared members, simple JSON | typed decoding relation up to the member, then refusal; violated by every such member |
| C108 | generated structs over compact | simulation of the driver plus decoding relation; violated by `false` and by nesting |
| C100 | short writes are noticed | case split on the run of OutputStringData; violated by binary, compact and the JSON brackets (Write count dropped), witness transports that take nothing |
| C102 | JSON reads report a broken connection | symbolic run of each reader on an empty buffer; violated by ReadBool and ReadFieldBegin |
| C109 | HTTP client after Close | case analysis of the client state; violated by panics of Write and Flush and by clients that hold a response |
| C110 | HTTP requests | induction over the history with a recording web; violated after a failed post |
| C111 | HTTP responses | case analysis of Flush; violated by a failed flush after a response |
| C112 | HTTP responses are closed | induction over exchanges with a counting web; violated by a second flush and by other status codes |
| C113 | calls over HTTP | client between two flushes as a faithful connection, server side as in C55, induction over the calls |
| C114 | HTTP clients do not panic | induction over the history; violated by GET clients and after Close |
| C115 | hanging connection | invariant over interleavings; trace with one connection's work removed is again an execution |
| C116 | life of a connection | invariant per connection, all interleavings |
| C117 | no crash | violated by a panicking processor and by Stop between the two looks at the listener; a crash needs one of the two |
| C118 | Stop | violated by a listener made after Stop looked and by a dropped close error; nothing accepted if the close succeeds, at most one connection and four steps in any case |
| C119 | errors of Serve | violated by a socket made from a listener and by a second call; true for an address and one call |
| C120 | IsSet of new objects | violated by enum and container defaults; true without defaults and for scalar defaults |
| C121 | IsSet of assigned fields | violated by empty containers and by the negative zero; true for all other values |
| C122 | Serve after Stop | invariants over all interleavings; violated by a Stop that comes before net.Listen |
| C123 | Calls over the compact protocol | induction over the calls on a pair of transports; violated by false arguments, false results, nested structs |
| C124 | Processing arbitrary bytes over the binary protocol | weakest preconditions for the readers, panic-free writers, fuel monotonicity; violated by containers and binary in arguments (exact characterisation) |
| C125 | comparisons end | induction on the nesting; more fuel changes nothing (Lemmas/Halts.lean) |
| C126 | Process ends | program logic on arbitrary input (Lemmas/Digest.lean, Stops.lean), fuel linear in the input |
| C127 | calls end | as C126, with the exception reader |
| C128 | hostile requests, compact | violated by a negative name length, for every service and every client (C128_attack, C128_client_violated); returns on input without long varints (C128_partial) |
| C129 | variable names are no Go keywords | finite table of words, suffix argument |
| C130 | distinct members, distinct Go fields | characterisation of publicize; violated by a_b / aB |
| C131 | Go names are exported | case split; violated by a leading underscore |
| C132 | one name for the structs of a method | induction over names; violated by get_ and get__it in the client |
| C133 | client methods differ | induction; violated by mail / sendMail |
| C134 | parameters, receiver and results differ | violated by arguments p, err |
| C135 | enum texts | find lemmas; violated by a declared -10000 |
| C136 | double constants | six digit rounding; violated by 1234567 |
| C137 | defaults are well scoped | mutual induction over constants; violated by non-empty container defaults |
| C138 | struct fields have Go types | violated by negative ids |
| C139 | size of a Go struct | violated by gaps in ids |
| C140 | services that extend others | induction over the chain |
| C141 | server socket life cycle | invariant over histories; violated by Accept on a closed TServerSocket |
| C142 | server sockets listen on their network | network that takes notes; violated by Listen of TServerSocket |
| C143 | closed server sockets | case analysis; violated by TServerSocket.Accept |
| C144 | server sockets lose no listener | network that keeps accounts, invariant over histories |
| C145 | server sockets do not panic | invariant; violated by nil addresses |
| C146 | replies from hostile servers, binary | as C124, with clients; violated by containers and binary in results (exact characterisation) |
| C147 | conversations over tagged JSON | an executable coupling of client, processor and two reader objects, induction over the calls; violated by calls without arguments and by i16 |
| C148 | reads observe the timeout | deadlines over a clock, case distinction on the delay |
| C149 | sending observes the timeout | clocked model, histories; violated because the deadline is set by Write, not by Flush |
| C150 | dialling observes the timeout | clocked model; violated by the non-blocking socket |
| C151 | the error of a timeout | violated: always UNKNOWN_TRANSPORT_EXCEPTION |
| C152 | what buffered streams pass on | bufio modelled, invariant over histories on an instrumented stream |
| C153 | what buffered streams hand over | bufio modelled, invariant over histories |
| C154 | closing loses nothing | violated: Close does not flush |
| C155 | closing closes the streams | violated: bufio hides Close |
| C156 | one-way streams | case distinction on the constructor |
| C157 | IsOpen tells the truth | one contract, every implementation; violated by all but the sockets |
| C158 | reopening a socket | violated: a TSocket without a remote address dials itself |
| C159 | framed transports opened again | violated: the buffers survive |
| C160 | what factories make | violated by memory, non-blocking socket and HTTP factories |
| C161 | what a new object is worth | C120 for IsSet, flat values, the order of `sorted` |
| C162 | exceptions of any server | C49_extra_fields through `Recv…` |
| C163 | first difference decides | induction over the common part |
| C164 | sets with the same members | histories of C44, sorted lists with the same members are equal |
| C165 | Keys and Values of a map | C41 entries, permutation |
| C166 | Contains never panics | coercion gives native values; comparison of those is total |
| C167 | iteration goroutines end | sender over an unbuffered channel |
| C168 | order of doubles | magnitude of bit patterns is monotone |
| C169 | comparison helpers | cases |
| C170 | numerics | runes are never their own decimal |
| C171 | names and classes of types | all 256 types |
| C172 | types from numbers | cases over Go types |
| C173 | imports of generated files | exact conditions per file |
| C174 | imports of the command line program | mentioned packages, exactly |
| C175 | helper types of functions | pairwise over all names, suffixes tell kinds apart |
| C176 | handler types | when converting twice is converting once, exactly |
| C177 | fields and methods | prefixes and numbers tell methods apart |
| C178 | types in field code | induction over declared types, exact condition |
| C179 | unset enums | exact condition, all 32 bit values |
| C180 | containers of typedefs | coercion of values of unknown type, induction over the elements |
| C181 | exceptions in Recv… | exact condition on names |
| C182 | address of the command line program | exact condition on the flags |
| C183 | argument types of the command line program | exact condition |
| C184 | container arguments | lookup by id and by name, exact condition |
| C185 | numeric arguments | Atoi and truncation, exact condition |
| C186 | exit status | case distinction over the whole run |
| C187 | callable functions | own functions exactly |
| C188 | all permitted compact encodings | relation of bytes and values, induction over the value |
| C189 | order and repetition of fields | buildFields as a map of last occurrences, induction over the fields |
| C190 | missing required fields | concrete run and induction over the fields |
| C191 | exact language of the binary reader | relation of bytes and values, induction over fuel and over the value |
| C192 | texts of fields and messages | UTF-8 forms are self-delimiting; equivalence |
| C193 | timeouts of accepted connections | induction over histories, from C148 |
| C194 | language of the compact reader | equivalence, induction on fuel |
| C195 | Requests on one connection answered in order | induction over the requests, one `Serves` step each; counterexamples run in the kernel |
| C196 | Pipelined use of the client halves | counterexample in the kernel; invariant of `Send` over all transports |
| C197 | Server constructors and matching factories | computation of the wiring; composition with C58 |
| C198 | Conversations over simple JSON | induction over the calls with the named reading and writing lemmas; counterexamples run in the kernel |
| C199 | Whole answers whatever arrives | relation on the input bytes, induction on their number |
| C200 | Documentation stays in comments | induction on texts, first end of a comment |
| C201 | Modules imported from where they are put | induction along the dots |
| C202 | Names of constants and enum values | first underscore splits the name |
| C203 | Extending services are accepted | last dot of a text, names declared by a package |
| C204 | Types named with their packages | case analysis |
| C205 | Fields and methods of clients | search from client to parents |
| C206 | Clients implement their interfaces | promotion along the chain |
| C207 | No buffer larger than the data | sizes asked of ReadAll, composition over read calls |
| C208 | Skipping works in proportion | counter, credit per byte, induction over values |
| C209 | Requests over compact in order | request loop, induction over requests |
| C210 | Versions understand each other | structural induction over values, reader of one schema on the writer of another |
| C211 | Versions of a service understand each other | trees of one schema read by the other, induction over calls |
| C212 | Objects can be passed on | received objects and originals are written by equal programs, structural induction |
| C213 | Objects survive a program of another version | composition of two readings, induction over the first |
| C214 | errors of Read and Write name the field | error predicate through bind and wrapErr; failing transport as witness |
| C215 | only replies to the call are taken for results | case analysis of Recv over any protocol; equality of runs |
| C216 | replies without a result are reported | run of Recv on the empty result struct |
| C217 | Versions of a service over the compact protocol | compact trees of one schema read by the other, induction over calls |
| C218 | answers are taken off the connection whole | runs of Recv over any transport; decoding of arbitrary trees |
| C219 | requests bear sequence ids of their own | induction over the requests; unique decoding of what was sent |

## 4. Modelling decisions worth knowing

* **Sockets and streams** (`Socket.lean`, `IOStream.lean`) take the network as a
  parameter whose answers are arbitrary. Deadlines are part of that freedom there;
  `Deadline.lean` models the same sockets with a clock and peers that answer after a
  delay or never. `Buffered.lean` puts `bufio` between a stream transport and its
  streams; it assumes of a stream that it keeps the contract of `io.Writer`.
* **Opening and closing** (`Lifecycle.lean`) gives every transport the rest of the
  interface `TTransport`, and the answers of the factories to a transport of their
  own kind.
* **Iteration** (`Collections.lean`): the goroutine behind `Iter` is a `Sender` over an
  unbuffered channel: what it still has to send and whether it has ended.  `Keys` and
  `Values` of maps are modelled up to the iteration order of Go maps.
* **Values of floats** (`Props/Numeric.lean`) are integers: multiples of the smallest
  positive number, infinity being the number with the next exponent.
* **Interface values** (`Dyn.lean`) are an inductive type with one constructor per
  dynamic type that the library distinguishes. Pointer identity is a number.
  `float64` comparison is IEEE comparison written on bit patterns. Conversion,
  printing and parsing of floating point numbers is a parameter (`FloatLib`) about
  which nothing is assumed. `int` has 64 bits.
* **Go map order** is a parameter: a map value carries the order in which it
  happens to be enumerated.
* **Generated code** (`Gen.lean`, `Service.lean`) is modelled as a function of the
  IDL declaration. It is the code printed by the C++ generator, not the generator.
  Field ids are taken to fit into 16 bits; handlers do not panic.
* **Failure properties** run programs on `watched T`, which is the transport `T`
  with a flag that is raised by a failing `Write` or `Flush`, or by a `Read` that
  gives an error and no bytes.
* **The simple server** is a transition system with one step per access to a
  shared field. Memory is sequentially consistent. `Serve` is called once and
  calls of `Stop` do not overlap each other.
* **The non-blocking server** (`NonblockingServer.lean`) is such a transition
  system too, with one more goroutine for every connection. `Serve` may be called
  again after it has returned. A panic that reaches the top of any goroutine ends
  the program, as the Go language says.
* **The HTTP client** (`Http.lean`) posts to an arbitrary web: a response has a
  status and a body, `http.Post` may fail, and may take only a part of the request
  buffer. The URL is fixed.
* **JSON** (`Json.lean`): the transport that is read from is part of the protocol
  object, because the code wraps it in a `bufio.Reader` whose buffer outlives the
  call. The buffer is a list of unread bytes (capacity 4096) and the pending error.
  `json.Marshal`, `json.Unmarshal` of strings and the conversions between `float64`
  and text are a parameter (`JsonLib`); theorems that need something from them take
  the laws `JsonSpec.Lawful` as hypothesis, and `JsonPlain.lawful` shows that the
  laws can be met.
* Long concrete runs in examples are checked by the kernel through the tactic
  `kernel_rfl` (an ordinary `Eq.refl` term; it only skips the elaborator's own
  unfolding).

Not modelled: typedefs and constants in IDL files, the text made by `String` methods of generated
structs, the field id in the text of wrapped errors, logging.

## 5. Trusted base

The Lean kernel with the axioms `propext`, `Classical.choice` and `Quot.sound`
at most. The Go standard library is modelled by its documentation (`bytes.Buffer`,
`container/list`, `encoding/binary`, `io.CopyN`, `bufio`, `encoding/base64`, `net/http`); `bufio.Reader`
fills its buffer with one `Read` per step, as it did when the code was written.
What is assumed about `encoding/json` and `strconv.FormatFloat` is an explicit
hypothesis (`JsonSpec.Lawful`).

About Go itself the claims on printed text suppose the rules of the language
specification that they name: imports stand before other declarations, are used,
and do not lead back to the package; declared names, and the fields and methods of
a type, differ; keywords are no names; a type declared as a pointer has no methods;
assignability and conversion between named and unnamed types. A typedef is called by
its symbol (the parser is not part of the repository). A comment ends at the first `*/`.
The function of the generators' base class that prints comments, which is not part of
the repository either, is modelled after what the golden files show.
