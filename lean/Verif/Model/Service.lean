import Verif.Model.Gen
import Verif.Model.AppException
/-!
# Generated clients and processors

The Go code that `t_go_generator.cc` emits for a service: `Send…`, `Recv…` and
the call methods of the client (generate_service_client, L1529-1790), the
dispatcher and the per-method processors of the server
(generate_service_server, L2183-2298, generate_process_function, L2305-2446).
One instance of that code is
tests/generation/golden/gen-go/simple/ContainerOfEnumsTestService.go.

A protocol object is used for one direction only: clients and servers make one
object for input and one for output (tsimple_server.go:141-142).  Both sit on
the same transport.
-/

namespace Thrift

/-- A declared method: name, and the numbers of the structs that hold its
arguments and its results in the schema. -/
structure Method where
  name : Bytes
  args : Nat
  result : Nat
  oneway : Bool := false

/-- The fields of a struct object. -/
abbrev Attrs := List (Int × Dyn)

/-! ## Parts of an object -/

/-- Code that uses one part of the state. -/
def P.on (get : τ → π) (set : π → τ → τ) (m : P π α) : P τ α := fun s =>
  (m (get s)).bind fun (a, x) => .ret (a, set x s)

/-! ## The server side -/

/-- The input protocol, the output protocol and whatever the handler keeps. -/
structure Server (ι ω η : Type) where
  iprot : ι
  oprot : ω
  handler : η

/-- A service implementation.  A handler gets the fields of the arguments object
and delivers the values assigned to the fields of the result object
(t_go_generator.cc:2336-2368) and its error.  Simplification: handlers do not
panic and do not use the connection. -/
structure Service (η : Type) where
  methods : List Method
  handle : Method → η → Attrs → (Attrs × GoErr) × η

/-- `GetProcessorFunction`, t_go_generator.cc:2222-2225; IDL method names are
distinct. -/
def Service.find (sv : Service η) (name : Bytes) : Option Method := sv.methods.find? fun m => name = m.name

section server
variable (ip : Proto ι) (op : Proto ω) (S : Schema) (L : FloatLib) (mem : List Nat → Nat) (msd : Int) (fuel : Nat)

/-- A call on the input protocol. -/
def P.input (m : P ι α) : P (Server ι ω η) α := P.on Server.iprot (fun x s => { s with iprot := x }) m
/-- A call on the output protocol. -/
def P.output (m : P ω α) : P (Server ι ω η) α := P.on Server.oprot (fun x s => { s with oprot := x }) m

/-- Send an exception message, all errors ignored, t_go_generator.cc:2250-2253,
2326-2329, 2370-2373. -/
def sendException (name : Bytes) (x : AppExc) (seqId : I32) : P ω Unit := do
  let _ ← op.writeMessageBegin name EXCEPTION seqId
  let _ ← appWrite op x
  let _ ← op.writeMessageEnd
  let _ ← P.tflush
  return ()

/-- `err` if it is set, else `err2`. -/
def firstErr (err err2 : GoErr) : GoErr := if err.isSome then err else err2

/-- Send the result, t_go_generator.cc:2376-2391: all steps are taken, the first
error is kept. -/
def sendReply (m : Method) (r : Attrs) (seqId : I32) : P ω GoErr := do
  let err ← op.writeMessageBegin m.name REPLY seqId
  let err2 ← genWriteResult op S fuel (S.structs m.result) r
  let err := firstErr err err2
  let err2 ← op.writeMessageEnd
  let err := firstErr err err2
  let err2 ← P.tflush
  return firstErr err err2

/-- `Process` of one method, t_go_generator.cc:2319-2391.  Oneway methods differ
only in that nothing is assigned to the result. -/
def processMethod (sv : Service η) (m : Method) (seqId : I32) : P (Server ι ω η) (Bool × GoErr) := do
  let (args, err) ← P.input (genRead ip S L mem msd fuel [] (S.structs m.args))
  match err with
  | some e =>
    let _ ← P.input ip.readMessageEnd
    P.output (sendException op m.name (newTApplicationException PROTOCOL_ERROR e.msg) seqId)
    return (false, some e)
  | none =>
    let _ ← P.input ip.readMessageEnd
    let s ← P.get
    let ((r, err), h) := sv.handle m s.handler args
    P.modify fun s => { s with handler := h }
    match err with
    | some e =>
      P.output (sendException op m.name (newTApplicationException INTERNAL_ERROR
        (ascii "Internal error processing " ++ m.name ++ ascii ": " ++ e.msg)) seqId)
      return (false, some e)
    | none =>
      let err ← P.output (sendReply op S fuel m (if m.oneway then (S.structs m.result).fresh S else r) seqId)
      return (err.isNone, err)

/-- The answer to an unknown method, t_go_generator.cc:2246-2255. -/
def processUnknown (name : Bytes) (seqId : I32) : P (Server ι ω η) (Bool × GoErr) := do
  let _ ← P.input (skipDefaultDepth ip msd fuel TT.STRUCT)
  let _ ← P.input ip.readMessageEnd
  let x := newTApplicationException UNKNOWN_METHOD (ascii "Unknown function " ++ name)
  P.output (sendException op name x seqId)
  return (false, some x.err)

/-- `Process`, t_go_generator.cc:2242-2257. -/
def process (sv : Service η) : P (Server ι ω η) (Bool × GoErr) := do
  let ((name, _, seqId), err) ← P.input ip.readMessageBegin
  if err.isSome then return (false, err)
  match sv.find name with
  | none => processUnknown ip op msd fuel name seqId
  | some m => processMethod ip op S L mem msd fuel sv m seqId

end server

/-! ## The client side -/

/-- The fields of a generated client, t_go_generator.cc:1559-1563.  The factory is
given by the object it makes; both protocols are of one kind. -/
structure Client (π : Type) where
  factory : Option π
  input : Option π
  output : Option π
  seqId : I32

/-- `New…ClientFactory`, t_go_generator.cc:1572-1595. -/
def Client.ofFactory (f : π) : Client π := ⟨some f, some f, some f, 0⟩

/-- `New…ClientProtocol`, t_go_generator.cc:1598-1621. -/
def Client.ofProtocols (i o : π) : Client π := ⟨none, some i, some o, 0⟩

section client
variable (p : Proto π) (S : Schema) (L : FloatLib) (mem : List Nat → Nat) (msd : Int) (fuel : Nat)

/-- A call on the output protocol; a nil one panics. -/
def Client.out (m : P π α) : P (Client π) α := fun c =>
  match c.output with
  | none => .panic
  | some o => (m o).bind fun (a, x) => .ret (a, { c with output := some x })

/-- A call on the input protocol; a nil one panics. -/
def Client.inp (m : P π α) : P (Client π) α := fun c =>
  match c.input with
  | none => .panic
  | some i => (m i).bind fun (a, x) => .ret (a, { c with input := some x })

/-- The start of `Send…`, t_go_generator.cc:1679-1683: a client that has an output
protocol replaces it by a new one from the factory. -/
def Client.renewOutput : P (Client π) Unit := fun c =>
  match c.output with
  | none => .ret ((), c)
  | some _ => match c.factory with
    | none => .panic
    | some f => .ret ((), { c with output := some f })

/-- The start of `Recv…`, t_go_generator.cc:1730-1734. -/
def Client.ensureInput : P (Client π) Unit := fun c =>
  match c.input with
  | some _ => .ret ((), c)
  | none => match c.factory with
    | none => .panic
    | some f => .ret ((), { c with input := some f })

/-- `Send…`, t_go_generator.cc:1672-1701.  Only the error of writing the arguments
is looked at. -/
def Client.send (m : Method) (args : Attrs) : P (Client π) GoErr := do
  Client.renewOutput
  P.modify fun c => { c with seqId := c.seqId + 1 }
  let c ← P.get
  let _ ← Client.out (p.writeMessageBegin m.name CALL c.seqId)
  let err ← Client.out (genWrite p S fuel (S.structs m.args) args)
  let _ ← Client.out p.writeMessageEnd
  let _ ← P.tflush
  return err

/-- The error for a reply out of sequence, t_go_generator.cc:1752-1755. -/
def outOfSequence : Err :=
  (newTApplicationException BAD_SEQUENCE_ID (ascii "ping failed: out of sequence response")).err

/-- `Recv…`, t_go_generator.cc:1706-1782: the fields of the result object, from
which the returned value and exceptions are taken (absent if `Recv…` returned
before it was read), and the error. -/
def Client.recv (m : Method) : P (Client π) (Option Attrs × GoErr) := do
  Client.ensureInput
  let ((_, t, seqId), err) ← Client.inp p.readMessageBegin
  if err.isSome then return (none, err)
  if t = EXCEPTION then
    let (x, err) ← Client.inp (appRead p msd fuel)
    if err.isSome then return (none, err)
    let err ← Client.inp p.readMessageEnd
    if err.isSome then return (none, err)
    return (none, x.map AppExc.err)
  else
    let c ← P.get
    if c.seqId ≠ seqId then return (none, some outOfSequence)
    let (r, err) ← Client.inp (genRead p S L mem msd fuel [] (S.structs m.result))
    let _ ← Client.inp p.readMessageEnd
    return (some r, err)

/-- A call, t_go_generator.cc:1633-1672. -/
def Client.call (m : Method) (args : Attrs) : P (Client π) (Option Attrs × GoErr) := do
  let err ← Client.send p S fuel m args
  if err.isSome then return (none, err)
  if m.oneway then return (none, none)
  Client.recv p S L mem msd fuel m

end client
end Thrift
