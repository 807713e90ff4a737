import Verif.Spec.Stream
import Verif.Spec.Gen
import Verif.Model.Service
import Verif.Model.Binary
/-!
# Connections between a client and a server

The ideal setting of the statements about services: two transports that share a
connection, a server that answers as requests arrive, and what "the call returns
what the handler returned" means.
-/

namespace Thrift

/-- One end of a connection that works: reads hand over what has arrived (`inn`),
in pieces of any size; what is written is on its way (`out`) or still held back
(`buf`); a flush holds nothing back. -/
structure Endpoint (T : Transport σ) (inn out buf : σ → Bytes) : Prop where
  read_some : ∀ n s, 0 < n → inn s ≠ [] → ∃ k s', 0 < k ∧ k ≤ n ∧ k ≤ (inn s).length ∧
    T.read n s = (.ok ((inn s).take k, none), s') ∧ inn s' = (inn s).drop k ∧ out s' = out s ∧ buf s' = buf s
  read_end : ∀ n s, 0 < n → inn s = [] → ∃ e s',
    T.read n s = (.ok ([], some e), s') ∧ inn s' = [] ∧ out s' = out s ∧ buf s' = buf s
  write : ∀ bs s, ∃ s', T.write bs s = (.ok (bs.length, none), s') ∧ inn s' = inn s ∧
    out s' ++ buf s' = out s ++ buf s ++ bs
  flush : ∀ s, ∃ s', T.flush s = (.ok none, s') ∧ inn s' = inn s ∧ out s' = out s ++ buf s ∧ buf s' = []

/-- No call on the transport changes this. -/
structure Untouched (T : Transport σ) (f : σ → φ) : Prop where
  read : ∀ n s, f (T.read n s).2 = f s
  write : ∀ bs s, f (T.write bs s).2 = f s
  flush : ∀ s, f (T.flush s).2 = f s

/-- A connection with its two ends: what one end has sent is what the other has
to read. -/
structure Link (C V : Transport σ) (up down cbuf vbuf : σ → Bytes) : Prop where
  client : Endpoint C down up cbuf
  server : Endpoint V up down vbuf
  client_frame : Untouched C vbuf
  server_frame : Untouched V cbuf

/-- The client's transport together with a server that handles one request after
each flush of the client, as the request loop of the simple server does
(tsimple_server.go:149-160).  After a request that `Process` did not answer with
success the server is gone. -/
def served (C V : Transport σ) (proc : P ς (Bool × GoErr)) : Transport (Option ς × σ) where
  read n s := ((C.read n s.2).1, (s.1, (C.read n s.2).2))
  write bs s := ((C.write bs s.2).1, (s.1, (C.write bs s.2).2))
  flush s := ((C.flush s.2).1, match s.1 with
    | none => (none, (C.flush s.2).2)
    | some v => match proc.run V v (C.flush s.2).2 with
      | (.ok ((true, _), v'), t) => (some v', t)
      | (_, t) => (none, t))

/-- Calls one after the other with one client. -/
def callAll (call : Method → Attrs → P π (Option Attrs × GoErr)) : List (Method × Attrs) → P π (List (Option Attrs × GoErr))
  | [] => return []
  | (m, a) :: cs => do
    let r ← call m a
    let rs ← callAll call cs
    return r :: rs

/-- The fields of two objects of one type hold the same data. -/
def SameAttrs (sd : StructDef) (as bs : Attrs) : Prop := Same (sd.object 0 as) (sd.object 0 bs)

/-- The struct for the results of a method: the returned value in field 0, the
declared exceptions in the others. -/
structure ResultDef (sd : StructDef) : Prop where
  plain : ∀ m ∈ sd.members, m.dflt = none
  exceptions : ∀ m ∈ sd.members, m.id ≠ 0 → ∃ k, m.ty = .struct k

/-- The handler returned a value or one of the declared exceptions, not both. -/
def OneOutcome (S : Schema) (sd : StructDef) (r : Attrs) : Prop :=
  ∀ a ∈ sd.members, ∀ b ∈ sd.members, a.id ≠ b.id →
    attributeOf r a.id.toInt = a.initial S ∨ attributeOf r b.id.toInt = b.initial S

/-- What the caller should get when the handler delivered `r` and `err`: the same
fields of the result object, or an application exception with the message of the
error; of a oneway method, nothing. -/
def Returned (sd : StructDef) (m : Method) (r : Attrs) (err : GoErr) (res : Option Attrs × GoErr) : Prop :=
  if m.oneway then res = (none, none) else match err with
  | none => ∃ r', res = (some r', none) ∧ SameAttrs sd r r'
  | some e => res = (none, some ⟨.application, INTERNAL_ERROR, ascii "Internal error processing " ++ m.name ++ ascii ": " ++ e.msg⟩)

/-- `Answered h cs rs`: the results of the calls are those of the handler, started
in state `h` and called in order, each time with the data given by the caller. -/
inductive Answered (S : Schema) (sv : Service η) : η → List (Method × Attrs) → List (Option Attrs × GoErr) → Prop
  | nil (h) : Answered S sv h [] []
  | cons {h h' m a a' r err res cs rs} (args : SameAttrs (S.structs m.args) a a') (run : sv.handle m h a' = ((r, err), h'))
      (ret : Returned (S.structs m.result) m r err res) (rest : Answered S sv h' cs rs) :
      Answered S sv h ((m, a) :: cs) (res :: rs)

/-- As `Answered`, up to and including the first call for which the handler
returns an error; later calls return errors. -/
inductive AnsweredUntilError (S : Schema) (sv : Service η) : η → List (Method × Attrs) → List (Option Attrs × GoErr) → Prop
  | nil (h) : AnsweredUntilError S sv h [] []
  | cons {h h' m a a' r res cs rs} (args : SameAttrs (S.structs m.args) a a') (run : sv.handle m h a' = ((r, none), h'))
      (ret : Returned (S.structs m.result) m r none res) (rest : AnsweredUntilError S sv h' cs rs) :
      AnsweredUntilError S sv h ((m, a) :: cs) (res :: rs)
  | stop {h h' m a a' r e res cs rs} (args : SameAttrs (S.structs m.args) a a') (run : sv.handle m h a' = ((r, some e), h'))
      (ret : Returned (S.structs m.result) m r (some e) res) (len : rs.length = cs.length)
      (rest : ∀ x ∈ rs, x.1 = none ∧ x.2.isSome = true) :
      AnsweredUntilError S sv h ((m, a) :: cs) (res :: rs)

/-- The message header of the binary protocol, in the format of strict or old
writers. -/
def BinarySpec.message (strict : Bool) (name : Bytes) (typeId seqid : I32) : Bytes :=
  if strict then BinarySpec.messageStrict name typeId seqid else BinarySpec.messageOld name typeId seqid

/-- A client and a server that understand each other's headers. -/
structure Compatible (f i o : Bin) : Prop where
  client : f.checkReadLength = false
  server : i.checkReadLength = false
  up : f.strictWrite = true ∨ i.strictRead = false
  down : o.strictWrite = true ∨ f.strictRead = false

/-- A call within what generated code can carry: a declared method, arguments and
results that are `Fine`, one outcome of the handler, sizes within the wire format. -/
structure Sound {η : Type} (S : Schema) (sv : Service η) (m : Method) (a : Attrs) : Prop where
  known : sv.find m.name = some m
  name : m.name.length < 2 ^ 31
  args : Fine S (.struct m.args) ((S.structs m.args).object 0 a)
  result : ResultDef (S.structs m.result)
  fine : ∀ h as r h', sv.handle m h as = ((r, none), h') →
    Fine S (.struct m.result) ((S.structs m.result).object 0 r) ∧ OneOutcome S (S.structs m.result) r
  message : ∀ h as r e h', sv.handle m h as = ((r, some e), h') → m.name.length + e.msg.length + 28 < 2 ^ 31

/-- Two ends of a connection in memory: bytes on their way up and down. -/
def pipeClient : Transport (Bytes × Bytes) where
  read n s :=
    if s.2 = [] then (.ok ([], if n = 0 then none else some endOfStream), s)
    else (.ok (s.2.take n, none), (s.1, s.2.drop n))
  write bs s := (.ok (bs.length, none), (s.1 ++ bs, s.2))
  flush s := (.ok none, s)

def pipeServer : Transport (Bytes × Bytes) where
  read n s :=
    if s.1 = [] then (.ok ([], if n = 0 then none else some endOfStream), s)
    else (.ok (s.1.take n, none), (s.1.drop n, s.2))
  write bs s := (.ok (bs.length, none), (s.1, s.2 ++ bs))
  flush s := (.ok none, s)

end Thrift
