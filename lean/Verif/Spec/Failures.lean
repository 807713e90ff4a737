import Verif.Model.Protocol
/-!
# Failures of a transport

What it means that nothing that went wrong in the transport is kept from the
caller.
-/

namespace Thrift

/-- The transport with a flag that is raised by every failure: a `Write` or
`Flush` that returns an error, a `Read` that returns an error and no bytes. -/
def watched (T : Transport σ) : Transport (σ × Bool) where
  read n s := match T.read n s.1 with
    | (.ok (bs, e), t) => (.ok (bs, e), (t, s.2 || (bs.isEmpty && e.isSome)))
    | (.panic, t) => (.panic, (t, s.2))
    | (.stuck, t) => (.stuck, (t, s.2))
  write bs s := match T.write bs s.1 with
    | (.ok (n, e), t) => (.ok (n, e), (t, s.2 || e.isSome))
    | (.panic, t) => (.panic, (t, s.2))
    | (.stuck, t) => (.stuck, (t, s.2))
  flush s := match T.flush s.1 with
    | (.ok e, t) => (.ok e, (t, s.2 || e.isSome))
    | (.panic, t) => (.panic, (t, s.2))
    | (.stuck, t) => (.stuck, (t, s.2))

/-- Whatever the transport does, a call that returns no error met no failure. -/
def Reported (err : α → GoErr) (m : P π α) : Prop :=
  ∀ {σ : Type} (T : Transport σ) (s s' : π) (t t' : σ) (a : α) (failed : Bool),
    m.run (watched T) s (t, false) = (.ok (a, s'), (t', failed)) → err a = none → failed = false

/-- A connection that is broken for good once a call on it has failed: from then
on every write fails. -/
structure Sticky (T : Transport σ) (broken : σ → Prop) : Prop where
  read : ∀ n s e, (T.read n s).1 = .ok ([], some e) → broken (T.read n s).2
  write : ∀ bs s n e, (T.write bs s).1 = .ok (n, some e) → broken (T.write bs s).2
  flush : ∀ s e, (T.flush s).1 = .ok (some e) → broken (T.flush s).2
  afterRead : ∀ n s, broken s → broken (T.read n s).2
  afterWrite : ∀ bs s, broken s → broken (T.write bs s).2
  afterFlush : ∀ s, broken s → broken (T.flush s).2
  dead : ∀ bs s, broken s → ∃ n e, (T.write bs s).1 = .ok (n, some e)

/-- The write calls of `TProtocol`. -/
inductive WriteCall where
  | messageBegin (name : Bytes) (t : TMessageType) (seqId : I32) | messageEnd
  | structBegin (name : Bytes) | structEnd
  | fieldBegin (name : Bytes) (t : TType) (id : I16) | fieldEnd | fieldStop
  | mapBegin (k v : TType) (size : Int) | mapEnd
  | listBegin (t : TType) (size : Int) | listEnd
  | setBegin (t : TType) (size : Int) | setEnd
  | bool (v : Bool) | byte (v : Byte) | i16 (v : I16) | i32 (v : I32) | i64 (v : I64) | double (v : F64)
  | string (v : Bytes) | binary (v : Bytes) | flush

/-- Make a write call. -/
def Proto.perform (p : Proto π) : WriteCall → P π GoErr
  | .messageBegin a b c => p.writeMessageBegin a b c
  | .messageEnd => p.writeMessageEnd
  | .structBegin a => p.writeStructBegin a
  | .structEnd => p.writeStructEnd
  | .fieldBegin a b c => p.writeFieldBegin a b c
  | .fieldEnd => p.writeFieldEnd
  | .fieldStop => p.writeFieldStop
  | .mapBegin a b c => p.writeMapBegin a b c
  | .mapEnd => p.writeMapEnd
  | .listBegin a b => p.writeListBegin a b
  | .listEnd => p.writeListEnd
  | .setBegin a b => p.writeSetBegin a b
  | .setEnd => p.writeSetEnd
  | .bool a => p.writeBool a
  | .byte a => p.writeByte a
  | .i16 a => p.writeI16 a
  | .i32 a => p.writeI32 a
  | .i64 a => p.writeI64 a
  | .double a => p.writeDouble a
  | .string a => p.writeString a
  | .binary a => p.writeBinary a
  | .flush => p.flush

/-- The read calls of `TProtocol`. -/
inductive FetchCall where
  | messageBegin | messageEnd | structBegin | structEnd | fieldBegin | fieldEnd | mapBegin | mapEnd | listBegin | listEnd
  | setBegin | setEnd | bool | byte | i16 | i32 | i64 | double | string | binary
  deriving DecidableEq

/-- Make a read call and keep its error. -/
def Proto.fetch (p : Proto π) : FetchCall → P π GoErr
  | .messageBegin => do return (← p.readMessageBegin).2
  | .messageEnd => p.readMessageEnd
  | .structBegin => do return (← p.readStructBegin).2
  | .structEnd => p.readStructEnd
  | .fieldBegin => do return (← p.readFieldBegin).2
  | .fieldEnd => p.readFieldEnd
  | .mapBegin => do return (← p.readMapBegin).2
  | .mapEnd => p.readMapEnd
  | .listBegin => do return (← p.readListBegin).2
  | .listEnd => p.readListEnd
  | .setBegin => do return (← p.readSetBegin).2
  | .setEnd => p.readSetEnd
  | .bool => do return (← p.readBool).2
  | .byte => do return (← p.readByte).2
  | .i16 => do return (← p.readI16).2
  | .i32 => do return (← p.readI32).2
  | .i64 => do return (← p.readI64).2
  | .double => do return (← p.readDouble).2
  | .string => do return (← p.readString).2
  | .binary => do return (← p.readBinary).2

end Thrift
