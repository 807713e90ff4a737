import Verif.Model.Gen
import Verif.Model.AppException
/-!
# The buffers a reader asks for

`ReadAll` is handed a buffer made for it, so the sizes it is called with are the
sizes of the buffers made.
-/

namespace Thrift

/-- The sizes of the buffers that a run hands to `ReadAll`, in order. -/
def Prog.asks (T : Transport σ) : Prog α → σ → List Nat
  | .ret _, _ => []
  | .panic, _ => []
  | .stuck, _ => []
  | .readAll n k, s => n :: match T.readAll n s with
    | (.ok x, s') => (k x).asks T s'
    | _ => []
  | .write bs k, s => match T.write bs s with
    | (.ok x, s') => (k x).asks T s'
    | _ => []
  | .flush k, s => match T.flush s with
    | (.ok x, s') => (k x).asks T s'
    | _ => []

/-- The same for programs with an object. -/
def P.asks (T : Transport σ) (m : P π α) (s : π) (t : σ) : List Nat := (m s).asks T t

/-- What a program may read through a protocol object: the calls of `TProtocol`,
a value to be skipped, an object of a generated type and an application
exception. -/
inductive AnyRead where
  | message | messageEnd | structBegin | structEnd | field | fieldEnd | map | mapEnd | list | listEnd | set | setEnd
  | bool | byte | i16 | i32 | i64 | double | string | binary
  | skip (t : TType) | object (sd : StructDef) | exception

section
variable (p : Proto π) (S : Schema) (L : FloatLib) (mem : List Nat → Nat) (msd : Int) (fuel : Nat)

/-- One of them; the results are left aside. -/
def AnyRead.call : AnyRead → P π Unit
  | .message => do let _ ← p.readMessageBegin
  | .messageEnd => do let _ ← p.readMessageEnd
  | .structBegin => do let _ ← p.readStructBegin
  | .structEnd => do let _ ← p.readStructEnd
  | .field => do let _ ← p.readFieldBegin
  | .fieldEnd => do let _ ← p.readFieldEnd
  | .map => do let _ ← p.readMapBegin
  | .mapEnd => do let _ ← p.readMapEnd
  | .list => do let _ ← p.readListBegin
  | .listEnd => do let _ ← p.readListEnd
  | .set => do let _ ← p.readSetBegin
  | .setEnd => do let _ ← p.readSetEnd
  | .bool => do let _ ← p.readBool
  | .byte => do let _ ← p.readByte
  | .i16 => do let _ ← p.readI16
  | .i32 => do let _ ← p.readI32
  | .i64 => do let _ ← p.readI64
  | .double => do let _ ← p.readDouble
  | .string => do let _ ← p.readString
  | .binary => do let _ ← p.readBinary
  | .skip t => do let _ ← skipDefaultDepth p msd fuel t
  | .object sd => do let _ ← genRead p S L mem msd fuel [] sd
  | .exception => do let _ ← appRead p msd fuel

/-- One after the other, whatever they return. -/
def AnyRead.calls : List AnyRead → P π Unit
  | [] => return ()
  | c :: cs => do c.call p S L mem msd fuel; AnyRead.calls cs

end
end Thrift
