import Verif.Model.Exceptions
import Verif.Model.Skip
/-!
# Application exceptions on the wire

`tapplication_exception.go`.
-/

namespace Thrift

/-- `tApplicationException`, tapplication_exception.go:48-51: the type and the
text of the embedded `TException`. -/
structure AppExc where
  type : I32
  message : Bytes
  deriving DecidableEq, Repr

/-- The exception as a Go error. -/
def AppExc.err (x : AppExc) : Err := ⟨.application, x.type.toInt, x.message⟩

/-- `NewTApplicationException`, tapplication_exception.go:61-63. -/
def newTApplicationException (t : Int) (m : Bytes) : AppExc := ⟨BitVec.ofInt 32 t, m⟩

/-- The `switch` over the field id in `Read`, tapplication_exception.go:96-129. -/
def appReadField (p : Proto π) (msd : Int) (fuel : Nat) (x : AppExc) (t : TType) (id : I16) : P π (AppExc × GoErr) :=
  if id = 1 ∧ t = TT.STRING then do
    let (m, e) ← p.readString
    return ({ x with message := m }, e)
  else if id = 2 ∧ t = TT.I32 then do
    let (v, e) ← p.readI32
    return ({ x with type := v }, e)
  else do
    let e ← skipDefaultDepth p msd fuel t
    return (x, e)

/-- The field loop of `Read`, tapplication_exception.go:88-134.  `n` bounds the
number of fields. -/
def appReadFields (p : Proto π) (msd : Int) (fuel : Nat) : (n : Nat) → AppExc → P π (AppExc × GoErr)
  | 0, _ => P.stuck
  | n + 1, x => do
    let ((_, t, id), e) ← p.readFieldBegin
    if e.isSome then return (x, e)
    if t = TT.STOP then return (x, none)
    let (x, e) ← appReadField p msd fuel x t id
    if e.isSome then return (x, e)
    let e ← p.readFieldEnd
    if e.isSome then return (x, e)
    appReadFields p msd fuel n x

/-- `Read`, tapplication_exception.go:73-138: the new exception (absent when an
error made it return early) and the error. -/
def appRead (p : Proto π) (msd : Int) (fuel : Nat) : P π (Option AppExc × GoErr) := do
  let (_, e) ← p.readStructBegin
  if e.isSome then return (none, e)
  let (x, e) ← appReadFields p msd fuel fuel ⟨BitVec.ofInt 32 UNKNOWN_APPLICATION_EXCEPTION, []⟩
  if e.isSome then return (none, e)
  let e ← p.readStructEnd
  return (some x, e)

/-- The `type` field and the end of the struct, tapplication_exception.go:156-173. -/
def appWriteType (p : Proto π) (x : AppExc) : P π GoErr := do
  let e ← p.writeFieldBegin (ascii "type") TT.I32 2
  if e.isSome then return e
  let e ← p.writeI32 x.type
  if e.isSome then return e
  let e ← p.writeFieldEnd
  if e.isSome then return e
  let e ← p.writeFieldStop
  if e.isSome then return e
  p.writeStructEnd

/-- `Write`, tapplication_exception.go:140-174.  The error of `WriteStructBegin`
is overwritten before anyone looks at it. -/
def appWrite (p : Proto π) (x : AppExc) : P π GoErr := do
  let _ ← p.writeStructBegin (ascii "TApplicationException")
  if x.message.length > 0 then
    let e ← p.writeFieldBegin (ascii "message") TT.STRING 1
    if e.isSome then return e
    let e ← p.writeString x.message
    if e.isSome then return e
    let e ← p.writeFieldEnd
    if e.isSome then return e
    appWriteType p x
  else appWriteType p x

end Thrift
