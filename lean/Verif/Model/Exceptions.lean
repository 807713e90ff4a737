import Verif.Model.Go
/-!
# Exceptions

`ttransport_exception.go`, `tprotocol_exception.go`, `texception.go`,
`tapplication_exception.go` (constants and constructors).
-/

namespace Thrift

/-! Transport codes, ttransport_exception.go:35-41. -/
def UNKNOWN_TRANSPORT_EXCEPTION : Int := 0
def NOT_OPEN : Int := 1
def ALREADY_OPEN : Int := 2
def TIMED_OUT : Int := 3
def END_OF_FILE : Int := 4

/-! Protocol codes, tprotocol_exception.go:35-42. -/
def UNKNOWN_PROTOCOL_EXCEPTION : Int := 0
def INVALID_DATA : Int := 1
def NEGATIVE_SIZE : Int := 2
def SIZE_LIMIT : Int := 3
def BAD_VERSION : Int := 4
def NOT_IMPLEMENTED : Int := 5

/-! Application codes, tapplication_exception.go:26-35. -/
def UNKNOWN_APPLICATION_EXCEPTION : Int := 0
def UNKNOWN_METHOD : Int := 1
def INVALID_MESSAGE_TYPE_EXCEPTION : Int := 2
def WRONG_METHOD_NAME : Int := 3
def BAD_SEQUENCE_ID : Int := 4
def MISSING_RESULT : Int := 5
def INTERNAL_ERROR : Int := 6
def PROTOCOL_ERROR : Int := 7

/-- `io.EOF`. -/
def ioEOF : Err := ⟨.eof, 0, ascii "EOF"⟩

/-- `NewTTransportException`, ttransport_exception.go:68-70. -/
def newTTransportException (t : Int) (m : Bytes) : Err := ⟨.transport, t, m⟩

/-- `NewTProtocolException`, tprotocol_exception.go:73-75. -/
def newTProtocolException (t : Int) (m : Bytes) : Err := ⟨.protocol, t, m⟩

/-- `NewTException`, texception.go:41-43. -/
def newTException (m : Bytes) : Err := ⟨.other, 0, m⟩

/-- The type assertions `e.(TTransportException)` and `e.(TProtocolException)`:
both interfaces are `Error() string` plus `TypeId() int`
(ttransport_exception.go:30-33, tprotocol_exception.go:30-33), so both dynamic
types satisfy both of them.  `*tApplicationException` has `TypeId() int32`
(tapplication_exception.go:69-71) and satisfies neither. -/
def Err.hasTypeId (e : Err) : Bool := e.kind == .transport || e.kind == .protocol

/-- `NewTTransportExceptionFromOsError`, ttransport_exception.go:72-84. -/
def transportFromOsError : GoErr → GoErr
  | none => none
  | some e =>
    if e.hasTypeId then some e
    else if e.kind = .eof then some (newTTransportException END_OF_FILE e.msg)
    else some (newTTransportException UNKNOWN_TRANSPORT_EXCEPTION e.msg)

/-- `NewTProtocolExceptionFromOsError` and
`NewTProtocolExceptionFromTransportException`, tprotocol_exception.go:109-133.
The second assertion (`TTransportException`) is never reached because the first
one already accepts such errors.  `base64.CorruptInputError` belongs to the
JSON protocol and is not distinguished here. -/
def protocolFromOsError : GoErr → GoErr
  | none => none
  | some e =>
    if e.hasTypeId then some e
    else some (newTProtocolException UNKNOWN_PROTOCOL_EXCEPTION e.msg)

/-- The code kept by the four wrappers below: `UNKNOWN` becomes
`INVALID_DATA`, tprotocol_exception.go:77-107. -/
def wrapCode (c : Int) : Int := if c = UNKNOWN_PROTOCOL_EXCEPTION then INVALID_DATA else c

/-- `NewTProtocolExceptionReadField`, tprotocol_exception.go:77-83.
Simplification: the field id is left out of the text. -/
def excReadField (fieldName structName : Bytes) (e : Err) : Err :=
  newTProtocolException (wrapCode e.code)
    (ascii "Unable to read field (" ++ fieldName ++ ascii ") in " ++ structName ++
      ascii " due to: " ++ e.msg)

/-- `NewTProtocolExceptionWriteField`, tprotocol_exception.go:85-91.
Simplification: the field id is left out of the text. -/
def excWriteField (fieldName structName : Bytes) (e : Err) : Err :=
  newTProtocolException (wrapCode e.code)
    (ascii "Unable to write field (" ++ fieldName ++ ascii ") in " ++ structName ++
      ascii " due to: " ++ e.msg)

/-- `NewTProtocolExceptionReadStruct`, tprotocol_exception.go:93-99. -/
def excReadStruct (structName : Bytes) (e : Err) : Err :=
  newTProtocolException (wrapCode e.code)
    (ascii "Unable to read struct " ++ structName ++ ascii " due to: " ++ e.msg)

/-- `NewTProtocolExceptionWriteStruct`, tprotocol_exception.go:101-107. -/
def excWriteStruct (structName : Bytes) (e : Err) : Err :=
  newTProtocolException (wrapCode e.code)
    (ascii "Unable to write struct " ++ structName ++ ascii " due to: " ++ e.msg)

end Thrift
