import Verif.Model.Transport
/-!
# The protocol interface

`TProtocol` (tprotocol.go:29-78), type and message constants (ttype.go:31-54,
tmessagetype.go:26-34).
-/

namespace Thrift

/-- `TType` is a byte, ttype.go:31. -/
abbrev TType := Byte
/-- `TMessageType` is an `int32`, tmessagetype.go:26. -/
abbrev TMessageType := I32

/-! ttype.go:33-54. -/
namespace TT
abbrev STOP : TType := 0
abbrev VOID : TType := 1
abbrev BOOL : TType := 2
abbrev BYTE : TType := 3
abbrev DOUBLE : TType := 4
abbrev I16 : TType := 6
abbrev I32 : TType := 8
abbrev I64 : TType := 10
abbrev STRING : TType := 11
abbrev STRUCT : TType := 12
abbrev MAP : TType := 13
abbrev SET : TType := 14
abbrev LIST : TType := 15
abbrev ENUM : TType := 16
abbrev UTF16 : TType := 17
abbrev BINARY : TType := 18
abbrev GENERIC : TType := 127
end TT

/-- `TType.ThriftTypeId`, ttype.go:56-64. -/
def thriftTypeId (t : TType) : Byte := if t = TT.BINARY then TT.STRING else t

/-! tmessagetype.go:28-34. -/
def INVALID_TMESSAGE_TYPE : TMessageType := 0
def CALL : TMessageType := 1
def REPLY : TMessageType := 2
def EXCEPTION : TMessageType := 3
def ONEWAY : TMessageType := 4

/-- The interface `TProtocol`, tprotocol.go:29-78, over the fields `π` of the
implementing object.  Every method returns its results paired with its error.
`size int` arguments are `Int` (only converted, never computed with beyond 64
bits).  `Skip` is not a member here: both protocols forward it to
`SkipDefaultDepth` (tbinary_protocol.go:448-450, tcompact_protocol.go:613-615),
modelled as `skip`. -/
structure Proto (π : Type) where
  writeMessageBegin : Bytes → TMessageType → I32 → P π GoErr
  writeMessageEnd : P π GoErr
  writeStructBegin : Bytes → P π GoErr
  writeStructEnd : P π GoErr
  writeFieldBegin : Bytes → TType → I16 → P π GoErr
  writeFieldEnd : P π GoErr
  writeFieldStop : P π GoErr
  writeMapBegin : TType → TType → Int → P π GoErr
  writeMapEnd : P π GoErr
  writeListBegin : TType → Int → P π GoErr
  writeListEnd : P π GoErr
  writeSetBegin : TType → Int → P π GoErr
  writeSetEnd : P π GoErr
  writeBool : Bool → P π GoErr
  writeByte : Byte → P π GoErr
  writeI16 : I16 → P π GoErr
  writeI32 : I32 → P π GoErr
  writeI64 : I64 → P π GoErr
  writeDouble : F64 → P π GoErr
  writeString : Bytes → P π GoErr
  writeBinary : Bytes → P π GoErr
  readMessageBegin : P π ((Bytes × TMessageType × I32) × GoErr)
  readMessageEnd : P π GoErr
  readStructBegin : P π (Bytes × GoErr)
  readStructEnd : P π GoErr
  readFieldBegin : P π ((Bytes × TType × I16) × GoErr)
  readFieldEnd : P π GoErr
  readMapBegin : P π ((TType × TType × Int) × GoErr)
  readMapEnd : P π GoErr
  readListBegin : P π ((TType × Int) × GoErr)
  readListEnd : P π GoErr
  readSetBegin : P π ((TType × Int) × GoErr)
  readSetEnd : P π GoErr
  readBool : P π (Bool × GoErr)
  readByte : P π (Byte × GoErr)
  readI16 : P π (I16 × GoErr)
  readI32 : P π (I32 × GoErr)
  readI64 : P π (I64 × GoErr)
  readDouble : P π (F64 × GoErr)
  readString : P π (Bytes × GoErr)
  readBinary : P π (Bytes × GoErr)
  flush : P π GoErr

end Thrift
