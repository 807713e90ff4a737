import Verif.Model.Protocol
/-!
# Binary protocol

`tbinary_protocol.go`.
-/

namespace Thrift

/-- Fields of `TBinaryProtocol` other than the transport,
tbinary_protocol.go:29-36.  `_ReadLength` is an `int`; it is only decreased by
lengths below 2^31, so 64-bit overflow needs over 2^32 failing reads and is
ignored. -/
structure Bin where
  strictRead : Bool
  strictWrite : Bool
  readLength : Int
  checkReadLength : Bool
  deriving DecidableEq, Repr

/-- `NewTBinaryProtocol`, tbinary_protocol.go:47-50. -/
def Bin.new (strictRead strictWrite : Bool) : Bin := ⟨strictRead, strictWrite, 0, false⟩

/-- `NewTBinaryProtocolTransport`, tbinary_protocol.go:43-45, and the default
factory L52-54. -/
def Bin.default : Bin := Bin.new false true

namespace BinaryProtocol

/-! ## Writing -/

/-- `_, e := p.trans.Write(v); return NewTProtocolExceptionFromOsError(e)`, the
tail of WriteByte, WriteI16, WriteI32, WriteI64, tbinary_protocol.go:176-212. -/
def rawWrite (v : Bytes) : P Bin GoErr := do
  let (_, e) ← P.write v
  return protocolFromOsError e

/-- `WriteByte`, tbinary_protocol.go:176-180. -/
def writeByte (value : Byte) : P Bin GoErr := rawWrite [value]

/-- `WriteI16`, tbinary_protocol.go:182-188; `>>` on a signed value is
arithmetic. -/
def writeI16 (value : I16) : P Bin GoErr :=
  rawWrite [(0xff &&& value.sshiftRight 8).setWidth 8, (0xff &&& value).setWidth 8]

/-- `WriteI32`, tbinary_protocol.go:190-198. -/
def writeI32 (value : I32) : P Bin GoErr :=
  rawWrite [(0xff &&& value.sshiftRight 24).setWidth 8, (0xff &&& value.sshiftRight 16).setWidth 8,
    (0xff &&& value.sshiftRight 8).setWidth 8, (0xff &&& value).setWidth 8]

/-- `WriteI64`, tbinary_protocol.go:200-212. -/
def writeI64 (value : I64) : P Bin GoErr :=
  rawWrite [(0xff &&& value.sshiftRight 56).setWidth 8, (0xff &&& value.sshiftRight 48).setWidth 8,
    (0xff &&& value.sshiftRight 40).setWidth 8, (0xff &&& value.sshiftRight 32).setWidth 8,
    (0xff &&& value.sshiftRight 24).setWidth 8, (0xff &&& value.sshiftRight 16).setWidth 8,
    (0xff &&& value.sshiftRight 8).setWidth 8, (0xff &&& value).setWidth 8]

/-- `WriteDouble`, tbinary_protocol.go:214-216. -/
def writeDouble (value : F64) : P Bin GoErr := writeI64 value

/-- `io.CopyN(p.trans, reader, size)` from an in-memory reader holding exactly
`value`.  Simplification: one `Write` of everything (none if empty) instead of
32 kB pieces; a count below the length without error is `io.ErrShortWrite`. -/
def copyN (value : Bytes) : P Bin GoErr := do
  if value = [] then return none
  let (n, e) ← P.write value
  if e.isSome then return e
  if n ≠ value.length then return some ⟨.other, 0, ascii "short write"⟩
  return none

/-- `WriteString` through `WriteBinaryFromReader`,
tbinary_protocol.go:218-220, 231-238. -/
def writeString (value : Bytes) : P Bin GoErr := do
  let e ← writeI32 (BitVec.ofNat 32 value.length)
  if e.isSome then return e
  let err ← copyN value
  return protocolFromOsError err

/-- `WriteBinary`, tbinary_protocol.go:222-229. -/
def writeBinary (value : Bytes) : P Bin GoErr := do
  let e ← writeI32 (BitVec.ofNat 32 value.length)
  if e.isSome then return e
  rawWrite value

/-- `VERSION_1`, tprotocol.go:24. -/
def VERSION_1 : BitVec 32 := 0x80010000

/-- `WriteMessageBegin`, tbinary_protocol.go:68-94. -/
def writeMessageBegin (name : Bytes) (typeId : TMessageType) (seqId : I32) : P Bin GoErr := do
  let s ← P.get
  if s.strictWrite then
    let e ← writeI32 (VERSION_1 ||| typeId)
    if e.isSome then return e
    let e ← writeString name
    if e.isSome then return e
    writeI32 seqId
  else
    let e ← writeString name
    if e.isSome then return e
    let e ← writeByte (typeId.setWidth 8)
    if e.isSome then return e
    writeI32 seqId

/-- `WriteMessageEnd`, `WriteStructEnd`, `WriteFieldEnd`, `WriteMapEnd`,
`WriteListEnd`, `WriteSetEnd` and the matching reads: nothing on the wire,
tbinary_protocol.go:96-106, 117-119, 139-141, 152-154, 165-167, 284-294, 308-310,
334-336, 354-356, 374-376. -/
def nop : P Bin GoErr := return none

/-- `WriteStructBegin`, tbinary_protocol.go:100-102. -/
def writeStructBegin (_ : Bytes) : P Bin GoErr := return none

/-- `WriteFieldBegin`, tbinary_protocol.go:108-115. -/
def writeFieldBegin (_ : Bytes) (typeId : TType) (id : I16) : P Bin GoErr := do
  let e ← writeByte (thriftTypeId typeId)
  if e.isSome then return e
  writeI16 id

/-- `WriteFieldStop`, tbinary_protocol.go:121-124. -/
def writeFieldStop : P Bin GoErr := writeByte TT.STOP

/-- `WriteMapBegin`, tbinary_protocol.go:126-137; `int32(size)` truncates. -/
def writeMapBegin (keyType valueType : TType) (size : Int) : P Bin GoErr := do
  let e ← writeByte (thriftTypeId keyType)
  if e.isSome then return e
  let e ← writeByte (thriftTypeId valueType)
  if e.isSome then return e
  writeI32 (BitVec.ofInt 32 size)

/-- `WriteListBegin` and `WriteSetBegin` (same text),
tbinary_protocol.go:143-150, 156-163. -/
def writeListBegin (elemType : TType) (size : Int) : P Bin GoErr := do
  let e ← writeByte (thriftTypeId elemType)
  if e.isSome then return e
  writeI32 (BitVec.ofInt 32 size)

/-- `WriteBool`, tbinary_protocol.go:169-174. -/
def writeBool (value : Bool) : P Bin GoErr := if value then writeByte 1 else writeByte 0

/-! ## Reading -/

/-- `checkReadLength`, tbinary_protocol.go:470-478. -/
def checkReadLength (length : Int) : P Bin GoErr := do
  let s ← P.get
  if s.checkReadLength then
    P.modify fun s => { s with readLength := s.readLength - length }
    if s.readLength - length < 0 then
      return some (newTProtocolException UNKNOWN_PROTOCOL_EXCEPTION (ascii "Message length exceeded"))
    else return none
  else return none

/-- `setReadLength`, tbinary_protocol.go:465-468. -/
def setReadLength (n : Int) : P Bin Unit :=
  P.modify fun s => { s with readLength := n, checkReadLength := true }

/-- `readAll` into a fresh buffer of `n` bytes, tbinary_protocol.go:456-463:
the buffer and the error. -/
def readAllBuf (n : Nat) : P Bin (Bytes × GoErr) := do
  let e ← checkReadLength n
  if e.isSome then return (fillBuf n [], e)
  let r ← P.readAll n
  return (r.buf, protocolFromOsError r.err)

/-- `binary.BigEndian.Uint16`. -/
def uint16BE : Bytes → BitVec 16
  | a :: b :: _ => b.setWidth 16 ||| a.setWidth 16 <<< 8
  | _ => 0

/-- `binary.BigEndian.Uint64`. -/
def uint64BE : Bytes → BitVec 64
  | a :: b :: c :: d :: e :: f :: g :: h :: _ =>
    h.setWidth 64 ||| g.setWidth 64 <<< 8 ||| f.setWidth 64 <<< 16 ||| e.setWidth 64 <<< 24 |||
    d.setWidth 64 <<< 32 ||| c.setWidth 64 <<< 40 ||| b.setWidth 64 <<< 48 ||| a.setWidth 64 <<< 56
  | _ => 0

/-- `ReadByte`, tbinary_protocol.go:387-391. -/
def readByte : P Bin (Byte × GoErr) := do
  let (buf, err) ← readAllBuf 1
  return (buf.headD 0, err)

/-- `ReadBool`, tbinary_protocol.go:378-385. -/
def readBool : P Bin (Bool × GoErr) := do
  let (b, e) ← readByte
  return (b = 1, e)

/-- `ReadI16`, tbinary_protocol.go:393-398. -/
def readI16 : P Bin (I16 × GoErr) := do
  let (buf, err) ← readAllBuf 2
  return (uint16BE buf, err)

/-- `ReadI32`, tbinary_protocol.go:400-405. -/
def readI32 : P Bin (I32 × GoErr) := do
  let (buf, err) ← readAllBuf 4
  return (uint32BE buf, err)

/-- `ReadI64`, tbinary_protocol.go:407-412. -/
def readI64 : P Bin (I64 × GoErr) := do
  let (buf, err) ← readAllBuf 8
  return (uint64BE buf, err)

/-- `ReadDouble`, tbinary_protocol.go:414-419. -/
def readDouble : P Bin (F64 × GoErr) := do
  let (buf, err) ← readAllBuf 8
  return (uint64BE buf, err)

/-- `readStringBody`, tbinary_protocol.go:480-492.  A negative size gives the
empty string and no error. -/
def readStringBody (size : Int) : P Bin (Bytes × GoErr) := do
  if size < 0 then return ([], none)
  let err ← checkReadLength size
  if err.isSome then return ([], err)
  let r ← P.readAll size.toNat
  return (r.buf, protocolFromOsError r.err)

/-- `ReadString`, tbinary_protocol.go:421-427. -/
def readString : P Bin (Bytes × GoErr) := do
  let (size, e) ← readI32
  if e.isSome then return ([], e)
  readStringBody size.toInt

/-- `ReadBinary`, tbinary_protocol.go:429-442; `make` with a negative length
panics.  The `nil` slice returned with an error is the empty list. -/
def readBinary : P Bin (Bytes × GoErr) := do
  let (size, e) ← readI32
  if e.isSome then return ([], e)
  let isize := size.toInt
  let e ← checkReadLength isize
  if e.isSome then return ([], e)
  if isize < 0 then P.panic
  else
    let r ← P.readAll isize.toNat
    return (r.buf, protocolFromOsError r.err)

/-- `VERSION_MASK`, tprotocol.go:23. -/
def VERSION_MASK : BitVec 64 := 0xffff0000

/-- `ReadMessageBegin`, tbinary_protocol.go:244-282. -/
def readMessageBegin : P Bin ((Bytes × TMessageType × I32) × GoErr) := do
  let (size, e) ← readI32
  if e.isSome then return (([], 0, 0), protocolFromOsError e)
  if size.toInt < 0 then
    let typeId : TMessageType := size &&& 0x0ff
    let version : BitVec 64 := size.signExtend 64 &&& VERSION_MASK
    if version ≠ VERSION_1.setWidth 64 then
      return (([], typeId, 0), some (newTProtocolException BAD_VERSION
        (ascii "Bad version in ReadMessageBegin")))
    let (name, e) ← readString
    if e.isSome then return ((name, typeId, 0), protocolFromOsError e)
    let (seqId, e) ← readI32
    if e.isSome then return ((name, typeId, seqId), protocolFromOsError e)
    return ((name, typeId, seqId), none)
  let s ← P.get
  if s.strictRead then
    return (([], 0, 0), some (newTProtocolException BAD_VERSION
      (ascii "Missing version in ReadMessageBegin")))
  let (name, e2) ← readStringBody size.toInt
  if e2.isSome then return ((name, 0, 0), e2)
  let (b, e3) ← readByte
  if e3.isSome then return ((name, 0, 0), e3)
  let typeId : TMessageType := b.setWidth 32
  let (seqId, e4) ← readI32
  if e4.isSome then return ((name, typeId, seqId), e4)
  return ((name, typeId, seqId), none)

/-- `ReadStructBegin`, tbinary_protocol.go:288-290. -/
def readStructBegin : P Bin (Bytes × GoErr) := return ([], none)

/-- `ReadFieldBegin`, tbinary_protocol.go:296-306. -/
def readFieldBegin : P Bin ((Bytes × TType × I16) × GoErr) := do
  let (t, err) ← readByte
  if err.isSome then return (([], t, 0), err)
  if t ≠ TT.STOP then
    let (seqId, err) ← readI16
    return (([], t, seqId), err)
  return (([], t, 0), err)

/-- `ReadMapBegin`, tbinary_protocol.go:312-332. -/
def readMapBegin : P Bin ((TType × TType × Int) × GoErr) := do
  let (k, e) ← readByte
  if e.isSome then return ((0, 0, 0), protocolFromOsError e)
  let (v, e) ← readByte
  if e.isSome then return ((k, 0, 0), protocolFromOsError e)
  let (size32, e) ← readI32
  if e.isSome then return ((k, v, size32.toInt), protocolFromOsError e)
  return ((k, v, size32.toInt), none)

/-- `ReadListBegin` and `ReadSetBegin` (same text),
tbinary_protocol.go:338-352, 358-372. -/
def readListBegin : P Bin ((TType × Int) × GoErr) := do
  let (b, e) ← readByte
  if e.isSome then return ((0, 0), protocolFromOsError e)
  let (size32, e) ← readI32
  if e.isSome then return ((b, size32.toInt), protocolFromOsError e)
  return ((b, size32.toInt), none)

/-- `Flush`, tbinary_protocol.go:444-446. -/
def flush : P Bin GoErr := do
  let e ← P.tflush
  return protocolFromOsError e

end BinaryProtocol

open BinaryProtocol in
/-- `TBinaryProtocol` as a `TProtocol`. -/
def binary : Proto Bin where
  writeMessageBegin := writeMessageBegin
  writeMessageEnd := nop
  writeStructBegin := writeStructBegin
  writeStructEnd := nop
  writeFieldBegin := writeFieldBegin
  writeFieldEnd := nop
  writeFieldStop := writeFieldStop
  writeMapBegin := writeMapBegin
  writeMapEnd := nop
  writeListBegin := writeListBegin
  writeListEnd := nop
  writeSetBegin := writeListBegin
  writeSetEnd := nop
  writeBool := writeBool
  writeByte := writeByte
  writeI16 := writeI16
  writeI32 := writeI32
  writeI64 := writeI64
  writeDouble := writeDouble
  writeString := writeString
  writeBinary := writeBinary
  readMessageBegin := readMessageBegin
  readMessageEnd := nop
  readStructBegin := readStructBegin
  readStructEnd := nop
  readFieldBegin := readFieldBegin
  readFieldEnd := nop
  readMapBegin := readMapBegin
  readMapEnd := nop
  readListBegin := readListBegin
  readListEnd := nop
  readSetBegin := readListBegin
  readSetEnd := nop
  readBool := readBool
  readByte := readByte
  readI16 := readI16
  readI32 := readI32
  readI64 := readI64
  readDouble := readDouble
  readString := readString
  readBinary := readBinary
  flush := flush

end Thrift
