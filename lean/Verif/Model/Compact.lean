import Verif.Model.Protocol
/-!
# Compact protocol

`tcompact_protocol.go`.
-/

namespace Thrift

/-- Fields of `TCompactProtocol` other than the transport,
tcompact_protocol.go:86-108.  `lastField` is the Go slice with its last element
(the top of the stack) first.  `booleanField` is nil or (name, type, id). -/
structure Cmp where
  lastField : List Int
  lastFieldId : Int
  booleanField : Option (Bytes × TType × Int)
  boolValue : Bool
  boolValueIsNotNull : Bool
  deriving DecidableEq, Repr

/-- `NewTCompactProtocol`, tcompact_protocol.go:115-117. -/
def Cmp.new : Cmp := ⟨[], 0, none, false, false⟩

namespace CompactProtocol

/-! Constants, tcompact_protocol.go:29-52. -/
def PROTOCOL_ID : Byte := 0x82
def VERSION : Byte := 1
def VERSION_MASK : Byte := 0x1f
def TYPE_MASK : Byte := 0xE0

namespace CT
abbrev BOOLEAN_TRUE : Byte := 0x01
abbrev BOOLEAN_FALSE : Byte := 0x02
abbrev BYTE : Byte := 0x03
abbrev I16 : Byte := 0x04
abbrev I32 : Byte := 0x05
abbrev I64 : Byte := 0x06
abbrev DOUBLE : Byte := 0x07
abbrev BINARY : Byte := 0x08
abbrev LIST : Byte := 0x09
abbrev SET : Byte := 0x0A
abbrev MAP : Byte := 0x0B
abbrev STRUCT : Byte := 0x0C
end CT

/-- `_TTypeToCompactType`, tcompact_protocol.go:59-74: a table of length
`UTF16+1 = 18`, zero where nothing is assigned. -/
def ttypeToCompactType : List Byte :=
  [TT.STOP, 0, CT.BOOLEAN_TRUE, CT.BYTE, CT.DOUBLE, 0, CT.I16, 0, CT.I32, 0, CT.I64, CT.BINARY,
   CT.STRUCT, CT.MAP, CT.SET, CT.LIST, 0, 0]

/-- `getCompactType`, tcompact_protocol.go:846-848; an index beyond the table
panics. -/
def getCompactType (t : TType) : P Cmp Byte :=
  match ttypeToCompactType[t.toNat]? with
  | some b => return b
  | none => P.panic

/-- `getTType`, tcompact_protocol.go:812-841.  The case `COMPACT_BOOLEAN_FALSE`
has an empty body, so it leaves the switch and ends in the error return. -/
def getTType (t : Byte) : TType × GoErr :=
  let b := t &&& 0x0f
  let unknown : TType × GoErr := (TT.STOP, some (newTException (ascii "don't know what type")))
  if b = TT.STOP then (TT.STOP, none)
  else if b = CT.BOOLEAN_FALSE then unknown
  else if b = CT.BOOLEAN_TRUE then (TT.BOOL, none)
  else if b = CT.BYTE then (TT.BYTE, none)
  else if b = CT.I16 then (TT.I16, none)
  else if b = CT.I32 then (TT.I32, none)
  else if b = CT.I64 then (TT.I64, none)
  else if b = CT.DOUBLE then (TT.DOUBLE, none)
  else if b = CT.BINARY then (TT.STRING, none)
  else if b = CT.LIST then (TT.LIST, none)
  else if b = CT.SET then (TT.SET, none)
  else if b = CT.MAP then (TT.MAP, none)
  else if b = CT.STRUCT then (TT.STRUCT, none)
  else unknown

/-- `isBoolType`, tcompact_protocol.go:804-806. -/
def isBoolType (b : Byte) : Bool := b &&& 0x0f = CT.BOOLEAN_TRUE || b &&& 0x0f = CT.BOOLEAN_FALSE

/-! ## Internal writing methods -/

/-- `writeByteDirect`, tcompact_protocol.go:715-717. -/
def writeByteDirect (b : Byte) : P Cmp (Nat × GoErr) := P.write [b]

/-- The loops of `writeVarint32` and `writeVarint64` (same text, different
width), tcompact_protocol.go:645-664, 669-685.  `slots` is what is left of the
fixed buffer (5 or 10 bytes); storing past its end is an index panic, here
`none`. -/
def varintBytes : (slots : Nat) → BitVec w → Option Bytes
  | 0, _ => none
  | slots + 1, n =>
    if n &&& ~~~ (0x7F : BitVec w) = 0 then some [n.setWidth 8]
    else (varintBytes slots (n >>> 7)).map fun bs => ((n &&& 0x7F) ||| 0x80).setWidth 8 :: bs

/-- `writeVarint32`, tcompact_protocol.go:645-664. -/
def writeVarint32 (n : I32) : P Cmp (Nat × GoErr) :=
  match varintBytes 5 n with
  | some bs => P.write bs
  | none => P.panic

/-- `writeVarint64`, tcompact_protocol.go:669-685. -/
def writeVarint64 (n : I64) : P Cmp (Nat × GoErr) :=
  match varintBytes 10 n with
  | some bs => P.write bs
  | none => P.panic

/-- `int64ToZigzag`, tcompact_protocol.go:691-693. -/
def int64ToZigzag (l : I64) : I64 := (l <<< 1) ^^^ (l.sshiftRight 63)

/-- `int32ToZigzag`, tcompact_protocol.go:699-701. -/
def int32ToZigzag (n : I32) : I32 := (n <<< 1) ^^^ (n.sshiftRight 31)

/-- `zigzagToInt32`, tcompact_protocol.go:769-772. -/
def zigzagToInt32 (n : I32) : I32 := (n >>> 1) ^^^ (-(n &&& 1))

/-- `zigzagToInt64`, tcompact_protocol.go:777-780. -/
def zigzagToInt64 (n : I64) : I64 := (n >>> 1) ^^^ (-(n &&& 1))

/-! ## Public writing methods -/

/-- `WriteByte`, tcompact_protocol.go:282-285. -/
def writeByte (value : Byte) : P Cmp GoErr := do
  let (_, err) ← writeByteDirect value
  return protocolFromOsError err

/-- `WriteI16`, tcompact_protocol.go:290-293. -/
def writeI16 (value : I16) : P Cmp GoErr := do
  let (_, err) ← writeVarint32 (int32ToZigzag (value.signExtend 32))
  return protocolFromOsError err

/-- `WriteI32`, tcompact_protocol.go:298-301. -/
def writeI32 (value : I32) : P Cmp GoErr := do
  let (_, err) ← writeVarint32 (int32ToZigzag value)
  return protocolFromOsError err

/-- `WriteI64`, tcompact_protocol.go:306-309. -/
def writeI64 (value : I64) : P Cmp GoErr := do
  let (_, err) ← writeVarint64 (int64ToZigzag value)
  return protocolFromOsError err

/-- `binary.LittleEndian.PutUint64`. -/
def putUint64LE (v : BitVec 64) : Bytes :=
  [v.setWidth 8, (v >>> 8).setWidth 8, (v >>> 16).setWidth 8, (v >>> 24).setWidth 8,
   (v >>> 32).setWidth 8, (v >>> 40).setWidth 8, (v >>> 48).setWidth 8, (v >>> 56).setWidth 8]

/-- `binary.LittleEndian.Uint64`. -/
def uint64LE : Bytes → BitVec 64
  | a :: b :: c :: d :: e :: f :: g :: h :: _ =>
    a.setWidth 64 ||| b.setWidth 64 <<< 8 ||| c.setWidth 64 <<< 16 ||| d.setWidth 64 <<< 24 |||
    e.setWidth 64 <<< 32 ||| f.setWidth 64 <<< 40 ||| g.setWidth 64 <<< 48 ||| h.setWidth 64 <<< 56
  | _ => 0

/-- `WriteDouble`, tcompact_protocol.go:314-319. -/
def writeDouble (value : F64) : P Cmp GoErr := do
  let (_, err) ← P.write (putUint64LE value)
  return protocolFromOsError err

/-- `WriteBinary`, tcompact_protocol.go:333-343. -/
def writeBinary (bin : Bytes) : P Cmp GoErr := do
  let (_, e) ← writeVarint32 (BitVec.ofNat 32 bin.length)
  if e.isSome then return protocolFromOsError e
  if bin.length > 0 then
    let (_, e) ← P.write bin
    return protocolFromOsError e
  return none

/-- `WriteString`, tcompact_protocol.go:324-328. -/
def writeString (value : Bytes) : P Cmp GoErr := writeBinary value

/-- `WriteMessageBegin`, tcompact_protocol.go:127-143. -/
def writeMessageBegin (name : Bytes) (typeId : TMessageType) (seqid : I32) : P Cmp GoErr := do
  let (_, err) ← writeByteDirect PROTOCOL_ID
  if err.isSome then return protocolFromOsError err
  let (_, err) ← writeByteDirect ((VERSION &&& VERSION_MASK) |||
    ((typeId.setWidth 8 <<< 5) &&& TYPE_MASK))
  if err.isSome then return protocolFromOsError err
  let (_, err) ← writeVarint32 seqid
  if err.isSome then return protocolFromOsError err
  writeString name

/-- `WriteMessageEnd`, `WriteFieldEnd`, `WriteMapEnd`, `WriteListEnd`,
`WriteSetEnd` and the matching reads: nothing on the wire,
tcompact_protocol.go:145, 221, 241, 251, 261, 378, 444, 470, 500, 512. -/
def nop : P Cmp GoErr := return none

/-- `WriteStructBegin`, tcompact_protocol.go:152-156. -/
def writeStructBegin (_ : Bytes) : P Cmp GoErr := do
  P.modify fun s => { s with lastField := s.lastFieldId :: s.lastField, lastFieldId := 0 }
  return none

/-- `WriteStructEnd`, tcompact_protocol.go:163-167; an empty stack is an index
panic. -/
def writeStructEnd : P Cmp GoErr := do
  let s ← P.get
  match s.lastField with
  | [] => P.panic
  | top :: rest =>
    P.modify fun s => { s with lastField := rest, lastFieldId := top }
    return none

/-- `writeFieldBeginInternal`, tcompact_protocol.go:184-219.  `typeOverride`
is `none` for the Go value `0xFF`.  The byte count in the result is not used by
any caller and left out. -/
def writeFieldBeginInternal (typeId : TType) (id : I16) (typeOverride : Option Byte) : P Cmp GoErr := do
  let typeToWrite ← match typeOverride with
    | none => getCompactType typeId
    | some b => pure b
  let fieldId := id.toInt
  let s ← P.get
  if fieldId > s.lastFieldId ∧ fieldId - s.lastFieldId ≤ 15 then
    let (_, err) ← writeByteDirect (BitVec.ofInt 8 ((fieldId - s.lastFieldId) * 16) ||| typeToWrite)
    if err.isSome then return err
    P.modify fun s => { s with lastFieldId := fieldId }
    return none
  else
    let (_, err) ← writeByteDirect typeToWrite
    if err.isSome then return err
    let err ← writeI16 id
    if err.isSome then return err
    P.modify fun s => { s with lastFieldId := fieldId }
    return none

/-- `WriteFieldBegin`, tcompact_protocol.go:169-177. -/
def writeFieldBegin (name : Bytes) (typeId : TType) (id : I16) : P Cmp GoErr := do
  if typeId = TT.BOOL then
    P.modify fun s => { s with booleanField := some (name, typeId, id.toInt) }
    return none
  let err ← writeFieldBeginInternal typeId id none
  return protocolFromOsError err

/-- `WriteFieldStop`, tcompact_protocol.go:223-226. -/
def writeFieldStop : P Cmp GoErr := do
  let (_, err) ← writeByteDirect TT.STOP
  return protocolFromOsError err

/-- `WriteMapBegin`, tcompact_protocol.go:228-239. -/
def writeMapBegin (keyType valueType : TType) (size : Int) : P Cmp GoErr := do
  if size = 0 then
    let (_, err) ← writeByteDirect 0
    return protocolFromOsError err
  let (_, err) ← writeVarint32 (BitVec.ofInt 32 size)
  if err.isSome then return protocolFromOsError err
  let k ← getCompactType keyType
  let v ← getCompactType valueType
  let (_, err) ← writeByteDirect (k <<< 4 ||| v)
  return protocolFromOsError err

/-- `writeCollectionBegin`, tcompact_protocol.go:629-639. -/
def writeCollectionBegin (elemType : TType) (size : Int) : P Cmp GoErr := do
  if size ≤ 14 then
    let t ← getCompactType elemType
    let (_, err) ← writeByteDirect (BitVec.ofInt 8 (size * 16) ||| t)
    return err
  let t ← getCompactType elemType
  let (_, err) ← writeByteDirect (0xf0 ||| t)
  if err.isSome then return err
  let (_, err) ← writeVarint32 (BitVec.ofInt 32 size)
  return err

/-- `WriteListBegin`, `WriteSetBegin` (same text), tcompact_protocol.go:246-259. -/
def writeListBegin (elemType : TType) (size : Int) : P Cmp GoErr := do
  let err ← writeCollectionBegin elemType size
  return protocolFromOsError err

/-- `WriteBool`, tcompact_protocol.go:263-277. -/
def writeBool (value : Bool) : P Cmp GoErr := do
  let v := if value then CT.BOOLEAN_TRUE else CT.BOOLEAN_FALSE
  let s ← P.get
  match s.booleanField with
  | some (_, typeId, id) =>
    let err ← writeFieldBeginInternal typeId (BitVec.ofInt 16 id) (some v)
    P.modify fun s => { s with booleanField := none }
    return protocolFromOsError err
  | none =>
    let (_, err) ← writeByteDirect v
    return protocolFromOsError err

/-! ## Reading methods -/

/-- `ReadByte`, tcompact_protocol.go:531-538. -/
def readByte : P Cmp (Byte × GoErr) := do
  let r ← P.readAll 1
  if r.err.isSome then return (0, protocolFromOsError r.err)
  return (r.buf.headD 0, none)

/-- The loop of `readVarint64`, tcompact_protocol.go:745-760.  A shift count of
64 or more yields zero, as in Go. -/
def readVarint64Loop : (fuel : Nat) → (shift : Nat) → (result : I64) → P Cmp (I64 × GoErr)
  | 0, _, _ => P.stuck
  | fuel + 1, shift, result => do
    let (b, err) ← readByte
    if err.isSome then return (0, err)
    let result := result ||| ((b &&& 0x7f).setWidth 64 <<< shift)
    if b &&& 0x80 ≠ 0x80 then return (result, none)
    readVarint64Loop fuel (shift + 7) result

/-- `readVarint64`, tcompact_protocol.go:745-760. -/
def readVarint64 (fuel : Nat) : P Cmp (I64 × GoErr) := readVarint64Loop fuel 0 0

/-- `readVarint32`, tcompact_protocol.go:734-739. -/
def readVarint32 (fuel : Nat) : P Cmp (I32 × GoErr) := do
  let (v, err) ← readVarint64 fuel
  return (v.setWidth 32, err)

/-- `ReadI32`, tcompact_protocol.go:551-558. -/
def readI32 (fuel : Nat) : P Cmp (I32 × GoErr) := do
  let (v, e) ← readVarint32 fuel
  if e.isSome then return (0, protocolFromOsError e)
  return (zigzagToInt32 v, none)

/-- `ReadI16`, tcompact_protocol.go:543-546. -/
def readI16 (fuel : Nat) : P Cmp (I16 × GoErr) := do
  let (v, err) ← readI32 fuel
  return (v.setWidth 16, err)

/-- `ReadI64`, tcompact_protocol.go:563-570. -/
def readI64 (fuel : Nat) : P Cmp (I64 × GoErr) := do
  let (v, e) ← readVarint64 fuel
  if e.isSome then return (0, protocolFromOsError e)
  return (zigzagToInt64 v, none)

/-- `ReadDouble`, tcompact_protocol.go:575-582. -/
def readDouble : P Cmp (F64 × GoErr) := do
  let r ← P.readAll 8
  if r.err.isSome then return (0, protocolFromOsError r.err)
  return (uint64LE r.buf, none)

/-- `ReadBinary`, tcompact_protocol.go:595-607.  The result of `ReadAll` is
ignored; `make` with a negative length panics. -/
def readBinary (fuel : Nat) : P Cmp (Bytes × GoErr) := do
  let (length, e) ← readVarint32 fuel
  if e.isSome then return ([], protocolFromOsError e)
  if length = 0 then return ([], none)
  if length.toInt < 0 then P.panic
  else
    let r ← P.readAll length.toInt.toNat
    return (r.buf, none)

/-- `ReadString`, tcompact_protocol.go:587-590. -/
def readString (fuel : Nat) : P Cmp (Bytes × GoErr) := do
  let (v, e) ← readBinary fuel
  return (v, protocolFromOsError e)

/-- `ReadMessageBegin`, tcompact_protocol.go:352-376. -/
def readMessageBegin (fuel : Nat) : P Cmp ((Bytes × TMessageType × I32) × GoErr) := do
  let (protocolId, _) ← readByte
  if protocolId ≠ PROTOCOL_ID then
    return (([], 0, 0), some (newTProtocolException BAD_VERSION (ascii "Expected protocol id")))
  let (versionAndType, err) ← readByte
  let version := versionAndType &&& VERSION_MASK
  let typeId : TMessageType := ((versionAndType >>> 5) &&& 0x03).setWidth 32
  if err.isSome then return (([], typeId, 0), err)
  if version ≠ VERSION then
    return (([], typeId, 0), some (newTProtocolException BAD_VERSION (ascii "Expected version")))
  let (seqId, e) ← readVarint32 fuel
  if e.isSome then return (([], typeId, seqId), protocolFromOsError e)
  let (name, err) ← readString fuel
  return ((name, typeId, seqId), err)

/-- `ReadStructBegin`, tcompact_protocol.go:384-388. -/
def readStructBegin : P Cmp (Bytes × GoErr) := do
  P.modify fun s => { s with lastField := s.lastFieldId :: s.lastField, lastFieldId := 0 }
  return ([], none)

/-- `ReadStructEnd`, tcompact_protocol.go:394-398: takes the top of the stack
but does not remove it; an empty stack is an index panic. -/
def readStructEnd : P Cmp GoErr := do
  let s ← P.get
  match s.lastField with
  | [] => P.panic
  | top :: _ =>
    P.modify fun s => { s with lastFieldId := top }
    return none

/-- `ReadFieldBegin`, tcompact_protocol.go:403-442.  `int16(p.lastFieldId) +
modifier` wraps. -/
def readFieldBegin (fuel : Nat) : P Cmp ((Bytes × TType × I16) × GoErr) := do
  let (t, err) ← readByte
  if err.isSome then return (([], TT.STOP, 0), err)
  if t &&& 0x0f = TT.STOP then return (([], TT.STOP, 0), none)
  let modifier : I16 := ((t &&& 0xf0) >>> 4).setWidth 16
  let s ← P.get
  let (id, err) ←
    if modifier = 0 then readI16 fuel
    else pure (BitVec.ofInt 16 s.lastFieldId + modifier, none)
  if err.isSome then return (([], TT.STOP, id), err)
  let (typeId, e) := getTType (t &&& 0x0f)
  if e.isSome then return (([], typeId, id), protocolFromOsError e)
  if isBoolType t then
    P.modify fun s => { s with boolValue := t &&& 0x0f = CT.BOOLEAN_TRUE, boolValueIsNotNull := true }
  P.modify fun s => { s with lastFieldId := id.toInt }
  return (([], typeId, id), none)

/-- `ReadMapBegin`, tcompact_protocol.go:451-468. -/
def readMapBegin (fuel : Nat) : P Cmp ((TType × TType × Int) × GoErr) := do
  let (size32, e) ← readVarint32 fuel
  let size := size32.toInt
  if e.isSome then return ((TT.STOP, TT.STOP, size), protocolFromOsError e)
  let (keyAndValueType, err) ←
    if size ≠ 0 then readByte else pure (TT.STOP, none)
  if err.isSome then return ((TT.STOP, TT.STOP, size), err)
  return (((getTType (keyAndValueType >>> 4)).1, (getTType (keyAndValueType &&& 0xf)).1, size), none)

/-- `ReadListBegin` and `ReadSetBegin`, tcompact_protocol.go:478-498, 508-510. -/
def readListBegin (fuel : Nat) : P Cmp ((TType × Int) × GoErr) := do
  let (sizeAndType, err) ← readByte
  if err.isSome then return ((TT.STOP, 0), err)
  let size : Int := ((sizeAndType >>> 4) &&& 0x0f).toNat
  let (size, e) ←
    if size = 15 then
      (do let (size2, e) ← readVarint32 fuel
          return (if e.isSome then size else size2.toInt, e))
    else pure (size, none)
  if e.isSome then return ((TT.STOP, size), protocolFromOsError e)
  let (elemType, e) := getTType sizeAndType
  if e.isSome then return ((elemType, size), protocolFromOsError e)
  return ((elemType, size), none)

/-- `ReadBool`, tcompact_protocol.go:519-526. -/
def readBool : P Cmp (Bool × GoErr) := do
  let s ← P.get
  if s.boolValueIsNotNull then
    P.modify fun s => { s with boolValueIsNotNull := false }
    return (s.boolValue, none)
  let (v, err) ← readByte
  return (v = CT.BOOLEAN_TRUE, err)

/-- `Flush`, tcompact_protocol.go:609-611. -/
def flush : P Cmp GoErr := do
  let e ← P.tflush
  return protocolFromOsError e

end CompactProtocol

open CompactProtocol in
/-- `TCompactProtocol` as a `TProtocol`; `fuel` bounds the varint loop. -/
def compact (fuel : Nat) : Proto Cmp where
  writeMessageBegin := writeMessageBegin
  writeMessageEnd := nop
  writeStructBegin := writeStructBegin
  writeStructEnd := writeStructEnd
  writeFieldBegin := writeFieldBegin
  writeFieldEnd := nop
  writeFieldStop := writeFieldStop
  writeMapBegin := writeMapBegin
  writeMapEnd := nop
  writeListBegin := writeListBegin
  writeListEnd := nop
  writeSetBegin := writeListBegin
  writeSetEnd := nop
  writeBool := writeBool
  writeByte := writeByte
  writeI16 := writeI16
  writeI32 := writeI32
  writeI64 := writeI64
  writeDouble := writeDouble
  writeString := writeString
  writeBinary := writeBinary
  readMessageBegin := readMessageBegin fuel
  readMessageEnd := nop
  readStructBegin := readStructBegin
  readStructEnd := readStructEnd
  readFieldBegin := readFieldBegin fuel
  readFieldEnd := nop
  readMapBegin := readMapBegin fuel
  readMapEnd := nop
  readListBegin := readListBegin fuel
  readListEnd := nop
  readSetBegin := readListBegin fuel
  readSetEnd := nop
  readBool := readBool
  readByte := readByte
  readI16 := readI16 fuel
  readI32 := readI32 fuel
  readI64 := readI64 fuel
  readDouble := readDouble
  readString := readString fuel
  readBinary := readBinary fuel
  flush := flush

end Thrift
