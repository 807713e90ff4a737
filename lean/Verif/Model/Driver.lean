import Verif.Model.Protocol
import Verif.Spec.Value
/-!
# Writing and reading whole values through a protocol

The calls that generated code makes for a value, container or struct
(t_go_generator.cc:1261-1395 struct writer, 2748-2987 serialisation,
1159-1235 struct reader, 2451-2739 deserialisation), for a value tree instead of
the fields of one particular struct.  Field and struct names are written as
empty strings; neither the binary nor the compact protocol looks at them.  The
wrapping of errors by generated code is modelled in `Gen`.
-/

namespace Thrift

mutual
/-- Serialise a value, t_go_generator.cc:2748-2987, 1261-1395. -/
def writeVal (p : Proto π) : Val → P π GoErr
  | .bool b => p.writeBool b
  | .byte b => p.writeByte b
  | .i16 v => p.writeI16 v
  | .i32 v => p.writeI32 v
  | .i64 v => p.writeI64 v
  | .double v => p.writeDouble v
  | .str b => p.writeString b
  | .struct fs => do
    let e ← p.writeStructBegin []
    if e.isSome then return e
    let e ← writeFields p fs
    if e.isSome then return e
    let e ← p.writeFieldStop
    if e.isSome then return e
    p.writeStructEnd
  | .map kt vt ps => do
    let e ← p.writeMapBegin kt vt ps.length
    if e.isSome then return e
    let e ← writePairs p ps
    if e.isSome then return e
    p.writeMapEnd
  | .set t vs => do
    let e ← p.writeSetBegin t vs.length
    if e.isSome then return e
    let e ← writeVals p vs
    if e.isSome then return e
    p.writeSetEnd
  | .list t vs => do
    let e ← p.writeListBegin t vs.length
    if e.isSome then return e
    let e ← writeVals p vs
    if e.isSome then return e
    p.writeListEnd
def writeFields (p : Proto π) : Fields → P π GoErr
  | .nil => return none
  | .cons id v r => do
    let e ← p.writeFieldBegin [] v.type id
    if e.isSome then return e
    let e ← writeVal p v
    if e.isSome then return e
    let e ← p.writeFieldEnd
    if e.isSome then return e
    writeFields p r
def writeVals (p : Proto π) : Vals → P π GoErr
  | .nil => return none
  | .cons v r => do
    let e ← writeVal p v
    if e.isSome then return e
    writeVals p r
def writePairs (p : Proto π) : Pairs → P π GoErr
  | .nil => return none
  | .cons k v r => do
    let e ← writeVal p k
    if e.isSome then return e
    let e ← writeVal p v
    if e.isSome then return e
    writePairs p r
end

/-- The element loop of list and set deserialisation,
t_go_generator.cc:2646-2662, 2712-2739. -/
def readVals (rd : P π (Val × GoErr)) : Nat → P π (Vals × GoErr)
  | 0 => return (.nil, none)
  | n + 1 => do
    let (v, e) ← rd
    if e.isSome then return (.nil, e)
    let (vs, e) ← readVals rd n
    return (.cons v vs, e)

/-- The entry loop of map deserialisation, t_go_generator.cc:2646-2662, 2693-2707. -/
def readPairs (rk rv : P π (Val × GoErr)) : Nat → P π (Pairs × GoErr)
  | 0 => return (.nil, none)
  | n + 1 => do
    let (k, e) ← rk
    if e.isSome then return (.nil, e)
    let (v, e) ← rv
    if e.isSome then return (.nil, e)
    let (ps, e) ← readPairs rk rv n
    return (.cons k v ps, e)

/-- The field loop of a struct reader, t_go_generator.cc:1159-1235. -/
def readFields (p : Proto π) (rd : TType → P π (Val × GoErr)) : (fuel : Nat) → P π (Fields × GoErr)
  | 0 => P.stuck
  | fuel + 1 => do
    let ((_, t, id), e) ← p.readFieldBegin
    if e.isSome then return (.nil, e)
    if t = TT.STOP then return (.nil, none)
    let (v, e) ← rd t
    if e.isSome then return (.nil, e)
    let e ← p.readFieldEnd
    if e.isSome then return (.nil, e)
    let (fs, e) ← readFields p rd fuel
    return (.cons id v fs, e)

/-- Read a value of wire type `t` with the calls of a deserialiser for that
type, t_go_generator.cc:2451-2739; types other than the wire types are an
error.  `fuel` bounds nesting depth and fields per struct. -/
def readVal (p : Proto π) : (fuel : Nat) → TType → P π (Val × GoErr)
  | 0, _ => P.stuck
  | fuel + 1, t =>
    if t = TT.BOOL then do let (v, e) ← p.readBool; return (.bool v, e)
    else if t = TT.BYTE then do let (v, e) ← p.readByte; return (.byte v, e)
    else if t = TT.I16 then do let (v, e) ← p.readI16; return (.i16 v, e)
    else if t = TT.I32 then do let (v, e) ← p.readI32; return (.i32 v, e)
    else if t = TT.I64 then do let (v, e) ← p.readI64; return (.i64 v, e)
    else if t = TT.DOUBLE then do let (v, e) ← p.readDouble; return (.double v, e)
    else if t = TT.STRING then do let (v, e) ← p.readString; return (.str v, e)
    else if t = TT.STRUCT then do
      let (_, e) ← p.readStructBegin
      if e.isSome then return (.struct .nil, e)
      let (fs, e) ← readFields p (readVal p fuel) fuel
      if e.isSome then return (.struct fs, e)
      let e ← p.readStructEnd
      return (.struct fs, e)
    else if t = TT.MAP then do
      let ((kt, vt, n), e) ← p.readMapBegin
      if e.isSome then return (.map kt vt .nil, e)
      let (ps, e) ← readPairs (readVal p fuel kt) (readVal p fuel vt) n.toNat
      if e.isSome then return (.map kt vt ps, e)
      let e ← p.readMapEnd
      return (.map kt vt ps, e)
    else if t = TT.SET then do
      let ((et, n), e) ← p.readSetBegin
      if e.isSome then return (.set et .nil, e)
      let (vs, e) ← readVals (readVal p fuel et) n.toNat
      if e.isSome then return (.set et vs, e)
      let e ← p.readSetEnd
      return (.set et vs, e)
    else if t = TT.LIST then do
      let ((et, n), e) ← p.readListBegin
      if e.isSome then return (.list et .nil, e)
      let (vs, e) ← readVals (readVal p fuel et) n.toNat
      if e.isSome then return (.list et vs, e)
      let e ← p.readListEnd
      return (.list et vs, e)
    else return (.bool false, some ⟨.other, 0, ascii "not a wire type"⟩)

end Thrift
