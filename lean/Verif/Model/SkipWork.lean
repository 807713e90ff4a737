import Verif.Model.Skip
import Verif.Spec.Value
/-!
# How often `Skip` is called

`skip` with a counter of its calls.  That it is otherwise the same is
`C208_same`.
-/

namespace Thrift

/-- `repeatN`, adding up what the rounds return. -/
def repeatWork : Nat → P π Nat → P π Nat
  | 0, _ => pure 0
  | n + 1, body => do
    let a ← body
    let b ← repeatWork n body
    return a + b

/-- `skipFields` with the calls made for the fields, tprotocol.go:151-158. -/
def skipFieldsWork (p : Proto π) (skipValue : TType → P π (GoErr × Nat)) : (fuel : Nat) → P π Nat
  | 0 => P.stuck
  | fuel + 1 => do
    let ((_, typeId, _), _) ← p.readFieldBegin
    if typeId = TT.STOP then return 0
    let (_, a) ← skipValue typeId
    let _ ← p.readFieldEnd
    let b ← skipFieldsWork p skipValue fuel
    return a + b

/-- `Skip`, tprotocol.go:120-200, with the number of calls of `Skip` made,
itself included. -/
def skipWork (p : Proto π) (msd : Int) : (fuel : Nat) → TType → (maxDepth : Int) → P π (GoErr × Nat)
  | 0, _, _ => P.stuck
  | fuel + 1, fieldType, maxDepth =>
    if fieldType = TT.STOP then return (none, 1)
    else if fieldType = TT.BOOL then do return ((← p.readBool).2, 1)
    else if fieldType = TT.BYTE then do return ((← p.readByte).2, 1)
    else if fieldType = TT.I16 then do return ((← p.readI16).2, 1)
    else if fieldType = TT.I32 then do return ((← p.readI32).2, 1)
    else if fieldType = TT.I64 then do return ((← p.readI64).2, 1)
    else if fieldType = TT.DOUBLE then do return ((← p.readDouble).2, 1)
    else if fieldType = TT.STRING then do return ((← p.readString).2, 1)
    else if fieldType = TT.STRUCT then do
      let (_, err) ← p.readStructBegin
      if err.isSome then return (err, 1)
      let n ← skipFieldsWork p (fun t => skipWork p msd fuel t (maxDepth - 1)) fuel
      let e ← p.readStructEnd
      return (e, n + 1)
    else if fieldType = TT.MAP then do
      let ((keyType, valueType, l), err) ← p.readMapBegin
      if err.isSome then return (err, 1)
      let n ← repeatWork l.toNat (do
        let (_, a) ← skipWork p msd fuel keyType (maxDepth - 1)
        let (_, b) ← skipWork p msd fuel valueType msd
        return a + b)
      let e ← p.readMapEnd
      return (e, n + 1)
    else if fieldType = TT.SET then do
      let ((elemType, l), err) ← p.readSetBegin
      if err.isSome then return (err, 1)
      let n ← repeatWork l.toNat (do let (_, a) ← skipWork p msd fuel elemType (maxDepth - 1); return a)
      let e ← p.readSetEnd
      return (e, n + 1)
    else if fieldType = TT.LIST then do
      let ((elemType, l), err) ← p.readListBegin
      if err.isSome then return (err, 1)
      let n ← repeatWork l.toNat (do let (_, a) ← skipWork p msd fuel elemType (maxDepth - 1); return a)
      let e ← p.readListEnd
      return (e, n + 1)
    else return (none, 1)

/-! ## How many values there are in a value -/

mutual
/-- The value itself and all values in it. -/
def Val.nodes : Val → Nat
  | .struct fs => fs.nodes + 1
  | .map _ _ ps => ps.nodes + 1
  | .set _ vs => vs.nodes + 1
  | .list _ vs => vs.nodes + 1
  | .bool _ | .byte _ | .i16 _ | .i32 _ | .i64 _ | .double _ | .str _ => 1
def Fields.nodes : Fields → Nat
  | .nil => 0
  | .cons _ v r => v.nodes + r.nodes
def Vals.nodes : Vals → Nat
  | .nil => 0
  | .cons v r => v.nodes + r.nodes
def Pairs.nodes : Pairs → Nat
  | .nil => 0
  | .cons k v r => (k.nodes + v.nodes) + r.nodes
end

end Thrift
