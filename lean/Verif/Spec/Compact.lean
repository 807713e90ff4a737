import Verif.Spec.Value
import Verif.Spec.Varint
/-!
# The Thrift compact encoding

Stated from the protocol description, independently of the code.
-/

namespace Thrift

/-- Little-endian bytes. -/
def le : (k : Nat) → (v : Nat) → Bytes
  | 0, _ => []
  | k + 1, v => BitVec.ofNat 8 v :: le k (v / 256)

namespace CompactSpec

/-- The compact type code of a wire type (for booleans: true). -/
def typeCode (t : Byte) : Nat :=
  match t.toNat with
  | 2 => 1 | 3 => 3 | 6 => 4 | 8 => 5 | 10 => 6 | 4 => 7 | 11 => 8 | 15 => 9 | 14 => 10 | 13 => 11 | 12 => 12
  | _ => 0

/-- A field header: short form with the id as a difference of 1..15 to the last
id, otherwise the long form. -/
def fieldHeader (last id : Int) (code : Nat) : Bytes :=
  if 1 ≤ id - last ∧ id - last ≤ 15 then [BitVec.ofNat 8 (16 * (id - last).toNat + code)]
  else BitVec.ofNat 8 code :: leb128 (zigzag id)

/-- The header of a list or set. -/
def listHeader (t : Byte) (n : Nat) : Bytes :=
  if n ≤ 14 then [BitVec.ofNat 8 (16 * n + typeCode t)] else BitVec.ofNat 8 (0xf0 + typeCode t) :: leb128 n

/-- The header of a map. -/
def mapHeader (kt vt : Byte) (n : Nat) : Bytes :=
  if n = 0 then [0] else leb128 n ++ [BitVec.ofNat 8 (16 * typeCode kt + typeCode vt)]

/-- The type code in the header of a field; booleans carry their value in it. -/
def fieldCode : Val → Nat
  | .bool true => 1
  | .bool false => 2
  | v => typeCode v.type

mutual
/-- A value outside a field. -/
def encode : Val → Bytes
  | .bool b => [if b then 1 else 2]
  | .byte b => [b]
  | .i16 v => leb128 (zigzag v.toInt)
  | .i32 v => leb128 (zigzag v.toInt)
  | .i64 v => leb128 (zigzag v.toInt)
  | .double v => le 8 v.toNat
  | .str b => leb128 b.length ++ b
  | .struct fs => encodeFields 0 fs
  | .map kt vt ps => mapHeader kt vt ps.length ++ encodePairs ps
  | .set t vs => listHeader t vs.length ++ encodeVals vs
  | .list t vs => listHeader t vs.length ++ encodeVals vs
/-- The fields of a struct after a field with id `last`. -/
def encodeFields (last : Int) : Fields → Bytes
  | .nil => [0]
  | .cons id (.bool b) r => fieldHeader last id.toInt (if b then 1 else 2) ++ encodeFields id.toInt r
  | .cons id v r => fieldHeader last id.toInt (fieldCode v) ++ encode v ++ encodeFields id.toInt r
def encodeVals : Vals → Bytes
  | .nil => []
  | .cons v r => encode v ++ encodeVals r
def encodePairs : Pairs → Bytes
  | .nil => []
  | .cons k v r => encode k ++ encode v ++ encodePairs r
end

/-- The message header. -/
def message (name : Bytes) (typeId seqid : I32) : Bytes :=
  [0x82, BitVec.ofNat 8 (1 + 32 * (typeId.toNat % 8))] ++ leb128 seqid.toNat ++ (leb128 name.length ++ name)

end CompactSpec

/-! An empty map is one zero byte, so its element types are lost. -/
mutual
def Val.norm : Val → Val
  | .struct fs => .struct fs.norm
  | .map kt vt ps => match ps with
    | .nil => .map 0 0 .nil
    | .cons k v r => .map kt vt (.cons k.norm v.norm r.norm)
  | .set t vs => .set t vs.norm
  | .list t vs => .list t vs.norm
  | v => v
def Fields.norm : Fields → Fields
  | .nil => .nil
  | .cons id v r => .cons id v.norm r.norm
def Vals.norm : Vals → Vals
  | .nil => .nil
  | .cons v r => .cons v.norm r.norm
def Pairs.norm : Pairs → Pairs
  | .nil => .nil
  | .cons k v r => .cons k.norm v.norm r.norm
end

/-! The number of structs around one another on the deepest path. -/
mutual
def Val.structDepth : Val → Nat
  | .struct fs => fs.structDepth + 1
  | .map _ _ ps => ps.structDepth
  | .set _ vs => vs.structDepth
  | .list _ vs => vs.structDepth
  | _ => 0
def Fields.structDepth : Fields → Nat
  | .nil => 0
  | .cons _ v r => max v.structDepth r.structDepth
def Vals.structDepth : Vals → Nat
  | .nil => 0
  | .cons v r => max v.structDepth r.structDepth
def Pairs.structDepth : Pairs → Nat
  | .nil => 0
  | .cons k v r => max k.structDepth (max v.structDepth r.structDepth)
end

/-! The number of structs in a value, itself included. -/
mutual
def Val.structs : Val → Nat
  | .struct fs => fs.structs + 1
  | .map _ _ ps => ps.structs
  | .set _ vs => vs.structs
  | .list _ vs => vs.structs
  | _ => 0
def Fields.structs : Fields → Nat
  | .nil => 0
  | .cons _ v r => v.structs + r.structs
def Vals.structs : Vals → Nat
  | .nil => 0
  | .cons v r => v.structs + r.structs
def Pairs.structs : Pairs → Nat
  | .nil => 0
  | .cons k v r => k.structs + (v.structs + r.structs)
end

end Thrift
