import Verif.Model.Go
/-!
# Thrift values and the binary wire format

Value trees as any Thrift implementation sees them, and the byte sequences that
the Thrift binary protocol specification assigns to them.  Written from the
specification, independently of the model.
-/

namespace Thrift

mutual
/-- A Thrift value.  Empty containers keep their declared element types. -/
inductive Val where
  | bool (b : Bool)
  | byte (b : Byte)
  | i16 (v : I16)
  | i32 (v : I32)
  | i64 (v : I64)
  | double (v : F64)
  | str (b : Bytes)
  | struct (fs : Fields)
  | map (kt vt : Byte) (ps : Pairs)
  | set (t : Byte) (vs : Vals)
  | list (t : Byte) (vs : Vals)
/-- Struct fields in wire order. -/
inductive Fields where
  | nil
  | cons (id : I16) (v : Val) (rest : Fields)
/-- Elements of a list or set. -/
inductive Vals where
  | nil
  | cons (v : Val) (rest : Vals)
/-- Entries of a map. -/
inductive Pairs where
  | nil
  | cons (k v : Val) (rest : Pairs)
end

deriving instance DecidableEq for Val, Fields, Vals, Pairs
deriving instance Repr for Val, Fields, Vals, Pairs

def Vals.length : Vals → Nat
  | .nil => 0
  | .cons _ r => r.length + 1
def Pairs.length : Pairs → Nat
  | .nil => 0
  | .cons _ _ r => r.length + 1
def Fields.length : Fields → Nat
  | .nil => 0
  | .cons _ _ r => r.length + 1

/-- The fields in the order of a list. -/
def Fields.ofList : List (I16 × Val) → Fields
  | [] => .nil
  | (id, v) :: r => .cons id v (Fields.ofList r)

/-- The wire type code of a value. -/
def Val.type : Val → Byte
  | .bool _ => 2
  | .byte _ => 3
  | .double _ => 4
  | .i16 _ => 6
  | .i32 _ => 8
  | .i64 _ => 10
  | .str _ => 11
  | .struct _ => 12
  | .map .. => 13
  | .set .. => 14
  | .list .. => 15

/-- Type codes that can occur on the wire. -/
def IsWireType (t : Byte) : Prop := t ∈ ([2, 3, 4, 6, 8, 10, 11, 12, 13, 14, 15] : List Byte)

instance : DecidablePred IsWireType := fun t => inferInstanceAs (Decidable (t ∈ _))

mutual
/-- A value that a Thrift program can hold: elements have the declared types,
lengths fit into a signed 32-bit integer. -/
def Val.WF : Val → Prop
  | .str b => b.length < 2 ^ 31
  | .struct fs => fs.WF
  | .map kt vt ps => IsWireType kt ∧ IsWireType vt ∧ ps.length < 2 ^ 31 ∧ ps.WF kt vt
  | .set t vs => IsWireType t ∧ vs.length < 2 ^ 31 ∧ vs.WF t
  | .list t vs => IsWireType t ∧ vs.length < 2 ^ 31 ∧ vs.WF t
  | _ => True
def Fields.WF : Fields → Prop
  | .nil => True
  | .cons _ v r => v.WF ∧ r.WF
def Vals.WF (t : Byte) : Vals → Prop
  | .nil => True
  | .cons v r => v.type = t ∧ v.WF ∧ r.WF t
def Pairs.WF (kt vt : Byte) : Pairs → Prop
  | .nil => True
  | .cons k v r => k.type = kt ∧ v.type = vt ∧ k.WF ∧ v.WF ∧ r.WF kt vt
end

mutual
/-- Nesting depth. -/
def Val.depth : Val → Nat
  | .struct fs => fs.depth + 1
  | .map _ _ ps => ps.depth + 1
  | .set _ vs => vs.depth + 1
  | .list _ vs => vs.depth + 1
  | _ => 0
def Fields.depth : Fields → Nat
  | .nil => 0
  | .cons _ v r => max v.depth r.depth
def Vals.depth : Vals → Nat
  | .nil => 0
  | .cons v r => max v.depth r.depth
def Pairs.depth : Pairs → Nat
  | .nil => 0
  | .cons k v r => max (max k.depth v.depth) r.depth
end

mutual
/-- An upper bound for depth and for the number of fields of any struct. -/
def Val.size : Val → Nat
  | .struct fs => fs.size + 1
  | .map _ _ ps => ps.size + 1
  | .set _ vs => vs.size + 1
  | .list _ vs => vs.size + 1
  | _ => 1
def Fields.size : Fields → Nat
  | .nil => 1
  | .cons _ v r => v.size + r.size
def Vals.size : Vals → Nat
  | .nil => 0
  | .cons v r => v.size + r.size
def Pairs.size : Pairs → Nat
  | .nil => 0
  | .cons k v r => k.size + v.size + r.size
end

/-- Big-endian number of `k` bytes. -/
def be : (k : Nat) → Nat → Bytes
  | 0, _ => []
  | k + 1, v => be k (v / 256) ++ [BitVec.ofNat 8 v]

namespace BinarySpec

mutual
/-- The binary protocol's encoding of a value. -/
def encode : Val → Bytes
  | .bool b => [if b then 1 else 0]
  | .byte b => [b]
  | .i16 v => be 2 v.toNat
  | .i32 v => be 4 v.toNat
  | .i64 v => be 8 v.toNat
  | .double v => be 8 v.toNat
  | .str b => be 4 b.length ++ b
  | .struct fs => encodeFields fs
  | .map kt vt ps => [kt, vt] ++ be 4 ps.length ++ encodePairs ps
  | .set t vs => [t] ++ be 4 vs.length ++ encodeVals vs
  | .list t vs => [t] ++ be 4 vs.length ++ encodeVals vs
def encodeFields : Fields → Bytes
  | .nil => [0]
  | .cons id v r => [v.type] ++ be 2 id.toNat ++ encode v ++ encodeFields r
def encodeVals : Vals → Bytes
  | .nil => []
  | .cons v r => encode v ++ encodeVals r
def encodePairs : Pairs → Bytes
  | .nil => []
  | .cons k v r => encode k ++ encode v ++ encodePairs r
end

/-- The strict message header: version word with the message type, name,
sequence number. -/
def messageStrict (name : Bytes) (typeId seqid : I32) : Bytes :=
  be 4 (0x80010000 + typeId.toNat) ++ be 4 name.length ++ name ++ be 4 seqid.toNat

/-- The old message header without version. -/
def messageOld (name : Bytes) (typeId seqid : I32) : Bytes :=
  be 4 name.length ++ name ++ be 1 typeId.toNat ++ be 4 seqid.toNat

end BinarySpec

end Thrift
