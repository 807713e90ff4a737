import Verif.Spec.Value
/-!
# What bytes may stand for a value in a lenient binary reader

`Loose` says which bytes are taken for which value by a reader that takes every byte
but 1 for `false`, and negative lengths and counts for 0.  For values without
booleans, empty strings and empty containers it is the encoding of the
specification.
-/

namespace Thrift.BinarySpec

mutual
def Loose : Val → Bytes → Prop
  | .bool b, bs => ∃ x : Byte, (b = true ↔ x = 1) ∧ bs = [x]
  | .str b, bs => ∃ n : I32, b.length = n.toInt.toNat ∧ bs = be 4 n.toNat ++ b
  | .struct fs, bs => LooseFields fs bs
  | .map kt vt ps, bs => ∃ (n : I32) (c : Bytes), ps.length = n.toInt.toNat ∧ LoosePairs kt vt ps c ∧ bs = [kt, vt] ++ be 4 n.toNat ++ c
  | .set t vs, bs => ∃ (n : I32) (c : Bytes), vs.length = n.toInt.toNat ∧ LooseVals t vs c ∧ bs = [t] ++ be 4 n.toNat ++ c
  | .list t vs, bs => ∃ (n : I32) (c : Bytes), vs.length = n.toInt.toNat ∧ LooseVals t vs c ∧ bs = [t] ++ be 4 n.toNat ++ c
  | .byte b, bs => bs = [b]
  | .i16 v, bs => bs = be 2 v.toNat
  | .i32 v, bs => bs = be 4 v.toNat
  | .i64 v, bs => bs = be 8 v.toNat
  | .double v, bs => bs = be 8 v.toNat
def LooseFields : Fields → Bytes → Prop
  | .nil, bs => bs = [0]
  | .cons id v r, bs => ∃ a c : Bytes, Loose v a ∧ LooseFields r c ∧ bs = [v.type] ++ be 2 id.toNat ++ a ++ c
def LooseVals (t : Byte) : Vals → Bytes → Prop
  | .nil, bs => bs = []
  | .cons v r, bs => v.type = t ∧ ∃ a c : Bytes, Loose v a ∧ LooseVals t r c ∧ bs = a ++ c
def LoosePairs (kt vt : Byte) : Pairs → Bytes → Prop
  | .nil, bs => bs = []
  | .cons k v r, bs => k.type = kt ∧ v.type = vt ∧
    ∃ a b c : Bytes, Loose k a ∧ Loose v b ∧ LoosePairs kt vt r c ∧ bs = a ++ b ++ c
end

/-- Which bytes are taken for which message header: the version word with any third
byte and a lenient name, and unless the reader is strict a name followed by type and
sequence number. -/
def LooseMessage (strict : Bool) (name : Bytes) (typeId seqid : I32) (bs : Bytes) : Prop :=
  (∃ (x y : Byte) (a : Bytes), typeId = y.setWidth 32 ∧ Loose (.str name) a ∧ bs = [0x80, 0x01, x, y] ++ a ++ be 4 seqid.toNat) ∨
  (strict = false ∧ name.length < 2 ^ 31 ∧ ∃ y : Byte, typeId = y.setWidth 32 ∧
    bs = be 4 name.length ++ name ++ [y] ++ be 4 seqid.toNat)

mutual
/-- Nothing in the value has two forms: no booleans, no empty strings or containers. -/
def Tight : Val → Prop
  | .bool _ => False
  | .str b => b ≠ []
  | .struct fs => TightFields fs
  | .map _ _ ps => ps ≠ .nil ∧ TightPairs ps
  | .set _ vs => vs ≠ .nil ∧ TightVals vs
  | .list _ vs => vs ≠ .nil ∧ TightVals vs
  | _ => True
def TightFields : Fields → Prop
  | .nil => True
  | .cons _ v r => Tight v ∧ TightFields r
def TightVals : Vals → Prop
  | .nil => True
  | .cons v r => Tight v ∧ TightVals r
def TightPairs : Pairs → Prop
  | .nil => True
  | .cons k v r => Tight k ∧ Tight v ∧ TightPairs r
end

end Thrift.BinarySpec
