import Verif.Spec.Compact
/-!
# All the compact encodings of a value

The protocol description leaves choices to a writer: numerals may carry leading
zeros, a field may be in the long form although its id is near, a short list may
have the long header, a boolean element may be 1 for true and 2 or 0 for false,
and the type code of boolean elements may be 1 or 2.
-/

namespace Thrift.CompactSpec

/-- `bs` is a base-128 numeral for `n`, leading zeros permitted. -/
def Numeral (bs : Bytes) (n : Nat) : Prop := IsLeb128 bs ∧ leb128Value bs = n

/-- Which of three choices a writer may take. -/
structure Freedom where
  /-- The code 2 for the type of boolean elements. -/
  elem2 : Prop
  /-- A field that is `false` (code 2 in its header). -/
  falseField : Prop
  /-- The short form for the field after one whose value has structs two or more
  deep. -/
  shortAfterDeep : Prop

/-- Everything the description permits. -/
def all : Freedom := ⟨True, True, True⟩

/-- None of the three. -/
def careful : Freedom := ⟨False, False, False⟩

/-- The type code of elements of type `t`. -/
def ElemCode (fr : Freedom) (t : Byte) (c : Nat) : Prop := c = typeCode t ∨ (fr.elem2 ∧ t = 2 ∧ c = 2)

/-- A header of a field, short or long. -/
def FieldHead (last id : Int) (long : Prop) (code : Nat) (h : Bytes) : Prop :=
  (¬ long ∧ 1 ≤ id - last ∧ id - last ≤ 15 ∧ h = [BitVec.ofNat 8 (16 * (id - last).toNat + code)]) ∨
  ∃ n, Numeral n (zigzag id) ∧ h = BitVec.ofNat 8 code :: n

/-- A header of a list or set. -/
def ListHead (fr : Freedom) (t : Byte) (k : Nat) (h : Bytes) : Prop :=
  ∃ c, ElemCode fr t c ∧ ((k ≤ 14 ∧ h = [BitVec.ofNat 8 (16 * k + c)]) ∨
    ∃ n, Numeral n k ∧ h = BitVec.ofNat 8 (0xf0 + c) :: n)

/-- A header of a map. -/
def MapHead (fr : Freedom) (kt vt : Byte) (k : Nat) (h : Bytes) : Prop :=
  ∃ n, Numeral n k ∧ ((k = 0 ∧ h = n) ∨ (k ≠ 0 ∧ ∃ c d, ElemCode fr kt c ∧ ElemCode fr vt d ∧
    h = n ++ [BitVec.ofNat 8 (16 * c + d)]))

mutual
/-- `bs` is an encoding of the value, outside a field. -/
def Denotes (fr : Freedom) : Val → Bytes → Prop
  | .bool b, bs => (b = true ∧ bs = [1]) ∨ (b = false ∧ (bs = [2] ∨ bs = [0]))
  | .byte b, bs => bs = [b]
  | .i16 v, bs => Numeral bs (zigzag v.toInt)
  | .i32 v, bs => Numeral bs (zigzag v.toInt)
  | .i64 v, bs => Numeral bs (zigzag v.toInt)
  | .double v, bs => bs = le 8 v.toNat
  | .str b, bs => ∃ n, Numeral n b.length ∧ bs = n ++ b
  | .struct fs, bs => DenotesFields fr 0 False fs bs
  | .map kt vt ps, bs => ∃ h r, MapHead fr kt vt ps.length h ∧ DenotesPairs fr ps r ∧ bs = h ++ r
  | .set t vs, bs => ∃ h r, ListHead fr t vs.length h ∧ DenotesVals fr vs r ∧ bs = h ++ r
  | .list t vs, bs => ∃ h r, ListHead fr t vs.length h ∧ DenotesVals fr vs r ∧ bs = h ++ r
/-- `bs` is an encoding of the fields after one with id `last`; the first of them
has to be in the long form if `long`. -/
def DenotesFields (fr : Freedom) (last : Int) (long : Prop) : Fields → Bytes → Prop
  | .nil, bs => bs = [0]
  | .cons id v r, bs => ∃ h body rest, FieldHead last id.toInt long (fieldCode v) h ∧
      ((v = .bool true ∧ body = []) ∨ (fr.falseField ∧ v = .bool false ∧ body = []) ∨
        ((∀ b, v ≠ .bool b) ∧ Denotes fr v body)) ∧
      DenotesFields fr id.toInt (2 ≤ v.structDepth ∧ ¬ fr.shortAfterDeep) r rest ∧ bs = h ++ body ++ rest
def DenotesVals (fr : Freedom) : Vals → Bytes → Prop
  | .nil, bs => bs = []
  | .cons v r, bs => ∃ a b, Denotes fr v a ∧ DenotesVals fr r b ∧ bs = a ++ b
def DenotesPairs (fr : Freedom) : Pairs → Bytes → Prop
  | .nil, bs => bs = []
  | .cons k v r, bs => ∃ a b c, Denotes fr k a ∧ Denotes fr v b ∧ DenotesPairs fr r c ∧ bs = a ++ b ++ c
end

/-- `bs` is an encoding of a message header. -/
def MessageHead (name : Bytes) (typeId seqid : I32) (bs : Bytes) : Prop :=
  ∃ a b, Numeral a seqid.toNat ∧ Numeral b name.length ∧
    bs = [0x82, BitVec.ofNat 8 (1 + 32 * (typeId.toNat % 8))] ++ a ++ b ++ name

end Thrift.CompactSpec
