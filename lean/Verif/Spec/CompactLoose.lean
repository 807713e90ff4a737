import Verif.Spec.CompactForms
/-!
# What a lenient compact reader takes for a value

`Takes m inp v m' rest`: of the input `inp` a reader takes the value `v` and leaves
`rest`.  The reader cuts numbers to their width, takes negative counts for 0, every
byte but 1 for `false`, any byte whose lower half is 0 for the end of a struct,
fills a string with zeros if the input ends in it, and does not look at the type
codes of maps.  It remembers ids (`Memo`), and what it takes for the id before may be
wrong.
-/

namespace Thrift.CompactSpec

/-- What the reader remembers: an id for each struct it has begun, ended ones
included, the last one first, and the id before. -/
structure Memo where
  begun : List Int
  last : Int
  deriving DecidableEq

/-- A numeral for `n` at the beginning of the input. -/
def Num (inp : Bytes) (n : Nat) (rest : Bytes) : Prop := ∃ bs, Numeral bs n ∧ inp = bs ++ rest

/-- A number as a count or length: the lower 32 bits, negative ones being 0. -/
def count (n : Nat) : Nat := if n % 2 ^ 32 < 2 ^ 31 then n % 2 ^ 32 else 0

/-- The lower half and the upper half of a byte. -/
def low (b : Byte) : Nat := b.toNat % 16
def high (b : Byte) : Nat := b.toNat / 16

/-- The code stands for the type. -/
def CodeOf (c : Nat) (t : Byte) : Prop := IsWireType t ∧ c = typeCode t

/-- The type of elements with that code: that of the code, or 0 for 0. -/
def ElemType (c : Nat) (t : Byte) : Prop := (c = 0 ∧ t = 0) ∨ CodeOf c t

/-- The type of keys or values with that code: that of the code, or else 0. -/
def EntryType (c : Nat) (t : Byte) : Prop := ((¬ ∃ u, CodeOf c u) ∧ t = 0) ∨ CodeOf c t

/-- A list or set of `k` elements of type `t` begins. -/
def ListStart (inp : Bytes) (t : Byte) (k : Nat) (rest : Bytes) : Prop :=
  ∃ b mid, inp = b :: mid ∧ ElemType (low b) t ∧
    ((high b ≠ 15 ∧ k = high b ∧ rest = mid) ∨ (high b = 15 ∧ ∃ n, Num mid n rest ∧ k = count n))

/-- A map of `k` entries begins. -/
def MapStart (inp : Bytes) (kt vt : Byte) (k : Nat) (rest : Bytes) : Prop :=
  ∃ n mid, Num inp n mid ∧ k = count n ∧
    ((n % 2 ^ 32 = 0 ∧ kt = 0 ∧ vt = 0 ∧ rest = mid) ∨
      (n % 2 ^ 32 ≠ 0 ∧ ∃ b, mid = b :: rest ∧ EntryType (high b) kt ∧ EntryType (low b) vt))

/-- A field with that type code and id begins, after a field with id `last`. -/
def FieldStart (last : Int) (inp : Bytes) (c : Nat) (id : I16) (rest : Bytes) : Prop :=
  ∃ b mid, inp = b :: mid ∧ c = low b ∧
    ((high b ≠ 0 ∧ id = BitVec.ofInt 16 (last + high b) ∧ rest = mid) ∨
      (high b = 0 ∧ ∃ n, Num mid n rest ∧ id = BitVec.ofInt 16 (unzigzag (n % 2 ^ 32))))

/-- A string; if the input ends before it does, the rest are zeros. -/
def TakesString (inp : Bytes) (v : Bytes) (rest : Bytes) : Prop :=
  ∃ n mid, Num inp n mid ∧ n % 2 ^ 32 < 2 ^ 31 ∧ v.length = n % 2 ^ 32 ∧
    (mid = v ++ rest ∨ (mid.length < v.length ∧ v = mid ++ List.replicate (v.length - mid.length) 0 ∧ rest = []))

mutual
def Takes : Memo → Bytes → Val → Memo → Bytes → Prop
  | m, inp, .bool v, m', rest => m' = m ∧ ∃ b : Byte, inp = b :: rest ∧ (v = true ↔ b = 1)
  | m, inp, .byte v, m', rest => m' = m ∧ inp = v :: rest
  | m, inp, .i16 v, m', rest => m' = m ∧ ∃ n, Num inp n rest ∧ v = BitVec.ofInt 16 (unzigzag (n % 2 ^ 32))
  | m, inp, .i32 v, m', rest => m' = m ∧ ∃ n, Num inp n rest ∧ v = BitVec.ofInt 32 (unzigzag (n % 2 ^ 32))
  | m, inp, .i64 v, m', rest => m' = m ∧ ∃ n, Num inp n rest ∧ v = BitVec.ofInt 64 (unzigzag (n % 2 ^ 64))
  | m, inp, .double v, m', rest => m' = m ∧ inp = le 8 v.toNat ++ rest
  | m, inp, .str v, m', rest => m' = m ∧ TakesString inp v rest
  | m, inp, .struct fs, m', rest => ∃ m₁ top, TakesFields ⟨m.last :: m.begun, 0⟩ inp fs m₁ rest ∧ m₁.begun.head? = some top ∧
      m' = ⟨m₁.begun, top⟩
  | m, inp, .map kt vt ps, m', rest => ∃ mid, MapStart inp kt vt ps.length mid ∧ TakesPairs m mid kt vt ps m' rest
  | m, inp, .set t vs, m', rest => ∃ mid, ListStart inp t vs.length mid ∧ TakesVals m mid t vs m' rest
  | m, inp, .list t vs, m', rest => ∃ mid, ListStart inp t vs.length mid ∧ TakesVals m mid t vs m' rest
def TakesFields : Memo → Bytes → Fields → Memo → Bytes → Prop
  | m, inp, .nil, m', rest => m' = m ∧ ∃ b, inp = b :: rest ∧ low b = 0
  | m, inp, .cons id v r, m', rest => ∃ c mid mid' m₁, FieldStart m.last inp c id mid ∧ CodeOf c v.type ∧
      ((v = .bool true ∧ mid' = mid ∧ m₁ = ⟨m.begun, id.toInt⟩) ∨
        (v.type ≠ 2 ∧ Takes ⟨m.begun, id.toInt⟩ mid v m₁ mid')) ∧
      TakesFields m₁ mid' r m' rest
def TakesVals : Memo → Bytes → Byte → Vals → Memo → Bytes → Prop
  | m, inp, _, .nil, m', rest => m' = m ∧ rest = inp
  | m, inp, t, .cons v r, m', rest => v.type = t ∧ ∃ m₁ mid, Takes m inp v m₁ mid ∧ TakesVals m₁ mid t r m' rest
def TakesPairs : Memo → Bytes → Byte → Byte → Pairs → Memo → Bytes → Prop
  | m, inp, _, _, .nil, m', rest => m' = m ∧ rest = inp
  | m, inp, kt, vt, .cons k v r, m', rest => k.type = kt ∧ v.type = vt ∧ ∃ m₁ mid m₂ mid₂, Takes m inp k m₁ mid ∧
      Takes m₁ mid v m₂ mid₂ ∧ TakesPairs m₂ mid₂ kt vt r m' rest
end

end Thrift.CompactSpec
