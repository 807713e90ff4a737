import Verif.Spec.Value
import Verif.Model.Json
/-!
# JSON documents and the JSON format of the library

The grammar of JSON (RFC 8259, without white space), UTF-8 text, what is assumed
of the Go library functions, and the document that the tagged JSON protocol is to
write for a value.  Written independently of the model's helpers.
-/

namespace Thrift
namespace JsonSpec

/-! ## The grammar of JSON -/

def IsDigit (b : Byte) : Prop := 48 ≤ b.toNat ∧ b.toNat ≤ 57
def IsHex (b : Byte) : Prop := IsDigit b ∨ (65 ≤ b.toNat ∧ b.toNat ≤ 70) ∨ (97 ≤ b.toNat ∧ b.toNat ≤ 102)

/-- A row of digits, at least one. -/
def Digits (s : Bytes) : Prop := s ≠ [] ∧ ∀ b ∈ s, IsDigit b

/-- The part of a number before the point: no leading zeros. -/
def IntPart (s : Bytes) : Prop := s = [48] ∨ Digits s ∧ s.head? ≠ some 48

/-- A number: sign, integer part, fraction, exponent. -/
def IsNumber (s : Bytes) : Prop :=
  ∃ sign int frac exp : Bytes, s = sign ++ int ++ frac ++ exp ∧
    (sign = [] ∨ sign = [45]) ∧ IntPart int ∧
    (frac = [] ∨ ∃ d, frac = 46 :: d ∧ Digits d) ∧
    (exp = [] ∨ ∃ e sg d, exp = e :: (sg ++ d) ∧ (e = 101 ∨ e = 69) ∧ (sg = [] ∨ sg = [43] ∨ sg = [45]) ∧ Digits d)

/-- What may stand between the quotes of a string. -/
inductive Chars : Bytes → Prop
  | nil : Chars []
  | plain (b r) : 32 ≤ b.toNat → b ≠ 34 → b ≠ 92 → Chars r → Chars (b :: r)
  | escape (b r) : b ∈ ascii "\"\\/bfnrt" → Chars r → Chars (92 :: b :: r)
  | unicode (a b c d r) : IsHex a → IsHex b → IsHex c → IsHex d → Chars r → Chars (92 :: 117 :: a :: b :: c :: d :: r)

def IsString (s : Bytes) : Prop := ∃ body, s = 34 :: (body ++ [34]) ∧ Chars body

mutual
/-- A JSON value. -/
inductive IsValue : Bytes → Prop
  | null : IsValue (ascii "null")
  | true : IsValue (ascii "true")
  | false : IsValue (ascii "false")
  | number (s) : IsNumber s → IsValue s
  | string (s) : IsString s → IsValue s
  | emptyArray : IsValue (ascii "[]")
  | array (s) : IsElements s → IsValue (91 :: (s ++ [93]))
  | emptyObject : IsValue (ascii "{}")
  | object (s) : IsMembers s → IsValue (123 :: (s ++ [125]))
/-- Values with commas between them. -/
inductive IsElements : Bytes → Prop
  | last (v) : IsValue v → IsElements v
  | more (v r) : IsValue v → IsElements r → IsElements (v ++ 44 :: r)
/-- Members with commas between them. -/
inductive IsMembers : Bytes → Prop
  | last (k v) : IsString k → IsValue v → IsMembers (k ++ 58 :: v)
  | more (k v r) : IsString k → IsValue v → IsMembers r → IsMembers (k ++ 58 :: v ++ 44 :: r)
end

/-! ## Text -/

/-- A continuation byte. -/
def IsTail (b : Byte) : Prop := 128 ≤ b.toNat ∧ b.toNat < 192

/-- Well-formed UTF-8 (Unicode, table 3-7). -/
inductive Utf8 : Bytes → Prop
  | nil : Utf8 []
  | one (a r) : a.toNat < 128 → Utf8 r → Utf8 (a :: r)
  | two (a b r) : 194 ≤ a.toNat → a.toNat < 224 → IsTail b → Utf8 r → Utf8 (a :: b :: r)
  | three (a b c r) : 224 ≤ a.toNat → a.toNat < 240 → IsTail b → IsTail c →
      (a.toNat = 224 → 160 ≤ b.toNat) → (a.toNat = 237 → b.toNat < 160) → Utf8 r → Utf8 (a :: b :: c :: r)
  | four (a b c d r) : 240 ≤ a.toNat → a.toNat < 245 → IsTail b → IsTail c → IsTail d →
      (a.toNat = 240 → 144 ≤ b.toNat) → (a.toNat = 244 → b.toNat < 144) → Utf8 r → Utf8 (a :: b :: c :: d :: r)

/-- Letters, digits and the minus sign: characters that no JSON encoder escapes. -/
def IsPlain (b : Byte) : Prop :=
  IsDigit b ∨ (65 ≤ b.toNat ∧ b.toNat ≤ 90) ∨ (97 ≤ b.toNat ∧ b.toNat ≤ 122) ∨ b = 45

/-- A floating point number that is neither infinite nor NaN: the exponent field
is not all ones (IEEE 754). -/
def Finite (v : F64) : Prop := v.toNat / 2 ^ 52 % 2 ^ 11 ≠ 2 ^ 11 - 1

instance (v : F64) : Decidable (Finite v) := inferInstanceAs (Decidable (_ ≠ _))

/-- What the documentation of `encoding/json` and `strconv` promises. -/
structure Lawful (L : JsonLib) : Prop where
  quote_string (s : Bytes) : Utf8 s → IsString (L.quote s)
  quote_plain (s : Bytes) : (∀ b ∈ s, IsPlain b) → L.quote s = 34 :: (s ++ [34])
  unquote_quote (s : Bytes) : Utf8 s → L.unquote (L.quote s) = some s
  format_number (v : F64) : Finite v → IsNumber (L.format v)
  parse_format (v : F64) : Finite v → L.parse (L.format v) = v

/-! ## The tagged format -/

/-- The decimal digits of a number. -/
def digits (n : Nat) : Bytes :=
  if n < 10 then [BitVec.ofNat 8 (48 + n)] else digits (n / 10) ++ [BitVec.ofNat 8 (48 + n % 10)]
termination_by n

/-- Decimal text of an integer. -/
def decimal (n : Int) : Bytes := if n < 0 then 45 :: digits n.natAbs else digits n.natAbs

/-- The names of the wire types. -/
def typeName (t : Byte) : Bytes :=
  match t.toNat with
  | 2 => ascii "tf"
  | 3 => ascii "i8"
  | 4 => ascii "dbl"
  | 6 => ascii "i16"
  | 8 => ascii "i32"
  | 10 => ascii "i64"
  | 11 => ascii "str"
  | 12 => ascii "rec"
  | 13 => ascii "map"
  | 14 => ascii "set"
  | 15 => ascii "lst"
  | _ => []

/-- Between quotes. -/
def inQuotes (s : Bytes) : Bytes := 34 :: (s ++ [34])

/-- Floating point numbers: those that JSON cannot express are given as strings. -/
def doubleText (L : JsonLib) (v : F64) : Bytes :=
  if Finite v then L.format v
  else if v = 0x7ff0000000000000 then ascii "\"Infinity\""
  else if v = 0xfff0000000000000 then ascii "\"-Infinity\""
  else ascii "\"NaN\""

mutual
/-- The document for a value: structs are objects with a member
`"id":{"type":value}` per field; lists and sets are arrays that begin with the
element type and the length; maps are arrays that begin with both types and the
length, followed by keys and values in turn. -/
def text (L : JsonLib) : Val → Bytes
  | .bool b => if b then ascii "true" else ascii "false"
  | .byte b => decimal b.toNat
  | .i16 v => decimal v.toInt
  | .i32 v => decimal v.toInt
  | .i64 v => decimal v.toInt
  | .double v => doubleText L v
  | .str b => L.quote b
  | .struct fs => 123 :: (members L fs ++ [125])
  | .map kt vt ps => 91 :: (inQuotes (typeName kt) ++ 44 :: (inQuotes (typeName vt) ++ 44 :: (decimal ps.length ++ (pairs L ps ++ [93]))))
  | .set t vs => 91 :: (decimal t.toNat ++ 44 :: (decimal vs.length ++ (elements L vs ++ [93])))
  | .list t vs => 91 :: (decimal t.toNat ++ 44 :: (decimal vs.length ++ (elements L vs ++ [93])))
/-- Members with commas between them. -/
def members (L : JsonLib) : Fields → Bytes
  | .nil => []
  | .cons id v .nil => inQuotes (decimal id.toInt) ++ 58 :: 123 :: (inQuotes (typeName v.type) ++ 58 :: (text L v ++ [125]))
  | .cons id v (.cons id' v' r) => inQuotes (decimal id.toInt) ++ 58 :: 123 :: (inQuotes (typeName v.type) ++ 58 :: (text L v ++ 125 :: 44 ::
      members L (.cons id' v' r)))
/-- Elements, each after a comma. -/
def elements (L : JsonLib) : Vals → Bytes
  | .nil => []
  | .cons v r => 44 :: (text L v ++ elements L r)
/-- Keys and values, each after a comma. -/
def pairs (L : JsonLib) : Pairs → Bytes
  | .nil => []
  | .cons k v r => 44 :: (text L k ++ 44 :: (text L v ++ pairs L r))
end

/-- The document for a message: version, name, type, sequence number, struct. -/
def message (L : JsonLib) (name : Bytes) (type : Byte) (seq : I32) (v : Val) : Bytes :=
  91 :: (decimal 1 ++ 44 :: (L.quote name ++ 44 :: (decimal type.toNat ++ 44 :: (decimal seq.toInt ++ 44 :: (text L v ++ [93])))))

mutual
/-- All strings of the value are text. -/
def TextOnly : Val → Prop
  | .str b => Utf8 b
  | .struct fs => TextOnlyF fs
  | .map _ _ ps => TextOnlyP ps
  | .set _ vs => TextOnlyV vs
  | .list _ vs => TextOnlyV vs
  | _ => True
def TextOnlyF : Fields → Prop
  | .nil => True
  | .cons _ v r => TextOnly v ∧ TextOnlyF r
def TextOnlyV : Vals → Prop
  | .nil => True
  | .cons v r => TextOnly v ∧ TextOnlyV r
def TextOnlyP : Pairs → Prop
  | .nil => True
  | .cons k v r => TextOnly k ∧ TextOnly v ∧ TextOnlyP r
end

mutual
/-- The only NaN in the value is Go's (`math.NaN`); JSON has one name for all. -/
def OneNaN : Val → Prop
  | .double v => F64.isNaN v = true → v = 0x7ff8000000000001
  | .struct fs => OneNaNF fs
  | .map _ _ ps => OneNaNP ps
  | .set _ vs => OneNaNV vs
  | .list _ vs => OneNaNV vs
  | _ => True
def OneNaNF : Fields → Prop
  | .nil => True
  | .cons _ v r => OneNaN v ∧ OneNaNF r
def OneNaNV : Vals → Prop
  | .nil => True
  | .cons v r => OneNaN v ∧ OneNaNV r
def OneNaNP : Pairs → Prop
  | .nil => True
  | .cons k v r => OneNaN k ∧ OneNaN v ∧ OneNaNP r
end

mutual
/-- Text only, one NaN, and no struct field and no map key or value of type I16. -/
def Readable : Val → Prop
  | .double v => F64.isNaN v = true → v = 0x7ff8000000000001
  | .str b => Utf8 b
  | .struct fs => ReadableF fs
  | .map kt vt ps => kt ≠ TT.I16 ∧ vt ≠ TT.I16 ∧ ReadableP ps
  | .set _ vs => ReadableV vs
  | .list _ vs => ReadableV vs
  | _ => True
def ReadableF : Fields → Prop
  | .nil => True
  | .cons _ v r => v.type ≠ TT.I16 ∧ Readable v ∧ ReadableF r
def ReadableV : Vals → Prop
  | .nil => True
  | .cons v r => Readable v ∧ ReadableV r
def ReadableP : Pairs → Prop
  | .nil => True
  | .cons k v r => Readable k ∧ Readable v ∧ ReadableP r
end


end JsonSpec
end Thrift
