import Verif.Model.Dyn
/-!
# Numbers and types

`tcompare.go`, `tnumeric.go` and the small methods of `ttype.go:57-253`.
-/

namespace Thrift

/-! ## Comparison helpers -/

/-- `CompareInt16`, tcompare.go:32-40. -/
def compareInt16 (i j : I16) : Int := compareInt i.toInt j.toInt
/-- `CompareInt32`, tcompare.go:42-50. -/
def compareInt32 (i j : I32) : Int := compareInt i.toInt j.toInt
/-- `CompareInt64`, tcompare.go:52-60: the parameters are of type `int32`, so that a
caller has to convert. -/
def compareInt64 (i j : I32) : Int := compareInt i.toInt j.toInt
/-- The loop of `CompareStringArray`, tcompare.go:62-73. -/
def compareStrings : List Bytes → List Bytes → Int
  | x :: xs, y :: ys => let c := compareString x y; if c ≠ 0 then c else compareStrings xs ys
  | _, _ => 0
/-- `CompareStringArray`, tcompare.go:62-73. -/
def compareStringArray (i j : List Bytes) : Int :=
  let c := compareInt i.length j.length
  if c ≠ 0 then c else compareStrings i j
/-- Go's `<` on `float32`. -/
def F32.lt (a b : BitVec 32) : Bool :=
  let mag (v : BitVec 32) : Nat := (v &&& 0x7fffffff).toNat
  let rank (v : BitVec 32) : Int := if v.msb then - (mag v : Int) else mag v
  mag a ≤ 0x7f800000 && mag b ≤ 0x7f800000 && decide (rank a < rank b)
/-- `CompareFloat`, tcompare.go:85-93. -/
def compareFloat (i j : BitVec 32) : Int := if F32.lt j i then 1 else if F32.lt i j then -1 else 0
/-- `CompareDouble`, tcompare.go:95-103. -/
def compareDouble (i j : F64) : Int := if F64.lt j i then 1 else if F64.lt i j then -1 else 0
/-- `CompareBool`, tcompare.go:115-126. -/
def compareBool (i j : Bool) : Int := if i then (if j then 0 else 1) else if j then -1 else 0

/-! ## `Numeric` -/

/-- `numeric`, tnumeric.go:39-44. -/
structure Numeric where
  iValue : I64
  dValue : F64
  sValue : Bytes
  isNil : Bool
  deriving DecidableEq, Repr

namespace Numeric

/-- The values made by `init`, tnumeric.go:158-164. -/
def infinity : Numeric := ⟨0, 0x7ff0000000000000, ascii "Infinity", false⟩
def negativeInfinity : Numeric := ⟨0, 0xfff0000000000000, ascii "-Infinity", false⟩
def nan : Numeric := ⟨0, 0x7ff8000000000001, ascii "NaN", false⟩
def zero : Numeric := ⟨0, 0, ascii "0", false⟩

/-- `NewNumericFromDouble`, tnumeric.go:54-68; `format10` is
`strconv.FormatFloat(·, 'g', 10, 64)`. -/
def ofDouble (L : FloatLib) (format10 : F64 → Bytes) (d : F64) : Numeric :=
  if d = 0x7ff0000000000000 then infinity
  else if d = 0xfff0000000000000 then negativeInfinity
  else if F64.isNaN d then nan
  else ⟨L.toInt d, d, format10 d, false⟩

/-- `NewNumericFromI64`, tnumeric.go:70-75; `string(iValue)` is the character with that
number. -/
def ofI64 (L : FloatLib) (i : I64) : Numeric := ⟨i, L.ofInt i.toInt, runeString i.toInt, false⟩

/-- `NewNumericFromI32`, tnumeric.go:77-82. -/
def ofI32 (L : FloatLib) (i : I32) : Numeric := ⟨i.signExtend 64, L.ofInt i.toInt, runeString i.toInt, false⟩

/-- `NewNumericFromString`, tnumeric.go:84-98. -/
def ofString (L : FloatLib) (s : Bytes) : Numeric :=
  if s = infinity.sValue then infinity
  else if s = negativeInfinity.sValue then negativeInfinity
  else if s = nan.sValue then nan
  else ⟨(parseInt s).1, (L.parse s).1, s, s.length = 0⟩

/-- `NewNullNumeric`, tnumeric.go:118-120. -/
def newNull : Numeric := ⟨0, 0, [], true⟩

/-- `NewNumericFromJSONString`, tnumeric.go:100-116; the three words are
tsimple_json_protocol.go:150-152. -/
def ofJSONString (L : FloatLib) (s : Bytes) (isNull : Bool) : Numeric :=
  if isNull then newNull
  else if s = ascii "Infinity" then infinity
  else if s = ascii "-Infinity" then negativeInfinity
  else if s = ascii "NaN" then nan
  else ⟨(parseInt s).1, (L.parse s).1, s, isNull⟩

/-- `Int64`, `Int32`, `Int16`, `Byte`, tnumeric.go:122-136. -/
def int64 (n : Numeric) : I64 := n.iValue
def int32 (n : Numeric) : I32 := n.iValue.setWidth 32
def int16 (n : Numeric) : I16 := n.iValue.setWidth 16
def byte (n : Numeric) : Byte := n.iValue.setWidth 8
/-- `String`, tnumeric.go:150-152. -/
def string (n : Numeric) : Bytes := n.sValue
/-- `isNull`, tnumeric.go:154-156. -/
def isNull (n : Numeric) : Bool := n.isNil

end Numeric

/-! ## Types -/

/-- `TType.String`, ttype.go:66-104. -/
def TType.name (p : TType) : Bytes :=
  if p = TT.STOP then ascii "STOP"
  else if p = TT.VOID then ascii "VOID"
  else if p = TT.BOOL then ascii "BOOL"
  else if p = TT.BYTE then ascii "BYTE"
  else if p = TT.DOUBLE then ascii "DOUBLE"
  else if p = TT.I16 then ascii "I16"
  else if p = TT.I32 then ascii "I32"
  else if p = TT.I64 then ascii "I64"
  else if p = TT.STRING then ascii "STRING"
  else if p = TT.STRUCT then ascii "STRUCT"
  else if p = TT.MAP then ascii "MAP"
  else if p = TT.SET then ascii "SET"
  else if p = TT.LIST then ascii "LIST"
  else if p = TT.ENUM then ascii "ENUM"
  else if p = TT.UTF16 then ascii "UTF16"
  else if p = TT.GENERIC then ascii "GENERIC"
  else if p = TT.BINARY then ascii "BINARY"
  else ascii "Unknown"

/-- `IsEnum`, ttype.go:126-134. -/
def isEnumType (p : TType) : Bool := p = TT.ENUM
/-- `IsNumericType`, ttype.go:136-144. -/
def isNumericType (p : TType) : Bool :=
  p = TT.ENUM || p = TT.BOOL || p = TT.BYTE || p = TT.DOUBLE || p = TT.I16 || p = TT.I32 || p = TT.I64
/-- `IsStringType`, ttype.go:146-154; `UTF8` is `ENUM`. -/
def isStringType (p : TType) : Bool := p = TT.STRING || p = TT.ENUM || p = TT.UTF16 || p = TT.BINARY
/-- `IsContainer`, ttype.go:156-164. -/
def isContainerType (p : TType) : Bool := p = TT.MAP || p = TT.SET || p = TT.LIST
/-- `IsStruct`, ttype.go:166-174. -/
def isStructType (p : TType) : Bool := p = TT.STRUCT
/-- `IsInt`, ttype.go:206-214. -/
def isIntType (p : TType) : Bool := p = TT.BYTE || p = TT.I16 || p = TT.I32 || p = TT.I64

/-- The argument of `Coerce` and `LessType`: a `TType` or another value. -/
inductive TypeArg where
  | type (t : TType)
  | value (d : Dyn)

/-- `TType.Coerce`, ttype.go:216-249; `toInt32` and `toInt` are `int(b)`.  There is no case
for `int16` and `uint16`. -/
def coerceType (L : FloatLib) : TypeArg → TType
  | .type t => t
  | .value (.byte b) => b
  | .value (.int v) => v.setWidth 8
  | .value (.int8 v) => v
  | .value (.int32 v) => v.setWidth 8
  | .value (.int64 v) => v.setWidth 8
  | .value (.uint v) => v.setWidth 8
  | .value (.uint32 v) => v.setWidth 8
  | .value (.uint64 v) => v.setWidth 8
  | .value (.float32 v) => (L.toInt32 v).setWidth 8
  | .value (.float64 v) => (L.toInt v).setWidth 8
  | _ => TT.STOP

/-- `LessType`, ttype.go:251-253. -/
def lessType (L : FloatLib) (p : TType) (other : TypeArg) : Bool := p.toNat < (coerceType L other).toNat

/-- `TType.Equals`, ttype.go:506-508. -/
def equalsType (L : FloatLib) (p : TType) (other : TypeArg) : Bool := p = coerceType L other

end Thrift
