import Verif.Model.Field
/-!
# Go interface values and their comparison and coercion

`ttype.go:255-1097`, `tnumeric.go`.
-/

namespace Thrift

/-- Sequencing of outcomes, for code without transport calls. -/
def Res.bind : Res α → (α → Res β) → Res β
  | .ok a, f => f a
  | .panic, _ => .panic
  | .stuck, _ => .stuck

instance : Monad Res where
  pure := .ok
  bind := Res.bind

/-- A value of type `interface{}`, by dynamic type.  `uint8` and `byte` are one
type.  `numeric` is a `*numeric` (tnumeric.go:39-44), the only implementation of
`Numeric`, since that interface has an unexported method.  `stringer` is any
other comparable value with a `String` method (`tag` distinguishes values), `enumer`
one that also has `Value` and `IsEnum`: a generated enum, by its Go type and its
value (t_go_generator.cc:590-649).  `obj` is any other
comparable value with none of these methods.  Containers and structs are what
their methods answer at the moment of the call, with `ptr` for pointer
identity: a map shows its keys, its values and its entries in the orders in which
three iterations happen to enumerate them (Go leaves the order open), a struct its
`ThriftName`, `String`, `TStructFields` and `AttributeFromFieldId` (absent ids give
nil).  A struct of a generated type (`gen`) embeds a `*tStruct`; the embedded one
has the same `ptr` without `gen`, so identity is the pair.  For a generated struct
`attrs` are its Go fields: the generated accessor is called `AttributeByFieldId`
(t_go_generator.cc:1003), so `AttributeFromFieldId` is the promoted one, which gives
nil for every id (tstruct.go:80-82). -/
inductive Dyn where
  | nil
  | bool (b : Bool)
  | int (v : BitVec 64)
  | int8 (v : BitVec 8)
  | int16 (v : BitVec 16)
  | int32 (v : BitVec 32)
  | int64 (v : BitVec 64)
  | uint (v : BitVec 64)
  | byte (v : BitVec 8)
  | uint16 (v : BitVec 16)
  | uint32 (v : BitVec 32)
  | uint64 (v : BitVec 64)
  | float32 (v : BitVec 32)
  | float64 (v : F64)
  | string (s : Bytes)
  | bytes (s : Bytes)
  | numeric (ptr : Nat) (i : I64) (d : F64) (s : Bytes)
  | stringer (tag : Nat) (text : Bytes)
  | enumer (type : Nat) (v : I64) (text : Bytes)
  | obj (ptr : Nat)
  | struct (ptr : Nat) (gen : Bool) (name text : Bytes) (fields : List Field) (attrs : List (Int × Dyn))
  | map (ptr : Nat) (kt vt : TType) (len : Int) (keys vals : List Dyn) (entries : List (Dyn × Dyn))
  | set (ptr : Nat) (et : TType) (len : Int) (vals : List Dyn)
  | list (ptr : Nat) (et : TType) (vals : List Dyn)
  deriving Inhabited

/-- Go's conversions between integers and floating point numbers, and the
formatting and parsing of the latter (`strconv`).  Nothing is assumed about
them. -/
structure FloatLib where
  ofInt : Int → F64
  toInt : F64 → I64
  toInt32 : BitVec 32 → I64
  widen : BitVec 32 → F64
  format : F64 → Bytes
  format32 : BitVec 32 → Bytes
  /-- Value and whether there was an error. -/
  parse : Bytes → F64 × Bool

/-! IEEE comparison on bit patterns. -/
def F64.isNaN (v : F64) : Bool := (v &&& 0x7fffffffffffffff).toNat > 0x7ff0000000000000
/-- Sign and magnitude as one integer; both zeros give 0. -/
def F64.rank (v : F64) : Int :=
  if v.msb then - ((v &&& 0x7fffffffffffffff).toNat : Int) else (v &&& 0x7fffffffffffffff).toNat
/-- Go's `==` on `float64`. -/
def F64.eq (a b : F64) : Bool := !F64.isNaN a && !F64.isNaN b && F64.rank a == F64.rank b
/-- Go's `<` on `float64`. -/
def F64.lt (a b : F64) : Bool := !F64.isNaN a && !F64.isNaN b && F64.rank a < F64.rank b
/-- Go's `==` on `float32`. -/
def F32.eq (a b : BitVec 32) : Bool :=
  let mag (v : BitVec 32) : Nat := (v &&& 0x7fffffff).toNat
  let rank (v : BitVec 32) : Int := if v.msb then - (mag v : Int) else mag v
  mag a ≤ 0x7f800000 && mag b ≤ 0x7f800000 && rank a == rank b

/-- Go's `==` on interface values: different dynamic types are unequal,
comparing two slices panics. -/
def Dyn.goEq : Dyn → Dyn → Res Bool
  | .nil, .nil => .ok true
  | .bool a, .bool b => .ok (a = b)
  | .int a, .int b => .ok (a = b)
  | .int8 a, .int8 b => .ok (a = b)
  | .int16 a, .int16 b => .ok (a = b)
  | .int32 a, .int32 b => .ok (a = b)
  | .int64 a, .int64 b => .ok (a = b)
  | .uint a, .uint b => .ok (a = b)
  | .byte a, .byte b => .ok (a = b)
  | .uint16 a, .uint16 b => .ok (a = b)
  | .uint32 a, .uint32 b => .ok (a = b)
  | .uint64 a, .uint64 b => .ok (a = b)
  | .float32 a, .float32 b => .ok (F32.eq a b)
  | .float64 a, .float64 b => .ok (F64.eq a b)
  | .string a, .string b => .ok (a = b)
  | .bytes _, .bytes _ => .panic
  | .numeric a _ _ _, .numeric b _ _ _ => .ok (a = b)
  | .stringer a _, .stringer b _ => .ok (a = b)
  | .enumer a v _, .enumer b w _ => .ok (a = b && v = w)
  | .obj a, .obj b => .ok (a = b)
  | .struct a g _ _ _ _, .struct b h _ _ _ _ => .ok (a = b && g = h)
  | .map a _ _ _ _ _ _, .map b _ _ _ _ _ _ => .ok (a = b)
  | .set a _ _ _, .set b _ _ _ => .ok (a = b)
  | .list a _ _, .list b _ _ => .ok (a = b)
  | _, _ => .ok false

/-- `x == nil`. -/
def Dyn.isNil : Dyn → Bool
  | .nil => true
  | _ => false

/-- The mathematical value of the integer kinds. -/
def Dyn.intValue : Dyn → Option Int
  | .int v => some v.toInt
  | .int8 v => some v.toInt
  | .int16 v => some v.toInt
  | .int32 v => some v.toInt
  | .int64 v => some v.toInt
  | .uint v => some v.toNat
  | .byte v => some v.toNat
  | .uint16 v => some v.toNat
  | .uint32 v => some v.toNat
  | .uint64 v => some v.toNat
  | _ => none

/-- The digit loop of `strconv.ParseUint(s, 10, 64)`: value so far, overflow
found on the way. -/
inductive ParsedUint where
  | ok (n : Nat) | syntaxError | rangeError
  deriving DecidableEq, Repr

def parseUintLoop : Bytes → Nat → ParsedUint
  | [], n => .ok n
  | c :: cs, n =>
    if c.toNat < 48 ∨ 57 < c.toNat then .syntaxError
    else if n ≥ (2 ^ 64 - 1) / 10 + 1 then .rangeError
    else if n * 10 + (c.toNat - 48) ≥ 2 ^ 64 then .rangeError
    else parseUintLoop cs (n * 10 + (c.toNat - 48))

/-- `strconv.ParseUint(s, 10, 64)`. -/
def parseUint (s : Bytes) : ParsedUint := if s = [] then .syntaxError else parseUintLoop s 0

/-- `strconv.ParseInt(s, 10, 64)`, and `strconv.Atoi` where `int` has 64 bits:
the value and whether there was an error.  A syntax error gives 0, a range error
the nearest bound. -/
def parseInt (s : Bytes) : I64 × Bool :=
  let (neg, d) := match s with
    | c :: cs => if c = 43 then (false, cs) else if c = 45 then (true, cs) else (false, s)
    | [] => (false, [])
  match parseUint d with
  | .syntaxError => (0, true)
  | .rangeError => if neg then (BitVec.ofInt 64 (-2 ^ 63), true) else (BitVec.ofInt 64 (2 ^ 63 - 1), true)
  | .ok n =>
    if !neg && n ≥ 2 ^ 63 then (BitVec.ofInt 64 (2 ^ 63 - 1), true)
    else if neg && n > 2 ^ 63 then (BitVec.ofInt 64 (-2 ^ 63), true)
    else (BitVec.ofInt 64 (if neg then -(n : Int) else n), false)

/-- Go's `string(n)` for an integer: UTF-8 of the code point, or of U+FFFD when
there is no such code point. -/
def runeString (n : Int) : Bytes :=
  if n < 0 ∨ n > 0x10ffff ∨ (0xd800 ≤ n ∧ n ≤ 0xdfff) then [0xef, 0xbf, 0xbd]
  else
    let c := n.toNat
    if c < 0x80 then [BitVec.ofNat 8 c]
    else if c < 0x800 then [BitVec.ofNat 8 (0xc0 + c / 64), BitVec.ofNat 8 (0x80 + c % 64)]
    else if c < 0x10000 then
      [BitVec.ofNat 8 (0xe0 + c / 4096), BitVec.ofNat 8 (0x80 + c / 64 % 64), BitVec.ofNat 8 (0x80 + c % 64)]
    else
      [BitVec.ofNat 8 (0xf0 + c / 262144), BitVec.ofNat 8 (0x80 + c / 4096 % 64),
        BitVec.ofNat 8 (0x80 + c / 64 % 64), BitVec.ofNat 8 (0x80 + c % 64)]

/-- Text of a value with a `String` method, or of a string (the two steps
`data.(Stringer)`, `data.(string)` at the end of the numeric coercions). -/
def Dyn.text : Dyn → Option Bytes
  | .string s | .stringer _ s | .enumer _ _ s | .numeric _ _ _ s => some s
  | .struct _ _ _ text _ _ => some text
  | _ => none

/-- The last part of the integer coercions, ttype.go:697-706, 821-830, 880-889,
939-948: note that the parsed number is used when there IS an error. -/
def coerceText (mk : I64 → Dyn) (d : Dyn) : Dyn × Bool :=
  match d.text with
  | some s => let (i, err) := parseInt s; if err then (mk i, true) else (mk 0, false)
  | none => (mk 0, false)

/-- Coercion to BOOL, ttype.go:596-641. -/
def coerceBool : Dyn → Dyn × Bool
  | .bool b => (.bool b, true)
  | .numeric _ i _ _ => (.bool (i ≠ 0), true)
  | .float32 v => (.bool (!F32.eq v 0), true)
  | .float64 v => (.bool (!F64.eq v 0), true)
  | .bytes s => (.bool (match s with | [] => false | [b] => b ≠ 0 | _ => true), true)
  | d => match d.intValue with
    | some v => (.bool (v ≠ 0), true)
    | none => match d.text with
      | some s => (.bool (!(s = ascii "false" || s = ascii "0" || s.length = 0)), true)
      | none => (.bool false, false)

/-- Coercion to BYTE, ttype.go:642-706. -/
def coerceByte (L : FloatLib) : Dyn → Dyn × Bool
  | .byte b => (.byte b, true)
  | .numeric _ i _ _ => (.byte (i.setWidth 8), true)
  | .bool b => (.byte (if b then 1 else 0), true)
  | .float32 v => (.byte ((L.toInt32 v).setWidth 8), true)
  | .float64 v => (.byte ((L.toInt v).setWidth 8), true)
  | .bytes s => (.byte (match s with | [] => 0 | b :: _ => b), true)
  | d => match d.intValue with
    | some v => (.byte (BitVec.ofInt 8 v), true)
    | none => coerceText (fun i => .byte (i.setWidth 8)) d

/-- Coercion to DOUBLE, ttype.go:707-771.  A `Numeric` becomes a bool. -/
def coerceDouble (L : FloatLib) : Dyn → Dyn × Bool
  | .float32 v => (.float64 (L.widen v), true)
  | .float64 v => (.float64 v, true)
  | .numeric _ _ d _ => (.bool (!F64.eq d 0), true)
  | .bool b => (.float64 (L.ofInt (if b then 1 else 0)), true)
  | .bytes s => (.float64 (L.ofInt (match s with | [] => 0 | b :: _ => b.toNat)), true)
  | d => match d.intValue with
    | some v => (.float64 (L.ofInt v), true)
    | none => match d.text with
      | some s => let (x, err) := L.parse s; if err then (.float64 x, true) else (.float64 0, false)
      | none => (.float64 0, false)

/-- Coercion to I16, I32 and I64, ttype.go:772-830, 831-889, 890-948; `mk`
truncates.  A `Numeric` becomes a bool (of the truncated number being nonzero);
there is no case for `[]byte`. -/
def coerceInt (L : FloatLib) (w : Nat) (mk : BitVec w → Dyn) : Dyn → Dyn × Bool
  | .numeric _ i _ _ => (.bool (i.setWidth w ≠ 0), true)
  | .bool b => (mk (if b then 1 else 0), true)
  | .float32 v => (mk ((L.toInt32 v).setWidth w), true)
  | .float64 v => (mk ((L.toInt v).setWidth w), true)
  | d => match d.intValue with
    | some v => (mk (BitVec.ofInt w v), true)
    | none => coerceText (fun i => mk (i.setWidth w)) d

/-- The text that a value is coerced to, ttype.go:949-1010 and 1011-1072. -/
def coerceTextOf (L : FloatLib) : Dyn → Option Bytes
  | .bytes s => some s
  | .bool b => some (if b then ascii "true" else ascii "false")
  | .float32 v => some (L.format32 v)
  | .float64 v => some (L.format v)
  | d => match d.text with
    | some s => some s
    | none => match d.intValue with
      | some v => some (runeString v)
      | none => none

/-- The default of `CoerceData(nil)`, ttype.go:557-592, and the objects made by
failing container coercions; fresh objects have pointer 0. -/
def emptyStruct : Dyn := .struct 0 false [] [] [] []
def emptyMap : Dyn := .map 0 TT.STOP TT.STOP 0 [] [] []
def emptySet : Dyn := .set 0 TT.STOP 0 []
def emptyList : Dyn := .list 0 TT.STOP []

/-- `TType.CoerceData`, ttype.go:556-1097. -/
def coerceData (L : FloatLib) (p : TType) (data : Dyn) : Res (Dyn × Bool) :=
  if data.isNil then
    if p = TT.STOP ∨ p = TT.VOID then .ok (.nil, true)
    else if p = TT.BOOL then .ok (.bool false, true)
    else if p = TT.BYTE then .ok (.byte 0, true)
    else if p = TT.DOUBLE then .ok (.float64 0, true)
    else if p = TT.I16 then .ok (.int16 0, true)
    else if p = TT.I32 then .ok (.int32 0, true)
    else if p = TT.I64 then .ok (.int64 0, true)
    else if p = TT.STRING ∨ p = TT.ENUM ∨ p = TT.UTF16 then .ok (.string [], true)
    else if p = TT.BINARY then .ok (.nil, true)
    else if p = TT.STRUCT then .ok (emptyStruct, true)
    else if p = TT.MAP then .ok (emptyMap, true)
    else if p = TT.LIST then .ok (emptyList, true)
    else if p = TT.SET then .ok (emptySet, true)
    else .panic
  else
    if p = TT.STOP ∨ p = TT.VOID then .ok (.nil, true)
    else if p = TT.BOOL then .ok (coerceBool data)
    else if p = TT.BYTE then .ok (coerceByte L data)
    else if p = TT.DOUBLE then .ok (coerceDouble L data)
    else if p = TT.I16 then .ok (coerceInt L 16 .int16 data)
    else if p = TT.I32 then .ok (coerceInt L 32 .int32 data)
    else if p = TT.I64 then .ok (coerceInt L 64 .int64 data)
    else if p = TT.STRING ∨ p = TT.ENUM ∨ p = TT.UTF16 then
      .ok (match coerceTextOf L data with | some s => (.string s, true) | none => (.string [], false))
    else if p = TT.BINARY then
      .ok (match coerceTextOf L data with | some s => (.bytes s, true) | none => (.string [], false))
    else if p = TT.STRUCT then .ok (match data with | .struct .. => (data, true) | _ => (emptyStruct, true))
    else if p = TT.MAP then .ok (match data with | .map .. => (data, true) | _ => (emptyMap, false))
    else if p = TT.LIST then .ok (match data with | .list .. => (data, true) | _ => (emptyList, false))
    else if p = TT.SET then .ok (match data with | .set .. => (data, true) | _ => (emptySet, false))
    else .panic

/-- The three-way comparison of one scalar case of `Compare`: equal, less,
otherwise greater. -/
def cmp3 (eq lt : Bool) : Int × Bool := if eq then (0, true) else if lt then (-1, true) else (1, true)

/-- The entry for an id; nil if there is none. -/
def attributeOf (attrs : List (Int × Dyn)) (id : Int) : Dyn :=
  match attrs.find? fun x => x.1 = id with
  | some x => x.2
  | none => .nil

/-- `AttributeFromFieldId` of a struct value. -/
def attributeFromFieldId (gen : Bool) (attrs : List (Int × Dyn)) (id : Int) : Dyn :=
  if gen then .nil else attributeOf attrs id

/-- The loop of `CompareValueArrays`, ttype.go:490-504, and of list comparison,
L457-464, over a comparison of elements. -/
def compareArrays (cmp : Dyn → Dyn → Res (Int × Bool)) : List Dyn → List Dyn → Res (Int × Bool)
  | x :: xs, y :: ys => do
    let (c, ok) ← cmp x y
    if c ≠ 0 ∨ ok = false then return (c, ok)
    compareArrays cmp xs ys
  | _, _ => return (0, true)

/-- `CompareValueArrays`, ttype.go:490-504. -/
def compareValueArrays (cmp : Dyn → Dyn → Res (Int × Bool)) (xs ys : List Dyn) : Res (Int × Bool) :=
  let c := compareInt xs.length ys.length
  if c ≠ 0 then .ok (c, true) else compareArrays cmp xs ys

/-- The last part of `TType.Compare`, ttype.go:301-487, on two coerced values.
`rec` compares elements. -/
def compareCoerced (rec : TType → Dyn → Dyn → Res (Int × Bool)) (p : TType) (ci cj : Dyn) : Res (Int × Bool) :=
  if p = TT.STOP ∨ p = TT.VOID then .ok (0, false)
  else if p = TT.BOOL then
    match ci, cj with
    | .bool a, .bool b => .ok (cmp3 (a = b) (a = false))
    | _, _ => .ok (0, false)
  else if p = TT.BYTE then
    match ci, cj with
    | .byte a, .byte b => .ok (cmp3 (a = b) (a.toNat < b.toNat))
    | _, _ => .ok (0, false)
  else if p = TT.DOUBLE then
    match ci, cj with
    | .float64 a, .float64 b => .ok (cmp3 (F64.eq a b) (F64.lt a b))
    | _, _ => .ok (0, false)
  else if p = TT.I16 then
    match ci, cj with
    | .int16 a, .int16 b => .ok (cmp3 (a = b) (a.toInt < b.toInt))
    | _, _ => .ok (0, false)
  else if p = TT.I32 then
    match ci, cj with
    | .int32 a, .int32 b => .ok (cmp3 (a = b) (a.toInt < b.toInt))
    | _, _ => .ok (0, false)
  else if p = TT.I64 then
    match ci, cj with
    | .int64 a, .int64 b => .ok (cmp3 (a = b) (a.toInt < b.toInt))
    | _, _ => .ok (0, false)
  else if p = TT.STRING ∨ p = TT.ENUM ∨ p = TT.UTF16 then
    match ci, cj with
    | .string a, .string b => .ok (cmp3 (a = b) (bytesLt a b))
    | _, _ => .ok (0, false)
  else if p = TT.BINARY then
    match ci, cj with
    | .bytes a, .bytes b => .ok (compareString a b, true)
    | _, _ => .ok (0, false)
  else if p = TT.STRUCT then
    match ci, cj with
    | .struct _ ga na _ fa aa, .struct _ gb nb _ fb ab =>
      let c := compareString na nb
      if c ≠ 0 then .ok (c, true)
      else
        let c := (FieldContainer.new fa).compareTo (FieldContainer.new fb)
        if c ≠ 0 then .ok (c, true)
        else
          let rec fieldsLoop : List Field → Res (Int × Bool)
            | [] => .ok (0, true)
            | f :: fs => do
              let (c, ok) ← rec f.typeId (attributeFromFieldId ga aa f.id) (attributeFromFieldId gb ab f.id)
              if ok = false ∨ c ≠ 0 then return (c, ok)
              fieldsLoop fs
          fieldsLoop fa
    | _, _ => .ok (0, false)
  else if p = TT.MAP then
    match ci, cj with
    | .map _ ka va na keysA valsA _, .map _ kb vb nb keysB valsB _ =>
      if ka ≠ kb then .ok (compareInt ka.toNat kb.toNat, true)
      else if va ≠ vb then .ok (compareInt va.toNat vb.toNat, true)
      else if na ≠ nb then .ok (compareInt na nb, true)
      else do
        let (c, ok) ← compareValueArrays (rec ka) keysA keysB
        if c ≠ 0 ∨ ok = false then return (c, ok)
        compareValueArrays (rec va) valsA valsB
    | _, _ => .ok (0, false)
  else if p = TT.LIST then
    match ci, cj with
    | .list _ ea la, .list _ eb lb =>
      if ea ≠ eb then .ok (compareInt ea.toNat eb.toNat, true)
      else if la.length ≠ lb.length then .ok (compareInt la.length lb.length, true)
      else compareArrays (rec ea) la lb
    | _, _ => .ok (0, false)
  else if p = TT.SET then
    match ci, cj with
    | .set _ ea na la, .set _ eb nb lb =>
      if ea ≠ eb then .ok (compareInt ea.toNat eb.toNat, true)
      else if na ≠ nb then .ok (compareInt na nb, true)
      else compareValueArrays (rec ea) la lb
    | _, _ => .ok (0, false)
  else .panic

/-- `TType.Compare`, ttype.go:260-488.  `fuel` bounds the nesting. -/
def compareFuel (L : FloatLib) : (fuel : Nat) → TType → Dyn → Dyn → Res (Int × Bool)
  | 0, _, _, _ => .stuck
  | fuel + 1, p, i, j => do
    let same ← if p ≠ TT.BINARY then i.goEq j else .ok false
    if same then return (0, true)
    if i.isNil then
      if j.isNil then return (0, true)
      return (-1, true)
    if j.isNil then return (1, true)
    let (ci, iok) ← coerceData L p i
    let (cj, jok) ← coerceData L p j
    if iok && !jok then return (1, true)
    if !iok && jok then return (-1, true)
    if !iok && !jok then return (0, false)
    let same ← if p ≠ TT.BINARY then ci.goEq cj else .ok false
    if same then return (0, true)
    if ci.isNil then
      if cj.isNil then return (0, true)
      return (-1, true)
    if cj.isNil then return (1, true)
    compareCoerced (compareFuel L fuel) p ci cj

mutual
/-- Nesting depth. -/
def Dyn.depth : Dyn → Nat
  | .struct _ _ _ _ _ as => attrsDepth as + 1
  | .map _ _ _ _ ks vs es => max (max (dynsDepth ks) (dynsDepth vs)) (entriesDepth es) + 1
  | .set _ _ _ vs => dynsDepth vs + 1
  | .list _ _ vs => dynsDepth vs + 1
  | _ => 0
def dynsDepth : List Dyn → Nat
  | [] => 0
  | d :: ds => max d.depth (dynsDepth ds)
def attrsDepth : List (Int × Dyn) → Nat
  | [] => 0
  | (_, d) :: ds => max d.depth (attrsDepth ds)
def entriesDepth : List (Dyn × Dyn) → Nat
  | [] => 0
  | (k, v) :: es => max (max k.depth v.depth) (entriesDepth es)
end

/-- `TType.Compare`, ttype.go:260-488. -/
def compare (L : FloatLib) (p : TType) (i j : Dyn) : Res (Int × Bool) :=
  compareFuel L (max i.depth j.depth + 1) p i j

/-- `TType.Less`, ttype.go:255-258. -/
def less (L : FloatLib) (p : TType) (i j : Dyn) : Res Bool := do
  let (c, ok) ← compare L p i j
  return ok && c > 0

/-- `Less` of a set (`p` = SET) and of a map (`p` = MAP), tset.go:104-107 and
tmap.go:736-739, with `CompareTo`, tset.go:114-116 and tmap.go:746-748. -/
def lessOf (L : FloatLib) (p : TType) (i j : Dyn) : Res Bool := do
  let r ← compare L p i j
  return r.2 && decide (r.1 > 0)

/-- `IsBaseType`, ttype.go:106-114 (UTF8 is ENUM). -/
def isBaseType (p : TType) : Bool :=
  p = TT.BOOL || p = TT.BYTE || p = TT.DOUBLE || p = TT.I16 || p = TT.I32 || p = TT.I64 || p = TT.STRING ||
    p = TT.ENUM || p = TT.UTF16 || p = TT.BINARY

/-- `IsEmptyType`, ttype.go:116-124. -/
def isEmptyType (p : TType) : Bool := p = TT.STOP || p = TT.VOID

/-- `TypeFromValue`, ttype.go:520-554. -/
def typeFromValue : Dyn → TType
  | .nil => TT.VOID
  | .bool _ => TT.BOOL
  | .float32 _ | .float64 _ => TT.DOUBLE
  | .int _ | .int32 _ => TT.I32
  | .byte _ | .int8 _ => TT.BYTE
  | .int16 _ => TT.I16
  | .int64 _ => TT.I64
  | .string _ => TT.STRING
  | .bytes _ => TT.BINARY
  | .struct .. => TT.STRUCT
  | .map .. => TT.MAP
  | .set .. => TT.SET
  | .list .. => TT.LIST
  | _ => TT.STOP

end Thrift
