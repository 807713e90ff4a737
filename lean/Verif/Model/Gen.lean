import Verif.Model.Collections
import Verif.Model.Exceptions
import Verif.Model.Skip
/-!
# Generated structs

The Go code that `t_go_generator.cc` emits for a struct: constructor, `IsSet`
helpers, `Write`, `Read` and the code for the values inside.  One instance of
that code is tests/generation/golden/gen-go/simple/ttypes.go.  The model takes
the IDL declaration as an argument instead of printing Go.

Left out: typedefs, constants, and the text of generated names that only shows
up in error messages (temporaries are written as the empty name).
-/

namespace Thrift

/-- An IDL type, typedefs resolved.  Enums and structs are numbered. -/
inductive Ty where
  | bool | byte | i16 | i32 | i64 | double | string | binary
  | enum (k : Nat)
  | struct (k : Nat)
  | list (e : Ty)
  | set (e : Ty)
  | map (k v : Ty)
  deriving DecidableEq, Repr, Inhabited

/-- `type_to_enum`, t_go_generator.cc:3203-3252. -/
def Ty.code : Ty → TType
  | .bool => TT.BOOL
  | .byte => TT.BYTE
  | .i16 => TT.I16
  | .i32 => TT.I32
  | .i64 => TT.I64
  | .double => TT.DOUBLE
  | .string => TT.STRING
  | .binary => TT.BINARY
  | .enum _ => TT.I32
  | .struct _ => TT.STRUCT
  | .list _ => TT.LIST
  | .set _ => TT.SET
  | .map .. => TT.MAP

/-- The type a reader expects for a field, t_go_generator.cc:1196-1203. -/
def Ty.wire (t : Ty) : TType := if t.code = TT.BINARY then TT.STRING else t.code

/-- `can_be_nil`, t_go_generator.cc:3323-3358. -/
def Ty.canBeNil : Ty → Bool
  | .binary | .struct _ | .list _ | .set _ | .map .. => true
  | _ => false

def Ty.isEnum : Ty → Bool
  | .enum _ => true
  | _ => false

/-- A declared field.  `dflt` is the Go value of the default
(`render_field_default_value`), `check` the number that the `IsSet` helper of a
`double` is printed with (t_go_generator.cc:1099-1103), `emptyDflt` whether a
container default is absent or has no elements.  Ids are taken to fit into 16
bits. -/
structure Member where
  name : Bytes
  id : I16
  ty : Ty
  optional : Bool
  dflt : Option Dyn
  check : F64 := 0
  emptyDflt : Bool := true

/-- A declared struct, members in order of declaration. -/
structure StructDef where
  name : Bytes
  members : List Member

/-- The declarations of one IDL file.  `enumText` is the `String` method of the
enums, t_go_generator.cc:598-649. -/
structure Schema where
  structs : Nat → StructDef
  enumText : Nat → I64 → Bytes

/-- `math.MinInt32 - 1`, the enum value that means "unset",
t_go_generator.cc:957-959. -/
def enumUnset : I64 := BitVec.ofInt 64 (-2147483649)

/-- Go's zero value of a field. -/
def Ty.zero : Ty → Dyn
  | .bool => .bool false
  | .byte => .byte 0
  | .i16 => .int16 0
  | .i32 => .int32 0
  | .i64 => .int64 0
  | .double => .float64 0
  | .string => .string []
  | _ => .nil

/-- What `New…` puts into a field, t_go_generator.cc:944-960. -/
def Member.initial (S : Schema) (m : Member) : Dyn :=
  match m.dflt with
  | some d => d
  | none => match m.ty with
    | .enum k => .enumer k enumUnset (S.enumText k enumUnset)
    | t => t.zero

/-- Insert by field id; `get_sorted_members` keeps the members in id order. -/
def insertMember (m : Member) : List Member → List Member
  | [] => [m]
  | n :: ns => if m.id.toInt < n.id.toInt then m :: n :: ns else n :: insertMember m ns

def StructDef.sorted (sd : StructDef) : List Member := sd.members.foldr insertMember []

/-- The field descriptions, t_go_generator.cc:930-934, 1028-1032. -/
def StructDef.fields (sd : StructDef) : List Field := sd.members.map fun m => ⟨m.name, m.ty.code, m.id.toInt⟩

/-- A struct object.  Simplification: the text of `String` (printed by `fmt` from
the fields) is left empty; it matters only when a struct is coerced to text,
which generated code never does. -/
def StructDef.object (sd : StructDef) (ptr : Nat) (attrs : List (Int × Dyn)) : Dyn :=
  .struct ptr true sd.name [] sd.fields attrs

/-- `New…`, t_go_generator.cc:924-968. -/
def StructDef.fresh (S : Schema) (sd : StructDef) : List (Int × Dyn) :=
  sd.members.map fun m => (m.id.toInt, m.initial S)

/-- Assigning to a field. -/
def setAttr (attrs : List (Int × Dyn)) (id : Int) (d : Dyn) : List (Int × Dyn) :=
  attrs.map fun x => if x.1 = id then (x.1, d) else x

/-- `IsSet…`, t_go_generator.cc:1045-1139.  Comparisons are Go's `!=`. -/
def Member.isSet (S : Schema) (m : Member) (d : Dyn) : Bool :=
  match m.ty with
  | .binary | .struct _ => !d.isNil
  | .enum _ => match d with | .enumer _ v _ => v ≠ enumUnset | _ => true
  | .double => match d with | .float64 v => !F64.eq v m.check | _ => true
  | .list _ | .set _ | .map .. =>
    !d.isNil && (!m.emptyDflt || match d with
      | .list _ _ vs => vs.length > 0
      | .set _ _ n _ => n > 0
      | .map _ _ _ n _ _ _ => n > 0
      | _ => true)
  | _ => match d.goEq (m.initial S) with | .ok b => !b | _ => true

/-- Whether `WriteField…` writes anything, t_go_generator.cc:1343-1354. -/
def Member.written (S : Schema) (m : Member) (d : Dyn) : Bool :=
  !(m.ty.canBeNil && d.isNil) && (!(m.optional || m.ty.isEnum) || m.isSet S d)

/-- `if err != nil { return wrap(err) }` after a call whose error is the result. -/
def wrapErr (w : Err → Err) (m : P π GoErr) : P π GoErr := do return (← m).map w

/-- Result of code without transport calls. -/
def P.ofRes : Res α → P π α
  | .ok a => pure a
  | .panic => P.panic
  | .stuck => P.stuck

/-! ## Writing -/

/-- The code of `WriteField…`, t_go_generator.cc:1339-1390. -/
def genWriteMember (p : Proto π) (S : Schema) (wr : Bytes → Bytes → Ty → Dyn → P π GoErr) (sd : StructDef)
    (attrs : List (Int × Dyn)) (m : Member) : P π GoErr :=
  let d := attributeOf attrs m.id.toInt
  if m.written S d then do
    let e ← wrapErr (excWriteField m.name sd.name) (p.writeFieldBegin m.name m.ty.code m.id)
    if e.isSome then return e
    let e ← wr m.name sd.name m.ty d
    if e.isSome then return e
    wrapErr (excWriteField m.name sd.name) p.writeFieldEnd
  else return none

/-- The `WriteField…` calls of `Write`, t_go_generator.cc:1310-1317. -/
def genWriteMembers (p : Proto π) (S : Schema) (wr : Bytes → Bytes → Ty → Dyn → P π GoErr) (sd : StructDef)
    (attrs : List (Int × Dyn)) : List Member → P π GoErr
  | [] => return none
  | m :: ms => do
    let e ← genWriteMember p S wr sd attrs m
    if e.isSome then return e
    genWriteMembers p S wr sd attrs ms

/-- `Write` around the fields, t_go_generator.cc:1269-1330. -/
def genWriteBody (p : Proto π) (sd : StructDef) (fields : P π GoErr) : P π GoErr := do
  let e ← wrapErr (excWriteStruct sd.name) (p.writeStructBegin sd.name)
  if e.isSome then return e
  let e ← fields
  if e.isSome then return e
  let e ← wrapErr (excWriteField (ascii "STOP") sd.name) p.writeFieldStop
  if e.isSome then return e
  wrapErr (excWriteStruct sd.name) p.writeStructEnd

/-- The element loop of list and set serialisation, t_go_generator.cc:2901-2923. -/
def genWriteElems (wr : Dyn → P π GoErr) : List Dyn → P π GoErr
  | [] => return none
  | d :: ds => do
    let e ← wr d
    if e.isSome then return e
    genWriteElems wr ds

/-- The entry loop of map serialisation, t_go_generator.cc:2889-2900, 2953-2963. -/
def genWriteEntries (wk wv : Dyn → P π GoErr) : List (Dyn × Dyn) → P π GoErr
  | [] => return none
  | (k, v) :: es => do
    let e ← wk k
    if e.isSome then return e
    let e ← wv v
    if e.isSome then return e
    genWriteEntries wk wv es

/-- What `range m.Iter()` delivers for a map with the given key type,
tmap.go:568-615: `none` is a panic. -/
def iterated (kt : TType) (entries : List (Dyn × Dyn)) : Option (List (Dyn × Dyn)) :=
  if kt = TT.STOP ∨ kt = TT.VOID then some []
  else if TMap.usesGoMap kt ∨ kt = TT.BINARY ∨ kt = TT.STRUCT ∨ kt = TT.LIST ∨ kt = TT.SET then some entries
  else none

/-- Serialise a value of a declared type, t_go_generator.cc:2748-2987.  `fn` and
`sn` are the names used in errors.  A value of another Go type panics: for
elements of containers this is the type assertion in the code, for fields it
cannot occur.  `fuel` bounds the nesting. -/
def genWriteVal (p : Proto π) (S : Schema) : (fuel : Nat) → Bytes → Bytes → Ty → Dyn → P π GoErr
  | 0, _, _, _, _ => P.stuck
  | fuel + 1, fn, sn, ty, d =>
    match ty, d with
    | .bool, .bool b => wrapErr (excWriteField fn sn) (p.writeBool b)
    | .byte, .byte b => wrapErr (excWriteField fn sn) (p.writeByte b)
    | .i16, .int16 v => wrapErr (excWriteField fn sn) (p.writeI16 v)
    | .i32, .int32 v => wrapErr (excWriteField fn sn) (p.writeI32 v)
    | .i64, .int64 v => wrapErr (excWriteField fn sn) (p.writeI64 v)
    | .double, .float64 v => wrapErr (excWriteField fn sn) (p.writeDouble v)
    | .string, .string s => wrapErr (excWriteField fn sn) (p.writeString s)
    | .binary, .bytes s => wrapErr (excWriteField fn sn) (p.writeBinary s)
    | .enum k, .enumer k' v _ =>
      if k = k' then wrapErr (excWriteField fn sn) (p.writeI32 (v.setWidth 32)) else P.panic
    | .struct k, .struct _ true nm _ _ attrs =>
      let sd := S.structs k
      if nm = sd.name then
        wrapErr (excWriteStruct sd.name)
          (genWriteBody p sd (genWriteMembers p S (genWriteVal p S fuel) sd attrs sd.sorted))
      else P.panic
    | .list e, .list _ _ vs => do
      let err ← wrapErr (excWriteField [] (ascii "list")) (p.writeListBegin e.code vs.length)
      if err.isSome then return err
      let err ← genWriteElems (genWriteVal p S fuel [] [] e) vs
      if err.isSome then return err
      wrapErr (excWriteField [] (ascii "list")) p.writeListEnd
    | .set e, .set _ _ len vs => do
      let err ← wrapErr (excWriteField [] (ascii "set")) (p.writeSetBegin e.code len)
      if err.isSome then return err
      let err ← genWriteElems (genWriteVal p S fuel [] [] e) vs
      if err.isSome then return err
      wrapErr (excWriteField [] (ascii "set")) p.writeSetEnd
    | .map k v, .map _ kt _ len _ _ entries => do
      let err ← wrapErr (excWriteField [] (ascii "map")) (p.writeMapBegin k.code v.code len)
      if err.isSome then return err
      match iterated kt entries with
      | none => P.panic
      | some es =>
        let err ← genWriteEntries (genWriteVal p S fuel [] [] k) (genWriteVal p S fuel [] [] v) es
        if err.isSome then return err
        wrapErr (excWriteField [] (ascii "map")) p.writeMapEnd
    | _, _ => P.panic

/-- `x.Write(oprot)` for a struct that is not a method result,
t_go_generator.cc:1269-1330. -/
def genWrite (p : Proto π) (S : Schema) (fuel : Nat) (sd : StructDef) (attrs : List (Int × Dyn)) : P π GoErr :=
  genWriteBody p sd (genWriteMembers p S (genWriteVal p S fuel) sd attrs sd.sorted)

/-- The `switch` of `Write` for a method result, t_go_generator.cc:1283-1308: the
cases in descending id order, the field with id 0 (or one that cannot be nil) as
default. -/
def pickResult (attrs : List (Int × Dyn)) : List Member → Option Member
  | [] => none
  | m :: ms =>
    if m.ty.canBeNil && m.id ≠ 0 then
      if (attributeOf attrs m.id.toInt).isNil then pickResult attrs ms else some m
    else
      -- `default` is taken when no `case` is, wherever it stands
      match pickResult attrs ms with
      | some n => if n.ty.canBeNil && n.id ≠ 0 then some n else some m
      | none => some m

/-- `x.Write(oprot)` for a method result, t_go_generator.cc:1269-1330. -/
def genWriteResult (p : Proto π) (S : Schema) (fuel : Nat) (sd : StructDef) (attrs : List (Int × Dyn)) : P π GoErr :=
  genWriteBody p sd (match pickResult attrs sd.sorted.reverse with
    | some m => genWriteMember p S (genWriteVal p S fuel) sd attrs m
    | none => return none)

/-! ## Reading -/

/-- The element loop of list deserialisation, t_go_generator.cc:2646-2662,
2728-2739. -/
def genReadList (L : FloatLib) (rd : Nat → P π (Dyn × GoErr)) : (n i : Nat) → TList → P π (TList × GoErr)
  | 0, _, l => return (l, none)
  | n + 1, i, l => do
    let (d, e) ← rd i
    if e.isSome then return (l, e)
    let l ← P.ofRes (l.push L d)
    genReadList L rd n (i + 1) l

/-- The element loop of set deserialisation, t_go_generator.cc:2646-2662,
2712-2723. -/
def genReadSet (L : FloatLib) (rd : Nat → P π (Dyn × GoErr)) : (n i : Nat) → TSet → P π (TSet × GoErr)
  | 0, _, l => return (l, none)
  | n + 1, i, l => do
    let (d, e) ← rd i
    if e.isSome then return (l, e)
    let l ← P.ofRes (l.add L d)
    genReadSet L rd n (i + 1) l

/-- The entry loop of map deserialisation, t_go_generator.cc:2646-2662,
2693-2707. -/
def genReadMap (L : FloatLib) (rk rv : Nat → P π (Dyn × GoErr)) : (n i : Nat) → TMap → P π (TMap × GoErr)
  | 0, _, m => return (m, none)
  | n + 1, i, m => do
    let (k, e) ← rk (2 * i)
    if e.isSome then return (m, e)
    let (v, e) ← rv (2 * i + 1)
    if e.isSome then return (m, e)
    let m ← P.ofRes (m.set L k v)
    genReadMap L rk rv n (i + 1) m

/-- What other code sees of a map.  The order shown for a Go map is the order of
insertion; Go may enumerate in any other. -/
def TMap.toDyn (m : TMap) (ptr : Nat) : Dyn :=
  let es := if TMap.usesGoMap m.keyType then m.m.getD [] else m.l
  .map ptr m.keyType m.valueType m.len (es.map (·.1)) (es.map (·.2)) es

/-- The corrections to a field header before it is looked at,
t_go_generator.cc:1162-1171. -/
def resolveField (sd : StructDef) (name : Bytes) (t : TType) (id : I16) : Bytes × TType × I16 :=
  let c := FieldContainer.new sd.fields
  let id' : I16 := if id.toInt < 0 then BitVec.ofInt 16 (c.fieldIdFromFieldName name) else id
  let name' := if id.toInt < 0 then name else if name = [] then c.fieldNameFromFieldId id.toInt else name
  let t' := if t = TT.GENERIC then (c.fieldFromFieldId id'.toInt).typeId else t
  (name', t', id')

/-- The `if … else if …` chain of `Read`, t_go_generator.cc:1184-1194. -/
def StructDef.find (sd : StructDef) (name : Bytes) (id : I16) : Option Member :=
  sd.members.find? fun m => id = m.id || name = m.name

/-- What `Read` does with the value of a field, t_go_generator.cc:1202-1227.  A
field of an unexpected type is read as if it had the declared one. -/
def genReadMember (rd : Bytes → Bytes → Member → P π (Dyn × GoErr)) (sk : TType → P π GoErr) (sd : StructDef)
    (attrs : List (Int × Dyn)) (name : Bytes) (t : TType) (id : I16) : P π (List (Int × Dyn) × GoErr) :=
  match sd.find name id with
  | some m =>
    if t = m.ty.wire then do
      let (d, e) ← rd m.name sd.name m
      return (if e.isSome then attrs else setAttr attrs m.id.toInt d, e)
    else if t = TT.VOID then do return (attrs, ← sk t)
    else do
      let (d, e) ← rd m.name sd.name m
      return (if e.isSome then attrs else setAttr attrs m.id.toInt d, e)
  | none => do return (attrs, ← sk t)

/-- The field loop of `Read`, t_go_generator.cc:1159-1235.  `fuel` bounds the
number of fields.  After an error the object is what it was before the field
that failed (simplification: a nested object being filled stays out). -/
def genReadFields (p : Proto π) (rd : Bytes → Bytes → Member → P π (Dyn × GoErr)) (sk : TType → P π GoErr)
    (sd : StructDef) : (fuel : Nat) → List (Int × Dyn) → P π (List (Int × Dyn) × GoErr)
  | 0, _ => P.stuck
  | fuel + 1, attrs => do
    let ((name, t, id), e) ← p.readFieldBegin
    let (name, t, id) := resolveField sd name t id
    if e.isSome then return (attrs, e.map (excReadField name sd.name))
    if t = TT.STOP then return (attrs, none)
    let (attrs, e) ← genReadMember rd sk sd attrs name t id
    if e.isSome then return (attrs, e.map (excReadField name sd.name))
    let e ← p.readFieldEnd
    if e.isSome then return (attrs, e.map (excReadField name sd.name))
    genReadFields p rd sk sd fuel attrs

/-- `Read` around the fields, t_go_generator.cc:1152-1241. -/
def genReadBody (p : Proto π) (sd : StructDef) (attrs : List (Int × Dyn))
    (fields : List (Int × Dyn) → P π (List (Int × Dyn) × GoErr)) : P π (List (Int × Dyn) × GoErr) := do
  let (_, e) ← p.readStructBegin
  if e.isSome then return (attrs, e.map (excReadStruct sd.name))
  let (attrs, e) ← fields attrs
  if e.isSome then return (attrs, e)
  let e ← p.readStructEnd
  return (attrs, e.map (excReadStruct sd.name))

/-- Deserialise a value of a declared type, t_go_generator.cc:2451-2739.
`mem path` is the address of the object made at that place of the value;
`msd` is `MaxSkipDepth`.  `fuel` bounds nesting depth and fields per struct. -/
def genReadVal (p : Proto π) (S : Schema) (L : FloatLib) (mem : List Nat → Nat) (msd : Int) :
    (fuel : Nat) → List Nat → Bytes → Bytes → Ty → P π (Dyn × GoErr)
  | 0, _, _, _, _ => P.stuck
  | fuel + 1, path, fn, sn, ty =>
    match ty with
    | .bool => do let (v, e) ← p.readBool; return (.bool v, e.map (excReadField fn sn))
    | .byte => do let (v, e) ← p.readByte; return (.byte v, e.map (excReadField fn sn))
    | .i16 => do let (v, e) ← p.readI16; return (.int16 v, e.map (excReadField fn sn))
    | .i32 => do let (v, e) ← p.readI32; return (.int32 v, e.map (excReadField fn sn))
    | .i64 => do let (v, e) ← p.readI64; return (.int64 v, e.map (excReadField fn sn))
    | .double => do let (v, e) ← p.readDouble; return (.float64 v, e.map (excReadField fn sn))
    | .string => do let (v, e) ← p.readString; return (.string v, e.map (excReadField fn sn))
    | .binary => do let (v, e) ← p.readBinary; return (.bytes v, e.map (excReadField fn sn))
    | .enum k => do
      let (v, e) ← p.readI32
      return (.enumer k (v.signExtend 64) (S.enumText k (v.signExtend 64)), e.map (excReadField fn sn))
    | .struct k => do
      let sd := S.structs k
      let (attrs, e) ← genReadBody p sd (sd.fresh S) (genReadFields p
        (fun fn sn m => genReadVal p S L mem msd fuel (m.id.toNat :: path) fn sn m.ty)
        (skipDefaultDepth p msd fuel) sd fuel)
      return (sd.object (mem path) attrs, e.map (excReadStruct sd.name))
    | .list et => do
      let ((t, n), e) ← p.readListBegin
      if e.isSome then return (.nil, e.map (excReadField [] []))
      let (l, e) ← genReadList L (fun i => genReadVal p S L mem msd fuel (i :: path) [] [] et) n.toNat 0 (TList.new t)
      if e.isSome then return (l.toDyn (mem path), e)
      let e ← p.readListEnd
      return (l.toDyn (mem path), e.map (excReadField [] (ascii "list")))
    | .set et => do
      let ((t, n), e) ← p.readSetBegin
      if e.isSome then return (.nil, e.map (excReadField [] []))
      let (l, e) ← genReadSet L (fun i => genReadVal p S L mem msd fuel (i :: path) [] [] et) n.toNat 0 (TSet.new t n)
      if e.isSome then return (l.toDyn (mem path), e)
      let e ← p.readSetEnd
      return (l.toDyn (mem path), e.map (excReadField [] (ascii "set")))
    | .map kt vt => do
      let ((k, v, n), e) ← p.readMapBegin
      if e.isSome then return (.nil, e.map (excReadField [] []))
      let (m, e) ← genReadMap L (fun i => genReadVal p S L mem msd fuel (i :: path) [] [] kt)
        (fun i => genReadVal p S L mem msd fuel (i :: path) [] [] vt) n.toNat 0 (TMap.new k v n)
      if e.isSome then return (m.toDyn (mem path), e)
      let e ← p.readMapEnd
      return (m.toDyn (mem path), e.map (excReadField [] (ascii "map")))

/-- `x.Read(iprot)` on an object with fields `attrs`. -/
def genReadInto (p : Proto π) (S : Schema) (L : FloatLib) (mem : List Nat → Nat) (msd : Int) (fuel : Nat)
    (path : List Nat) (sd : StructDef) (attrs : List (Int × Dyn)) : P π (List (Int × Dyn) × GoErr) :=
  genReadBody p sd attrs (genReadFields p
    (fun fn sn m => genReadVal p S L mem msd fuel (m.id.toNat :: path) fn sn m.ty)
    (skipDefaultDepth p msd fuel) sd fuel)

/-- `x := New…(); x.Read(iprot)`. -/
def genRead (p : Proto π) (S : Schema) (L : FloatLib) (mem : List Nat → Nat) (msd : Int) (fuel : Nat)
    (path : List Nat) (sd : StructDef) : P π (List (Int × Dyn) × GoErr) :=
  genReadInto p S L mem msd fuel path sd (sd.fresh S)

end Thrift
