import Verif.Spec.Json
import Verif.Spec.GenWire
/-!
# The JSON format that names fields

The document that the simple JSON protocol is to give for a value of a declared
type, and the Go values whose text can be read back.  Written independently of the
model's writers.
-/

namespace Thrift
namespace JsonSpec

/-- The name of the field with the id. -/
def fieldName (sd : StructDef) (id : I16) : Bytes :=
  match sd.members.find? fun m => id = m.id with
  | some m => m.name
  | none => []

/-- The type of the field with the id. -/
def fieldTy (sd : StructDef) (id : I16) : Ty :=
  match sd.members.find? fun m => id = m.id with
  | some m => m.ty
  | none => .bool

/-- Base64 with padding (RFC 4648). -/
def base64 : Bytes → Bytes
  | [] => []
  | [a] => [digit64 (a.toNat / 4), digit64 (a.toNat % 4 * 16), 61, 61]
  | [a, b] => [digit64 (a.toNat / 4), digit64 (a.toNat % 4 * 16 + b.toNat / 16), digit64 (b.toNat % 16 * 4), 61]
  | a :: b :: c :: r => digit64 (a.toNat / 4) :: digit64 (a.toNat % 4 * 16 + b.toNat / 16) ::
      digit64 (b.toNat % 16 * 4 + c.toNat / 64) :: digit64 (c.toNat % 64) :: base64 r
where
  digit64 (n : Nat) : Byte :=
    if n < 26 then BitVec.ofNat 8 (65 + n)
    else if n < 52 then BitVec.ofNat 8 (97 + (n - 26))
    else if n < 62 then BitVec.ofNat 8 (48 + (n - 52))
    else if n = 62 then 43 else 47

mutual
/-- The document for a value of a declared type: structs are objects with the
names of their fields; lists and sets are arrays that begin with the element type
and the length, maps arrays that begin with both types and the length; binary data
is a string in base64. -/
def ntext (L : JsonLib) (S : Schema) : Val → Ty → Bytes
  | .bool b, _ => if b then ascii "true" else ascii "false"
  | .byte b, _ => decimal b.toNat
  | .i16 v, _ => decimal v.toInt
  | .i32 v, _ => decimal v.toInt
  | .i64 v, _ => decimal v.toInt
  | .double v, _ => doubleText L v
  | .str b, ty => match ty with
    | .binary => inQuotes (base64 b)
    | _ => L.quote b
  | .struct fs, ty => match ty with
    | .struct k => 123 :: (nmembers L S (S.structs k) fs ++ [125])
    | _ => []
  | .map kt vt ps, ty => match ty with
    | .map k v => 91 :: (decimal kt.toNat ++ 44 :: (decimal vt.toNat ++ 44 :: (decimal ps.length ++ (npairs L S k v ps ++ [93]))))
    | _ => []
  | .set t vs, ty => match ty with
    | .set e => 91 :: (decimal t.toNat ++ 44 :: (decimal vs.length ++ (nelements L S e vs ++ [93])))
    | _ => []
  | .list t vs, ty => match ty with
    | .list e => 91 :: (decimal t.toNat ++ 44 :: (decimal vs.length ++ (nelements L S e vs ++ [93])))
    | _ => []
/-- Members with commas between them. -/
def nmembers (L : JsonLib) (S : Schema) (sd : StructDef) : Fields → Bytes
  | .nil => []
  | .cons id v .nil => L.quote (fieldName sd id) ++ 58 :: ntext L S v (fieldTy sd id)
  | .cons id v (.cons id' v' r) => L.quote (fieldName sd id) ++ 58 :: (ntext L S v (fieldTy sd id) ++ 44 ::
      nmembers L S sd (.cons id' v' r))
/-- Elements, each after a comma. -/
def nelements (L : JsonLib) (S : Schema) (e : Ty) : Vals → Bytes
  | .nil => []
  | .cons v r => 44 :: (ntext L S v e ++ nelements L S e r)
/-- Keys and values, each after a comma. -/
def npairs (L : JsonLib) (S : Schema) (kt vt : Ty) : Pairs → Bytes
  | .nil => []
  | .cons k v r => 44 :: (ntext L S k kt ++ 44 :: (ntext L S v vt ++ npairs L S kt vt r))
end

/-- The Go value can be told from its text: its strings are text and it holds no
NaN but Go's. -/
inductive Legible : Dyn → Prop
  | nil : Legible .nil
  | bool (b) : Legible (.bool b)
  | byte (b) : Legible (.byte b)
  | int16 (v) : Legible (.int16 v)
  | int32 (v) : Legible (.int32 v)
  | int64 (v) : Legible (.int64 v)
  | float64 (v) (h : F64.isNaN v = true → v = 0x7ff8000000000001) : Legible (.float64 v)
  | string (s) (h : Utf8 s) : Legible (.string s)
  | bytes (s) : Legible (.bytes s)
  | enumer (k v s) : Legible (.enumer k v s)
  | struct (p g n t f as) (h : ∀ i, Legible (attributeOf as i)) : Legible (.struct p g n t f as)
  | list (p t vs) (h : ∀ d ∈ vs, Legible d) : Legible (.list p t vs)
  | set (p t n vs) (h : ∀ d ∈ vs, Legible d) : Legible (.set p t n vs)
  | map (p kt vt n ks vs es) (h1 : ∀ d ∈ es, Legible d.1) (h2 : ∀ d ∈ es, Legible d.2) : Legible (.map p kt vt n ks vs es)

/-- No container in the type has elements, keys or values of type binary. -/
def NoBinaryElements : Ty → Prop
  | .list e | .set e => e ≠ .binary ∧ NoBinaryElements e
  | .map k v => k ≠ .binary ∧ v ≠ .binary ∧ NoBinaryElements k ∧ NoBinaryElements v
  | _ => True

/-- No map in the type has keys or values of type i16. -/
def NoShortEntries : Ty → Prop
  | .list e | .set e => NoShortEntries e
  | .map k v => k ≠ .i16 ∧ v ≠ .i16 ∧ NoShortEntries k ∧ NoShortEntries v
  | _ => True

/-- Names of fields are text, and no container has binary elements. -/
def Nameable (S : Schema) : Prop := ∀ k, ∀ m ∈ (S.structs k).members, Utf8 m.name ∧ NoBinaryElements m.ty

end JsonSpec
end Thrift
