import Verif.Model.Gen
import Verif.Spec.Value
import Verif.Spec.Dyn
/-!
# What generated structs should do

Stated without the generated readers and writers of the model.
-/

namespace Thrift

/-- Field ids are distinct and at least -1 (the first implicit one), names are
distinct and not empty. -/
structure StructDef.Ok (sd : StructDef) : Prop where
  ids : sd.members.Pairwise fun a b => a.id ≠ b.id
  names : sd.members.Pairwise fun a b => a.name ≠ b.name
  low : ∀ m ∈ sd.members, -1 ≤ m.id.toInt
  named : ∀ m ∈ sd.members, m.name ≠ []

/-- The declarations of a program with at most one implicit (negative) field id
in each struct. -/
def Schema.Ok (S : Schema) : Prop := ∀ k, (S.structs k).Ok

/-- No implicit field ids. -/
def Schema.NonNegative (S : Schema) : Prop := ∀ k, ∀ m ∈ (S.structs k).members, 0 ≤ m.id.toInt

mutual
/-- A value tree of a declared type.  Structs may have fields that are not
declared, of any type; ids below -1 only if no member has id -1. -/
def Val.Conforms (S : Schema) : Val → Ty → Prop
  | .bool _, .bool | .byte _, .byte | .i16 _, .i16 | .i32 _, .i32 | .i32 _, .enum _ | .i64 _, .i64 => True
  | .double _, .double | .str _, .string | .str _, .binary => True
  | .struct fs, .struct k => fs.Conforms S (S.structs k)
  | .map _ _ ps, .map kt vt => ps.Conforms S kt vt
  | .set _ vs, .set e => vs.Conforms S e
  | .list _ vs, .list e => vs.Conforms S e
  | _, _ => False
def Fields.Conforms (S : Schema) (sd : StructDef) : Fields → Prop
  | .nil => True
  | .cons id v r => (∀ m ∈ sd.members, m.id = id → v.Conforms S m.ty) ∧
    (id.toInt < -1 → ∀ m ∈ sd.members, m.id.toInt ≠ -1) ∧ r.Conforms S sd
def Vals.Conforms (S : Schema) (e : Ty) : Vals → Prop
  | .nil => True
  | .cons v r => v.Conforms S e ∧ r.Conforms S e
def Pairs.Conforms (S : Schema) (kt vt : Ty) : Pairs → Prop
  | .nil => True
  | .cons k v r => k.Conforms S kt ∧ v.Conforms S vt ∧ r.Conforms S kt vt
end

/-- Two Go values hold the same data: equal up to the identity of the objects, the
element types that containers record, and the sign of zero. -/
inductive Same : Dyn → Dyn → Prop
  | refl (d : Dyn) : Same d d
  | float {a b : F64} (h : F64.eq a b = true) : Same (.float64 a) (.float64 b)
  | struct {p q g n t f as bs} (ids : as.map (·.1) = bs.map (·.1))
      (h : ∀ i, Same (attributeOf as i) (attributeOf bs i)) : Same (.struct p g n t f as) (.struct q g n t f bs)
  | list {p q t t' as bs} (len : as.length = bs.length) (h : ∀ i, Same (as.getD i .nil) (bs.getD i .nil)) :
      Same (.list p t as) (.list q t' bs)
  | set {p q t t' n as bs} (len : as.length = bs.length) (h : ∀ i, Same (as.getD i .nil) (bs.getD i .nil)) :
      Same (.set p t n as) (.set q t' n bs)
  | map {p q kt vt kt' vt' n ks vs ks' vs' es es'} (len : es.length = es'.length)
      (hk : ∀ i, Same (es.getD i (.nil, .nil)).1 (es'.getD i (.nil, .nil)).1)
      (hv : ∀ i, Same (es.getD i (.nil, .nil)).2 (es'.getD i (.nil, .nil)).2) :
      Same (.map p kt vt n ks vs es) (.map q kt' vt' n ks' vs' es')

/-- The IDL types whose values may be elements of lists and sets so that the
elements keep their Go type. -/
def Ty.Plain : Ty → Prop
  | .enum _ | .binary => False
  | _ => True

/-- The IDL types whose values may be keys of Go maps. -/
def Ty.Key : Ty → Prop
  | .bool | .byte | .i16 | .i32 | .i64 | .double | .string => True
  | _ => False

/-- Enumerators have names, not numbers. -/
def Ty.Textual (S : Schema) : Ty → Prop
  | .enum k => ∀ v, decimalValue (S.enumText k v) = none
  | _ => True

/-- The IDL types that become Go slices, interfaces or pointers. -/
def Ty.Nilable : Ty → Prop
  | .binary | .struct _ | .list _ | .set _ | .map .. => True
  | _ => False

/-- The field was never assigned. -/
def Member.Unset (S : Schema) (m : Member) (d : Dyn) : Prop :=
  m.dflt = none ∧ (m.ty.Nilable ∧ d = .nil ∨ ∃ k, m.ty = .enum k ∧ d = .enumer k enumUnset (S.enumText k enumUnset))

/-- The container has no elements. -/
def Dyn.isEmpty : Dyn → Bool
  | .list _ _ vs => vs.isEmpty
  | .set _ _ _ vs => vs.isEmpty
  | .map _ _ _ _ _ _ es => es.isEmpty
  | _ => false

/-- Values that generated code can carry: of the declared type, small enough for
the wire, and with containers restricted to what survives.  Lists and sets have
no elements of enum or binary type, sets at most one element, maps keys of
primitive types and distinct; fields are unset or hold such a value, and optional
fields do not hold an empty container. -/
inductive Fine (S : Schema) : Ty → Dyn → Prop
  | bool (b) : Fine S .bool (.bool b)
  | byte (b) : Fine S .byte (.byte b)
  | i16 (b) : Fine S .i16 (.int16 b)
  | i32 (b) : Fine S .i32 (.int32 b)
  | i64 (b) : Fine S .i64 (.int64 b)
  | double (b) : Fine S .double (.float64 b)
  | string (b) (h : b.length < 2 ^ 31) : Fine S .string (.string b)
  | binary (b) (h : b.length < 2 ^ 31) : Fine S .binary (.bytes b)
  | enum (k v) (h : -2 ^ 31 ≤ v.toInt ∧ v.toInt < 2 ^ 31) : Fine S (.enum k) (.enumer k v (S.enumText k v))
  | struct (k ptr attrs) (ids : attrs.map (·.1) = (S.structs k).members.map (·.id.toInt))
      (check : ∀ m ∈ (S.structs k).members, m.ty = .double → m.initial S = .float64 m.check)
      (nonempty : ∀ m ∈ (S.structs k).members, m.optional = true → (attributeOf attrs m.id.toInt).isEmpty = false)
      (h : ∀ m ∈ (S.structs k).members, ¬ m.Unset S (attributeOf attrs m.id.toInt) →
        Fine S m.ty (attributeOf attrs m.id.toInt)) : Fine S (.struct k) ((S.structs k).object ptr attrs)
  | list (e ptr t vs) (he : e.Plain) (len : vs.length < 2 ^ 31) (h : ∀ d ∈ vs, Fine S e d) :
      Fine S (.list e) (.list ptr t vs)
  | set (e ptr t vs) (he : e.Plain) (len : vs.length ≤ 1) (h : ∀ d ∈ vs, Fine S e d) :
      Fine S (.set e) (.set ptr t vs.length vs)
  | map (k v ptr vt ks vs es) (hk : k.Key) (hv : v.Textual S) (len : es.length < 2 ^ 31)
      (distinct : es.Pairwise fun a b => TMap.sameKey b.1 a.1 = false)
      (h1 : ∀ d ∈ es, Fine S k d.1) (h2 : ∀ d ∈ es, Fine S v d.2) :
      Fine S (.map k v) (.map ptr k.code vt es.length ks vs es)

/-- Values of a declared type: what a Go variable of the generated type can hold
when it was filled through the exported names, within the sizes of the wire
format. -/
inductive Typed (S : Schema) : Ty → Dyn → Prop
  | bool (b) : Typed S .bool (.bool b)
  | byte (b) : Typed S .byte (.byte b)
  | i16 (b) : Typed S .i16 (.int16 b)
  | i32 (b) : Typed S .i32 (.int32 b)
  | i64 (b) : Typed S .i64 (.int64 b)
  | double (b) : Typed S .double (.float64 b)
  | string (b) (h : b.length < 2 ^ 31) : Typed S .string (.string b)
  | binary (b) (h : b.length < 2 ^ 31) : Typed S .binary (.bytes b)
  | enum (k v) (h : -2 ^ 31 ≤ v.toInt ∧ v.toInt < 2 ^ 31) : Typed S (.enum k) (.enumer k v (S.enumText k v))
  | struct (k ptr attrs) (ids : attrs.map (·.1) = (S.structs k).members.map (·.id.toInt))
      (h : ∀ m ∈ (S.structs k).members, ¬ m.Unset S (attributeOf attrs m.id.toInt) →
        Typed S m.ty (attributeOf attrs m.id.toInt)) : Typed S (.struct k) ((S.structs k).object ptr attrs)
  | list (e ptr vs) (len : vs.length < 2 ^ 31) (h : ∀ d ∈ vs, Typed S e d) : Typed S (.list e) (.list ptr e.code vs)
  | set (e ptr vs) (len : vs.length < 2 ^ 31) (h : ∀ d ∈ vs, Typed S e d) :
      Typed S (.set e) (.set ptr e.code vs.length vs)
  | map (k v ptr ks vs es) (len : es.length < 2 ^ 31) (h1 : ∀ d ∈ es, Typed S k d.1) (h2 : ∀ d ∈ es, Typed S v d.2) :
      Typed S (.map k v) (.map ptr k.code v.code es.length ks vs es)

mutual
/-- The value without the fields that its type does not declare, at any depth. -/
def Val.strip (S : Schema) : Val → Ty → Val
  | .struct fs, .struct k => .struct (fs.strip S (S.structs k))
  | .map kt vt ps, .map k v => .map kt vt (ps.strip S k v)
  | .set t vs, .set e => .set t (vs.strip S e)
  | .list t vs, .list e => .list t (vs.strip S e)
  | v, _ => v
def Fields.strip (S : Schema) (sd : StructDef) : Fields → Fields
  | .nil => .nil
  | .cons id v r => match sd.members.find? fun m => id = m.id with
    | some m => .cons id (v.strip S m.ty) (r.strip S sd)
    | none => r.strip S sd
def Vals.strip (S : Schema) (e : Ty) : Vals → Vals
  | .nil => .nil
  | .cons v r => .cons (v.strip S e) (r.strip S e)
def Pairs.strip (S : Schema) (kt vt : Ty) : Pairs → Pairs
  | .nil => .nil
  | .cons k v r => .cons (k.strip S kt) (v.strip S vt) (r.strip S kt vt)
end

/-- Two runs of a reader end alike: both deliver the same value without error and
leave `left`, or both panic, or both hang. -/
def SameOutcome (x : Res ((α × GoErr) × π) × τ) (y : Res ((α × GoErr) × π) × τ) (left : τ) : Prop :=
  match x.1, y.1 with
  | .ok ((a, e), _), .ok ((b, e'), _) => a = b ∧ e = none ∧ e' = none ∧ x.2 = left ∧ y.2 = left
  | .panic, .panic => True
  | .stuck, .stuck => True
  | _, _ => False

end Thrift
