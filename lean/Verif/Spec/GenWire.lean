import Verif.Spec.Gen
import Verif.Spec.Value
/-!
# What a generated struct means on the wire
-/

namespace Thrift

/-- A field counts as assigned: it differs from what it starts with.  References
must not be nil; containers must moreover have elements unless the declared
default has some. -/
def Member.Assigned (S : Schema) (m : Member) (d : Dyn) : Prop :=
  match m.ty with
  | .binary | .struct _ => d ≠ .nil
  | .list _ | .set _ | .map .. => d ≠ .nil ∧ (m.emptyDflt = true → d.isEmpty = false)
  | .enum _ => ∀ k v s, d = .enumer k v s → v.toInt ≠ -2147483649
  | .double => ∀ v, d = .float64 v → F64.eq v m.check = false
  | _ => d ≠ m.initial S

/-- A field is sent: it is not nil, and if it is optional or an enum it was
assigned. -/
def Member.Sent (S : Schema) (m : Member) (d : Dyn) : Prop :=
  d ≠ .nil ∧ ((m.optional = true ∨ ∃ k, m.ty = .enum k) → m.Assigned S d)

def Vals.ofList : List Val → Vals
  | [] => .nil
  | v :: r => .cons v (Vals.ofList r)

def Pairs.ofList : List (Val × Val) → Pairs
  | [] => .nil
  | (k, v) :: r => .cons k v (Pairs.ofList r)

/-- The ids in the order of the wire. -/
def Fields.ids : Fields → List I16
  | .nil => []
  | .cons id _ r => id :: r.ids

/-- A Go value of a declared type stands for a Thrift value.  A struct stands for
the fields that are sent, in the order of their ids, each with the value that its
attribute stands for. -/
inductive Means (S : Schema) : Ty → Dyn → Val → Prop
  | bool (b) : Means S .bool (.bool b) (.bool b)
  | byte (b) : Means S .byte (.byte b) (.byte b)
  | i16 (b) : Means S .i16 (.int16 b) (.i16 b)
  | i32 (b) : Means S .i32 (.int32 b) (.i32 b)
  | i64 (b) : Means S .i64 (.int64 b) (.i64 b)
  | double (b) : Means S .double (.float64 b) (.double b)
  | string (b) : Means S .string (.string b) (.str b)
  | binary (b) : Means S .binary (.bytes b) (.str b)
  | enum (k v s) (n : I32) (h : n.toInt = v.toInt) : Means S (.enum k) (.enumer k v s) (.i32 n)
  | struct (k ptr attrs) (sent : List (Member × Val))
      (order : sent.Pairwise fun a b => a.1.id.toInt < b.1.id.toInt)
      (which : ∀ m, m ∈ sent.map (·.1) ↔ m ∈ (S.structs k).members ∧ m.Sent S (attributeOf attrs m.id.toInt))
      (h : ∀ x ∈ sent, Means S x.1.ty (attributeOf attrs x.1.id.toInt) x.2) :
      Means S (.struct k) ((S.structs k).object ptr attrs) (.struct (Fields.ofList (sent.map fun x => (x.1.id, x.2))))
  | list (e ptr t) (xs : List (Dyn × Val)) (h : ∀ x ∈ xs, Means S e x.1 x.2) :
      Means S (.list e) (.list ptr t (xs.map (·.1))) (.list e.wire (Vals.ofList (xs.map (·.2))))
  | set (e ptr t) (xs : List (Dyn × Val)) (h : ∀ x ∈ xs, Means S e x.1 x.2) :
      Means S (.set e) (.set ptr t xs.length (xs.map (·.1))) (.set e.wire (Vals.ofList (xs.map (·.2))))
  | map (k v ptr kt vt ks vs) (xs : List ((Dyn × Val) × (Dyn × Val))) (h1 : ∀ x ∈ xs, Means S k x.1.1 x.1.2)
      (h2 : ∀ x ∈ xs, Means S v x.2.1 x.2.2) :
      Means S (.map k v) (.map ptr kt vt xs.length ks vs (xs.map fun x => (x.1.1, x.2.1)))
        (.map k.wire v.wire (Pairs.ofList (xs.map fun x => (x.1.2, x.2.2))))

/-- No map in the type has maps for keys. -/
def Ty.MapKeyFree : Ty → Prop
  | .list e | .set e => e.MapKeyFree
  | .map k v => (∀ a b, k ≠ .map a b) ∧ k.MapKeyFree ∧ v.MapKeyFree
  | _ => True

/-- The type `binary` does not occur in the type. -/
def Ty.BinaryFree : Ty → Prop
  | .binary => False
  | .list e | .set e => e.BinaryFree
  | .map k v => k.BinaryFree ∧ v.BinaryFree
  | _ => True

end Thrift
