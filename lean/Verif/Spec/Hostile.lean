import Verif.Spec.Service
import Verif.Spec.GenWire
/-!
# Services that face hostile clients
-/

namespace Thrift

/-- Neither `binary` nor a container; structs only out of `R`. -/
def Ty.Direct (R : Nat → Prop) : Ty → Prop
  | .binary | .list _ | .set _ | .map .. => False
  | .struct k => R k
  | _ => True

/-- Values of the struct contain neither `binary` nor containers, at any depth. -/
def Schema.Direct (S : Schema) (k : Nat) : Prop :=
  ∃ R : Nat → Prop, R k ∧ ∀ j, R j → ∀ m ∈ (S.structs j).members, m.ty.Direct R

/-- The fields of an object that were assigned hold values of the declared types. -/
def FieldsTyped (S : Schema) (sd : StructDef) (r : Attrs) : Prop :=
  ∀ x ∈ sd.members, ¬ x.Unset S (attributeOf r x.id.toInt) → Typed S x.ty (attributeOf r x.id.toInt)

/-- A service as the Go compiler accepts it: handlers return values of the declared
types; the struct for the results of a oneway method has no fields.  Maps have no
maps for keys. -/
structure Service.WellTyped (S : Schema) (sv : Service η) : Prop where
  keys : ∀ k, ∀ m ∈ (S.structs k).members, m.ty.MapKeyFree
  results : ∀ m ∈ sv.methods, ∀ h as r h', sv.handle m h as = ((r, none), h') → FieldsTyped S (S.structs m.result) r
  oneway : ∀ m ∈ sv.methods, m.oneway = true → (S.structs m.result).members = []

end Thrift

namespace Thrift

/-- Zeros that read as a value of the type. -/
def Ty.zeros : Ty → Bytes
  | .bool | .byte | .struct _ => [0]
  | .i16 => [0, 0]
  | .i32 | .enum _ | .string | .binary => [0, 0, 0, 0]
  | .i64 | .double => [0, 0, 0, 0, 0, 0, 0, 0]
  | .list _ | .set _ => [0, 0, 0, 0, 0]
  | .map .. => [0, 0, 0, 0, 0, 0]

/-- Bytes in place of a value of the type: a negative length, or one element of
a type that no protocol knows. -/
def Ty.poison : Ty → Option Bytes
  | .binary => some [255, 255, 255, 255]
  | .list e | .set e => some ([5, 0, 0, 0, 1] ++ e.zeros)
  | .map k v => some ([5, 5, 0, 0, 0, 1] ++ (k.zeros ++ v.zeros))
  | _ => none

/-- Bytes in place of a struct: the poison in one of its fields or, further in, in
one of the structs it contains. -/
inductive Poisons (S : Schema) : Nat → Bytes → Prop where
  | here (k : Nat) (m : Member) (bs : Bytes) : m ∈ (S.structs k).members → m.ty.poison = some bs →
    Poisons S k ([m.ty.wire] ++ be 2 m.id.toNat ++ bs)
  | inside (k : Nat) (m : Member) (j : Nat) (bs : Bytes) : m ∈ (S.structs k).members → m.ty = .struct j →
    Poisons S j bs → Poisons S k ([m.ty.wire] ++ be 2 m.id.toNat ++ bs)

end Thrift

namespace Thrift

/-- No four bytes in a row have their high bit set. -/
def NoLong (inp : Bytes) : Prop :=
  ∀ pre run post, inp = pre ++ run ++ post → (∀ b ∈ run, 128 ≤ b.toNat) → run.length < 4

/-- No container; structs only out of `R`. -/
def Ty.Flat (R : Nat → Prop) : Ty → Prop
  | .list _ | .set _ | .map .. => False
  | .struct k => R k
  | _ => True

/-- Values of the struct contain no containers, at any depth. -/
def Schema.Flat (S : Schema) (k : Nat) : Prop :=
  ∃ R : Nat → Prop, R k ∧ ∀ j, R j → ∀ m ∈ (S.structs j).members, m.ty.Flat R

/-- No `binary`; structs only out of `R`. -/
def Ty.Bare (R : Nat → Prop) : Ty → Prop
  | .binary => False
  | .struct k => R k
  | .list e | .set e => e.Bare R
  | .map k v => k.Bare R ∧ v.Bare R
  | _ => True

/-- Values of the struct contain no `binary`, at any depth. -/
def Schema.Bare (S : Schema) (k : Nat) : Prop :=
  ∃ R : Nat → Prop, R k ∧ ∀ j, R j → ∀ m ∈ (S.structs j).members, m.ty.Bare R

end Thrift
