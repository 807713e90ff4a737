import Verif.Model.Dyn
/-!
# What the order on scalar values should be

Stated without the comparison and coercion functions of the model.
-/

namespace Thrift

/-- The dynamic type of the value is the one that the Thrift type stands for. -/
def Native (p : TType) : Dyn → Prop
  | .bool _ => p = TT.BOOL
  | .byte _ => p = TT.BYTE
  | .float64 _ => p = TT.DOUBLE
  | .int16 _ => p = TT.I16
  | .int32 _ => p = TT.I32
  | .int64 _ => p = TT.I64
  | .string _ => p = TT.STRING ∨ p = TT.ENUM ∨ p = TT.UTF16
  | .bytes _ => p = TT.BINARY
  | .struct .. => p = TT.STRUCT
  | .map .. => p = TT.MAP
  | .set .. => p = TT.SET
  | .list .. => p = TT.LIST
  | _ => False

/-- Values of scalar kinds, without NaN. -/
def Dyn.Ordered : Dyn → Prop
  | .bool _ | .byte _ | .int16 _ | .int32 _ | .int64 _ | .string _ | .bytes _ => True
  | .float64 v => F64.isNaN v = false
  | _ => False

/-- A scalar value of one Thrift type, not NaN. -/
def Scalar (p : TType) (v : Dyn) : Prop := Native p v ∧ v.Ordered

/-- Where a scalar value stands: its number, or its bytes. -/
def Dyn.key : Dyn → List Int
  | .bool b => [if b then 1 else 0]
  | .byte v => [v.toNat]
  | .int16 v => [v.toInt]
  | .int32 v => [v.toInt]
  | .int64 v => [v.toInt]
  | .float64 v => [F64.rank v]
  | .string s | .bytes s => s.map fun b => (b.toNat : Int)
  | _ => []

/-- Lexicographic order. -/
def LexLt : List Int → List Int → Prop
  | [], [] => False
  | [], _ :: _ => True
  | _ :: _, [] => False
  | a :: as, b :: bs => a < b ∨ a = b ∧ LexLt as bs

/-- The numeric value of an optional sign and a non-empty row of decimal digits. -/
def digitsValue : Bytes → Option Nat → Option Nat
  | [], n => n
  | c :: cs, n =>
    if 48 ≤ c.toNat ∧ c.toNat ≤ 57 then digitsValue cs (some (n.getD 0 * 10 + (c.toNat - 48))) else none

def decimalValue : Bytes → Option Int
  | [] => none
  | c :: cs =>
    if c = 43 then (digitsValue cs none).map fun (n : Nat) => (n : Int)
    else if c = 45 then (digitsValue cs none).map fun (n : Nat) => -(n : Int)
    else (digitsValue (c :: cs) none).map fun (n : Nat) => (n : Int)

end Thrift
