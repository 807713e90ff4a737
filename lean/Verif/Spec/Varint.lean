import Verif.Model.Go
/-!
# Zigzag and base-128 numbers

The arithmetic definitions used by the Thrift compact encoding, on unbounded
integers.
-/

namespace Thrift

/-- Zigzag: 0, -1, 1, -2, 2, ... become 0, 1, 2, 3, 4, ... -/
def zigzag (z : Int) : Nat := if 0 ≤ z then (2 * z).toNat else (-2 * z - 1).toNat

/-- The inverse of `zigzag`. -/
def unzigzag (n : Nat) : Int := if n % 2 = 0 then (n / 2 : Nat) else -((n / 2 : Nat) : Int) - 1

/-- Base-128 digits, least significant first, all but the last with the top bit
set. -/
def leb128 (n : Nat) : Bytes :=
  if n < 128 then [BitVec.ofNat 8 n] else BitVec.ofNat 8 (n % 128 + 128) :: leb128 (n / 128)

/-- The number denoted by a base-128 byte string (only digits that count). -/
def leb128Value : Bytes → Nat
  | [] => 0
  | b :: bs => b.toNat % 128 + 128 * leb128Value bs

/-- A complete base-128 numeral: exactly the last byte has the top bit clear. -/
def IsLeb128 : Bytes → Prop
  | [] => False
  | [b] => b.toNat < 128
  | b :: bs => 128 ≤ b.toNat ∧ IsLeb128 bs

end Thrift
