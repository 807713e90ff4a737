import Verif.Model.Binary
import Verif.Spec.Value
/-!
# Big-endian split and join
-/

namespace Thrift

@[simp] theorem be_length (k v : Nat) : (be k v).length = k := by
  induction k generalizing v with
  | zero => rfl
  | succ k ih => simp [be, ih]

theorem be_one (v : Nat) : be 1 v = [BitVec.ofNat 8 v] := rfl
theorem be_two (v : Nat) : be 2 v = [BitVec.ofNat 8 (v / 256), BitVec.ofNat 8 v] := rfl
theorem be_four (v : Nat) : be 4 v = [BitVec.ofNat 8 (v / 256 / 256 / 256),
    BitVec.ofNat 8 (v / 256 / 256), BitVec.ofNat 8 (v / 256), BitVec.ofNat 8 v] := rfl
theorem be_eight (v : Nat) : be 8 v = [
    BitVec.ofNat 8 (v / 256 / 256 / 256 / 256 / 256 / 256 / 256),
    BitVec.ofNat 8 (v / 256 / 256 / 256 / 256 / 256 / 256),
    BitVec.ofNat 8 (v / 256 / 256 / 256 / 256 / 256),
    BitVec.ofNat 8 (v / 256 / 256 / 256 / 256),
    BitVec.ofNat 8 (v / 256 / 256 / 256),
    BitVec.ofNat 8 (v / 256 / 256), BitVec.ofNat 8 (v / 256), BitVec.ofNat 8 v] := rfl

/-- The byte at bit offset `k`. -/
theorem byteAt (v : BitVec w) (k : Nat) :
    (v >>> k).setWidth 8 = BitVec.ofNat 8 (v.toNat / 2 ^ k) := by
  apply BitVec.eq_of_toNat_eq
  simp [BitVec.toNat_setWidth, Nat.shiftRight_eq_div_pow]

theorem maskByte (x : BitVec w) : ((0xff#w) &&& x).setWidth 8 = x.setWidth 8 := by
  apply BitVec.eq_of_getLsbD_eq
  intro i hi
  simp only [BitVec.getLsbD_setWidth, hi, decide_true, Bool.true_and, BitVec.getLsbD_and,
    BitVec.getLsbD_ofNat]
  by_cases hw : i < w
  · have : Nat.testBit 255 i = true := by
      have : i = 0 ∨ i = 1 ∨ i = 2 ∨ i = 3 ∨ i = 4 ∨ i = 5 ∨ i = 6 ∨ i = 7 := by omega
      rcases this with h | h | h | h | h | h | h | h <;> subst h <;> decide
    simp [this, hw]
  · simp [BitVec.getLsbD_of_ge x i (by omega)]

theorem sshiftByte (v : BitVec w) (k : Nat) (h : k + 8 ≤ w) :
    (v.sshiftRight k).setWidth 8 = BitVec.ofNat 8 (v.toNat / 2 ^ k) := by
  rw [← byteAt]
  apply BitVec.eq_of_getLsbD_eq
  intro i hi
  simp only [BitVec.getLsbD_setWidth, BitVec.getLsbD_sshiftRight, BitVec.getLsbD_ushiftRight]
  have h1 : i < w := by omega
  have h2 : k + i < w := by omega
  simp [hi, h1, h2]

theorem setWidthByte (v : BitVec w) : v.setWidth 8 = BitVec.ofNat 8 v.toNat := by
  apply BitVec.eq_of_toNat_eq
  simp

/-- One byte put back at its place. -/
theorem getLsbD_placed (v : BitVec w) (k i : Nat) (hi : i < w) :
    ((BitVec.ofNat 8 (v.toNat / 2 ^ k)).setWidth w <<< k).getLsbD i =
      (decide (k ≤ i ∧ i < k + 8) && v.getLsbD i) := by
  rw [← byteAt]
  simp only [BitVec.getLsbD_shiftLeft, BitVec.getLsbD_setWidth, BitVec.getLsbD_ushiftRight, hi,
    decide_true, Bool.true_and]
  by_cases h1 : i < k
  · have : ¬ (k ≤ i ∧ i < k + 8) := by omega
    simp [h1, this]
  · by_cases h2 : i < k + 8
    · have e : k + (i - k) = i := by omega
      have h3 : i - k < 8 := by omega
      have h4 : i - k < w := by omega
      have h5 : k ≤ i := by omega
      simp [h2, h3, h4, h5, e]
    · have : ¬ (k ≤ i ∧ i < k + 8) := by omega
      have h3 : ¬ (i - k < 8) := by omega
      simp [this, h3]

theorem placed_zero (v : BitVec w) : (BitVec.ofNat 8 v.toNat).setWidth w =
    (BitVec.ofNat 8 (v.toNat / 2 ^ 0)).setWidth w <<< 0 := by simp

theorem uint16BE_be (v : BitVec 16) (rest : Bytes) :
    BinaryProtocol.uint16BE (be 2 v.toNat ++ rest) = v := by
  simp only [be_two, List.cons_append, BinaryProtocol.uint16BE]
  apply BitVec.eq_of_getLsbD_eq
  intro i hi
  rw [placed_zero v, show v.toNat / 256 = v.toNat / 2 ^ 8 from rfl]
  simp only [BitVec.getLsbD_or, getLsbD_placed v _ i hi]
  have : (decide (0 ≤ i ∧ i < 0 + 8) || decide (8 ≤ i ∧ i < 8 + 8)) = true := by
    simp only [← Bool.decide_or, decide_eq_true_eq]; omega
  cases v.getLsbD i
  · simp
  · simpa only [Bool.and_true] using this

theorem uint32BE_be (v : BitVec 32) (rest : Bytes) :
    uint32BE (be 4 v.toNat ++ rest) = v := by
  simp only [be_four, List.cons_append, uint32BE]
  apply BitVec.eq_of_getLsbD_eq
  intro i hi
  simp only [Nat.div_div_eq_div_mul]
  rw [placed_zero v, show v.toNat / 256 = v.toNat / 2 ^ 8 from rfl,
    show v.toNat / (256 * 256) = v.toNat / 2 ^ 16 from rfl,
    show v.toNat / (256 * 256 * 256) = v.toNat / 2 ^ 24 from rfl]
  simp only [BitVec.getLsbD_or, getLsbD_placed v _ i hi]
  have : (decide (0 ≤ i ∧ i < 0 + 8) || decide (8 ≤ i ∧ i < 8 + 8) ||
      decide (16 ≤ i ∧ i < 16 + 8) || decide (24 ≤ i ∧ i < 24 + 8)) = true := by
    simp only [← Bool.decide_or, decide_eq_true_eq]; omega
  cases v.getLsbD i
  · simp
  · simpa only [Bool.and_true] using this

theorem uint64BE_be (v : BitVec 64) (rest : Bytes) :
    BinaryProtocol.uint64BE (be 8 v.toNat ++ rest) = v := by
  simp only [be_eight, List.cons_append, BinaryProtocol.uint64BE]
  apply BitVec.eq_of_getLsbD_eq
  intro i hi
  simp only [Nat.div_div_eq_div_mul]
  rw [placed_zero v, show v.toNat / 256 = v.toNat / 2 ^ 8 from rfl,
    show v.toNat / (256 * 256) = v.toNat / 2 ^ 16 from rfl,
    show v.toNat / (256 * 256 * 256) = v.toNat / 2 ^ 24 from rfl,
    show v.toNat / (256 * 256 * 256 * 256) = v.toNat / 2 ^ 32 from rfl,
    show v.toNat / (256 * 256 * 256 * 256 * 256) = v.toNat / 2 ^ 40 from rfl,
    show v.toNat / (256 * 256 * 256 * 256 * 256 * 256) = v.toNat / 2 ^ 48 from rfl,
    show v.toNat / (256 * 256 * 256 * 256 * 256 * 256 * 256) = v.toNat / 2 ^ 56 from rfl]
  simp only [BitVec.getLsbD_or, getLsbD_placed v _ i hi]
  have : (decide (0 ≤ i ∧ i < 0 + 8) || decide (8 ≤ i ∧ i < 8 + 8) ||
      decide (16 ≤ i ∧ i < 16 + 8) || decide (24 ≤ i ∧ i < 24 + 8) ||
      decide (32 ≤ i ∧ i < 32 + 8) || decide (40 ≤ i ∧ i < 40 + 8) ||
      decide (48 ≤ i ∧ i < 48 + 8) || decide (56 ≤ i ∧ i < 56 + 8)) = true := by
    simp only [← Bool.decide_or, decide_eq_true_eq]; omega
  cases v.getLsbD i
  · simp
  · simpa only [Bool.and_true] using this

theorem uint32BE_be_nat (n : Nat) (h : n < 2 ^ 32) (rest : Bytes) :
    uint32BE (be 4 n ++ rest) = BitVec.ofNat 32 n := by
  have := uint32BE_be (BitVec.ofNat 32 n) rest
  rwa [BitVec.toNat_ofNat, Nat.mod_eq_of_lt h] at this

theorem split16 (v : BitVec 16) :
    [((0xff : BitVec 16) &&& v.sshiftRight 8).setWidth 8, ((0xff : BitVec 16) &&& v).setWidth 8] =
      be 2 v.toNat := by
  rw [be_two, show (0xff : BitVec 16) = 0xff#16 from rfl, maskByte, maskByte, sshiftByte _ _ (by omega),
    setWidthByte v]

theorem split32 (v : BitVec 32) :
    [((0xff : BitVec 32) &&& v.sshiftRight 24).setWidth 8, ((0xff : BitVec 32) &&& v.sshiftRight 16).setWidth 8,
     ((0xff : BitVec 32) &&& v.sshiftRight 8).setWidth 8, ((0xff : BitVec 32) &&& v).setWidth 8] =
      be 4 v.toNat := by
  simp only [be_four, show (0xff : BitVec 32) = 0xff#32 from rfl, maskByte, Nat.div_div_eq_div_mul]
  rw [sshiftByte _ _ (by omega), sshiftByte _ _ (by omega), sshiftByte _ _ (by omega), setWidthByte v]

theorem split64 (v : BitVec 64) :
    [((0xff : BitVec 64) &&& v.sshiftRight 56).setWidth 8, ((0xff : BitVec 64) &&& v.sshiftRight 48).setWidth 8,
     ((0xff : BitVec 64) &&& v.sshiftRight 40).setWidth 8, ((0xff : BitVec 64) &&& v.sshiftRight 32).setWidth 8,
     ((0xff : BitVec 64) &&& v.sshiftRight 24).setWidth 8, ((0xff : BitVec 64) &&& v.sshiftRight 16).setWidth 8,
     ((0xff : BitVec 64) &&& v.sshiftRight 8).setWidth 8, ((0xff : BitVec 64) &&& v).setWidth 8] =
      be 8 v.toNat := by
  simp only [be_eight, show (0xff : BitVec 64) = 0xff#64 from rfl, maskByte, Nat.div_div_eq_div_mul]
  rw [sshiftByte _ _ (by omega), sshiftByte _ _ (by omega), sshiftByte _ _ (by omega),
    sshiftByte _ _ (by omega), sshiftByte _ _ (by omega), sshiftByte _ _ (by omega),
    sshiftByte _ _ (by omega), setWidthByte v]

theorem putUint32BE_be (v : BitVec 32) : putUint32BE v = be 4 v.toNat := by
  simp only [be_four, putUint32BE, Nat.div_div_eq_div_mul]
  rw [byteAt, byteAt, byteAt, setWidthByte v]

end Thrift
