import Verif.Spec.Varint
import Verif.Model.Compact
import Verif.Lemmas.Memory
/-!
# Zigzag and varints
-/

namespace Thrift
open CompactProtocol

/-! ## Zigzag -/

theorem unzigzag_zigzag (z : Int) : unzigzag (zigzag z) = z := by
  unfold unzigzag zigzag
  split <;> split <;> omega

theorem zigzag_unzigzag (n : Nat) : zigzag (unzigzag n) = n := by
  unfold unzigzag zigzag
  split <;> split <;> omega

theorem sshift_sign {w : Nat} (n : BitVec (w + 1)) :
    n.sshiftRight w = if n.msb then BitVec.allOnes (w + 1) else 0#(w + 1) := by
  apply BitVec.eq_of_getLsbD_eq
  intro i hi
  rw [BitVec.getLsbD_sshiftRight]
  have hm : n.msb = n.getLsbD w := by simp [BitVec.msb_eq_getLsbD_last]
  by_cases h0 : i = 0
  · subst h0
    cases h : n.msb with
    | true => simp [← hm, h]
    | false => rw [h] at hm; simpa using hm.symm
  · have : ¬ w + i < w + 1 := by omega
    have h2 : ¬ w + 1 ≤ i := by omega
    cases h : n.msb with
    | true => simp [this, h2, hi]
    | false => simp [this]

theorem toNat_shl_one {w : Nat} (n : BitVec (w + 1)) : (n <<< 1).toNat = 2 * n.toNat % 2 ^ (w + 1) := by
  simp [BitVec.toNat_shiftLeft, Nat.shiftLeft_eq, Nat.mul_comm]

theorem toNat_zigzag {w : Nat} (n : BitVec (w + 1)) :
    ((n <<< 1) ^^^ n.sshiftRight w).toNat = zigzag n.toInt := by
  rw [sshift_sign]
  have hb := n.isLt
  have hp : 2 ^ (w + 1) = 2 * 2 ^ w := by rw [Nat.pow_succ, Nat.mul_comm]
  rw [BitVec.toInt_eq_msb_cond]
  have hm := BitVec.msb_eq_decide n
  simp only [Nat.add_sub_cancel] at hm
  cases h : n.msb with
  | true =>
    rw [h] at hm
    have hm' : 2 ^ w ≤ n.toNat := by simpa using hm.symm
    simp only [if_true, BitVec.xor_allOnes, BitVec.toNat_not, toNat_shl_one, zigzag]
    have hneg : ¬ (0 : Int) ≤ (n.toNat : Int) - (2 ^ (w + 1) : Nat) := by omega
    rw [if_neg hneg]
    have : 2 * n.toNat % 2 ^ (w + 1) = 2 * n.toNat - 2 ^ (w + 1) := by
      rw [Nat.mod_eq_sub_mod (by omega), Nat.mod_eq_of_lt (by omega)]
    omega
  | false =>
    rw [h] at hm
    have hm' : n.toNat < 2 ^ w := by simpa using hm.symm
    simp only [Bool.false_eq_true, if_false, BitVec.xor_zero, toNat_shl_one, zigzag]
    rw [if_pos (by omega), Nat.mod_eq_of_lt (by omega)]
    omega

theorem toInt_unzigzag {w : Nat} (n : BitVec (w + 1)) (hw : 0 < w) :
    ((n >>> 1) ^^^ (-(n &&& 1))).toInt = unzigzag n.toNat := by
  have hb := n.isLt
  have hp : 2 ^ (w + 1) = 2 * 2 ^ w := by rw [Nat.pow_succ, Nat.mul_comm]
  have h1 : (1 : BitVec (w + 1)).toNat = 1 := by
    show (BitVec.ofNat (w + 1) 1).toNat = 1
    rw [BitVec.toNat_ofNat, Nat.mod_eq_of_lt]
    have := Nat.one_lt_two_pow (n := w + 1) (by omega)
    omega
  have hand : (n &&& 1).toNat = n.toNat % 2 := by
    rw [BitVec.toNat_and, h1, Nat.and_one_is_mod]
  have hshift : (n >>> 1).toNat = n.toNat / 2 := by
    simp [BitVec.toNat_ushiftRight, Nat.shiftRight_eq_div_pow]
  unfold unzigzag
  by_cases he : n.toNat % 2 = 0
  · have : n &&& 1 = 0#(w + 1) := by
      apply BitVec.eq_of_toNat_eq; rw [hand, he]; rfl
    rw [this, if_pos he]
    simp only [BitVec.neg_zero, BitVec.xor_zero]
    rw [BitVec.toInt_eq_toNat_of_lt (by rw [hshift]; omega), hshift]
  · have : n &&& 1 = 1#(w + 1) := by
      apply BitVec.eq_of_toNat_eq
      rw [hand]
      have : (1#(w + 1)).toNat = 1 := h1
      omega
    rw [this, if_neg he]
    have : -(1#(w + 1)) = BitVec.allOnes (w + 1) := BitVec.neg_one_eq_allOnes
    rw [this, BitVec.xor_allOnes, BitVec.toInt_eq_toNat_cond, BitVec.toNat_not, hshift]
    rw [hp] at hb ⊢
    generalize 2 ^ w = P at hb ⊢
    rw [if_neg (by omega)]
    omega

theorem int32ToZigzag_toNat (n : I32) : (int32ToZigzag n).toNat = zigzag n.toInt := toNat_zigzag n
theorem int64ToZigzag_toNat (n : I64) : (int64ToZigzag n).toNat = zigzag n.toInt := toNat_zigzag n
theorem zigzagToInt32_toInt (n : I32) : (zigzagToInt32 n).toInt = unzigzag n.toNat :=
  toInt_unzigzag (w := 31) n (by omega)
theorem zigzagToInt64_toInt (n : I64) : (zigzagToInt64 n).toInt = unzigzag n.toNat :=
  toInt_unzigzag (w := 63) n (by omega)

theorem zigzag32_left (n : I32) : zigzagToInt32 (int32ToZigzag n) = n := by
  apply BitVec.eq_of_toInt_eq
  rw [zigzagToInt32_toInt, int32ToZigzag_toNat, unzigzag_zigzag]

theorem zigzag32_right (n : I32) : int32ToZigzag (zigzagToInt32 n) = n := by
  apply BitVec.eq_of_toNat_eq
  rw [int32ToZigzag_toNat, zigzagToInt32_toInt, zigzag_unzigzag]

theorem zigzag64_left (n : I64) : zigzagToInt64 (int64ToZigzag n) = n := by
  apply BitVec.eq_of_toInt_eq
  rw [zigzagToInt64_toInt, int64ToZigzag_toNat, unzigzag_zigzag]

theorem zigzag64_right (n : I64) : int64ToZigzag (zigzagToInt64 n) = n := by
  apply BitVec.eq_of_toNat_eq
  rw [int64ToZigzag_toNat, zigzagToInt64_toInt, zigzag_unzigzag]

/-! ## Varints: writing -/

theorem leb128_small {n : Nat} (h : n < 128) : leb128 n = [BitVec.ofNat 8 n] := by
  rw [leb128, if_pos h]

theorem leb128_big {n : Nat} (h : ¬ n < 128) :
    leb128 n = BitVec.ofNat 8 (n % 128 + 128) :: leb128 (n / 128) := by
  rw [leb128, if_neg h]

/-- The test of the writing loop: no bits above the low seven. -/
theorem highBits {w : Nat} (hw : 8 ≤ w) (n : BitVec w) : n &&& ~~~ (0x7F : BitVec w) = 0 ↔ n.toNat < 128 := by
  have h7 : ∀ i, (0x7F : BitVec w).getLsbD i = decide (i < 7) := by
    intro i
    have : (0x7F : BitVec w) = BitVec.ofNat w (2 ^ 7 - 1) := rfl
    rw [this, BitVec.getLsbD_ofNat, Nat.testBit_two_pow_sub_one]
    by_cases h : i < 7
    · simp [h]; omega
    · simp [h]
  constructor
  · intro h
    apply Nat.lt_of_not_le
    intro hle
    have : ∃ i, 7 ≤ i ∧ n.toNat.testBit i := by
      obtain ⟨i, hi, hb⟩ := Nat.exists_ge_and_testBit_of_ge_two_pow (n := 7) hle
      exact ⟨i, hi, hb⟩
    obtain ⟨i, hi, hb⟩ := this
    have hbit : (n &&& ~~~ (0x7F : BitVec w)).getLsbD i = true := by
      rw [BitVec.getLsbD_and, BitVec.getLsbD_not, h7]
      have hiw : i < w := BitVec.lt_of_getLsbD (x := n) hb
      simp only [BitVec.getLsbD] at *
      simp [hb, hiw]; omega
    rw [h] at hbit
    simp at hbit
  · intro h
    apply BitVec.eq_of_getLsbD_eq
    intro i hi
    rw [BitVec.getLsbD_and, BitVec.getLsbD_not, h7]
    by_cases h7 : i < 7
    · simp [h7]
    · have : n.getLsbD i = false := by
        rw [BitVec.getLsbD]
        exact Nat.testBit_lt_two_pow (Nat.lt_of_lt_of_le h (show 2 ^ 7 ≤ 2 ^ i from Nat.pow_le_pow_right (by omega) (by omega)))
      simp [this]

/-- A digit with continuation bit. -/
theorem contByte {w : Nat} (hw : 8 ≤ w) (n : BitVec w) :
    ((n &&& 0x7F) ||| 0x80).setWidth 8 = BitVec.ofNat 8 (n.toNat % 128 + 128) := by
  apply BitVec.eq_of_toNat_eq
  have e1 : (0x7F : BitVec w).toNat = 2 ^ 7 - 1 := by
    show (BitVec.ofNat w 127).toNat = _
    rw [BitVec.toNat_ofNat, Nat.mod_eq_of_lt]
    exact Nat.lt_of_lt_of_le (by decide : 127 < 2 ^ 8) (Nat.pow_le_pow_right (by omega) hw)
  have e2 : (0x80 : BitVec w).toNat = 2 ^ 7 * 1 := by
    show (BitVec.ofNat w 128).toNat = _
    rw [BitVec.toNat_ofNat, Nat.mod_eq_of_lt]
    exact Nat.lt_of_lt_of_le (by decide : 128 < 2 ^ 8) (Nat.pow_le_pow_right (by omega) hw)
  have hlt : n.toNat % 2 ^ 7 < 2 ^ 7 := Nat.mod_lt _ (by decide)
  rw [BitVec.toNat_setWidth, BitVec.toNat_or, BitVec.toNat_and, e1, e2, Nat.and_two_pow_sub_one_eq_mod,
    BitVec.toNat_ofNat, Nat.or_comm, ← Nat.two_pow_add_eq_or_of_lt hlt]
  omega

theorem varintBytes_eq {w : Nat} (hw : 8 ≤ w) : ∀ (slots : Nat) (n : BitVec w), n.toNat < 128 ^ slots →
    0 < slots → varintBytes slots n = some (leb128 n.toNat)
  | 0, _, _, h => by omega
  | slots + 1, n, h, _ => by
    unfold varintBytes
    by_cases hs : n.toNat < 128
    · rw [if_pos ((highBits hw n).2 hs), leb128_small hs]
      congr 2
      apply BitVec.eq_of_toNat_eq
      rw [BitVec.toNat_setWidth, BitVec.toNat_ofNat]
    · rw [if_neg (fun h => hs ((highBits hw n).1 h)), leb128_big hs, contByte hw]
      have hd : (n >>> 7).toNat = n.toNat / 128 := by
        simp [BitVec.toNat_ushiftRight, Nat.shiftRight_eq_div_pow]
      have hslots : 0 < slots := by
        rcases Nat.eq_zero_or_pos slots with h0 | h0
        · subst h0; simp at h; omega
        · exact h0
      rw [varintBytes_eq hw slots (n >>> 7) (by
        rw [hd]; rw [Nat.pow_succ] at h; exact Nat.div_lt_of_lt_mul (by rw [Nat.mul_comm]; exact h)) hslots, hd]
      rfl

theorem leb128_length_le : ∀ (slots n : Nat), n < 128 ^ slots → 0 < slots → (leb128 n).length ≤ slots
  | 0, _, _, h => by omega
  | slots + 1, n, h, _ => by
    by_cases hs : n < 128
    · rw [leb128_small hs]; simp
    · rw [leb128_big hs]
      have hslots : 0 < slots := by
        rcases Nat.eq_zero_or_pos slots with h0 | h0
        · subst h0; simp at h; omega
        · exact h0
      have := leb128_length_le slots (n / 128) (by
        rw [Nat.pow_succ] at h; exact Nat.div_lt_of_lt_mul (by rw [Nat.mul_comm]; exact h)) hslots
      simp; omega

theorem leb128_pos (n : Nat) : 0 < (leb128 n).length := by
  by_cases hs : n < 128
  · rw [leb128_small hs]; simp
  · rw [leb128_big hs]; simp

/-- `leb128` writes the number it is given. -/
theorem leb128Value_leb128 (n : Nat) : leb128Value (leb128 n) = n := by
  induction n using Nat.strongRecOn with
  | _ n ih =>
    by_cases hs : n < 128
    · rw [leb128_small hs]
      simp only [leb128Value, BitVec.toNat_ofNat]
      omega
    · rw [leb128_big hs]
      simp only [leb128Value, BitVec.toNat_ofNat]
      rw [ih (n / 128) (by omega)]
      omega

theorem isLeb128_leb128 (n : Nat) : IsLeb128 (leb128 n) := by
  induction n using Nat.strongRecOn with
  | _ n ih =>
    by_cases hs : n < 128
    · rw [leb128_small hs]
      simp only [IsLeb128, BitVec.toNat_ofNat]
      omega
    · rw [leb128_big hs]
      have h := ih (n / 128) (by omega)
      have hp := leb128_pos (n / 128)
      generalize leb128 (n / 128) = l at h hp
      cases l with
      | nil => simp at hp
      | cons c l =>
        refine ⟨?_, h⟩
        simp only [BitVec.toNat_ofNat]
        omega

/-- No shorter numeral has the same value. -/
theorem leb128_minimal : ∀ (bs : Bytes), IsLeb128 bs → (leb128 (leb128Value bs)).length ≤ bs.length
  | [], h => h.elim
  | [b], h => by
    have h : b.toNat < 128 := h
    simp only [leb128Value]
    rw [leb128_small (by omega)]
    simp
  | b :: c :: bs, h => by
    obtain ⟨hb, h⟩ := h
    have ih := leb128_minimal (c :: bs) h
    by_cases hs : leb128Value (b :: c :: bs) < 128
    · rw [leb128_small hs]; simp
    · rw [leb128_big hs]
      have : leb128Value (b :: c :: bs) / 128 = leb128Value (c :: bs) := by
        rw [show leb128Value (b :: c :: bs) = b.toNat % 128 + 128 * leb128Value (c :: bs) from rfl]
        have := Nat.mod_lt b.toNat (by decide : 128 > 0)
        omega
      rw [this]
      simp only [List.length_cons] at ih ⊢
      omega

theorem varintBytes32 (n : I32) : varintBytes 5 n = some (leb128 n.toNat) :=
  varintBytes_eq (by decide) 5 n (Nat.lt_of_lt_of_le n.isLt (by decide)) (by decide)

theorem varintBytes64 (n : I64) : varintBytes 10 n = some (leb128 n.toNat) :=
  varintBytes_eq (by decide) 10 n (Nat.lt_of_lt_of_le n.isLt (by decide)) (by decide)

namespace Cmp

theorem emits_varint32 (n : I32) (s : Cmp) :
    Emits (do return (← writeVarint32 n).2) s s (leb128 n.toNat) := by
  intro rest out
  simp [writeVarint32, varintBytes32, P.run_write_duplex]

end Cmp
end Thrift
