import Verif.Lemmas.Varint
import Verif.Lemmas.BinaryValue
import Verif.Spec.Compact
/-!
# Single calls of the compact protocol
-/

namespace Thrift
open CompactProtocol

namespace Cmp

/-! ## Varints -/

theorem run_writeVarint32 (n : I32) (s : Cmp) (inp out : Bytes) :
    (writeVarint32 n).run duplex s (inp, out) =
      (.ok (((leb128 n.toNat).length, none), s), (inp, out ++ leb128 n.toNat)) := by
  simp [writeVarint32, varintBytes32]

theorem run_writeVarint64 (n : I64) (s : Cmp) (inp out : Bytes) :
    (writeVarint64 n).run duplex s (inp, out) =
      (.ok (((leb128 n.toNat).length, none), s), (inp, out ++ leb128 n.toNat)) := by
  simp [writeVarint64, varintBytes64]

theorem reads_byte (b : Byte) (s : Cmp) : Reads readByte s s [b] b := by
  intro rest out
  simp [readByte, P.run_readAll_duplex]

/-- The digits of a varint byte. -/
theorem varintDigit : ∀ k : Fin 128,
    (BitVec.ofNat 8 k.val &&& 0x80 ≠ (0x80 : Byte) ∧ BitVec.ofNat 8 k.val &&& 0x7f = BitVec.ofNat 8 k.val) ∧
    (BitVec.ofNat 8 (k.val + 128) &&& 0x80 = (0x80 : Byte) ∧
      BitVec.ofNat 8 (k.val + 128) &&& 0x7f = BitVec.ofNat 8 k.val) := by
  decide +kernel

/-- Adding one digit. -/
theorem addDigit (result : I64) (d shift : Nat) (hr : result.toNat < 2 ^ shift) (hd : d < 128)
    (h : d * 2 ^ shift < 2 ^ 64) :
    (result ||| ((BitVec.ofNat 8 d).setWidth 64 <<< shift)).toNat = result.toNat + d * 2 ^ shift := by
  rw [BitVec.toNat_or, BitVec.toNat_shiftLeft, Nat.shiftLeft_eq, BitVec.toNat_setWidth, BitVec.toNat_ofNat]
  rw [Nat.mod_eq_of_lt (a := d) (by omega), Nat.mod_eq_of_lt (a := d) (by omega), Nat.mod_eq_of_lt h]
  rw [Nat.or_comm, Nat.mul_comm, ← Nat.two_pow_add_eq_or_of_lt hr]
  omega

theorem reads_varintLoop (s : Cmp) : ∀ (fuel n shift : Nat) (result : I64), (leb128 n).length ≤ fuel →
    result.toNat < 2 ^ shift → result.toNat + n * 2 ^ shift < 2 ^ 64 →
    Reads (readVarint64Loop fuel shift result) s s (leb128 n) (BitVec.ofNat 64 (result.toNat + n * 2 ^ shift))
  | 0, n, _, _, h, _, _ => by have := leb128_pos n; omega
  | fuel + 1, n, shift, result, h, hr, hn => by
    unfold readVarint64Loop
    by_cases hs : n < 128
    · rw [leb128_small hs]
      have hd := (varintDigit ⟨n, hs⟩).1
      simp only at hd
      refine Runs.congr (a := [BitVec.ofNat 8 n] ++ []) ?_ (by simp)
      rstep (reads_byte (BitVec.ofNat 8 n) s)
      simp only [hd.1, hd.2, if_true, ne_eq, not_false_eq_true]
      have := addDigit result n shift hr hs (by omega)
      rw [show result ||| ((BitVec.ofNat 8 n).setWidth 64 <<< shift) =
        BitVec.ofNat 64 (result.toNat + n * 2 ^ shift) by
          apply BitVec.eq_of_toNat_eq; rw [this, BitVec.toNat_ofNat, Nat.mod_eq_of_lt hn]]
      exact Runs.pure _ _
    · rw [leb128_big hs]
      have hm : n % 128 < 128 := Nat.mod_lt _ (by decide)
      have hd := (varintDigit ⟨n % 128, hm⟩).2
      simp only at hd
      refine Runs.congr (a := [BitVec.ofNat 8 (n % 128 + 128)] ++ leb128 (n / 128)) ?_ (by simp)
      rstep (reads_byte (BitVec.ofNat 8 (n % 128 + 128)) s)
      simp only [hd.1, hd.2, ne_eq, not_true_eq_false, if_false]
      have hsplit : n = 128 * (n / 128) + n % 128 := (Nat.div_add_mod n 128).symm
      have hp : 2 ^ (shift + 7) = 128 * 2 ^ shift := by rw [Nat.pow_add]; omega
      have hprod : n * 2 ^ shift = (n / 128) * (128 * 2 ^ shift) + (n % 128) * 2 ^ shift := by
        have h1 := congrArg (· * 2 ^ shift) hsplit
        simp only [Nat.add_mul] at h1
        rw [h1, Nat.mul_comm 128 (n / 128), Nat.mul_assoc]
      have hadd := addDigit result (n % 128) shift hr hm (by omega)
      rw [leb128_big hs] at h
      simp only [List.length_cons] at h
      have hlt : (result ||| ((BitVec.ofNat 8 (n % 128)).setWidth 64 <<< shift)).toNat < 2 ^ (shift + 7) := by
        rw [hadd, hp]
        have : (n % 128) * 2 ^ shift ≤ 127 * 2 ^ shift := Nat.mul_le_mul_right _ (by omega)
        omega
      have ih := reads_varintLoop s fuel (n / 128) (shift + 7) _ (by omega) hlt (by rw [hadd, hp]; omega)
      rw [hadd, hp, Nat.add_assoc, Nat.add_comm ((n % 128) * 2 ^ shift), ← hprod] at ih
      exact ih

theorem leb128_length_64 (n : Nat) (h : n < 2 ^ 64) : (leb128 n).length ≤ 10 :=
  leb128_length_le 10 n (Nat.lt_of_lt_of_le h (by decide)) (by decide)

theorem reads_varint64 (n : I64) (s : Cmp) (fuel : Nat) (hf : 10 ≤ fuel) :
    Reads (readVarint64 fuel) s s (leb128 n.toNat) n := by
  have := reads_varintLoop s fuel n.toNat 0 0 (Nat.le_trans (leb128_length_64 _ n.isLt) hf) (by decide)
    (by simpa using n.isLt)
  simpa [readVarint64] using this

theorem reads_varint32 (n : I32) (s : Cmp) (fuel : Nat) (hf : 10 ≤ fuel) :
    Reads (readVarint32 fuel) s s (leb128 n.toNat) n := by
  have h64 : (n.setWidth 64).toNat = n.toNat := by
    rw [BitVec.toNat_setWidth, Nat.mod_eq_of_lt]; have := n.isLt; omega
  have := reads_varint64 (n.setWidth 64) s fuel hf
  rw [h64] at this
  refine Runs.congr (a := leb128 n.toNat ++ []) ?_ (by simp)
  unfold readVarint32
  rstep this
  have : (n.setWidth 64).setWidth 32 = n := by
    apply BitVec.eq_of_toNat_eq
    rw [BitVec.toNat_setWidth, h64, Nat.mod_eq_of_lt n.isLt]
  simp only [this]
  exact Runs.pure _ _

/-! ## Scalars -/

theorem emits_byte (b : Byte) (s : Cmp) : Emits (writeByte b) s s [b] := by
  intro inp out; simp [writeByte, writeByteDirect]

theorem toInt_signExtend16 (v : I16) : (v.signExtend 32).toInt = v.toInt := by
  rw [BitVec.toInt_signExtend_of_le (by omega)]

theorem emits_i16 (v : I16) (s : Cmp) : Emits (writeI16 v) s s (leb128 (zigzag v.toInt)) := by
  intro inp out
  simp [writeI16, run_writeVarint32, int32ToZigzag_toNat, toInt_signExtend16]

theorem emits_i32 (v : I32) (s : Cmp) : Emits (writeI32 v) s s (leb128 (zigzag v.toInt)) := by
  intro inp out
  simp [writeI32, run_writeVarint32, int32ToZigzag_toNat]

theorem emits_i64 (v : I64) (s : Cmp) : Emits (writeI64 v) s s (leb128 (zigzag v.toInt)) := by
  intro inp out
  simp [writeI64, run_writeVarint64, int64ToZigzag_toNat]

theorem reads_i32 (v : I32) (s : Cmp) (fuel : Nat) (hf : 10 ≤ fuel) :
    Reads (readI32 fuel) s s (leb128 (zigzag v.toInt)) v := by
  refine Runs.congr (a := leb128 (int32ToZigzag v).toNat ++ []) ?_ (by simp [int32ToZigzag_toNat])
  unfold readI32
  rstep (reads_varint32 (int32ToZigzag v) s fuel hf)
  rw [zigzag32_left]
  exact Runs.pure _ _

theorem reads_i16 (v : I16) (s : Cmp) (fuel : Nat) (hf : 10 ≤ fuel) :
    Reads (readI16 fuel) s s (leb128 (zigzag v.toInt)) v := by
  rw [← toInt_signExtend16 v]
  refine Runs.congr (a := leb128 (zigzag (v.signExtend 32).toInt) ++ []) ?_ (by simp)
  unfold readI16
  rstep (reads_i32 (v.signExtend 32) s fuel hf)
  have : (v.signExtend 32).setWidth 16 = v := by
    apply BitVec.eq_of_getLsbD_eq
    intro i hi
    rw [BitVec.getLsbD_setWidth, BitVec.getLsbD_signExtend]
    simp [hi]; omega
  simp only [this]
  exact Runs.pure _ _

theorem reads_i64 (v : I64) (s : Cmp) (fuel : Nat) (hf : 10 ≤ fuel) :
    Reads (readI64 fuel) s s (leb128 (zigzag v.toInt)) v := by
  refine Runs.congr (a := leb128 (int64ToZigzag v).toNat ++ []) ?_ (by simp [int64ToZigzag_toNat])
  unfold readI64
  rstep (reads_varint64 (int64ToZigzag v) s fuel hf)
  rw [zigzag64_left]
  exact Runs.pure _ _

theorem putUint64LE_le (v : BitVec 64) : putUint64LE v = le 8 v.toNat := by
  simp only [putUint64LE, le]
  have h : ∀ k, (v >>> k).setWidth 8 = BitVec.ofNat 8 (v.toNat / 2 ^ k) := by
    intro k
    apply BitVec.eq_of_toNat_eq
    simp [BitVec.toNat_setWidth, BitVec.toNat_ushiftRight, Nat.shiftRight_eq_div_pow]
  have h0 : v.setWidth 8 = BitVec.ofNat 8 v.toNat := by
    apply BitVec.eq_of_toNat_eq; simp
  simp only [h, h0, Nat.div_div_eq_div_mul]

theorem le_length : ∀ k v, (le k v).length = k
  | 0, _ => rfl
  | k + 1, v => by simp [le, le_length k]

theorem uint64LE_le (v : BitVec 64) : uint64LE (le 8 v.toNat) = v := by
  simp only [le, uint64LE]
  apply BitVec.eq_of_getLsbD_eq
  intro i hi
  simp only [Nat.div_div_eq_div_mul]
  rw [placed_zero v, show v.toNat / 256 = v.toNat / 2 ^ 8 from rfl,
    show v.toNat / (256 * 256) = v.toNat / 2 ^ 16 from rfl,
    show v.toNat / (256 * 256 * 256) = v.toNat / 2 ^ 24 from rfl,
    show v.toNat / (256 * 256 * 256 * 256) = v.toNat / 2 ^ 32 from rfl,
    show v.toNat / (256 * 256 * 256 * 256 * 256) = v.toNat / 2 ^ 40 from rfl,
    show v.toNat / (256 * 256 * 256 * 256 * 256 * 256) = v.toNat / 2 ^ 48 from rfl,
    show v.toNat / (256 * 256 * 256 * 256 * 256 * 256 * 256) = v.toNat / 2 ^ 56 from rfl]
  simp only [BitVec.getLsbD_or, getLsbD_placed v _ i hi]
  have : (decide (0 ≤ i ∧ i < 0 + 8) || decide (8 ≤ i ∧ i < 8 + 8) ||
      decide (16 ≤ i ∧ i < 16 + 8) || decide (24 ≤ i ∧ i < 24 + 8) ||
      decide (32 ≤ i ∧ i < 32 + 8) || decide (40 ≤ i ∧ i < 40 + 8) ||
      decide (48 ≤ i ∧ i < 48 + 8) || decide (56 ≤ i ∧ i < 56 + 8)) = true := by
    simp only [← Bool.decide_or, decide_eq_true_eq]; omega
  cases v.getLsbD i
  · simp
  · simpa only [Bool.and_true] using this

theorem emits_double (v : F64) (s : Cmp) : Emits (writeDouble v) s s (le 8 v.toNat) := by
  intro inp out
  simp [writeDouble, putUint64LE_le]

theorem reads_double (v : F64) (s : Cmp) : Reads readDouble s s (le 8 v.toNat) v := by
  intro rest out
  have := P.run_readAll_append (le 8 v.toNat) s rest out
  rw [le_length] at this
  simp [readDouble, this, uint64LE_le]

/-- A boolean that is not a field. -/
theorem emits_bool (b : Bool) (s : Cmp) (h : s.booleanField = none) :
    Emits (writeBool b) s s [if b then 1 else 2] := by
  intro inp out
  cases b <;> simp [writeBool, h, writeByteDirect]

theorem reads_bool (b : Bool) (s : Cmp) (h : s.boolValueIsNotNull = false) :
    Reads readBool s s [if b then 1 else 2] b := by
  unfold readBool
  refine Runs.congr (a := [] ++ ([if b then 1 else 2] ++ [])) ?_ (by simp)
  refine Runs.bind (r := s) (s' := s) (fun _ _ => rfl) ?_
  simp only [h, Bool.false_eq_true, if_false]
  rstep (reads_byte (if b then 1 else 2) s)
  cases b <;> exact Runs.pure _ _

theorem toNat_len (n : Nat) (h : n < 2 ^ 31) : (BitVec.ofNat 32 n).toNat = n := by
  rw [BitVec.toNat_ofNat, Nat.mod_eq_of_lt (by omega)]

theorem toInt_len (n : Nat) (h : n < 2 ^ 31) : (BitVec.ofNat 32 n).toInt = n := by
  rw [BitVec.toInt_eq_toNat_of_lt (by rw [toNat_len n h]; omega), toNat_len n h]

theorem emits_binary (bs : Bytes) (h : bs.length < 2 ^ 31) (s : Cmp) :
    Emits (writeBinary bs) s s (leb128 bs.length ++ bs) := by
  intro inp out
  have e := run_writeVarint32 (BitVec.ofNat 32 bs.length) s inp out
  rw [toNat_len _ h] at e
  simp only [writeBinary, P.run_bind, e, andThen_ok]
  by_cases h0 : bs = []
  · subst h0; simp
  · have : bs.length > 0 := List.length_pos_iff.2 h0
    simp [this]

theorem emits_string (bs : Bytes) (h : bs.length < 2 ^ 31) (s : Cmp) :
    Emits (writeString bs) s s (leb128 bs.length ++ bs) := emits_binary bs h s

theorem reads_binary (bs : Bytes) (h : bs.length < 2 ^ 31) (s : Cmp) (fuel : Nat) (hf : 10 ≤ fuel) :
    Reads (readBinary fuel) s s (leb128 bs.length ++ bs) bs := by
  have e := reads_varint32 (BitVec.ofNat 32 bs.length) s fuel hf
  rw [toNat_len _ h] at e
  unfold readBinary
  rstep e
  by_cases h0 : bs = []
  · subst h0; exact Runs.pure _ _
  · have h1 : BitVec.ofNat 32 bs.length ≠ 0 := by
      intro hc
      have := congrArg BitVec.toNat hc
      rw [toNat_len _ h] at this
      exact h0 (List.eq_nil_of_length_eq_zero (by simpa using this))
    have h2 : ¬ (BitVec.ofNat 32 bs.length).toInt < 0 := by rw [toInt_len _ h]; omega
    simp only [h1, if_false, h2]
    rw [toInt_len _ h, Int.toNat_natCast]
    intro rest out
    have := P.run_readAll_append bs s rest out
    simp [this]

theorem reads_string (bs : Bytes) (h : bs.length < 2 ^ 31) (s : Cmp) (fuel : Nat) (hf : 10 ≤ fuel) :
    Reads (readString fuel) s s (leb128 bs.length ++ bs) bs := by
  refine Runs.congr (a := (leb128 bs.length ++ bs) ++ []) ?_ (by simp)
  unfold readString
  rstep (reads_binary bs h s fuel hf)
  exact Runs.pure _ _

/-! ## Type codes -/

theorem getCompactType_wire {t : TType} (h : IsWireType t) :
    getCompactType t = (pure (BitVec.ofNat 8 (CompactSpec.typeCode t)) : P Cmp Byte) := by
  rcases Bin.wire_cases h with h | h | h | h | h | h | h | h | h | h | h <;> subst h <;> rfl

/-- Every wire type has a code of its own in 1..12 other than 2, and the reader
maps it back. -/
theorem typeCode_wire {t : TType} (h : IsWireType t) :
    1 ≤ CompactSpec.typeCode t ∧ CompactSpec.typeCode t ≤ 12 ∧ CompactSpec.typeCode t ≠ 2 ∧
    getTType (BitVec.ofNat 8 (CompactSpec.typeCode t)) = (t, none) := by
  rcases Bin.wire_cases h with h | h | h | h | h | h | h | h | h | h | h <;> subst h <;> decide

/-- Packing two nibbles. -/
theorem pack : ∀ (a b : Fin 16),
    (BitVec.ofNat 8 (16 * a.val) ||| BitVec.ofNat 8 b.val) = BitVec.ofNat 8 (16 * a.val + b.val) ∧
    (BitVec.ofNat 8 a.val <<< 4 ||| BitVec.ofNat 8 b.val) = BitVec.ofNat 8 (16 * a.val + b.val) ∧
    BitVec.ofNat 8 (16 * a.val + b.val) &&& 0x0f = BitVec.ofNat 8 b.val ∧
    (BitVec.ofNat 8 (16 * a.val + b.val) &&& 0xf0) >>> 4 = BitVec.ofNat 8 a.val ∧
    (BitVec.ofNat 8 (16 * a.val + b.val) >>> 4) &&& 0x0f = BitVec.ofNat 8 a.val ∧
    BitVec.ofNat 8 (16 * a.val + b.val) >>> 4 = BitVec.ofNat 8 a.val := by
  decide +kernel

/-! ## Container headers -/

theorem run_writeByteDirect (b : Byte) (s : Cmp) (inp out : Bytes) :
    (writeByteDirect b).run duplex s (inp, out) = (.ok ((1, none), s), (inp, out ++ [b])) := by
  simp [writeByteDirect]

theorem emits_listBegin (t : TType) (ht : IsWireType t) (n : Nat) (h : n < 2 ^ 31) (s : Cmp) :
    Emits (writeListBegin t n) s s (CompactSpec.listHeader t n) := by
  intro inp out
  have hc := typeCode_wire ht
  simp only [writeListBegin, writeCollectionBegin, getCompactType_wire ht, CompactSpec.listHeader]
  by_cases hn : n ≤ 14
  · have hn' : (n : Int) ≤ 14 := by omega
    have hp := (pack ⟨n, by omega⟩ ⟨CompactSpec.typeCode t, by omega⟩).1
    simp only at hp
    have : BitVec.ofInt 8 ((n : Int) * 16) = BitVec.ofNat 8 (16 * n) := by
      rw [show (n : Int) * 16 = ((16 * n : Nat) : Int) by omega, BitVec.ofInt_natCast]
    simp [hn, hn', run_writeByteDirect, this, hp]
  · have hn' : ¬ (n : Int) ≤ 14 := by omega
    have hp := (pack ⟨15, by omega⟩ ⟨CompactSpec.typeCode t, by omega⟩).1
    simp only [Nat.reduceMul] at hp
    have hp' : (0xf0 : Byte) ||| BitVec.ofNat 8 (CompactSpec.typeCode t) =
        BitVec.ofNat 8 (0xf0 + CompactSpec.typeCode t) := hp
    simp only [hn, hn', if_false, P.run_bind, P.run_pure, andThen_ok, run_writeByteDirect, hp']
    simp [run_writeVarint32, toNat_len n h, - BitVec.toNat_ofNat]

theorem reads_listBegin (t : TType) (ht : IsWireType t) (n : Nat) (h : n < 2 ^ 31) (s : Cmp)
    (fuel : Nat) (hf : 10 ≤ fuel) :
    Reads (readListBegin fuel) s s (CompactSpec.listHeader t n) (t, (n : Int)) := by
  have hc := typeCode_wire ht
  have hmask : ∀ a : Fin 16, getTType (BitVec.ofNat 8 (16 * a.val + CompactSpec.typeCode t)) = (t, none) := by
    intro a
    have h1 := (pack a ⟨CompactSpec.typeCode t, by omega⟩).2.2.1
    have h2 := (pack ⟨0, by omega⟩ ⟨CompactSpec.typeCode t, by omega⟩).2.2.1
    simp only [Nat.mul_zero, Nat.zero_add] at h1 h2
    have : getTType (BitVec.ofNat 8 (16 * a.val + CompactSpec.typeCode t)) =
        getTType (BitVec.ofNat 8 (CompactSpec.typeCode t)) := by
      simp only [getTType, h1, h2]
    rw [this]; exact hc.2.2.2
  unfold readListBegin CompactSpec.listHeader
  by_cases hn : n ≤ 14
  · have hp := (pack ⟨n, by omega⟩ ⟨CompactSpec.typeCode t, by omega⟩).2.2.2.2.1
    simp only at hp
    have hm := hmask ⟨n, by omega⟩
    simp only at hm
    rw [if_pos hn]
    refine Runs.congr (a := [BitVec.ofNat 8 (16 * n + CompactSpec.typeCode t)] ++ ([] ++ [])) ?_ (by simp)
    rstep (reads_byte (BitVec.ofNat 8 (16 * n + CompactSpec.typeCode t)) s)
    have h1 : (BitVec.ofNat 8 n).toNat = n := by rw [BitVec.toNat_ofNat, Nat.mod_eq_of_lt (by omega)]
    have h2 : ¬ ((n : Int) = 15) := by omega
    simp only [hp, h1, h2, if_false]
    refine Runs.bind (r := ((n : Int), none)) (s' := s) (fun _ _ => rfl) ?_
    simp only [hm, Option.isSome_none, Bool.false_eq_true, if_false]
    exact Runs.pure _ _
  · have hp := (pack ⟨15, by omega⟩ ⟨CompactSpec.typeCode t, by omega⟩).2.2.2.2.1
    simp only [Nat.reduceMul] at hp
    have hm := hmask ⟨15, by omega⟩
    simp only [Nat.reduceMul] at hm
    rw [if_neg hn]
    refine Runs.congr (a := [BitVec.ofNat 8 (240 + CompactSpec.typeCode t)] ++ ((leb128 n ++ []) ++ [])) ?_ (by simp)
    rstep (reads_byte (BitVec.ofNat 8 (240 + CompactSpec.typeCode t)) s)
    have h1 : (BitVec.ofNat 8 15).toNat = 15 := rfl
    simp only [hp, h1]
    have e := reads_varint32 (BitVec.ofNat 32 n) s fuel hf
    rw [toNat_len _ h] at e
    refine Runs.bind (r := ((n : Int), none)) (s' := s) ?_ ?_
    · rstep e
      simp only [toInt_len n h]
      exact Runs.pure _ _
    · simp only [hm, Option.isSome_none, Bool.false_eq_true, if_false]
      exact Runs.pure _ _

theorem leb128_zero : leb128 0 = [0] := by rw [leb128_small (by omega)]; rfl

theorem emits_mapBegin (kt vt : TType) (hk : IsWireType kt) (hv : IsWireType vt) (n : Nat) (h : n < 2 ^ 31)
    (s : Cmp) : Emits (writeMapBegin kt vt n) s s (CompactSpec.mapHeader kt vt n) := by
  intro inp out
  have hkc := typeCode_wire hk
  have hvc := typeCode_wire hv
  simp only [writeMapBegin, getCompactType_wire hk, getCompactType_wire hv, CompactSpec.mapHeader]
  by_cases hn : n = 0
  · subst hn
    simp [run_writeByteDirect]
  · have hn' : ¬ (n : Int) = 0 := by omega
    have hp := (pack ⟨CompactSpec.typeCode kt, by omega⟩ ⟨CompactSpec.typeCode vt, by omega⟩).2.1
    simp only at hp
    simp only [hn, hn', if_false, P.run_bind, andThen_ok, run_writeVarint32, BitVec.ofInt_natCast,
      toNat_len n h]
    simp [run_writeByteDirect, hp]

theorem reads_mapBegin (kt vt : TType) (hk : IsWireType kt) (hv : IsWireType vt) (n : Nat) (h : n < 2 ^ 31)
    (s : Cmp) (fuel : Nat) (hf : 10 ≤ fuel) :
    Reads (readMapBegin fuel) s s (CompactSpec.mapHeader kt vt n)
      (if n = 0 then (0, 0, 0) else (kt, vt, (n : Int))) := by
  have hkc := typeCode_wire hk
  have hvc := typeCode_wire hv
  have e := reads_varint32 (BitVec.ofNat 32 n) s fuel hf
  rw [toNat_len _ h] at e
  unfold readMapBegin CompactSpec.mapHeader
  by_cases hn : n = 0
  · subst hn
    rw [if_pos rfl, if_pos rfl]
    refine Runs.congr (a := leb128 0 ++ ([] ++ [])) ?_ (by simp [leb128_zero])
    rstep e
    simp only [toInt_len 0 h]
    refine Runs.bind (r := (TT.STOP, none)) (s' := s) (fun _ _ => rfl) ?_
    exact Runs.pure _ _
  · rw [if_neg hn, if_neg hn]
    refine Runs.congr (a := leb128 n ++ ([BitVec.ofNat 8 (16 * CompactSpec.typeCode kt + CompactSpec.typeCode vt)] ++ []))
      ?_ (by simp)
    rstep e
    have hn' : (n : Int) ≠ 0 := by omega
    simp only [toInt_len n h, hn', ne_eq, not_false_eq_true, if_true]
    rstep (reads_byte (BitVec.ofNat 8 (16 * CompactSpec.typeCode kt + CompactSpec.typeCode vt)) s)
    have hp := (pack ⟨CompactSpec.typeCode kt, by omega⟩ ⟨CompactSpec.typeCode vt, by omega⟩).2.2
    simp only at hp
    have h1 : BitVec.ofNat 8 (16 * CompactSpec.typeCode kt + CompactSpec.typeCode vt) &&& 0xf =
      BitVec.ofNat 8 (CompactSpec.typeCode vt) := hp.1
    simp only [hp.2.2.2, h1, hkc.2.2.2, hvc.2.2.2]
    exact Runs.pure _ _

/-! ## Field headers -/

/-- The state after a field header. -/
def atField (s : Cmp) (id : I16) : Cmp := { s with lastFieldId := id.toInt }

theorem emits_fieldInternal (t : TType) (id : I16) (o : Option Byte) (code : Nat) (hc : code < 16)
    (ho : (o = none ∧ getCompactType t = (pure (BitVec.ofNat 8 code) : P Cmp Byte)) ∨
      o = some (BitVec.ofNat 8 code)) (s : Cmp) :
    Emits (writeFieldBeginInternal t id o) s (s.atField id)
      (CompactSpec.fieldHeader s.lastFieldId id.toInt code) := by
  intro inp out
  have hsel2 : writeFieldBeginInternal t id o = writeFieldBeginInternal t id (some (BitVec.ofNat 8 code)) := by
    unfold writeFieldBeginInternal
    rcases ho with ⟨rfl, ho⟩ | rfl
    · simp only [ho]
    · rfl
  rw [hsel2]
  unfold writeFieldBeginInternal CompactSpec.fieldHeader
  dsimp only
  by_cases hd : 1 ≤ id.toInt - s.lastFieldId ∧ id.toInt - s.lastFieldId ≤ 15
  · have hd' : id.toInt > s.lastFieldId ∧ id.toInt - s.lastFieldId ≤ 15 := by omega
    have hp := (pack ⟨(id.toInt - s.lastFieldId).toNat, by omega⟩ ⟨code, hc⟩).1
    simp only at hp
    have : BitVec.ofInt 8 ((id.toInt - s.lastFieldId) * 16) =
        BitVec.ofNat 8 (16 * (id.toInt - s.lastFieldId).toNat) := by
      rw [show (id.toInt - s.lastFieldId) * 16 = ((16 * (id.toInt - s.lastFieldId).toNat : Nat) : Int) by omega,
        BitVec.ofInt_natCast]
    simp [hd, hd', run_writeByteDirect, this, hp, atField]
  · have hd' : ¬ (id.toInt > s.lastFieldId ∧ id.toInt - s.lastFieldId ≤ 15) := by omega
    have e := emits_i16 id s
    simp only [P.run_bind, P.run_get, andThen_ok, hd, if_false, P.run_ite, hd', run_writeByteDirect,
      Option.isSome_none, Bool.false_eq_true, P.run_pure, P.run_modify, e _ _]
    simp [atField]

theorem emits_fieldBegin (name : Bytes) (t : TType) (ht : IsWireType t) (hb : t ≠ TT.BOOL) (id : I16) (s : Cmp) :
    Emits (writeFieldBegin name t id) s (s.atField id)
      (CompactSpec.fieldHeader s.lastFieldId id.toInt (CompactSpec.typeCode t)) := by
  intro inp out
  have hc := typeCode_wire ht
  have e := emits_fieldInternal t id none (CompactSpec.typeCode t) (by omega) (.inl ⟨rfl, getCompactType_wire ht⟩) s inp out
  have hb' : ¬ (t = (2#8 : Byte)) := hb
  simp [writeFieldBegin, hb', e]

theorem emits_boolFieldBegin (name : Bytes) (id : I16) (s : Cmp) :
    Emits (writeFieldBegin name TT.BOOL id) s { s with booleanField := some (name, TT.BOOL, id.toInt) } [] := by
  intro inp out
  simp [writeFieldBegin]

theorem emits_boolField' (name : Bytes) (id : I16) (b : Bool) (s : Cmp) :
    Emits (writeBool b) { s with booleanField := some (name, TT.BOOL, id.toInt) }
      { s.atField id with booleanField := none }
      (CompactSpec.fieldHeader s.lastFieldId id.toInt (if b then 1 else 2)) := by
  intro inp out
  have e := emits_fieldInternal TT.BOOL (BitVec.ofInt 16 id.toInt)
    (some (if b then CT.BOOLEAN_TRUE else CT.BOOLEAN_FALSE)) (if b then 1 else 2) (by cases b <;> decide)
    (by cases b <;> exact .inr rfl) { s with booleanField := some (name, TT.BOOL, id.toInt) } inp out
  rw [BitVec.ofInt_toInt] at e
  simp only [writeBool, P.run_bind, P.run_get, andThen_ok, BitVec.ofInt_toInt, e]
  simp only [P.run_modify, andThen_ok, P.run_pure, atField]
  rfl

theorem emits_boolField (name : Bytes) (id : I16) (b : Bool) (s : Cmp) (h : s.booleanField = none) :
    Emits (writeBool b) { s with booleanField := some (name, TT.BOOL, id.toInt) } (s.atField id)
      (CompactSpec.fieldHeader s.lastFieldId id.toInt (if b then 1 else 2)) := by
  have e := emits_boolField' name id b s
  have : ({ s.atField id with booleanField := none } : Cmp) = s.atField id := by simp [atField, h]
  rwa [this] at e

theorem emits_fieldStop (s : Cmp) : Emits writeFieldStop s s [0] := by
  intro inp out
  simp [writeFieldStop, run_writeByteDirect]

/-- The state of the reader after a field header with type code `code`. -/
def readField (s : Cmp) (id : I16) (code : Nat) : Cmp :=
  if code = 1 then { s with boolValue := true, boolValueIsNotNull := true, lastFieldId := id.toInt }
  else { s with lastFieldId := id.toInt }

/-- In the long form the last id does not matter. -/
def ShortForm (last id : Int) : Prop := 1 ≤ id - last ∧ id - last ≤ 15

theorem reads_fieldBegin (t : TType) (code : Nat) (hc : 1 ≤ code ∧ code ≤ 12 ∧ code ≠ 2)
    (ht : getTType (BitVec.ofNat 8 code) = (t, none)) (last : Int) (id : I16) (s : Cmp)
    (hl : ShortForm last id.toInt → s.lastFieldId = last) (fuel : Nat) (hf : 10 ≤ fuel) :
    Reads (readFieldBegin fuel) s (s.readField id code) (CompactSpec.fieldHeader last id.toInt code) ([], t, id) := by
  have nib : ∀ a b : Fin 16, b.val ≠ 0 → b.val ≠ 2 →
      BitVec.ofNat 8 (16 * a.val + b.val) &&& 0x0f ≠ (0 : Byte) ∧
      (isBoolType (BitVec.ofNat 8 (16 * a.val + b.val)) = decide (b.val = 1)) ∧
      (((BitVec.ofNat 8 (16 * a.val + b.val) &&& 0x0f) = CT.BOOLEAN_TRUE) ↔ b.val = 1) ∧
      (BitVec.setWidth 16 (BitVec.ofNat 8 a.val) = (0 : I16) ↔ a.val = 0) ∧
      (BitVec.setWidth 16 (BitVec.ofNat 8 a.val) = BitVec.ofNat 16 a.val) := by decide +kernel
  unfold readFieldBegin CompactSpec.fieldHeader
  -- the part after the id is known
  have tail : ∀ (a : Fin 16), Reads (do
      let r := getTType (BitVec.ofNat 8 (16 * a.val + code) &&& 0x0f)
      if r.2.isSome then return (([], r.1, id), protocolFromOsError r.2)
      if isBoolType (BitVec.ofNat 8 (16 * a.val + code)) then
        P.modify fun s => { s with
          boolValue := BitVec.ofNat 8 (16 * a.val + code) &&& 0x0f = CT.BOOLEAN_TRUE, boolValueIsNotNull := true }
      P.modify fun s => { s with lastFieldId := id.toInt }
      return (([], r.1, id), none) : P Cmp ((Bytes × TType × I16) × GoErr)) s (s.readField id code) [] ([], t, id) := by
    intro a rest out
    have hp := (pack a ⟨code, by omega⟩).2.2.1
    have hn := nib a ⟨code, by omega⟩ (by simp; omega) (by simp; omega)
    simp only at hp hn
    simp only [hp, ht, hn.2.1, Option.isSome_none, Bool.false_eq_true, if_false]
    by_cases h1 : code = 1
    · subst h1
      simp [readField]
    · simp [readField, h1]
  by_cases hd : 1 ≤ id.toInt - last ∧ id.toInt - last ≤ 15
  · have hlast := hl hd
    rw [if_pos hd]
    have hp := (pack ⟨(id.toInt - last).toNat, by omega⟩ ⟨code, by omega⟩).2.2.2.1
    have hn := nib ⟨(id.toInt - last).toNat, by omega⟩ ⟨code, by omega⟩ (by simp; omega) (by simp; omega)
    simp only at hp hn
    refine Runs.congr (a := [BitVec.ofNat 8 (16 * (id.toInt - last).toNat + code)] ++ ([] ++ ([] ++ []))) ?_ (by simp)
    rstep (reads_byte (BitVec.ofNat 8 (16 * (id.toInt - last).toNat + code)) s)
    rw [if_neg (show ¬ _ from hn.1)]
    refine Runs.bind (r := s) (s' := s) (fun _ _ => rfl) ?_
    have hne : ¬ (id.toInt - last).toNat = 0 := by omega
    rw [hp, if_neg (fun h => hne (hn.2.2.2.1.1 h)), hn.2.2.2.2, hlast]
    refine Runs.bind (r := (id, none)) (s' := s) ?_ ?_
    · have : BitVec.ofInt 16 last + BitVec.ofNat 16 (id.toInt - last).toNat = id := by
        rw [← BitVec.ofInt_natCast, ← BitVec.ofInt_add, Int.toNat_of_nonneg (by omega),
          show last + (id.toInt - last) = id.toInt by omega, BitVec.ofInt_toInt]
      rw [this]
      exact Runs.pure _ _
    · simp only [Option.isSome_none, Bool.false_eq_true, if_false]
      exact tail ⟨(id.toInt - last).toNat, by omega⟩
  · rw [if_neg hd]
    have hp := (pack ⟨0, by omega⟩ ⟨code, by omega⟩).2.2.2.1
    have hn := nib ⟨0, by omega⟩ ⟨code, by omega⟩ (by simp; omega) (by simp; omega)
    have ht0 := tail ⟨0, by omega⟩
    simp only [Nat.mul_zero, Nat.zero_add] at hp hn ht0
    refine Runs.congr (a := [BitVec.ofNat 8 code] ++ ([] ++ (leb128 (zigzag id.toInt) ++ []))) ?_ (by simp)
    rstep (reads_byte (BitVec.ofNat 8 code) s)
    rw [if_neg (show ¬ _ from hn.1)]
    refine Runs.bind (r := s) (s' := s) (fun _ _ => rfl) ?_
    rw [hp, if_pos (by rfl)]
    refine Runs.bind (r := (id, none)) (s' := s) ?_ ?_
    · exact reads_i16 id s fuel hf
    · simp only [Option.isSome_none, Bool.false_eq_true, if_false]
      exact ht0

theorem reads_fieldStop (s : Cmp) (fuel : Nat) : Reads (readFieldBegin fuel) s s [0] ([], TT.STOP, 0) := by
  unfold readFieldBegin
  refine Runs.congr (a := [0] ++ []) ?_ (by simp)
  rstep (reads_byte 0 s)
  exact Runs.pure _ _

/-- The value of a boolean field. -/
theorem reads_boolField (s : Cmp) (h : s.boolValueIsNotNull = true) :
    Reads readBool s { s with boolValueIsNotNull := false } [] s.boolValue := by
  intro rest out
  simp [readBool, h]

/-! ## Message headers -/

theorem messageByte : ∀ t : BitVec 8,
    ((VERSION &&& VERSION_MASK) ||| ((t <<< 5) &&& TYPE_MASK) = BitVec.ofNat 8 (1 + 32 * (t.toNat % 8))) ∧
    BitVec.ofNat 8 (1 + 32 * (t.toNat % 8)) &&& VERSION_MASK = VERSION ∧
    (((BitVec.ofNat 8 (1 + 32 * (t.toNat % 8))) >>> 5) &&& 0x03) = BitVec.ofNat 8 (t.toNat % 4) := by
  decide +kernel

theorem emits_message (name : Bytes) (hn : name.length < 2 ^ 31) (t q : I32) (s : Cmp) :
    Emits (writeMessageBegin name t q) s s (CompactSpec.message name t q) := by
  intro inp out
  have hb := (messageByte (t.setWidth 8)).1
  have h8 : (t.setWidth 8).toNat % 8 = t.toNat % 8 := by
    rw [BitVec.toNat_setWidth]; omega
  rw [h8] at hb
  simp only [writeMessageBegin, P.run_bind, run_writeByteDirect, andThen_ok, hb, run_writeVarint32,
    Option.isSome_none, Bool.false_eq_true, if_false, emits_string name hn s _ _, CompactSpec.message]
  simp [PROTOCOL_ID]

theorem reads_message (name : Bytes) (hn : name.length < 2 ^ 31) (t q : I32) (s : Cmp) (fuel : Nat)
    (hf : 10 ≤ fuel) :
    Reads (readMessageBegin fuel) s s (CompactSpec.message name t q) (name, BitVec.ofNat 32 (t.toNat % 4), q) := by
  have hb := (messageByte (t.setWidth 8)).2
  have h8 : (t.setWidth 8).toNat % 8 = t.toNat % 8 := by
    rw [BitVec.toNat_setWidth]; omega
  have h4 : (t.setWidth 8).toNat % 4 = t.toNat % 4 := by
    rw [BitVec.toNat_setWidth]; omega
  rw [h8, h4] at hb
  unfold readMessageBegin
  refine Runs.congr (a := [0x82] ++ ([BitVec.ofNat 8 (1 + 32 * (t.toNat % 8))] ++ (leb128 q.toNat ++
    ((leb128 name.length ++ name) ++ [])))) ?_ (by simp [CompactSpec.message])
  refine Runs.bind (reads_byte 0x82 s) ?_
  dsimp only
  rw [if_neg (by decide)]
  refine Runs.bind (reads_byte (BitVec.ofNat 8 (1 + 32 * (t.toNat % 8))) s) ?_
  simp only [hb.1, hb.2, Option.isSome_none, Bool.false_eq_true, if_false, ne_eq, not_true_eq_false]
  rstep (reads_varint32 q s fuel hf)
  rstep (reads_string name hn s fuel hf)
  have : BitVec.setWidth 32 (BitVec.ofNat 8 (t.toNat % 4)) = BitVec.ofNat 32 (t.toNat % 4) := by
    apply BitVec.eq_of_toNat_eq
    simp; omega
  rw [this]
  exact Runs.pure _ _

end Cmp
end Thrift
