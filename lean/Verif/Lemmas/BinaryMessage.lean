import Verif.Lemmas.BinaryValue
import Verif.Lemmas.Memory
/-!
# Binary message headers
-/

namespace Thrift
open BinaryProtocol

/-- Masking the sign extended word keeps its top half. -/
theorem version_mask (w : BitVec 32) :
    w.signExtend 64 &&& VERSION_MASK = ((w >>> 16) <<< 16).setWidth 64 := by
  apply BitVec.eq_of_getLsbD_eq
  intro i hi
  simp only [VERSION_MASK, BitVec.getLsbD_and, BitVec.getLsbD_signExtend, BitVec.getLsbD_setWidth,
    BitVec.getLsbD_shiftLeft, BitVec.getLsbD_ushiftRight]
  have hm : (4294901760#64).getLsbD i = decide (16 ≤ i ∧ i < 32) := by
    clear w
    revert i
    decide
  rw [show (0xffff0000 : BitVec 64) = 4294901760#64 from rfl, hm]
  by_cases h1 : i < 32
  · by_cases h2 : i < 16
    · have : ¬ (16 ≤ i) := by omega
      simp [h2, this]
    · have e : 16 + (i - 16) = i := by omega
      have h3 : 16 ≤ i := by omega
      have h4 : ¬ i < 16 := h2
      simp [hi, h1, h3, h4, e]
  · have : ¬ (16 ≤ i ∧ i < 32) := by omega
    simp [h1]

theorem version_ok (w : BitVec 32) :
    w.signExtend 64 &&& VERSION_MASK = VERSION_1.setWidth 64 ↔ w.toNat / 65536 = 0x8001 := by
  rw [version_mask]
  have hs : (w >>> 16).toNat = w.toNat / 65536 := by
    simp [Nat.shiftRight_eq_div_pow]
  have hlt : w.toNat / 65536 < 65536 := by
    have := w.isLt
    omega
  have hl : ((w >>> 16) <<< 16).toNat = w.toNat / 65536 * 65536 := by
    rw [BitVec.toNat_shiftLeft, hs, Nat.shiftLeft_eq]
    exact Nat.mod_eq_of_lt (by omega)
  constructor
  · intro h
    have := congrArg BitVec.toNat h
    rw [BitVec.toNat_setWidth, hl, Nat.mod_eq_of_lt (by omega)] at this
    have e : (VERSION_1.setWidth 64).toNat = 0x8001 * 65536 := by decide
    omega
  · intro h
    apply BitVec.eq_of_toNat_eq
    rw [BitVec.toNat_setWidth, hl, Nat.mod_eq_of_lt (by omega), h]
    decide

theorem versionWord_toNat (t : I32) (h : t.toNat < 256) :
    (VERSION_1 ||| t).toNat = 0x80010000 + t.toNat := by
  rw [BitVec.toNat_or]
  have := Nat.two_pow_add_eq_or_of_lt (i := 16) (b := t.toNat) (by omega) 0x8001
  exact this.symm

theorem versionWord_mask (t : I32) (h : t.toNat < 256) : (VERSION_1 ||| t) &&& 0x0ff = t := by
  apply BitVec.eq_of_toNat_eq
  rw [BitVec.toNat_and, versionWord_toNat t h]
  show (0x80010000 + t.toNat) &&& (2 ^ 8 - 1) = _
  rw [Nat.and_two_pow_sub_one_eq_mod]
  omega

namespace Bin

theorem emits_messageStrict (name : Bytes) (t q : I32) (hn : name.length < 2 ^ 31) (ht : t.toNat < 256)
    (s : Bin) (hs : s.strictWrite = true) :
    Emits (writeMessageBegin name t q) s s (BinarySpec.messageStrict name t q) := by
  refine Emits.congr (a := be 4 (VERSION_1 ||| t).toNat ++ ((be 4 name.length ++ name) ++ be 4 q.toNat)) ?_ ?_
  · have := Emits.seq (emits_i32 (VERSION_1 ||| t) s) (Emits.seq (emits_string name hn s) (emits_i32 q s))
    intro inp out
    simp only [writeMessageBegin, P.run_bind, P.run_get, andThen_ok, hs, if_true]
    have := this inp out
    simpa only [P.run_bind] using this
  · simp [BinarySpec.messageStrict, versionWord_toNat t ht]

theorem emits_messageOld (name : Bytes) (t q : I32) (hn : name.length < 2 ^ 31)
    (s : Bin) (hs : s.strictWrite = false) :
    Emits (writeMessageBegin name t q) s s (BinarySpec.messageOld name t q) := by
  refine Emits.congr (a := (be 4 name.length ++ name) ++ ([t.setWidth 8] ++ be 4 q.toNat)) ?_ ?_
  · have := Emits.seq (emits_string name hn s) (Emits.seq (emits_byte (t.setWidth 8) s) (emits_i32 q s))
    intro inp out
    simp only [writeMessageBegin, P.run_bind, P.run_get, andThen_ok, hs, Bool.false_eq_true, if_false]
    have := this inp out
    simpa only [P.run_bind] using this
  · simp [BinarySpec.messageOld, be_one]

theorem reads_messageStrict (name : Bytes) (t q : I32) (hn : name.length < 2 ^ 31) (ht : t.toNat < 256)
    (s : Bin) (hs : s.checkReadLength = false) :
    Reads readMessageBegin s s (BinarySpec.messageStrict name t q) (name, t, q) := by
  have hw : (VERSION_1 ||| t).toInt < 0 := by
    rw [BitVec.toInt_eq_toNat_cond, versionWord_toNat t ht]
    split <;> omega
  have hv : (VERSION_1 ||| t).signExtend 64 &&& VERSION_MASK = VERSION_1.setWidth 64 := by
    rw [version_ok, versionWord_toNat t ht]
    omega
  refine Runs.congr (a := be 4 (VERSION_1 ||| t).toNat ++ ((be 4 name.length ++ name) ++ (be 4 q.toNat ++ [])))
    ?_ (by simp [BinarySpec.messageStrict, versionWord_toNat t ht])
  unfold readMessageBegin
  rstep (reads_i32 (VERSION_1 ||| t) s hs)
  simp only [hw, hv, if_true, ne_eq, not_true, if_false, versionWord_mask t ht]
  rstep (reads_string name hn s hs)
  rstep (reads_i32 q s hs)
  exact Runs.pure _ _

theorem reads_messageOld (name : Bytes) (t q : I32) (hn : name.length < 2 ^ 31) (ht : t.toNat < 256)
    (s : Bin) (hs : s.checkReadLength = false) (hr : s.strictRead = false) :
    Reads readMessageBegin s s (BinarySpec.messageOld name t q) (name, t, q) := by
  have hw : ¬ ((name.length : Int) < 0) := by omega
  refine Runs.congr (a := be 4 name.length ++ ([] ++ (name ++ ([t.setWidth 8] ++ (be 4 q.toNat ++ [])))))
    ?_ (by simp [BinarySpec.messageOld, be_one])
  have ht2 : (t.setWidth 8).setWidth 32 = t := by
    apply BitVec.eq_of_toNat_eq
    simp only [BitVec.toNat_setWidth]
    omega
  unfold readMessageBegin
  rstep (reads_len name.length hn s hs)
  simp only [toInt_ofNat32 hn, hw, if_false]
  refine Runs.bind (r := s) (s' := s) (fun _ _ => rfl) ?_
  simp only [hr, Bool.false_eq_true, if_false]
  rstep (reads_stringBody name s hs)
  rstep (reads_byte (t.setWidth 8) s hs)
  rstep (reads_i32 q s hs)
  rw [ht2]
  exact Runs.pure _ _

end Bin
end Thrift
