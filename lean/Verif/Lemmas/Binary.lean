import Verif.Lemmas.Run
import Verif.Lemmas.Bits
import Verif.Model.Binary
/-!
# Binary protocol operations on the ideal stream
-/

namespace Thrift
open BinaryProtocol

@[simp] theorem protocolFromOsError_none : protocolFromOsError none = none := rfl
@[simp] theorem protocolFromOsError_readAllErr :
    protocolFromOsError (some readAllErr) = some readAllErr := rfl

@[simp] theorem ofInt_natCast (w n : Nat) : BitVec.ofInt w (n : Int) = BitVec.ofNat w n := by
  simp

theorem toNat_ofNat32 {n : Nat} (h : n < 2 ^ 31) : (BitVec.ofNat 32 n).toNat = n := by
  rw [BitVec.toNat_ofNat, Nat.mod_eq_of_lt]; omega

theorem toInt_ofNat32 {n : Nat} (h : n < 2 ^ 31) : (BitVec.ofNat 32 n).toInt = n := by
  rw [BitVec.toInt_eq_toNat_of_lt] <;> rw [toNat_ofNat32 h]
  omega

namespace Bin

/-! ## Writes -/

theorem emits_rawWrite (bs : Bytes) (s : Bin) : Emits (rawWrite bs) s s bs := by
  intro inp out; simp [rawWrite]

theorem emits_byte (b : Byte) (s : Bin) : Emits (writeByte b) s s [b] := emits_rawWrite _ _

theorem emits_bool (b : Bool) (s : Bin) : Emits (writeBool b) s s [if b then 1 else 0] := by
  cases b <;> exact emits_byte _ _

theorem emits_i16 (v : I16) (s : Bin) : Emits (writeI16 v) s s (be 2 v.toNat) := by
  rw [← split16]; exact emits_rawWrite _ _

theorem emits_i32 (v : I32) (s : Bin) : Emits (writeI32 v) s s (be 4 v.toNat) := by
  rw [← split32]; exact emits_rawWrite _ _

theorem emits_i64 (v : I64) (s : Bin) : Emits (writeI64 v) s s (be 8 v.toNat) := by
  rw [← split64]; exact emits_rawWrite _ _

theorem emits_double (v : F64) (s : Bin) : Emits (writeDouble v) s s (be 8 v.toNat) :=
  emits_i64 v s

theorem emits_copyN (bs : Bytes) (s : Bin) : Emits (copyN bs) s s bs := by
  intro inp out
  by_cases h : bs = [] <;> simp [copyN, h]

theorem emits_string' (bs : Bytes) (s : Bin) :
    Emits (writeString bs) s s (be 4 (BitVec.ofNat 32 bs.length).toNat ++ bs) := by
  intro inp out
  simp only [writeString, P.run_bind, emits_i32 _ s inp out, andThen_ok]
  simp only [Option.isSome_none, Bool.false_eq_true, if_false, P.run_bind]
  simp [emits_copyN bs s _ _]

theorem emits_binary' (bs : Bytes) (s : Bin) :
    Emits (writeBinary bs) s s (be 4 (BitVec.ofNat 32 bs.length).toNat ++ bs) := by
  intro inp out
  simp only [writeBinary, P.run_bind, emits_i32 _ s inp out, andThen_ok]
  simp [emits_rawWrite bs s _ _]

theorem emits_string (bs : Bytes) (h : bs.length < 2 ^ 31) (s : Bin) :
    Emits (writeString bs) s s (be 4 bs.length ++ bs) := by
  have := emits_string' bs s
  rwa [toNat_ofNat32 h] at this

theorem emits_binary (bs : Bytes) (h : bs.length < 2 ^ 31) (s : Bin) :
    Emits (writeBinary bs) s s (be 4 bs.length ++ bs) := by
  have := emits_binary' bs s
  rwa [toNat_ofNat32 h] at this

theorem emits_fieldBegin (name : Bytes) (t : TType) (id : I16) (s : Bin) :
    Emits (writeFieldBegin name t id) s s ([thriftTypeId t] ++ be 2 id.toNat) := by
  intro inp out
  simp [writeFieldBegin, emits_byte _ s _ _, emits_i16 _ s _ _]

theorem emits_listBegin (t : TType) (n : Nat) (h : n < 2 ^ 31) (s : Bin) :
    Emits (writeListBegin t n) s s ([thriftTypeId t] ++ be 4 n) := by
  intro inp out
  simp only [writeListBegin, ofInt_natCast]
  simp [emits_byte _ s _ _, emits_i32 _ s _ _, - BitVec.toNat_ofNat, toNat_ofNat32 h]

theorem emits_mapBegin (kt vt : TType) (n : Nat) (h : n < 2 ^ 31) (s : Bin) :
    Emits (writeMapBegin kt vt n) s s ([thriftTypeId kt, thriftTypeId vt] ++ be 4 n) := by
  intro inp out
  simp only [writeMapBegin, ofInt_natCast]
  simp [emits_byte _ s _ _, emits_i32 _ s _ _, - BitVec.toNat_ofNat, toNat_ofNat32 h]

/-! ## Reads without a length limit -/

theorem run_check (n : Int) (s : Bin) (h : s.checkReadLength = false) (T : Transport σ) (t : σ) :
    (BinaryProtocol.checkReadLength n).run T s t = (.ok (none, s), t) := by
  simp [BinaryProtocol.checkReadLength, h]

theorem run_readAllBuf (n : Nat) (s : Bin) (h : s.checkReadLength = false) (inp out : Bytes) :
    (readAllBuf n).run duplex s (inp, out) =
      if n ≤ inp.length then (.ok ((inp.take n, none), s), (inp.drop n, out))
      else (.ok ((fillBuf n inp, some readAllErr), s), ([], out)) := by
  simp only [readAllBuf, P.run_bind, run_check _ _ h, andThen_ok, Bool.false_eq_true, if_false,
    Option.isSome_none, P.run_readAll_duplex]
  by_cases hn : n ≤ inp.length <;> simp [hn]

theorem reads_readAllBuf (x : Bytes) (s : Bin) (h : s.checkReadLength = false) :
    Reads (readAllBuf x.length) s s x x := by
  intro rest out
  rw [run_readAllBuf _ _ h]
  simp

theorem reads_map {m : P π (α × GoErr)} {s s' : π} {bs : Bytes} {a : α} (h : Reads m s s' bs a)
    (f : α → β) : Reads (do let (x, e) ← m; return (f x, e)) s s' bs (f a) := by
  intro rest out
  simp [h rest out]

theorem reads_byte (b : Byte) (s : Bin) (h : s.checkReadLength = false) :
    Reads readByte s s [b] b := by
  intro rest out
  simp [readByte, run_readAllBuf _ _ h]

theorem reads_bool (b : Bool) (s : Bin) (h : s.checkReadLength = false) :
    Reads readBool s s [if b then 1 else 0] b := by
  intro rest out
  simp only [readBool, P.run_bind, reads_byte _ s h rest out, andThen_ok]
  cases b <;> rfl

theorem reads_i16 (v : I16) (s : Bin) (h : s.checkReadLength = false) :
    Reads readI16 s s (be 2 v.toNat) v := by
  intro rest out
  have := reads_readAllBuf (be 2 v.toNat) s h rest out
  rw [be_length] at this
  simp only [readI16, P.run_bind, this, andThen_ok]
  have e := uint16BE_be v []
  rw [List.append_nil] at e
  simp [e]

theorem reads_i32 (v : I32) (s : Bin) (h : s.checkReadLength = false) :
    Reads readI32 s s (be 4 v.toNat) v := by
  intro rest out
  have := reads_readAllBuf (be 4 v.toNat) s h rest out
  rw [be_length] at this
  simp only [readI32, P.run_bind, this, andThen_ok]
  have e := uint32BE_be v []
  rw [List.append_nil] at e
  simp [e]

theorem reads_len (n : Nat) (hn : n < 2 ^ 31) (s : Bin) (h : s.checkReadLength = false) :
    Reads readI32 s s (be 4 n) (BitVec.ofNat 32 n) := by
  have := reads_i32 (BitVec.ofNat 32 n) s h
  rwa [toNat_ofNat32 hn] at this

theorem reads_i64 (v : I64) (s : Bin) (h : s.checkReadLength = false) :
    Reads readI64 s s (be 8 v.toNat) v := by
  intro rest out
  have := reads_readAllBuf (be 8 v.toNat) s h rest out
  rw [be_length] at this
  simp only [readI64, P.run_bind, this, andThen_ok]
  have e := uint64BE_be v []
  rw [List.append_nil] at e
  simp [e]

theorem reads_double (v : F64) (s : Bin) (h : s.checkReadLength = false) :
    Reads readDouble s s (be 8 v.toNat) v := reads_i64 v s h

theorem reads_stringBody (bs : Bytes) (s : Bin) (h : s.checkReadLength = false) :
    Reads (readStringBody bs.length) s s bs bs := by
  intro rest out
  have hneg : ¬ ((bs.length : Int) < 0) := by omega
  simp only [readStringBody, hneg, if_false, P.run_bind, run_check _ _ h, andThen_ok]
  simp [P.run_readAll_append]

theorem reads_string (bs : Bytes) (hl : bs.length < 2 ^ 31) (s : Bin) (h : s.checkReadLength = false) :
    Reads readString s s (be 4 bs.length ++ bs) bs := by
  intro rest out
  rw [List.append_assoc]
  simp only [readString, P.run_bind, reads_len _ hl s h _ _, andThen_ok, toInt_ofNat32 hl]
  simpa using reads_stringBody bs s h rest out

theorem reads_binary (bs : Bytes) (hl : bs.length < 2 ^ 31) (s : Bin) (h : s.checkReadLength = false) :
    Reads readBinary s s (be 4 bs.length ++ bs) bs := by
  intro rest out
  rw [List.append_assoc]
  have hneg : ¬ ((bs.length : Int) < 0) := by omega
  simp only [readBinary, P.run_bind, reads_len _ hl s h _ _, andThen_ok, toInt_ofNat32 hl]
  simp [run_check _ _ h, hneg, P.run_readAll_append]

theorem reads_fieldBegin (t : TType) (ht : t ≠ TT.STOP) (id : I16) (s : Bin)
    (h : s.checkReadLength = false) :
    Reads readFieldBegin s s ([t] ++ be 2 id.toNat) ([], t, id) := by
  intro rest out
  rw [List.append_assoc]
  simp only [readFieldBegin, P.run_bind, reads_byte t s h _ _, andThen_ok]
  have ht' : t ≠ 0#8 := ht
  simp [ht', reads_i16 id s h _ _]

theorem reads_fieldStop (s : Bin) (h : s.checkReadLength = false) :
    Reads readFieldBegin s s [0] ([], TT.STOP, 0) := by
  intro rest out
  simp only [readFieldBegin, P.run_bind, reads_byte 0 s h _ _, andThen_ok]
  simp

theorem reads_listBegin (t : TType) (n : Nat) (hn : n < 2 ^ 31) (s : Bin)
    (h : s.checkReadLength = false) :
    Reads readListBegin s s ([t] ++ be 4 n) (t, (n : Int)) := by
  intro rest out
  rw [List.append_assoc]
  simp only [readListBegin, P.run_bind, reads_byte t s h _ _, andThen_ok]
  simp only [Option.isSome_none, Bool.false_eq_true, if_false, P.run_bind, reads_len _ hn s h _ _,
    andThen_ok, toInt_ofNat32 hn]
  rfl

theorem reads_mapBegin (kt vt : TType) (n : Nat) (hn : n < 2 ^ 31) (s : Bin)
    (h : s.checkReadLength = false) :
    Reads readMapBegin s s ([kt, vt] ++ be 4 n) (kt, vt, (n : Int)) := by
  intro rest out
  rw [show ([kt, vt] ++ be 4 n ++ rest : Bytes) = [kt] ++ ([vt] ++ (be 4 n ++ rest)) by simp]
  simp only [readMapBegin, P.run_bind, reads_byte kt s h _ _, andThen_ok]
  simp only [Option.isSome_none, Bool.false_eq_true, if_false, P.run_bind, reads_byte vt s h _ _,
    reads_len _ hn s h _ _, andThen_ok, toInt_ofNat32 hn]
  rfl

end Bin
end Thrift
