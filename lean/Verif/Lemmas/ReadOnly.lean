import Verif.Lemmas.Memory
import Verif.Spec.Reader
import Verif.Model.Binary
import Verif.Model.Compact
import Verif.Model.Skip
import Verif.Model.Driver
/-!
# Programs that only read

They behave over every faithful reader as over a memory buffer holding the same
bytes.  All read calls of both protocols are such programs.
-/

namespace Thrift

/-- The program makes no `Write` and no `Flush` call. -/
def Prog.ReadOnly : Prog α → Prop
  | .ret _ => True
  | .panic => True
  | .stuck => True
  | .readAll _ k => ∀ x, (k x).ReadOnly
  | .write _ _ => False
  | .flush _ => False

theorem Prog.ReadOnly.bind {p : Prog α} {f : α → Prog β} (hp : p.ReadOnly) (hf : ∀ a, (f a).ReadOnly) :
    (p.bind f).ReadOnly := by
  induction p with
  | ret a => exact hf a
  | panic => trivial
  | stuck => trivial
  | readAll n k ih => exact fun x => ih x (hp x)
  | write => exact hp.elim
  | flush => exact hp.elim

theorem FaithfulReaderOn.simulate {T : Transport σ} {I : σ → Prop} {view sent : σ → Bytes}
    (F : FaithfulReaderOn T I view sent) (p : Prog α) (hp : p.ReadOnly) (s : σ) (hI : I s) :
    ∃ s', p.run T s = ((p.run memory (view s)).1, s') ∧ view s' = (p.run memory (view s)).2 ∧
      sent s' = sent s ∧ I s' := by
  induction p generalizing s with
  | ret a => exact ⟨s, rfl, rfl, rfl, hI⟩
  | panic => exact ⟨s, rfl, rfl, rfl, hI⟩
  | stuck => exact ⟨s, rfl, rfl, rfl, hI⟩
  | readAll n k ih =>
    obtain ⟨s', h1, h2, hI', h3⟩ := F.readAll n s hI
    simp only [Prog.run]
    rw [h3, memory_readAll]
    by_cases h : n ≤ (view s).length
    · simp only [h, if_true]
      rw [← h1, ← h2]
      obtain ⟨s'', a, b, c, d⟩ := ih ⟨(view s).take n, n, none⟩ (hp _) s' hI'
      exact ⟨s'', a, b, c, d⟩
    · simp only [h, if_false]
      rw [show ([] : Bytes) = view s' by rw [h1, List.drop_of_length_le (by omega)], ← h2]
      obtain ⟨s'', a, b, c, d⟩ := ih ⟨fillBuf n (view s), 0, some readAllErr⟩ (hp _) s' hI'
      exact ⟨s'', a, b, c, d⟩
  | write => exact hp.elim
  | flush => exact hp.elim

/-- The same with an object state. -/
def P.ReadOnly (m : P π α) : Prop := ∀ s, (m s).ReadOnly

namespace P.ReadOnly
theorem pure (a : α) : ReadOnly (Pure.pure a : P π α) := fun _ => trivial
theorem bind {m : P π α} {f : α → P π β} (hm : ReadOnly m) (hf : ∀ a, ReadOnly (f a)) :
    ReadOnly (m >>= f) := fun s => Prog.ReadOnly.bind (hm s) fun a => hf a.1 a.2
theorem get : ReadOnly (P.get : P π π) := fun _ => trivial
theorem modify (f : π → π) : ReadOnly (P.modify f) := fun _ => trivial
theorem panic : ReadOnly (P.panic : P π α) := fun _ => trivial
theorem stuck : ReadOnly (P.stuck : P π α) := fun _ => trivial
theorem readAll (n : Nat) : ReadOnly (P.readAll n : P π _) := fun _ _ => trivial
theorem ite {c : Prop} [Decidable c] {a b : P π α} (ha : ReadOnly a) (hb : ReadOnly b) :
    ReadOnly (if c then a else b) := by split <;> assumption
end P.ReadOnly

theorem FaithfulReaderOn.simulateP {T : Transport σ} {I : σ → Prop} {view sent : σ → Bytes}
    (F : FaithfulReaderOn T I view sent) (m : P π α) (hm : m.ReadOnly) (s : π) (t : σ) (hI : I t) :
    ∃ t', m.run T s t = ((m.run memory s (view t)).1, t') ∧ view t' = (m.run memory s (view t)).2 ∧
      sent t' = sent t ∧ I t' := F.simulate (m s) (hm s) t hI

/-- Close goals `P.ReadOnly m` by following the text of `m`. -/
macro "readonly" : tactic => `(tactic| repeat' first
  | exact P.ReadOnly.pure _ | exact P.ReadOnly.get | exact P.ReadOnly.modify _ | exact P.ReadOnly.panic
  | exact P.ReadOnly.stuck | exact P.ReadOnly.readAll _ | assumption
  | apply P.ReadOnly.ite | (refine P.ReadOnly.bind ?_ fun _ => ?_) | split)

/-- All read calls of a protocol only read. -/
structure Proto.Reads (p : Proto π) : Prop where
  messageBegin : p.readMessageBegin.ReadOnly
  messageEnd : p.readMessageEnd.ReadOnly
  structBegin : p.readStructBegin.ReadOnly
  structEnd : p.readStructEnd.ReadOnly
  fieldBegin : p.readFieldBegin.ReadOnly
  fieldEnd : p.readFieldEnd.ReadOnly
  mapBegin : p.readMapBegin.ReadOnly
  mapEnd : p.readMapEnd.ReadOnly
  listBegin : p.readListBegin.ReadOnly
  listEnd : p.readListEnd.ReadOnly
  setBegin : p.readSetBegin.ReadOnly
  setEnd : p.readSetEnd.ReadOnly
  bool : p.readBool.ReadOnly
  byte : p.readByte.ReadOnly
  i16 : p.readI16.ReadOnly
  i32 : p.readI32.ReadOnly
  i64 : p.readI64.ReadOnly
  double : p.readDouble.ReadOnly
  string : p.readString.ReadOnly
  binary : p.readBinary.ReadOnly

section
open BinaryProtocol

theorem Bin.ro_check (n : Int) : (BinaryProtocol.checkReadLength n).ReadOnly := by
  unfold BinaryProtocol.checkReadLength; readonly
theorem Bin.ro_buf (n : Nat) : (readAllBuf n).ReadOnly := by
  have := Bin.ro_check n
  unfold readAllBuf; readonly
theorem Bin.ro_byte : readByte.ReadOnly := by have := Bin.ro_buf 1; unfold readByte; readonly
theorem Bin.ro_i16 : readI16.ReadOnly := by have := Bin.ro_buf 2; unfold readI16; readonly
theorem Bin.ro_i32 : readI32.ReadOnly := by have := Bin.ro_buf 4; unfold readI32; readonly
theorem Bin.ro_body (n : Int) : (readStringBody n).ReadOnly := by
  have := Bin.ro_check n
  unfold readStringBody; readonly
theorem Bin.ro_string : readString.ReadOnly := by
  have := Bin.ro_i32
  unfold readString
  refine P.ReadOnly.bind this fun x => ?_
  have := Bin.ro_body x.1.toInt
  readonly

theorem binary_reads : (binary).Reads where
  messageBegin := by
    show readMessageBegin.ReadOnly
    have h1 := Bin.ro_i32
    have h2 := Bin.ro_string
    have h3 := Bin.ro_byte
    unfold readMessageBegin
    refine P.ReadOnly.bind h1 fun x => ?_
    have h4 := Bin.ro_body x.1.toInt
    readonly
  messageEnd := P.ReadOnly.pure _
  structBegin := P.ReadOnly.pure _
  structEnd := P.ReadOnly.pure _
  fieldBegin := by
    show readFieldBegin.ReadOnly
    have h1 := Bin.ro_i16
    have h2 := Bin.ro_byte
    unfold readFieldBegin; readonly
  fieldEnd := P.ReadOnly.pure _
  mapBegin := by
    show readMapBegin.ReadOnly
    have h1 := Bin.ro_i32
    have h2 := Bin.ro_byte
    unfold readMapBegin; readonly
  mapEnd := P.ReadOnly.pure _
  listBegin := by
    show readListBegin.ReadOnly
    have h1 := Bin.ro_i32
    have h2 := Bin.ro_byte
    unfold readListBegin; readonly
  listEnd := P.ReadOnly.pure _
  setBegin := by
    show readListBegin.ReadOnly
    have h1 := Bin.ro_i32
    have h2 := Bin.ro_byte
    unfold readListBegin; readonly
  setEnd := P.ReadOnly.pure _
  bool := by
    show readBool.ReadOnly
    have h2 := Bin.ro_byte
    unfold readBool; readonly
  byte := Bin.ro_byte
  i16 := Bin.ro_i16
  i32 := Bin.ro_i32
  i64 := by
    show readI64.ReadOnly
    have := Bin.ro_buf 8
    unfold readI64; readonly
  double := by
    show readDouble.ReadOnly
    have := Bin.ro_buf 8
    unfold readDouble; readonly
  string := Bin.ro_string
  binary := by
    show readBinary.ReadOnly
    have h1 := Bin.ro_i32
    unfold readBinary
    refine P.ReadOnly.bind h1 fun x => ?_
    have := Bin.ro_check x.1.toInt
    readonly

end

section
open CompactProtocol

theorem Cmp.ro_byte : readByte.ReadOnly := by unfold readByte; readonly
theorem Cmp.ro_varintLoop : ∀ (f shift : Nat) (r : I64), (readVarint64Loop f shift r).ReadOnly
  | 0, _, _ => P.ReadOnly.stuck
  | f + 1, shift, r => by
    have h1 := Cmp.ro_byte
    unfold readVarint64Loop
    refine P.ReadOnly.bind h1 fun x => ?_
    have := Cmp.ro_varintLoop f (shift + 7) (r ||| ((x.1 &&& 0x7f).setWidth 64 <<< shift))
    readonly
theorem Cmp.ro_varint64 (f : Nat) : (readVarint64 f).ReadOnly := Cmp.ro_varintLoop f 0 0
theorem Cmp.ro_varint32 (f : Nat) : (readVarint32 f).ReadOnly := by
  have := Cmp.ro_varint64 f
  unfold readVarint32; readonly
theorem Cmp.ro_i32 (f : Nat) : (readI32 f).ReadOnly := by
  have := Cmp.ro_varint32 f
  unfold readI32; readonly
theorem Cmp.ro_i16 (f : Nat) : (readI16 f).ReadOnly := by
  have := Cmp.ro_i32 f
  unfold readI16; readonly
theorem Cmp.ro_binary (f : Nat) : (readBinary f).ReadOnly := by
  have := Cmp.ro_varint32 f
  unfold readBinary; readonly
theorem Cmp.ro_string (f : Nat) : (readString f).ReadOnly := by
  have := Cmp.ro_binary f
  unfold readString; readonly
theorem Cmp.ro_list (f : Nat) : (readListBegin f).ReadOnly := by
  have h1 := Cmp.ro_byte
  have h2 := Cmp.ro_varint32 f
  unfold readListBegin; readonly

theorem compact_reads (f : Nat) : (compact f).Reads where
  messageBegin := by
    show (readMessageBegin f).ReadOnly
    have h1 := Cmp.ro_byte
    have h2 := Cmp.ro_varint32 f
    have h3 := Cmp.ro_string f
    unfold readMessageBegin; readonly
  messageEnd := P.ReadOnly.pure _
  structBegin := by show readStructBegin.ReadOnly; unfold readStructBegin; readonly
  structEnd := by
    show readStructEnd.ReadOnly
    unfold readStructEnd; readonly
  fieldBegin := by
    show (readFieldBegin f).ReadOnly
    have h1 := Cmp.ro_byte
    have h2 := Cmp.ro_i16 f
    unfold readFieldBegin; readonly
  fieldEnd := P.ReadOnly.pure _
  mapBegin := by
    show (readMapBegin f).ReadOnly
    have h1 := Cmp.ro_byte
    have h2 := Cmp.ro_varint32 f
    unfold readMapBegin; readonly
  mapEnd := P.ReadOnly.pure _
  listBegin := Cmp.ro_list f
  listEnd := P.ReadOnly.pure _
  setBegin := Cmp.ro_list f
  setEnd := P.ReadOnly.pure _
  bool := by
    show readBool.ReadOnly
    have h1 := Cmp.ro_byte
    unfold readBool; readonly
  byte := Cmp.ro_byte
  i16 := Cmp.ro_i16 f
  i32 := Cmp.ro_i32 f
  i64 := by
    show (readI64 f).ReadOnly
    have := Cmp.ro_varint64 f
    unfold readI64; readonly
  double := by show readDouble.ReadOnly; unfold readDouble; readonly
  string := Cmp.ro_string f
  binary := Cmp.ro_binary f

end

theorem ro_repeatN {m : P π Unit} (hm : m.ReadOnly) : ∀ n, (repeatN n m).ReadOnly
  | 0 => P.ReadOnly.pure _
  | n + 1 => P.ReadOnly.bind hm fun _ => ro_repeatN hm n

theorem Proto.Reads.skipFields {p : Proto π} (R : p.Reads) {sk : TType → P π GoErr} (hs : ∀ t, (sk t).ReadOnly) :
    ∀ n, (skipFields p sk n).ReadOnly
  | 0 => P.ReadOnly.stuck
  | n + 1 => by
    have h1 := R.fieldBegin
    have h2 := R.fieldEnd
    have h3 := Proto.Reads.skipFields R hs n
    unfold Thrift.skipFields
    refine P.ReadOnly.bind h1 fun x => ?_
    have h4 := hs x.1.2.1
    readonly

theorem Proto.Reads.skip {p : Proto π} (R : p.Reads) (msd : Int) : ∀ (f : Nat) (t : TType) (d : Int),
    (Thrift.skip p msd f t d).ReadOnly
  | 0, _, _ => P.ReadOnly.stuck
  | f + 1, t, d => by
    have ih := Proto.Reads.skip R msd f
    unfold Thrift.skip
    have ret : ∀ {α} {m : P π (α × GoErr)}, m.ReadOnly → (do return (← m).2 : P π GoErr).ReadOnly :=
      fun h => P.ReadOnly.bind h fun _ => P.ReadOnly.pure _
    refine .ite (.pure _) ?_
    refine .ite (ret R.bool) ?_
    refine .ite (ret R.byte) ?_
    refine .ite (ret R.i16) ?_
    refine .ite (ret R.i32) ?_
    refine .ite (ret R.i64) ?_
    refine .ite (ret R.double) ?_
    refine .ite (ret R.string) ?_
    refine .ite ?_ ?_
    · have h1 := R.structBegin
      have h2 := R.structEnd
      have h3 := Proto.Reads.skipFields R (fun t => ih t (d - 1)) f
      readonly
    refine .ite ?_ ?_
    · refine P.ReadOnly.bind R.mapBegin fun x => ?_
      have h2 := R.mapEnd
      have h3 : ∀ n, (repeatN n (do
        let _ ← Thrift.skip p msd f x.1.1 (d - 1)
        let _ ← Thrift.skip p msd f x.1.2.1 msd
        return ())).ReadOnly := ro_repeatN (.bind (ih _ _) fun _ => .bind (ih _ _) fun _ => .pure _)
      have h4 := h3 x.1.2.2.toNat
      readonly
    refine .ite ?_ ?_
    · refine P.ReadOnly.bind R.setBegin fun x => ?_
      have h2 := R.setEnd
      have h3 : ∀ n, (repeatN n (do let _ ← Thrift.skip p msd f x.1.1 (d - 1); return ())).ReadOnly :=
        ro_repeatN (.bind (ih _ _) fun _ => .pure _)
      have h4 := h3 x.1.2.toNat
      readonly
    refine .ite ?_ (.pure _)
    · refine P.ReadOnly.bind R.listBegin fun x => ?_
      have h2 := R.listEnd
      have h3 : ∀ n, (repeatN n (do let _ ← Thrift.skip p msd f x.1.1 (d - 1); return ())).ReadOnly :=
        ro_repeatN (.bind (ih _ _) fun _ => .pure _)
      have h4 := h3 x.1.2.toNat
      readonly

theorem ro_readVals {rd : P π (Val × GoErr)} (h : rd.ReadOnly) : ∀ n, (readVals rd n).ReadOnly
  | 0 => .pure _
  | n + 1 => by
    have := ro_readVals h n
    unfold readVals; readonly

theorem ro_readPairs {rk rv : P π (Val × GoErr)} (hk : rk.ReadOnly) (hv : rv.ReadOnly) :
    ∀ n, (readPairs rk rv n).ReadOnly
  | 0 => .pure _
  | n + 1 => by
    have := ro_readPairs hk hv n
    unfold readPairs; readonly

theorem Proto.Reads.readFields {p : Proto π} (R : p.Reads) {rd : TType → P π (Val × GoErr)}
    (h : ∀ t, (rd t).ReadOnly) : ∀ n, (readFields p rd n).ReadOnly
  | 0 => .stuck
  | n + 1 => by
    have h1 := R.fieldBegin
    have h2 := R.fieldEnd
    have h3 := Proto.Reads.readFields R h n
    unfold Thrift.readFields
    refine P.ReadOnly.bind h1 fun x => ?_
    have h4 := h x.1.2.1
    readonly

theorem Proto.Reads.readVal {p : Proto π} (R : p.Reads) : ∀ (f : Nat) (t : TType), (readVal p f t).ReadOnly
  | 0, _ => .stuck
  | f + 1, t => by
    have ih := Proto.Reads.readVal R f
    have ret : ∀ {α} {m : P π (α × GoErr)} (g : α → Val), m.ReadOnly →
        (do let (v, e) ← m; return (g v, e) : P π (Val × GoErr)).ReadOnly :=
      fun g h => P.ReadOnly.bind h fun _ => P.ReadOnly.pure _
    unfold Thrift.readVal
    refine .ite (ret _ R.bool) ?_
    refine .ite (ret _ R.byte) ?_
    refine .ite (ret _ R.i16) ?_
    refine .ite (ret _ R.i32) ?_
    refine .ite (ret _ R.i64) ?_
    refine .ite (ret _ R.double) ?_
    refine .ite (ret _ R.string) ?_
    refine .ite ?_ ?_
    · have h1 := R.structBegin
      have h2 := R.structEnd
      have h3 := Proto.Reads.readFields R ih f
      readonly
    refine .ite ?_ ?_
    · refine P.ReadOnly.bind R.mapBegin fun x => ?_
      have h2 := R.mapEnd
      have h4 := ro_readPairs (ih x.1.1) (ih x.1.2.1) x.1.2.2.toNat
      readonly
    refine .ite ?_ ?_
    · refine P.ReadOnly.bind R.setBegin fun x => ?_
      have h2 := R.setEnd
      have h4 := ro_readVals (ih x.1.1) x.1.2.toNat
      readonly
    refine .ite ?_ (.pure _)
    · refine P.ReadOnly.bind R.listBegin fun x => ?_
      have h2 := R.listEnd
      have h4 := ro_readVals (ih x.1.1) x.1.2.toNat
      readonly

end Thrift
