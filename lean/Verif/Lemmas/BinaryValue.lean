import Verif.Lemmas.Binary
import Verif.Lemmas.Decode
/-!
# Whole values through the binary protocol
-/

namespace Thrift
open BinaryProtocol

theorem Val.type_wire (v : Val) : IsWireType v.type := by
  cases v <;> (simp only [Val.type]; decide)

theorem thriftTypeId_wire {t : Byte} (h : IsWireType t) : thriftTypeId t = t := by
  have : t ≠ TT.BINARY := by
    rintro rfl; revert h; decide
  rw [thriftTypeId, if_neg this]

theorem wire_ne_stop {t : Byte} (h : IsWireType t) : t ≠ TT.STOP := by
  rintro rfl; revert h; decide

namespace Bin

/-! ## Writing -/

/-- The fields without the final stop byte. -/
def encodeBody : Fields → Bytes
  | .nil => []
  | .cons id v r => [v.type] ++ be 2 id.toNat ++ BinarySpec.encode v ++ encodeBody r

theorem encodeBody_stop : ∀ fs : Fields, BinarySpec.encodeFields fs = encodeBody fs ++ [0]
  | .nil => rfl
  | .cons id v r => by simp [BinarySpec.encodeFields, encodeBody, encodeBody_stop r]

theorem emits_nop (s : Bin) : Emits nop s s [] := Emits.pure s

mutual
theorem emits_val : ∀ (v : Val) (s : Bin), v.WF → Emits (writeVal binary v) s s (BinarySpec.encode v)
  | .bool b, s, _ => emits_bool b s
  | .byte b, s, _ => emits_byte b s
  | .i16 v, s, _ => emits_i16 v s
  | .i32 v, s, _ => emits_i32 v s
  | .i64 v, s, _ => emits_i64 v s
  | .double v, s, _ => emits_double v s
  | .str b, s, h => emits_string b h s
  | .struct fs, s, h => by
    simp only [writeVal]
    refine (Emits.seq (a := []) (Emits.pure s) (Emits.seq (emits_fields fs s h)
      (Emits.seq (emits_byte 0 s) (emits_nop s)))).congr ?_
    simp [BinarySpec.encode, encodeBody_stop]
  | .map kt vt ps, s, h => by
    obtain ⟨hk, hv, hl, hp⟩ := h
    simp only [writeVal]
    refine (Emits.seq (emits_mapBegin kt vt ps.length hl s)
      (Emits.seq (emits_pairs kt vt ps s hp) (emits_nop s))).congr ?_
    simp [BinarySpec.encode, thriftTypeId_wire hk, thriftTypeId_wire hv]
  | .set t vs, s, h => by
    obtain ⟨ht, hl, hv⟩ := h
    simp only [writeVal]
    refine (Emits.seq (emits_listBegin t vs.length hl s)
      (Emits.seq (emits_vals t vs s hv) (emits_nop s))).congr ?_
    simp [BinarySpec.encode, thriftTypeId_wire ht]
  | .list t vs, s, h => by
    obtain ⟨ht, hl, hv⟩ := h
    simp only [writeVal]
    refine (Emits.seq (emits_listBegin t vs.length hl s)
      (Emits.seq (emits_vals t vs s hv) (emits_nop s))).congr ?_
    simp [BinarySpec.encode, thriftTypeId_wire ht]
theorem emits_fields : ∀ (fs : Fields) (s : Bin), fs.WF →
    Emits (writeFields binary fs) s s (encodeBody fs)
  | .nil, s, _ => by
    simp only [writeFields]; exact Emits.pure s
  | .cons id v r, s, h => by
    obtain ⟨hv, hr⟩ := h
    simp only [writeFields]
    refine (Emits.seq (emits_fieldBegin [] v.type id s) (Emits.seq (emits_val v s hv)
      (Emits.seq (emits_nop s) (emits_fields r s hr)))).congr ?_
    simp [encodeBody, thriftTypeId_wire v.type_wire]
theorem emits_vals : ∀ (t : Byte) (vs : Vals) (s : Bin), vs.WF t →
    Emits (writeVals binary vs) s s (BinarySpec.encodeVals vs)
  | t, .nil, s, _ => by
    simp only [writeVals]; exact Emits.pure s
  | t, .cons v r, s, h => by
    obtain ⟨_, hv, hr⟩ := h
    simp only [writeVals]
    exact Emits.seq (emits_val v s hv) (emits_vals t r s hr)
theorem emits_pairs : ∀ (kt vt : Byte) (ps : Pairs) (s : Bin), ps.WF kt vt →
    Emits (writePairs binary ps) s s (BinarySpec.encodePairs ps)
  | kt, vt, .nil, s, _ => by
    simp only [writePairs]; exact Emits.pure s
  | kt, vt, .cons k v r, s, h => by
    obtain ⟨_, _, hk, hv, hr⟩ := h
    simp only [writePairs]
    refine (Emits.seq (emits_val k s hk) (Emits.seq (emits_val v s hv)
      (emits_pairs kt vt r s hr))).congr ?_
    simp [BinarySpec.encodePairs]
end

/-! ## Reading -/

theorem wire_cases {t : Byte} (h : IsWireType t) : t = 2 ∨ t = 3 ∨ t = 4 ∨ t = 6 ∨ t = 8 ∨ t = 10 ∨
    t = 11 ∨ t = 12 ∨ t = 13 ∨ t = 14 ∨ t = 15 := by
  simpa [IsWireType] using h

theorem size_pos (v : Val) : 0 < v.size := v.size_pos

mutual
theorem dec_val : ∀ (v : Val) (s : Bin), s.checkReadLength = false → v.WF → Dec binary v s s (BinarySpec.encode v)
  | .bool b, s, h, _ => reads_bool b s h
  | .byte b, s, h, _ => reads_byte b s h
  | .i16 b, s, h, _ => reads_i16 b s h
  | .i32 b, s, h, _ => reads_i32 b s h
  | .i64 b, s, h, _ => reads_i64 b s h
  | .double b, s, h, _ => reads_double b s h
  | .str b, s, h, hw => ⟨reads_string b hw s h, reads_binary b hw s h⟩
  | .struct fs, s, h, hw => ⟨s, s, [], _, [], [], Runs.pure s _, dec_fields fs s h hw, Runs.pure s none,
      by simp [BinarySpec.encode]⟩
  | .map kt vt ps, s, h, ⟨_, _, hl, hp⟩ => ⟨s, s, [kt, vt] ++ be 4 ps.length, _, [], reads_mapBegin kt vt ps.length hl s h,
      dec_pairs kt vt ps s h hp, Runs.pure s none, by simp [BinarySpec.encode]⟩
  | .set t vs, s, h, ⟨_, hl, hv⟩ => ⟨s, s, [t] ++ be 4 vs.length, _, [], reads_listBegin t vs.length hl s h,
      dec_vals t vs s h hv, Runs.pure s none, by simp [BinarySpec.encode]⟩
  | .list t vs, s, h, ⟨_, hl, hv⟩ => ⟨s, s, [t] ++ be 4 vs.length, _, [], reads_listBegin t vs.length hl s h,
      dec_vals t vs s h hv, Runs.pure s none, by simp [BinarySpec.encode]⟩
theorem dec_fields : ∀ (fs : Fields) (s : Bin), s.checkReadLength = false → fs.WF →
    DecFields binary fs s s (BinarySpec.encodeFields fs)
  | .nil, s, h, _ => ⟨0, reads_fieldStop s h⟩
  | .cons id v r, s, h, ⟨hv, hr⟩ => ⟨s, s, s, [v.type] ++ be 2 id.toNat, _, [], _,
      reads_fieldBegin v.type (wire_ne_stop v.type_wire) id s h, dec_val v s h hv, Runs.pure s none, dec_fields r s h hr,
      by simp [BinarySpec.encodeFields]⟩
theorem dec_vals : ∀ (t : Byte) (vs : Vals) (s : Bin), s.checkReadLength = false → vs.WF t →
    DecVals binary t vs s s (BinarySpec.encodeVals vs)
  | _, .nil, _, _, _ => ⟨rfl, rfl⟩
  | t, .cons v r, s, h, ⟨ht, hv, hr⟩ => ⟨s, _, _, ht, dec_val v s h hv, dec_vals t r s h hr, rfl⟩
theorem dec_pairs : ∀ (kt vt : Byte) (ps : Pairs) (s : Bin), s.checkReadLength = false → ps.WF kt vt →
    DecPairs binary kt vt ps s s (BinarySpec.encodePairs ps)
  | _, _, .nil, _, _, _ => ⟨rfl, rfl⟩
  | kt, vt, .cons k v r, s, h, ⟨hk, hv, hkw, hvw, hr⟩ => ⟨s, s, _, _, _, hk, hv, dec_val k s h hkw, dec_val v s h hvw,
      dec_pairs kt vt r s h hr, by simp [BinarySpec.encodePairs]⟩
end

theorem reads_val (v : Val) (s : Bin) (fuel : Nat) (h : s.checkReadLength = false) (hw : v.WF) (hf : v.size ≤ fuel) :
    Reads (readVal binary fuel v.type) s s (BinarySpec.encode v) v :=
  Dec.readVal v fuel hf (dec_val v s h hw)

/-! ## Skipping -/

theorem skips_val (msd : Int) (v : Val) (s : Bin) (fuel : Nat) (d : Int) (h : s.checkReadLength = false) (hw : v.WF)
    (hf : v.size ≤ fuel) : Runs (skip binary msd fuel v.type d) s s (BinarySpec.encode v) none :=
  Dec.skip msd v fuel d hf (dec_val v s h hw)

end Bin
end Thrift
