import Verif.Lemmas.CompactValue
import Verif.Spec.CompactForms
/-!
# Reading any permitted compact encoding
-/

namespace Thrift.Cmp
open CompactProtocol CompactSpec

/-- Adding one digit, the bits past 64 being lost. -/
theorem addDigit_mod (result : I64) (d shift : Nat) (hr : result.toNat < 2 ^ shift) (hd : d < 128) :
    (result ||| ((BitVec.ofNat 8 d).setWidth 64 <<< shift)).toNat = (result.toNat + d * 2 ^ shift) % 2 ^ 64 := by
  rw [BitVec.toNat_or, BitVec.toNat_shiftLeft, Nat.shiftLeft_eq, BitVec.toNat_setWidth, BitVec.toNat_ofNat]
  rw [Nat.mod_eq_of_lt (a := d) (by omega), Nat.mod_eq_of_lt (a := d) (by omega)]
  have hlt := result.isLt
  by_cases h : 64 ≤ shift
  · obtain ⟨k, rfl⟩ : ∃ k, shift = 64 + k := ⟨shift - 64, by omega⟩
    have h1 : d * 2 ^ (64 + k) = 2 ^ 64 * (d * 2 ^ k) := by
      rw [Nat.pow_add, ← Nat.mul_assoc, Nat.mul_comm d, Nat.mul_assoc]
    rw [h1, Nat.mul_mod_right, Nat.or_zero, Nat.add_mul_mod_self_left, Nat.mod_eq_of_lt hlt]
  · obtain ⟨k, hk⟩ : ∃ k, 64 = shift + k := ⟨64 - shift, by omega⟩
    have h1 : d * 2 ^ shift % 2 ^ 64 = 2 ^ shift * (d % 2 ^ k) := by
      rw [hk, Nat.pow_add, Nat.mul_comm d, Nat.mul_mod_mul_left]
    have h2 : 2 ^ shift * (d % 2 ^ k) + result.toNat < 2 ^ 64 := by
      have : d % 2 ^ k < 2 ^ k := Nat.mod_lt _ (Nat.two_pow_pos k)
      have h3 : 2 ^ shift * (d % 2 ^ k + 1) ≤ 2 ^ shift * 2 ^ k := Nat.mul_le_mul_left _ this
      have h4 : 2 ^ 64 = 2 ^ shift * 2 ^ k := by rw [← Nat.pow_add]; exact congrArg (2 ^ ·) hk
      rw [Nat.mul_add] at h3
      rw [h4]
      omega
    rw [h1, Nat.or_comm, ← Nat.two_pow_add_eq_or_of_lt hr, Nat.add_mod, h1, Nat.mod_eq_of_lt hlt,
      Nat.add_comm result.toNat, Nat.mod_eq_of_lt h2]

theorem digit_small : ∀ b : Byte, b.toNat < 128 → b &&& 0x80 ≠ (0x80 : Byte) ∧ b &&& 0x7f = BitVec.ofNat 8 (b.toNat % 128) := by
  decide +kernel
theorem digit_big : ∀ b : Byte, 128 ≤ b.toNat → b &&& 0x80 = (0x80 : Byte) ∧ b &&& 0x7f = BitVec.ofNat 8 (b.toNat % 128) := by
  decide +kernel

theorem reads_numeralLoop (s : Cmp) : ∀ (bs : Bytes) (fuel shift : Nat) (result : I64), IsLeb128 bs → bs.length ≤ fuel →
    result.toNat < 2 ^ shift →
    Reads (readVarint64Loop fuel shift result) s s bs (BitVec.ofNat 64 (result.toNat + leb128Value bs * 2 ^ shift))
  | [], _, _, _, h, _, _ => h.elim
  | b :: bs, 0, _, _, _, h, _ => by simp at h
  | [b], fuel + 1, shift, result, h, _, hr => by
    unfold readVarint64Loop
    obtain ⟨h1, h2⟩ := digit_small b h
    refine Runs.congr (a := [b] ++ []) ?_ (by simp)
    rstep (reads_byte b s)
    simp only [h1, h2, if_true, ne_eq, not_false_eq_true]
    have hv : leb128Value [b] = b.toNat % 128 := by simp [leb128Value]
    rw [show result ||| ((BitVec.ofNat 8 (b.toNat % 128)).setWidth 64 <<< shift) =
      BitVec.ofNat 64 (result.toNat + leb128Value [b] * 2 ^ shift) by
        apply BitVec.eq_of_toNat_eq
        rw [addDigit_mod result _ shift hr (Nat.mod_lt _ (by decide)), hv, BitVec.toNat_ofNat]]
    exact Runs.pure _ _
  | b :: c :: bs, fuel + 1, shift, result, h, hf, hr => by
    unfold readVarint64Loop
    obtain ⟨hb, hrest⟩ := h
    obtain ⟨h1, h2⟩ := digit_big b hb
    refine Runs.congr (a := [b] ++ (c :: bs)) ?_ (by simp)
    rstep (reads_byte b s)
    simp only [h1, h2, ne_eq, not_true_eq_false, if_false]
    have hm : b.toNat % 128 < 128 := Nat.mod_lt _ (by decide)
    have hadd := addDigit_mod result (b.toNat % 128) shift hr hm
    have hp : 2 ^ (shift + 7) = 128 * 2 ^ shift := by rw [Nat.pow_add]; omega
    have hlt : (result ||| ((BitVec.ofNat 8 (b.toNat % 128)).setWidth 64 <<< shift)).toNat < 2 ^ (shift + 7) := by
      rw [hadd, hp]
      have h3 : (b.toNat % 128) * 2 ^ shift ≤ 127 * 2 ^ shift := Nat.mul_le_mul_right _ (by omega)
      exact Nat.lt_of_le_of_lt (Nat.mod_le _ _) (by omega)
    have ih := reads_numeralLoop s (c :: bs) fuel (shift + 7) _ hrest (by simp at hf ⊢; omega) hlt
    have hv : leb128Value (b :: c :: bs) = b.toNat % 128 + 128 * leb128Value (c :: bs) := rfl
    rw [show BitVec.ofNat 64 (result.toNat + leb128Value (b :: c :: bs) * 2 ^ shift) = BitVec.ofNat 64
      ((result ||| ((BitVec.ofNat 8 (b.toNat % 128)).setWidth 64 <<< shift)).toNat +
        leb128Value (c :: bs) * 2 ^ (shift + 7)) by
      apply BitVec.eq_of_toNat_eq
      rw [BitVec.toNat_ofNat, BitVec.toNat_ofNat, hadd, hp, hv, Nat.mod_add_mod, Nat.add_mul, Nat.add_assoc,
        Nat.mul_comm 128 (leb128Value (c :: bs)), Nat.mul_assoc]]
    exact ih

/-- A numeral of any length is read as its value modulo 2^64. -/
theorem reads_numeral64 (bs : Bytes) (s : Cmp) (fuel : Nat) (h : IsLeb128 bs) (hf : bs.length ≤ fuel) :
    Reads (readVarint64 fuel) s s bs (BitVec.ofNat 64 (leb128Value bs)) := by
  have := reads_numeralLoop s bs fuel 0 0 h hf (by decide)
  simpa [readVarint64] using this

/-- ... and as a 32 bit number modulo 2^32. -/
theorem reads_numeral32 (bs : Bytes) (s : Cmp) (fuel : Nat) (h : IsLeb128 bs) (hf : bs.length ≤ fuel) :
    Reads (readVarint32 fuel) s s bs (BitVec.ofNat 32 (leb128Value bs)) := by
  refine Runs.congr (a := bs ++ []) ?_ (by simp)
  unfold readVarint32
  rstep (reads_numeral64 bs s fuel h hf)
  have : (BitVec.ofNat 64 (leb128Value bs)).setWidth 32 = BitVec.ofNat 32 (leb128Value bs) := by
    apply BitVec.eq_of_toNat_eq
    rw [BitVec.toNat_setWidth, BitVec.toNat_ofNat, BitVec.toNat_ofNat, Nat.mod_mod_of_dvd _ (by decide)]
  simp only [this]
  exact Runs.pure _ _

/-! ## Scalars -/

theorem numeral_reads_i32 {bs : Bytes} {v : I32} (h : Numeral bs (zigzag v.toInt)) (s : Cmp) (fuel : Nat)
    (hf : bs.length ≤ fuel) : Reads (readI32 fuel) s s bs v := by
  refine Runs.congr (a := bs ++ []) ?_ (by simp)
  unfold readI32
  have e := reads_numeral32 bs s fuel h.1 hf
  rw [h.2, ← int32ToZigzag_toNat, BitVec.ofNat_toNat, BitVec.setWidth_eq] at e
  rstep e
  rw [zigzag32_left]
  exact Runs.pure _ _

theorem numeral_reads_i64 {bs : Bytes} {v : I64} (h : Numeral bs (zigzag v.toInt)) (s : Cmp) (fuel : Nat)
    (hf : bs.length ≤ fuel) : Reads (readI64 fuel) s s bs v := by
  refine Runs.congr (a := bs ++ []) ?_ (by simp)
  unfold readI64
  have e := reads_numeral64 bs s fuel h.1 hf
  rw [h.2, ← int64ToZigzag_toNat, BitVec.ofNat_toNat, BitVec.setWidth_eq] at e
  rstep e
  rw [zigzag64_left]
  exact Runs.pure _ _

theorem numeral_reads_i16 {bs : Bytes} {v : I16} (h : Numeral bs (zigzag v.toInt)) (s : Cmp) (fuel : Nat)
    (hf : bs.length ≤ fuel) : Reads (readI16 fuel) s s bs v := by
  rw [← toInt_signExtend16 v] at h
  refine Runs.congr (a := bs ++ []) ?_ (by simp)
  unfold readI16
  rstep (numeral_reads_i32 h s fuel hf)
  have : (v.signExtend 32).setWidth 16 = v := by
    apply BitVec.eq_of_getLsbD_eq
    intro i hi
    rw [BitVec.getLsbD_setWidth, BitVec.getLsbD_signExtend]
    simp [hi]; omega
  simp only [this]
  exact Runs.pure _ _

theorem numeral_reads_len {bs : Bytes} {n : Nat} (h : Numeral bs n) (s : Cmp) (fuel : Nat)
    (hf : bs.length ≤ fuel) : Reads (readVarint32 fuel) s s bs (BitVec.ofNat 32 n) := by
  have e := reads_numeral32 bs s fuel h.1 hf
  rwa [h.2] at e

theorem numeral_reads_binary {n bs : Bytes} (hn : Numeral n bs.length) (h : bs.length < 2 ^ 31) (s : Cmp) (fuel : Nat)
    (hf : n.length ≤ fuel) : Reads (readBinary fuel) s s (n ++ bs) bs := by
  unfold readBinary
  rstep (numeral_reads_len hn s fuel hf)
  by_cases h0 : bs = []
  · subst h0; exact Runs.pure _ _
  · have h1 : BitVec.ofNat 32 bs.length ≠ 0 := by
      intro hc
      have := congrArg BitVec.toNat hc
      rw [toNat_len _ h] at this
      exact h0 (List.eq_nil_of_length_eq_zero (by simpa using this))
    have h2 : ¬ (BitVec.ofNat 32 bs.length).toInt < 0 := by rw [toInt_len _ h]; omega
    simp only [h1, if_false, h2]
    rw [toInt_len _ h, Int.toNat_natCast]
    intro rest out
    have := P.run_readAll_append bs s rest out
    simp [this]

theorem numeral_reads_string {n bs : Bytes} (hn : Numeral n bs.length) (h : bs.length < 2 ^ 31) (s : Cmp) (fuel : Nat)
    (hf : n.length ≤ fuel) : Reads (readString fuel) s s (n ++ bs) bs := by
  refine Runs.congr (a := (n ++ bs) ++ []) ?_ (by simp)
  unfold readString
  rstep (numeral_reads_binary hn h s fuel hf)
  exact Runs.pure _ _

theorem reads_boolElem (b : Bool) (bs : Bytes) (s : Cmp) (h : s.boolValueIsNotNull = false)
    (hb : (b = true ∧ bs = [1]) ∨ (b = false ∧ (bs = [2] ∨ bs = [0]))) : Reads readBool s s bs b := by
  intro rest out
  rcases hb with ⟨rfl, rfl⟩ | ⟨rfl, rfl | rfl⟩ <;>
    simp [readBool, h, readByte, P.run_readAll_duplex] <;> decide

/-! ## Headers -/

theorem elemCode_careful {t : TType} {c : Nat} (h : ElemCode careful t c) : c = typeCode t := by
  rcases h with h | ⟨h, _⟩
  · exact h
  · exact h.elim

theorem getTType_high {t : TType} (ht : IsWireType t) (a : Fin 16) :
    getTType (BitVec.ofNat 8 (16 * a.val + typeCode t)) = (t, none) := by
  have hc := typeCode_wire ht
  have h1 := (pack a ⟨typeCode t, by omega⟩).2.2.1
  have h2 := (pack ⟨0, by omega⟩ ⟨typeCode t, by omega⟩).2.2.1
  simp only [Nat.mul_zero, Nat.zero_add] at h1 h2
  have : getTType (BitVec.ofNat 8 (16 * a.val + typeCode t)) = getTType (BitVec.ofNat 8 (typeCode t)) := by
    simp only [getTType, h1, h2]
  rw [this]; exact hc.2.2.2

theorem reads_listHead {t : TType} (ht : IsWireType t) {k : Nat} (hk : k < 2 ^ 31) {h : Bytes}
    (hh : ListHead careful t k h) (s : Cmp) (fuel : Nat) (hf : h.length ≤ fuel) :
    Reads (readListBegin fuel) s s h (t, (k : Int)) := by
  obtain ⟨c, hc, hh⟩ := hh
  obtain rfl := elemCode_careful hc
  have hc := typeCode_wire ht
  unfold readListBegin
  rcases hh with ⟨hn, rfl⟩ | ⟨n, hn, rfl⟩
  · have hp := (pack ⟨k, by omega⟩ ⟨typeCode t, by omega⟩).2.2.2.2.1
    have hm := getTType_high ht ⟨k, by omega⟩
    simp only at hp hm
    refine Runs.congr (a := [BitVec.ofNat 8 (16 * k + typeCode t)] ++ ([] ++ [])) ?_ (by simp)
    rstep (reads_byte (BitVec.ofNat 8 (16 * k + typeCode t)) s)
    have h1 : (BitVec.ofNat 8 k).toNat = k := by rw [BitVec.toNat_ofNat, Nat.mod_eq_of_lt (by omega)]
    have h2 : ¬ ((k : Int) = 15) := by omega
    simp only [hp, h1, h2, if_false]
    refine Runs.bind (r := ((k : Int), none)) (s' := s) (fun _ _ => rfl) ?_
    simp only [hm, Option.isSome_none, Bool.false_eq_true, if_false]
    exact Runs.pure _ _
  · have hp := (pack ⟨15, by omega⟩ ⟨typeCode t, by omega⟩).2.2.2.2.1
    have hm := getTType_high ht ⟨15, by omega⟩
    simp only [Nat.reduceMul] at hp hm
    refine Runs.congr (a := [BitVec.ofNat 8 (240 + typeCode t)] ++ ((n ++ []) ++ [])) ?_ (by simp)
    rstep (reads_byte (BitVec.ofNat 8 (240 + typeCode t)) s)
    have h1 : (BitVec.ofNat 8 15).toNat = 15 := rfl
    simp only [hp, h1]
    refine Runs.bind (r := ((k : Int), none)) (s' := s) ?_ ?_
    · rstep (numeral_reads_len hn s fuel (by simp at hf; omega))
      simp only [toInt_len k hk]
      exact Runs.pure _ _
    · simp only [hm, Option.isSome_none, Bool.false_eq_true, if_false]
      exact Runs.pure _ _

theorem reads_mapHead {kt vt : TType} (hk : IsWireType kt) (hv : IsWireType vt) {k : Nat} (hn : k < 2 ^ 31) {h : Bytes}
    (hh : MapHead careful kt vt k h) (s : Cmp) (fuel : Nat) (hf : h.length ≤ fuel) :
    Reads (readMapBegin fuel) s s h (if k = 0 then (0, 0, 0) else (kt, vt, (k : Int))) := by
  have hkc := typeCode_wire hk
  have hvc := typeCode_wire hv
  obtain ⟨n, hnum, hh⟩ := hh
  unfold readMapBegin
  rcases hh with ⟨rfl, rfl⟩ | ⟨h0, c, d, hc, hd, rfl⟩
  · rw [if_pos rfl]
    refine Runs.congr (a := h ++ ([] ++ [])) ?_ (by simp)
    rstep (numeral_reads_len hnum s fuel hf)
    simp only [toInt_len 0 hn]
    refine Runs.bind (r := (TT.STOP, none)) (s' := s) (fun _ _ => rfl) ?_
    exact Runs.pure _ _
  · obtain rfl := elemCode_careful hc
    obtain rfl := elemCode_careful hd
    rw [if_neg h0]
    refine Runs.congr (a := n ++ ([BitVec.ofNat 8 (16 * typeCode kt + typeCode vt)] ++ [])) ?_ (by simp)
    rstep (numeral_reads_len hnum s fuel (by simp at hf; omega))
    have hn' : (k : Int) ≠ 0 := by omega
    simp only [toInt_len k hn, hn', ne_eq, not_false_eq_true, if_true]
    rstep (reads_byte (BitVec.ofNat 8 (16 * typeCode kt + typeCode vt)) s)
    have hp := (pack ⟨typeCode kt, by omega⟩ ⟨typeCode vt, by omega⟩).2.2
    simp only at hp
    have h1 : BitVec.ofNat 8 (16 * typeCode kt + typeCode vt) &&& 0xf = BitVec.ofNat 8 (typeCode vt) := hp.1
    simp only [hp.2.2.2, h1, hkc.2.2.2, hvc.2.2.2]
    exact Runs.pure _ _

theorem reads_fieldHead {t : TType} {code : Nat} (hc : 1 ≤ code ∧ code ≤ 12 ∧ code ≠ 2)
    (ht : getTType (BitVec.ofNat 8 code) = (t, none)) {last : Int} {long : Prop} {id : I16} {h : Bytes}
    (hh : FieldHead last id.toInt long code h) (s : Cmp)
    (hl : ¬ long → s.lastFieldId = last) (fuel : Nat) (hf : h.length ≤ fuel) :
    Reads (readFieldBegin fuel) s (s.readField id code) h ([], t, id) := by
  have nib : ∀ a b : Fin 16, b.val ≠ 0 → b.val ≠ 2 →
      BitVec.ofNat 8 (16 * a.val + b.val) &&& 0x0f ≠ (0 : Byte) ∧
      (isBoolType (BitVec.ofNat 8 (16 * a.val + b.val)) = decide (b.val = 1)) ∧
      (((BitVec.ofNat 8 (16 * a.val + b.val) &&& 0x0f) = CT.BOOLEAN_TRUE) ↔ b.val = 1) ∧
      (BitVec.setWidth 16 (BitVec.ofNat 8 a.val) = (0 : I16) ↔ a.val = 0) ∧
      (BitVec.setWidth 16 (BitVec.ofNat 8 a.val) = BitVec.ofNat 16 a.val) := by decide +kernel
  unfold readFieldBegin
  have tail : ∀ (a : Fin 16), Reads (do
      let r := getTType (BitVec.ofNat 8 (16 * a.val + code) &&& 0x0f)
      if r.2.isSome then return (([], r.1, id), protocolFromOsError r.2)
      if isBoolType (BitVec.ofNat 8 (16 * a.val + code)) then
        P.modify fun s => { s with
          boolValue := BitVec.ofNat 8 (16 * a.val + code) &&& 0x0f = CT.BOOLEAN_TRUE, boolValueIsNotNull := true }
      P.modify fun s => { s with lastFieldId := id.toInt }
      return (([], r.1, id), none) : P Cmp ((Bytes × TType × I16) × GoErr)) s (s.readField id code) [] ([], t, id) := by
    intro a rest out
    have hp := (pack a ⟨code, by omega⟩).2.2.1
    have hn := nib a ⟨code, by omega⟩ (by simp; omega) (by simp; omega)
    simp only at hp hn
    simp only [hp, ht, hn.2.1, Option.isSome_none, Bool.false_eq_true, if_false]
    by_cases h1 : code = 1
    · subst h1
      simp [readField]
    · simp [readField, h1]
  rcases hh with ⟨hlong, hd1, hd2, rfl⟩ | ⟨n, hnum, rfl⟩
  · have hlast := hl hlong
    have hp := (pack ⟨(id.toInt - last).toNat, by omega⟩ ⟨code, by omega⟩).2.2.2.1
    have hn := nib ⟨(id.toInt - last).toNat, by omega⟩ ⟨code, by omega⟩ (by simp; omega) (by simp; omega)
    simp only at hp hn
    refine Runs.congr (a := [BitVec.ofNat 8 (16 * (id.toInt - last).toNat + code)] ++ ([] ++ ([] ++ []))) ?_ (by simp)
    rstep (reads_byte (BitVec.ofNat 8 (16 * (id.toInt - last).toNat + code)) s)
    rw [if_neg (show ¬ _ from hn.1)]
    refine Runs.bind (r := s) (s' := s) (fun _ _ => rfl) ?_
    have hne : ¬ (id.toInt - last).toNat = 0 := by omega
    rw [hp, if_neg (fun h => hne (hn.2.2.2.1.1 h)), hn.2.2.2.2, hlast]
    refine Runs.bind (r := (id, none)) (s' := s) ?_ ?_
    · have : BitVec.ofInt 16 last + BitVec.ofNat 16 (id.toInt - last).toNat = id := by
        rw [← BitVec.ofInt_natCast, ← BitVec.ofInt_add, Int.toNat_of_nonneg (by omega),
          show last + (id.toInt - last) = id.toInt by omega, BitVec.ofInt_toInt]
      rw [this]
      exact Runs.pure _ _
    · simp only [Option.isSome_none, Bool.false_eq_true, if_false]
      exact tail ⟨(id.toInt - last).toNat, by omega⟩
  · have hp := (pack ⟨0, by omega⟩ ⟨code, by omega⟩).2.2.2.1
    have hn := nib ⟨0, by omega⟩ ⟨code, by omega⟩ (by simp; omega) (by simp; omega)
    have ht0 := tail ⟨0, by omega⟩
    simp only [Nat.mul_zero, Nat.zero_add] at hp hn ht0
    refine Runs.congr (a := [BitVec.ofNat 8 code] ++ ([] ++ (n ++ []))) ?_ (by simp)
    rstep (reads_byte (BitVec.ofNat 8 code) s)
    rw [if_neg (show ¬ _ from hn.1)]
    refine Runs.bind (r := s) (s' := s) (fun _ _ => rfl) ?_
    rw [hp, if_pos (by rfl)]
    refine Runs.bind (r := (id, none)) (s' := s) ?_ ?_
    · exact numeral_reads_i16 hnum s fuel (by simp at hf; omega)
    · simp only [Option.isSome_none, Bool.false_eq_true, if_false]
      exact ht0

/-! ## Whole values -/

theorem fieldCode_eq {v : Val} (h : ∀ b, v ≠ .bool b) : fieldCode v = typeCode v.type := by
  cases v with
  | bool b => exact absurd rfl (h b)
  | _ => rfl

mutual
theorem forms_val (f : Nat) : ∀ (v : Val) (bs : Bytes) (s : Cmp), Denotes careful v bs → bs.length ≤ f → Idle s → v.WF →
    ∃ s', Dec (compact f) v.norm s s' bs ∧ Kept v.structDepth s s' ∧ Grown v.structs s s'
  | .bool b, bs, s, hd, _, h, _ => ⟨s, reads_boolElem b bs s h hd, Kept.refl h, Grown.refl s⟩
  | .byte b, bs, s, hd, _, h, _ => by
    simp only [Denotes] at hd; subst hd
    exact ⟨s, reads_byte b s, Kept.refl h, Grown.refl s⟩
  | .i16 b, bs, s, hd, hf, h, _ => ⟨s, numeral_reads_i16 hd s f hf, Kept.refl h, Grown.refl s⟩
  | .i32 b, bs, s, hd, hf, h, _ => ⟨s, numeral_reads_i32 hd s f hf, Kept.refl h, Grown.refl s⟩
  | .i64 b, bs, s, hd, hf, h, _ => ⟨s, numeral_reads_i64 hd s f hf, Kept.refl h, Grown.refl s⟩
  | .double b, bs, s, hd, _, h, _ => by
    simp only [Denotes] at hd; subst hd
    exact ⟨s, reads_double b s, Kept.refl h, Grown.refl s⟩
  | .str b, bs, s, hd, hf, h, hw => by
    simp only [Denotes] at hd
    obtain ⟨n, hn, rfl⟩ := hd
    have hl : n.length ≤ f := by simp at hf; omega
    exact ⟨s, ⟨numeral_reads_string hn hw s f hl, numeral_reads_binary hn hw s f hl⟩, Kept.refl h, Grown.refl s⟩
  | .struct fs, bs, s, hd, hf, h, hw => by
    simp only [Denotes] at hd
    obtain ⟨s', hr, hi, hl, l, hg, hgl⟩ := forms_fields f fs bs { s with lastField := s.lastFieldId :: s.lastField, lastFieldId := 0 }
      0 False hd hf h (fun _ => rfl) hw
    have hne : ∃ top r, s'.lastField = top :: r := by
      rw [hg]; cases l <;> simp
    obtain ⟨top, r, htop⟩ := hne
    refine ⟨{ s' with lastFieldId := top }, ?_, ⟨hi, fun hd => ?_, fun hd => ?_⟩, ?_⟩
    · exact ⟨_, s', [], _, [], _, reads_structBegin s, hr, reads_structEnd s' top r htop, by simp⟩
    · simp [Val.structDepth] at hd
    · have := hl (by simp only [Val.structDepth] at hd; omega)
      rw [htop] at this
      simp only [List.cons.injEq] at this
      exact this.1
    · exact ⟨l ++ [s.lastFieldId], by simp [hg], by simp [Val.structs, hgl]⟩
  | .map kt vt ps, bs, s, hd, hf, h, hw => by
    simp only [Denotes] at hd
    obtain ⟨hh, r, hhead, hps, rfl⟩ := hd
    rw [List.length_append] at hf
    obtain ⟨hk, hv, hl, hp⟩ := hw
    have hm := reads_mapHead hk hv hl hhead s f (by omega)
    cases ps with
    | nil =>
      have hr : r = [] := by simpa only [DenotesPairs] using hps
      subst hr
      exact ⟨s, ⟨s, s, hh, [], [], hm, ⟨rfl, rfl⟩, Runs.pure s none, by simp⟩, Kept.refl h, Grown.refl s⟩
    | cons k v r' =>
      obtain ⟨s', hr, hkept⟩ := forms_pairs f kt vt (.cons k v r') r s hps (by omega) h hp
      rw [if_neg (by simp [Pairs.length])] at hm
      refine ⟨s', ⟨s, s', hh, r, [], ?_, hr, Runs.pure s' none, by simp⟩, hkept⟩
      rw [show (Pairs.cons k.norm v.norm r'.norm).length = (Pairs.cons k v r').length from Pairs.norm_length (.cons k v r')]
      exact hm
  | .set t vs, bs, s, hd, hf, h, ⟨ht, hl, hv⟩ => by
    simp only [Denotes] at hd
    obtain ⟨hh, r, hhead, hvs, rfl⟩ := hd
    rw [List.length_append] at hf
    obtain ⟨s', hr, hkept⟩ := forms_vals f t vs r s hvs (by omega) h hv
    refine ⟨s', ⟨s, s', hh, _, [], ?_, hr, Runs.pure s' none, by simp⟩, hkept⟩
    rw [Vals.norm_length]
    exact reads_listHead ht hl hhead s f (by omega)
  | .list t vs, bs, s, hd, hf, h, ⟨ht, hl, hv⟩ => by
    simp only [Denotes] at hd
    obtain ⟨hh, r, hhead, hvs, rfl⟩ := hd
    rw [List.length_append] at hf
    obtain ⟨s', hr, hkept⟩ := forms_vals f t vs r s hvs (by omega) h hv
    refine ⟨s', ⟨s, s', hh, _, [], ?_, hr, Runs.pure s' none, by simp⟩, hkept⟩
    rw [Vals.norm_length]
    exact reads_listHead ht hl hhead s f (by omega)
theorem forms_fields (f : Nat) : ∀ (fs : Fields) (bs : Bytes) (s : Cmp) (last : Int) (long : Prop),
    DenotesFields careful last long fs bs → bs.length ≤ f → Idle s → (¬ long → s.lastFieldId = last) → fs.WF →
    ∃ s', DecFields (compact f) fs.norm s s' bs ∧
      Idle s' ∧ (fs.structDepth = 0 → s'.lastField = s.lastField) ∧ Grown fs.structs s s'
  | .nil, bs, s, last, long, hd, _, h, hl, hw => by
    simp only [DenotesFields] at hd; subst hd
    exact ⟨s, ⟨0, reads_fieldStop s f⟩, h, fun _ => rfl, Grown.refl s⟩
  | .cons id v r, bs, s, last, long, hd, hf, h, hl, hw => by
    simp only [DenotesFields] at hd
    obtain ⟨hh, body, rest, hhead, hbody, hrest, rfl⟩ := hd
    simp only [List.length_append] at hf
    obtain ⟨hv, hr⟩ := hw
    rcases hbody with ⟨rfl, rfl⟩ | ⟨hc, _⟩ | ⟨hb', hbody⟩
    · obtain ⟨s', hrr, hi, hk, hg⟩ := forms_fields f r rest
        { s with boolValue := true, boolValueIsNotNull := false, lastFieldId := id.toInt } id.toInt _ hrest (by omega) rfl
        (fun _ => rfl) hr
      exact ⟨s', ⟨_, _, _, hh, [], [], _,
        reads_fieldHead (t := TT.BOOL) (code := 1) (by omega) rfl hhead s hl f (by omega), reads_boolField (s.readField id 1) rfl,
        Runs.pure _ none, hrr, by simp⟩, hi,
        fun hd => hk (by simp only [Fields.structDepth] at hd; omega),
        by simp only [Fields.structs, Val.structs, Nat.zero_add]; exact hg⟩
    · exact hc.elim
    · have hc := typeCode_wire v.type_wire
      have hne1 : typeCode v.type ≠ 1 := by
        cases v with
        | bool b => exact absurd rfl (hb' b)
        | _ => simp only [Val.type]; decide
      obtain ⟨s1, hrv, hk1, hg1⟩ := forms_val f v body { s with lastFieldId := id.toInt } hbody (by omega) h hv
      obtain ⟨s', hrr, hi, hk, hg⟩ := forms_fields f r rest s1 id.toInt _ hrest (by omega) hk1.1
        (fun hs => hk1.2.2 (by
          by_cases hd : 2 ≤ v.structDepth
          · exact absurd ⟨hd, fun x => x⟩ hs
          · omega)) hr
      have hg1' : Grown v.structs s s1 := hg1
      refine ⟨s', ?_, hi, fun hd => ?_, hg1'.trans hg⟩
      · rw [fieldCode_eq hb'] at hhead
        have hfb := reads_fieldHead (t := v.type) ⟨hc.1, hc.2.1, hc.2.2.1⟩ hc.2.2.2 hhead s hl f (by omega)
        simp only [readField, hne1, if_false] at hfb
        rw [← Val.norm_type] at hfb
        exact ⟨_, s1, s1, _, _, [], _, hfb, hrv, Runs.pure s1 none, hrr, by simp⟩
      · simp only [Fields.structDepth] at hd
        rw [hk (by omega)]
        exact hk1.2.1 (by omega)
theorem forms_vals (f : Nat) : ∀ (t : Byte) (vs : Vals) (bs : Bytes) (s : Cmp), DenotesVals careful vs bs → bs.length ≤ f →
    Idle s → vs.WF t →
    ∃ s', DecVals (compact f) t vs.norm s s' bs ∧ Kept vs.structDepth s s' ∧ Grown vs.structs s s'
  | t, .nil, bs, s, hd, _, h, _ => by
    simp only [DenotesVals] at hd; subst hd
    exact ⟨s, ⟨rfl, rfl⟩, Kept.refl h, Grown.refl s⟩
  | t, .cons v r, bs, s, hd, hf, h, hw => by
    simp only [DenotesVals] at hd
    obtain ⟨a, b, ha, hb, rfl⟩ := hd
    rw [List.length_append] at hf
    obtain ⟨rfl, hv, hr⟩ := hw
    obtain ⟨s1, h1, k1, g1⟩ := forms_val f v a s ha (by omega) h hv
    obtain ⟨s2, h2, k2, g2⟩ := forms_vals f v.type r b s1 hb (by omega) k1.1 hr
    exact ⟨s2, ⟨s1, _, _, Val.norm_type v, h1, h2, rfl⟩, k1.trans k2, g1.trans g2⟩
theorem forms_pairs (f : Nat) : ∀ (kt vt : Byte) (ps : Pairs) (bs : Bytes) (s : Cmp), DenotesPairs careful ps bs → bs.length ≤ f →
    Idle s → ps.WF kt vt →
    ∃ s', DecPairs (compact f) kt vt ps.norm s s' bs ∧ Kept ps.structDepth s s' ∧ Grown ps.structs s s'
  | kt, vt, .nil, bs, s, hd, _, h, _ => by
    simp only [DenotesPairs] at hd; subst hd
    exact ⟨s, ⟨rfl, rfl⟩, Kept.refl h, Grown.refl s⟩
  | kt, vt, .cons k v r, bs, s, hd, hf, h, hw => by
    simp only [DenotesPairs] at hd
    obtain ⟨a, b, c, ha, hb, hc, rfl⟩ := hd
    simp only [List.length_append] at hf
    obtain ⟨rfl, rfl, hk, hv, hr⟩ := hw
    obtain ⟨s1, h1, k1, g1⟩ := forms_val f k a s ha (by omega) h hk
    obtain ⟨s2, h2, k2, g2⟩ := forms_val f v b s1 hb (by omega) k1.1 hv
    obtain ⟨s3, h3, k3, g3⟩ := forms_pairs f k.type v.type r c s2 hc (by omega) k2.1 hr
    exact ⟨s3, ⟨s1, s2, _, _, _, Val.norm_type k, Val.norm_type v, h1, h2, h3, by simp⟩,
      k1.trans (k2.trans k3), g1.trans (g2.trans g3)⟩
end

theorem forms_reads (f : Nat) (v : Val) (bs : Bytes) (s : Cmp) (fuel : Nat) (hd : Denotes careful v bs) (hf : bs.length ≤ f)
    (h : Idle s) (hw : v.WF) (hz : v.size ≤ fuel) :
    ∃ s', Reads (readVal (compact f) fuel v.type) s s' bs v.norm ∧ Kept v.structDepth s s' ∧ Grown v.structs s s' := by
  obtain ⟨s', hdec, hk⟩ := forms_val f v bs s hd hf h hw
  have := Dec.readVal v.norm fuel (by rw [Val.norm_size]; exact hz) hdec
  rw [Val.norm_type] at this
  exact ⟨s', this, hk⟩

end Thrift.Cmp
