import Verif.Lemmas.CompactTotal
import Verif.Props.Binary
/-!
# Properties C13-C23: the compact protocol
-/

namespace Thrift
open CompactProtocol

/-! ## C13 zigzag -/

/-- C13.  Both conversions are mutually inverse, and an integer of magnitude
below `2^k` is mapped below `2^(k+1)`. -/
theorem C13_zigzag_bijection :
    (∀ n : I32, zigzagToInt32 (int32ToZigzag n) = n) ∧ (∀ n : I32, int32ToZigzag (zigzagToInt32 n) = n) ∧
    (∀ n : I64, zigzagToInt64 (int64ToZigzag n) = n) ∧ (∀ n : I64, int64ToZigzag (zigzagToInt64 n) = n) ∧
    (∀ (n : I32) (k : Nat), n.toInt.natAbs < 2 ^ k → (int32ToZigzag n).toNat < 2 ^ (k + 1)) ∧
    (∀ (n : I64) (k : Nat), n.toInt.natAbs < 2 ^ k → (int64ToZigzag n).toNat < 2 ^ (k + 1)) := by
  have small : ∀ (z : Int) (k : Nat), z.natAbs < 2 ^ k → zigzag z < 2 ^ (k + 1) := by
    intro z k h
    rw [Nat.pow_succ]
    unfold zigzag
    split <;> omega
  exact ⟨zigzag32_left, zigzag32_right, zigzag64_left, zigzag64_right,
    fun n k h => by rw [int32ToZigzag_toNat]; exact small _ _ h,
    fun n k h => by rw [int64ToZigzag_toNat]; exact small _ _ h⟩

example : int32ToZigzag (-3) = 5 ∧ zigzagToInt64 6 = 3 := by decide
example : (int64ToZigzag (-100)).toNat < 2 ^ 8 := C13_zigzag_bijection.2.2.2.2.2 (-100) 7 (by decide)

/-! ## C14 varints -/

/-- The error of a varint write, whose Go result also has a byte count. -/
def writeVarint32E (n : I32) : P Cmp GoErr := do return (← writeVarint32 n).2
def writeVarint64E (n : I64) : P Cmp GoErr := do return (← writeVarint64 n).2

/-- C14.  A varint takes 1..5 (1..10) bytes, none of the complete base-128
numerals of the same number is shorter, it is read back exactly, and different
values have different encodings. -/
theorem C14_varint (s : Cmp) (fuel : Nat) (hf : 10 ≤ fuel) :
    (∀ n : I32, ∃ bs : Bytes,
      (∀ before, (writeVarint32E n).run memory s before = (.ok (none, s), before ++ bs)) ∧
      1 ≤ bs.length ∧ bs.length ≤ 5 ∧ IsLeb128 bs ∧ leb128Value bs = n.toNat ∧
      (∀ other, IsLeb128 other → leb128Value other = n.toNat → bs.length ≤ other.length) ∧
      (∀ after, (readVarint32 fuel).run memory s (bs ++ after) = (.ok ((n, none), s), after))) ∧
    (∀ n : I64, ∃ bs : Bytes,
      (∀ before, (writeVarint64E n).run memory s before = (.ok (none, s), before ++ bs)) ∧
      1 ≤ bs.length ∧ bs.length ≤ 10 ∧ IsLeb128 bs ∧ leb128Value bs = n.toNat ∧
      (∀ other, IsLeb128 other → leb128Value other = n.toNat → bs.length ≤ other.length) ∧
      (∀ after, (readVarint64 fuel).run memory s (bs ++ after) = (.ok ((n, none), s), after))) := by
  constructor
  · intro n
    refine ⟨leb128 n.toNat, ?_, leb128_pos _, ?_, isLeb128_leb128 _, leb128Value_leb128 _, ?_, ?_⟩
    · have h : Emits (writeVarint32E n) s s (leb128 n.toNat) := Cmp.emits_varint32 n s
      exact h.memory
    · exact leb128_length_le 5 n.toNat (Nat.lt_of_lt_of_le n.isLt (by decide)) (by decide)
    · intro other h1 h2
      have := leb128_minimal other h1
      rwa [h2] at this
    · exact (Cmp.reads_varint32 n s fuel hf).memory
  · intro n
    refine ⟨leb128 n.toNat, ?_, leb128_pos _, ?_, isLeb128_leb128 _, leb128Value_leb128 _, ?_, ?_⟩
    · have h : Emits (writeVarint64E n) s s (leb128 n.toNat) := by
        intro inp out; simp [writeVarint64E, Cmp.run_writeVarint64]
      exact h.memory
    · exact Cmp.leb128_length_64 n.toNat n.isLt
    · intro other h1 h2
      have := leb128_minimal other h1
      rwa [h2] at this
    · exact (Cmp.reads_varint64 n s fuel hf).memory

/-- C14, last clause: the bytes written determine the value. -/
theorem C14_varint_injective (s : Cmp) (m n : I64)
    (h : (writeVarint64E m).run memory s [] = (writeVarint64E n).run memory s []) : m = n := by
  obtain ⟨bm, h1, _, _, _, hm, _⟩ := (C14_varint s 10 (by omega)).2 m
  obtain ⟨bn, h2, _, _, _, hn, _⟩ := (C14_varint s 10 (by omega)).2 n
  rw [h1, h2] at h
  simp only [List.nil_append, Prod.mk.injEq, true_and] at h
  subst h
  exact BitVec.eq_of_toNat_eq (hm.symm.trans hn)

theorem C14_varint32_injective (s : Cmp) (m n : I32)
    (h : (writeVarint32E m).run memory s [] = (writeVarint32E n).run memory s []) : m = n := by
  obtain ⟨bm, h1, _, _, _, hm, _⟩ := (C14_varint s 10 (by omega)).1 m
  obtain ⟨bn, h2, _, _, _, hn, _⟩ := (C14_varint s 10 (by omega)).1 n
  rw [h1, h2] at h
  simp only [List.nil_append, Prod.mk.injEq, true_and] at h
  subst h
  exact BitVec.eq_of_toNat_eq (hm.symm.trans hn)

example : (writeVarint32E 300).run memory Cmp.new [] = (.ok (none, Cmp.new), [0xAC, 0x02]) := by rfl
example : (writeVarint32E 300).run memory Cmp.new [] ≠ (writeVarint32E 301).run memory Cmp.new [] :=
  fun h => absurd (C14_varint32_injective _ _ _ h) (by decide)

/-! ## C15 scalars -/

/-- C15.  Writer and reader are in any state outside a boolean field. -/
theorem C15_compact_scalar_roundtrip (f : Nat) (hf : 10 ≤ f) (sw sr : Cmp) (hw : sw.booleanField = none)
    (hr : sr.boolValueIsNotNull = false) :
    (∀ v, RoundTrips ((compact f).writeBool v) sw (compact f).readBool sr v) ∧
    (∀ v, RoundTrips ((compact f).writeByte v) sw (compact f).readByte sr v) ∧
    (∀ v, RoundTrips ((compact f).writeI16 v) sw (compact f).readI16 sr v) ∧
    (∀ v, RoundTrips ((compact f).writeI32 v) sw (compact f).readI32 sr v) ∧
    (∀ v, RoundTrips ((compact f).writeI64 v) sw (compact f).readI64 sr v) ∧
    (∀ v, RoundTrips ((compact f).writeDouble v) sw (compact f).readDouble sr v) ∧
    (∀ v : Bytes, v.length < 2 ^ 31 → RoundTrips ((compact f).writeString v) sw (compact f).readString sr v) ∧
    (∀ v : Bytes, v.length < 2 ^ 31 → RoundTrips ((compact f).writeBinary v) sw (compact f).readBinary sr v) :=
  ⟨fun v => ⟨_, (Cmp.emits_bool v sw hw).memory, (Cmp.reads_bool v sr hr).memory⟩,
   fun v => ⟨_, (Cmp.emits_byte v sw).memory, (Cmp.reads_byte v sr).memory⟩,
   fun v => ⟨_, (Cmp.emits_i16 v sw).memory, (Cmp.reads_i16 v sr f hf).memory⟩,
   fun v => ⟨_, (Cmp.emits_i32 v sw).memory, (Cmp.reads_i32 v sr f hf).memory⟩,
   fun v => ⟨_, (Cmp.emits_i64 v sw).memory, (Cmp.reads_i64 v sr f hf).memory⟩,
   fun v => ⟨_, (Cmp.emits_double v sw).memory, (Cmp.reads_double v sr).memory⟩,
   fun v hv => ⟨_, (Cmp.emits_string v hv sw).memory, (Cmp.reads_string v hv sr f hf).memory⟩,
   fun v hv => ⟨_, (Cmp.emits_binary v hv sw).memory, (Cmp.reads_binary v hv sr f hf).memory⟩⟩

example : RoundTrips ((compact 10).writeI32 (-5)) Cmp.new (compact 10).readI32 Cmp.new (-5) :=
  (C15_compact_scalar_roundtrip 10 (by decide) _ _ rfl rfl).2.2.2.1 _

/-! ## C16 container headers -/

/-- C16.  Sizes and element types of lists and sets, and of non-empty maps, are
read back; for an empty map the size is. -/
theorem C16_compact_container_headers (f : Nat) (hf : 10 ≤ f) (sw sr : Cmp) (n : Nat) (hn : n < 2 ^ 31) :
    (∀ t, IsWireType t → RoundTrips ((compact f).writeListBegin t n) sw (compact f).readListBegin sr (t, (n : Int))) ∧
    (∀ t, IsWireType t → RoundTrips ((compact f).writeSetBegin t n) sw (compact f).readSetBegin sr (t, (n : Int))) ∧
    (∀ kt vt, IsWireType kt → IsWireType vt → ∃ kt' vt',
      RoundTrips ((compact f).writeMapBegin kt vt n) sw (compact f).readMapBegin sr (kt', vt', (n : Int)) ∧
      (n ≠ 0 → kt' = kt ∧ vt' = vt)) := by
  refine ⟨fun t ht => ⟨_, (Cmp.emits_listBegin t ht n hn sw).memory, (Cmp.reads_listBegin t ht n hn sr f hf).memory⟩,
    fun t ht => ⟨_, (Cmp.emits_listBegin t ht n hn sw).memory, (Cmp.reads_listBegin t ht n hn sr f hf).memory⟩, ?_⟩
  intro kt vt hk hv
  have hr := Cmp.reads_mapBegin kt vt hk hv n hn sr f hf
  have hw := Cmp.emits_mapBegin kt vt hk hv n hn sw
  by_cases h0 : n = 0
  · subst h0
    exact ⟨0, 0, ⟨_, hw.memory, hr.memory⟩, fun h => absurd rfl h⟩
  · rw [if_neg h0] at hr
    exact ⟨kt, vt, ⟨_, hw.memory, hr.memory⟩, fun _ => ⟨rfl, rfl⟩⟩

example : RoundTrips ((compact 10).writeListBegin 8 (15 : Nat)) Cmp.new (compact 10).readListBegin Cmp.new (8, ((15 : Nat) : Int)) :=
  (C16_compact_container_headers 10 (by decide) _ _ 15 (by decide)).1 8 (by decide)

/-! ## C17 field headers -/

/-- Writing the headers of fields (id, type, value of a boolean) as a struct
writer does, without the other values. -/
def writeHeaders (p : Proto π) : List (I16 × Byte × Bool) → P π GoErr
  | [] => return none
  | (id, t, b) :: r => do
    let e ← p.writeFieldBegin [] t id
    if e.isSome then return e
    let e ← if t = 2 then p.writeBool b else pure none
    if e.isSome then return e
    let e ← p.writeFieldEnd
    if e.isSome then return e
    writeHeaders p r

/-- Reading `n` field headers with the values of boolean fields. -/
def readHeaders (p : Proto π) : Nat → P π (List (I16 × Byte × Bool) × GoErr)
  | 0 => return ([], none)
  | n + 1 => do
    let ((_, t, id), e) ← p.readFieldBegin
    if e.isSome then return ([], e)
    let (b, e) ← if t = 2 then p.readBool else pure (false, none)
    if e.isSome then return ([], e)
    let e ← p.readFieldEnd
    if e.isSome then return ([], e)
    let (l, e) ← readHeaders p n
    return ((id, t, b) :: l, e)

/-- The value of a non-boolean field is not looked at. -/
def normHeader (h : I16 × Byte × Bool) : I16 × Byte × Bool := (h.1, h.2.1, if h.2.1 = 2 then h.2.2 else false)

/-- C17 in full: the headers of a struct's fields are read back, by a writer and
a reader at the start of a struct. -/
def C17_statement : Prop :=
  ∀ (f : Nat) (hs : List (I16 × Byte × Bool)) (sw sr : Cmp), 10 ≤ f → (∀ h ∈ hs, IsWireType h.2.1) →
    sw.booleanField = none → sw.lastFieldId = 0 → sr.boolValueIsNotNull = false → sr.lastFieldId = 0 →
    ∃ bs sw' sr', (∀ before, (writeHeaders (compact f) hs).run memory sw before = (.ok (none, sw'), before ++ bs)) ∧
      ∀ after, (readHeaders (compact f) hs.length).run memory sr (bs ++ after) =
        (.ok ((hs.map normHeader, none), sr'), after)

/-- C17 does not hold: a boolean field with value `false` cannot be read. -/
theorem C17_violated : ¬ C17_statement := by
  intro h
  obtain ⟨bs, sw', sr', h1, h2⟩ := h 10 [(1, 2, false)] Cmp.new Cmp.new (by decide) (by decide) rfl rfl rfl rfl
  have h1' := h1 []
  have e : (writeHeaders (compact 10) [(1, 2, false)]).run memory Cmp.new [] =
      (.ok (none, { Cmp.new with lastFieldId := 1 }), [0x12]) := by rfl
  rw [e] at h1'
  simp only [List.nil_append, Prod.mk.injEq] at h1'
  have h2' := h2 []
  rw [← h1'.2] at h2'
  have e2 : ∃ er s, (readHeaders (compact 10) 1).run memory Cmp.new [0x12] = (.ok (([], some er), s), []) := ⟨_, _, rfl⟩
  obtain ⟨er, s, e2⟩ := e2
  have := e2.symm.trans h2'
  simp at this

/-- Every `false` boolean field is unreadable, whatever its id and the state of
the reader: the header gives an error. -/
theorem C17_false_field_unreadable (last : Int) (id : I16) (s : Cmp) (f : Nat) (hf : 10 ≤ f) (after : Bytes) :
    ∃ hd e left, (compact f).readFieldBegin.run memory s
      (CompactSpec.fieldHeader last id.toInt 2 ++ after) = (.ok ((hd, some e), s), left) := by
  have nib : ∀ a : Fin 16, (BitVec.ofNat 8 (16 * a.val + 2) &&& 0x0f = (2 : Byte)) ∧
      (BitVec.ofNat 8 (16 * a.val + 2) &&& 0xf0) >>> 4 = BitVec.ofNat 8 a.val ∧
      (BitVec.setWidth 16 (BitVec.ofNat 8 a.val) = (0 : I16) ↔ a.val = 0) := by decide +kernel
  obtain ⟨er, her⟩ : ∃ er, protocolFromOsError (getTType (2 : Byte)).2 = some er := ⟨_, rfl⟩
  have key : ∃ hd e, Runs (readFieldBegin f) s s (CompactSpec.fieldHeader last id.toInt 2) (hd, some e) := by
    unfold readFieldBegin CompactSpec.fieldHeader
    by_cases hd : 1 ≤ id.toInt - last ∧ id.toInt - last ≤ 15
    · rw [if_pos hd]
      have hn := nib ⟨(id.toInt - last).toNat, by omega⟩
      simp only at hn
      refine ⟨([], TT.STOP, BitVec.ofInt 16 s.lastFieldId + BitVec.setWidth 16 (BitVec.ofNat 8 (id.toInt - last).toNat)), er, ?_⟩
      refine Runs.congr (a := [BitVec.ofNat 8 (16 * (id.toInt - last).toNat + 2)] ++ ([] ++ ([] ++ []))) ?_ (by simp)
      rstep (Cmp.reads_byte (BitVec.ofNat 8 (16 * (id.toInt - last).toNat + 2)) s)
      rw [if_neg (by rw [hn.1]; decide)]
      refine Runs.bind (r := s) (s' := s) (fun _ _ => rfl) ?_
      rw [hn.2.1, if_neg (fun h => by have := hn.2.2.1 h; omega), hn.1]
      rstep (Runs.pure s (BitVec.ofInt 16 s.lastFieldId + BitVec.setWidth 16 (BitVec.ofNat 8 (id.toInt - last).toNat), none))
      rw [if_pos (show (getTType (2 : Byte)).2.isSome = true from rfl), her]
      exact Runs.pure _ _
    · rw [if_neg hd]
      refine ⟨([], TT.STOP, id), er, ?_⟩
      refine Runs.congr (a := [BitVec.ofNat 8 2] ++ ([] ++ (leb128 (zigzag id.toInt) ++ []))) ?_ (by simp)
      rstep (Cmp.reads_byte (BitVec.ofNat 8 2) s)
      rw [if_neg (by decide)]
      refine Runs.bind (r := s) (s' := s) (fun _ _ => rfl) ?_
      rw [if_pos (by rfl)]
      rstep (Cmp.reads_i16 id s f hf)
      rw [show (2#8 &&& 15) = (2 : Byte) from rfl, if_pos (show (getTType (2 : Byte)).2.isSome = true from rfl), her]
      exact Runs.pure _ _
  obtain ⟨hd, e, h⟩ := key
  exact ⟨hd, e, after, h.memory after⟩

theorem headers_roundtrip (f : Nat) (hf : 10 ≤ f) : ∀ (hs : List (I16 × Byte × Bool)) (sw sr : Cmp),
    (∀ h ∈ hs, IsWireType h.2.1 ∧ (h.2.1 = 2 → h.2.2 = true)) → sw.booleanField = none →
    sr.boolValueIsNotNull = false → sr.lastFieldId = sw.lastFieldId →
    ∃ bs sw' sr', Emits (writeHeaders (compact f) hs) sw sw' bs ∧
      Reads (readHeaders (compact f) hs.length) sr sr' bs (hs.map normHeader)
  | [], sw, sr, _, _, _, _ => ⟨[], sw, sr, Emits.pure sw, Runs.pure sr _⟩
  | (id, t, b) :: r, sw, sr, hh, hw, hr, hl => by
    have h0 := hh (id, t, b) (by simp)
    have hrest : ∀ h ∈ r, IsWireType h.2.1 ∧ (h.2.1 = 2 → h.2.2 = true) := fun h hm => hh h (by simp [hm])
    by_cases hb : t = 2
    · subst hb
      have hbt : b = true := h0.2 rfl
      subst hbt
      obtain ⟨bs, sw', sr', h1, h2⟩ := headers_roundtrip f hf r (sw.atField id)
        { sr with boolValue := true, boolValueIsNotNull := false, lastFieldId := id.toInt } hrest hw rfl rfl
      refine ⟨CompactSpec.fieldHeader sw.lastFieldId id.toInt 1 ++ bs, sw', sr', ?_, ?_⟩
      · simp only [writeHeaders, if_true]
        exact (Emits.seq (Cmp.emits_boolFieldBegin [] id sw) (Emits.seq (Cmp.emits_boolField [] id true sw hw)
          (Emits.seq (Cmp.emits_nop _) h1))).congr (by simp)
      · refine Runs.congr (a := CompactSpec.fieldHeader sw.lastFieldId id.toInt 1 ++ ([] ++ ([] ++ (bs ++ [])))) ?_ (by simp)
        simp only [readHeaders, List.length_cons]
        rstep (Cmp.reads_fieldBegin TT.BOOL 1 (by omega) rfl sw.lastFieldId id sr (fun _ => hl) f hf)
        rw [if_pos trivial]
        have hbool : Reads readBool (sr.readField id 1)
            { sr with boolValue := true, boolValueIsNotNull := false, lastFieldId := id.toInt } [] true :=
          Cmp.reads_boolField (sr.readField id 1) rfl
        rstep hbool
        rstep (Runs.pure _ none)
        rstep h2
        exact Runs.pure _ _
    · have hc := Cmp.typeCode_wire h0.1
      have hne1 : CompactSpec.typeCode t ≠ 1 := by
        rcases Bin.wire_cases h0.1 with h | h | h | h | h | h | h | h | h | h | h <;> subst h <;>
          first
            | exact absurd rfl hb
            | decide
      obtain ⟨bs, sw', sr', h1, h2⟩ := headers_roundtrip f hf r (sw.atField id)
        { sr with lastFieldId := id.toInt } hrest hw hr rfl
      refine ⟨CompactSpec.fieldHeader sw.lastFieldId id.toInt (CompactSpec.typeCode t) ++ bs, sw', sr', ?_, ?_⟩
      · simp only [writeHeaders, hb, if_false]
        exact (Emits.seq (Cmp.emits_fieldBegin [] t h0.1 hb id sw) (Emits.seq (Emits.pure _)
          (Emits.seq (Cmp.emits_nop _) h1))).congr (by simp)
      · refine Runs.congr (a := CompactSpec.fieldHeader sw.lastFieldId id.toInt (CompactSpec.typeCode t) ++
          ([] ++ ([] ++ (bs ++ [])))) ?_ (by simp)
        simp only [readHeaders, List.length_cons]
        have hfb := Cmp.reads_fieldBegin t (CompactSpec.typeCode t) ⟨hc.1, hc.2.1, hc.2.2.1⟩ hc.2.2.2 sw.lastFieldId
          id sr (fun _ => hl) f hf
        simp only [Cmp.readField, hne1, if_false] at hfb
        rstep hfb
        rw [if_neg hb]
        rstep (Runs.pure _ (false, none))
        rstep (Runs.pure _ none)
        rstep h2
        simp only [List.map_cons, normHeader, hb, if_false]
        exact Runs.pure _ _

/-- C17, what remains: sequences in which no boolean is `false`, with any ids in
any order.  Missing: `false` fields, which are unreadable
(`C17_false_field_unreadable`). -/
theorem C17_field_headers_partial (f : Nat) (hf : 10 ≤ f) (hs : List (I16 × Byte × Bool)) (sw sr : Cmp)
    (hh : ∀ h ∈ hs, IsWireType h.2.1 ∧ (h.2.1 = 2 → h.2.2 = true)) (hw : sw.booleanField = none)
    (hr : sr.boolValueIsNotNull = false) (hl : sr.lastFieldId = sw.lastFieldId) :
    ∃ bs sw' sr', (∀ before, (writeHeaders (compact f) hs).run memory sw before = (.ok (none, sw'), before ++ bs)) ∧
      ∀ after, (readHeaders (compact f) hs.length).run memory sr (bs ++ after) =
        (.ok ((hs.map normHeader, none), sr'), after) := by
  obtain ⟨bs, sw', sr', h1, h2⟩ := headers_roundtrip f hf hs sw sr hh hw hr hl
  exact ⟨bs, sw', sr', h1.memory, h2.memory⟩

example : ∃ bs sw' sr', (∀ before, (writeHeaders (compact 10) [(20, 2, true), (3, 8, false), (-7, 15, true)]).run
      memory Cmp.new before = (.ok (none, sw'), before ++ bs)) ∧
    ∀ after, (readHeaders (compact 10) 3).run memory Cmp.new (bs ++ after) =
      (.ok (([(20, 2, true), (3, 8, false), (-7, 15, false)], none), sr'), after) :=
  C17_field_headers_partial 10 (by decide) [(20, 2, true), (3, 8, false), (-7, 15, true)] _ _ (by decide) rfl rfl rfl

/-! ## C18 message header -/

/-- C18 in full. -/
def C18_statement : Prop :=
  ∀ (f : Nat) (name : Bytes) (t q : I32) (sw sr : Cmp), 10 ≤ f → name.length < 2 ^ 31 →
    t ∈ [CALL, REPLY, EXCEPTION, ONEWAY] →
    RoundTrips ((compact f).writeMessageBegin name t q) sw (compact f).readMessageBegin sr (name, t, q)

/-- What is read back: the message type modulo 4. -/
theorem C18_compact_message_read (f : Nat) (hf : 10 ≤ f) (name : Bytes) (hn : name.length < 2 ^ 31) (t q : I32)
    (sw sr : Cmp) :
    RoundTrips ((compact f).writeMessageBegin name t q) sw (compact f).readMessageBegin sr
      (name, BitVec.ofNat 32 (t.toNat % 4), q) :=
  ⟨_, (Cmp.emits_message name hn t q sw).memory, (Cmp.reads_message name hn t q sr f hf).memory⟩

/-- C18 does not hold: ONEWAY (4) is read back as 0. -/
theorem C18_violated : ¬ C18_statement := by
  intro h
  obtain ⟨bs, h1, h2⟩ := h 10 [] ONEWAY 0 Cmp.new Cmp.new (by decide) (by decide) (by decide)
  obtain ⟨bs', h1', h2'⟩ := C18_compact_message_read 10 (by decide) [] (by decide) ONEWAY 0 Cmp.new Cmp.new
  have e1 := (h1 []).symm.trans (h1' [])
  simp only [List.nil_append, Prod.mk.injEq, true_and] at e1
  subst e1
  have e2 := (h2 []).symm.trans (h2' [])
  simp only [Prod.mk.injEq, Res.ok.injEq, and_true, true_and] at e2
  revert e2; decide

/-- C18, what remains: CALL, REPLY and EXCEPTION.  Missing: ONEWAY. -/
theorem C18_compact_message_partial (f : Nat) (hf : 10 ≤ f) (name : Bytes) (hn : name.length < 2 ^ 31) (t q : I32)
    (ht : t ∈ [CALL, REPLY, EXCEPTION]) (sw sr : Cmp) :
    RoundTrips ((compact f).writeMessageBegin name t q) sw (compact f).readMessageBegin sr (name, t, q) := by
  have h := C18_compact_message_read f hf name hn t q sw sr
  have : BitVec.ofNat 32 (t.toNat % 4) = t := by
    simp only [List.mem_cons, List.not_mem_nil, or_false] at ht
    rcases ht with rfl | rfl | rfl <;> decide
  rwa [this] at h

example : RoundTrips ((compact 10).writeMessageBegin [112] EXCEPTION (-1)) Cmp.new (compact 10).readMessageBegin
    Cmp.new ([112], EXCEPTION, -1) :=
  C18_compact_message_partial 10 (by decide) [112] (by decide) EXCEPTION (-1) (by decide) _ _

/-! ## C19 nested values -/

/-- Round trip with a reader whose bookkeeping may change. -/
def RoundTripsLoose (w : P π GoErr) (sw : π) (r : P ρ (α × GoErr)) (sr : ρ) (v : α) : Prop :=
  ∃ (bs : Bytes) (sr' : ρ),
    (∀ before, w.run memory sw before = (.ok (none, sw), before ++ bs)) ∧
    (∀ after, r.run memory sr (bs ++ after) = (.ok ((v, none), sr'), after))

/-- C19 in full, for readers that are not between a boolean field header and its
value. -/
def C19_statement : Prop :=
  ∀ (f : Nat) (v : Val) (sw sr : Cmp) (fuel : Nat), 10 ≤ f → v.WF → v.size ≤ fuel → sw.booleanField = none →
    sr.boolValueIsNotNull = false →
    RoundTripsLoose (writeVal (compact f) v) sw (readVal (compact f) fuel v.type) sr v.norm

/-- The bytes written are those of the compact encoding, for every value, and
the writer is left as it was. -/
theorem C19_compact_conforms (f : Nat) (v : Val) (hv : v.WF) (s : Cmp) (hs : s.booleanField = none) (before : Bytes) :
    (writeVal (compact f) v).run memory s before = (.ok (none, s), before ++ CompactSpec.encode v) :=
  (Cmp.emits_val f v s hs hv).memory before

/-- A struct with a `false` field. -/
def falseField : Val := .struct (.cons 1 (.bool false) .nil)

/-- Structs three deep with a field after the nested one. -/
def threeDeep : Val :=
  .struct (.cons 1 (.struct (.cons 3 (.struct .nil) .nil)) (.cons 2 (.i32 7) .nil))

/-- C19 does not hold for a `false` field. -/
theorem C19_false_field_violated : ¬ C19_statement := by
  intro h
  obtain ⟨bs, sr', h1, h2⟩ := h 10 falseField Cmp.new Cmp.new 10 (by decide)
    (by simp [falseField, Val.WF, Fields.WF]) (by decide) rfl rfl
  have e1 := (h1 []).symm.trans (C19_compact_conforms 10 falseField (by simp [falseField, Val.WF, Fields.WF]) Cmp.new rfl [])
  simp only [List.nil_append, Prod.mk.injEq, true_and] at e1
  have hd : CompactSpec.encode falseField = [0x12, 0] := by
    simp only [falseField, CompactSpec.encode, CompactSpec.encodeFields]; rfl
  rw [hd] at e1
  subst e1
  have e2 : ∃ er s v, (readVal (compact 10) 10 12).run memory Cmp.new [0x12, 0] = (.ok ((v, some er), s), [0]) := ⟨_, _, _, rfl⟩
  obtain ⟨er, s, v, e2⟩ := e2
  have := e2.symm.trans (h2 [])
  simp at this

/-- C19 does not hold for structs three deep: the last field is read with id 4
instead of 2. -/
theorem C19_nesting_violated : ¬ C19_statement := by
  intro h
  have wf : threeDeep.WF := by simp [threeDeep, Val.WF, Fields.WF]
  obtain ⟨bs, sr', h1, h2⟩ := h 10 threeDeep Cmp.new Cmp.new 10 (by decide) wf (by decide) rfl rfl
  have e1 := (h1 []).symm.trans (C19_compact_conforms 10 threeDeep wf Cmp.new rfl [])
  simp only [List.nil_append, Prod.mk.injEq, true_and] at e1
  have hz : leb128 (zigzag (7#32).toInt) = [14] := by
    rw [leb128_small (by decide)]; decide
  have hd : CompactSpec.encode threeDeep = [0x1c, 0x3c, 0, 0, 0x15, 14, 0] := by
    simp only [threeDeep, CompactSpec.encode, CompactSpec.encodeFields]
    rw [show (7 : I32) = 7#32 from rfl, hz]
    rfl
  rw [hd] at e1
  subst e1
  have e2 : ∃ s, (readVal (compact 10) 10 12).run memory Cmp.new [0x1c, 0x3c, 0, 0, 0x15, 14, 0] =
      (.ok ((.struct (.cons 1 (.struct (.cons 3 (.struct .nil) .nil)) (.cons 4 (.i32 7) .nil)), none), s), []) := ⟨_, rfl⟩
  obtain ⟨s, e2⟩ := e2
  have e3 := e2.symm.trans (h2 [])
  simp only [Prod.mk.injEq, Res.ok.injEq, and_true] at e3
  have e4 := e3.1
  revert e4
  decide

/-- C19, what remains: every value without `false` fields in which a field
holding structs two or more deep is followed by no field with an id 1..15 above
its own (in particular every value with structs at most two deep), by a reader
with any history.  Missing: `false` fields and the other deeper values. -/
theorem C19_compact_value_partial (f : Nat) (hf : 10 ≤ f) (v : Val) (hv : v.WF) (ht : v.Tame) (sw sr : Cmp)
    (hw : sw.booleanField = none) (hr : sr.boolValueIsNotNull = false) (fuel : Nat) (hz : v.size ≤ fuel) :
    RoundTripsLoose (writeVal (compact f) v) sw (readVal (compact f) fuel v.type) sr v.norm := by
  obtain ⟨sr', h, _⟩ := Cmp.reads_val f hf v sr fuel hr hv ht hz
  exact ⟨_, sr', (Cmp.emits_val f v sw hw hv).memory, h.memory⟩

example : RoundTripsLoose (writeVal (compact 10) sampleVal) Cmp.new (readVal (compact 10) 100 12)
    { Cmp.new with lastField := [4], lastFieldId := 77 } sampleVal :=
  C19_compact_value_partial 10 (by decide) sampleVal sampleVal_wf
    (by simp [sampleVal, Val.Tame, Fields.Tame, Pairs.Tame, Vals.Tame, Val.structDepth, Pairs.structDepth, Vals.structDepth])
    _ _ rfl rfl 100 (by decide)

mutual
/-- No field is the boolean `false`. -/
def Val.noFalse : Val → Prop
  | .struct fs => fs.noFalse
  | .map _ _ ps => ps.noFalse
  | .set _ vs => vs.noFalse
  | .list _ vs => vs.noFalse
  | _ => True
def Fields.noFalse : Fields → Prop
  | .nil => True
  | .cons _ v r => v ≠ .bool false ∧ v.noFalse ∧ r.noFalse
def Vals.noFalse : Vals → Prop
  | .nil => True
  | .cons v r => v.noFalse ∧ r.noFalse
def Pairs.noFalse : Pairs → Prop
  | .nil => True
  | .cons k v r => k.noFalse ∧ v.noFalse ∧ r.noFalse
end

mutual
theorem Val.tame_of_depth : ∀ v : Val, v.noFalse → v.structDepth ≤ 2 → v.Tame
  | .struct fs, h, hd => Fields.tame_of_depth fs h (by simp only [Val.structDepth] at hd; omega)
  | .map _ _ ps, h, hd => Pairs.tame_of_depth ps h hd
  | .set _ vs, h, hd => Vals.tame_of_depth vs h hd
  | .list _ vs, h, hd => Vals.tame_of_depth vs h hd
  | .bool _, _, _ | .byte _, _, _ | .i16 _, _, _ | .i32 _, _, _ | .i64 _, _, _ | .double _, _, _ | .str _, _, _ => trivial
theorem Fields.tame_of_depth : ∀ fs : Fields, fs.noFalse → fs.structDepth ≤ 1 → fs.Tame
  | .nil, _, _ => trivial
  | .cons id v r, h, hd => by
    simp only [Fields.structDepth] at hd
    exact ⟨h.1, Val.tame_of_depth v h.2.1 (by omega), fun h2 => by omega, Fields.tame_of_depth r h.2.2 (by omega)⟩
theorem Vals.tame_of_depth : ∀ vs : Vals, vs.noFalse → vs.structDepth ≤ 2 → vs.Tame
  | .nil, _, _ => trivial
  | .cons v r, h, hd => by
    simp only [Vals.structDepth] at hd
    exact ⟨Val.tame_of_depth v h.1 (by omega), Vals.tame_of_depth r h.2 (by omega)⟩
theorem Pairs.tame_of_depth : ∀ ps : Pairs, ps.noFalse → ps.structDepth ≤ 2 → ps.Tame
  | .nil, _, _ => trivial
  | .cons k v r, h, hd => by
    simp only [Pairs.structDepth] at hd
    exact ⟨Val.tame_of_depth k h.1 (by omega), Val.tame_of_depth v h.2.1 (by omega),
      Pairs.tame_of_depth r h.2.2 (by omega)⟩
end

/-- C19 for values with structs at most two deep and no `false` field. -/
theorem C19_compact_two_deep_partial (f : Nat) (hf : 10 ≤ f) (v : Val) (hv : v.WF) (hn : v.noFalse)
    (hd : v.structDepth ≤ 2) (sw sr : Cmp)
    (hw : sw.booleanField = none) (hr : sr.boolValueIsNotNull = false) (fuel : Nat) (hz : v.size ≤ fuel) :
    RoundTripsLoose (writeVal (compact f) v) sw (readVal (compact f) fuel v.type) sr v.norm :=
  C19_compact_value_partial f hf v hv (v.tame_of_depth hn hd) sw sr hw hr fuel hz

example : Val.noFalse (.struct (.cons 1 (.struct (.cons 2 (.bool true) .nil)) (.cons 2 (.list 2 (.cons (.bool false) .nil)) .nil))) := by
  simp [Val.noFalse, Fields.noFalse, Vals.noFalse]

/-! ## C20 truncation -/

/-- C20 in full. -/
def C20_statement : Prop :=
  ∀ (f : Nat) (s : Cmp), 10 ≤ f → s.boolValueIsNotNull = false →
    (∀ v : Bytes, v.length < 2 ^ 31 → ReportsTruncation (compact f).readString s (CompactSpec.encode (.str v))) ∧
    (∀ v : Bytes, v.length < 2 ^ 31 → ReportsTruncation (compact f).readBinary s (CompactSpec.encode (.str v))) ∧
    (∀ (name : Bytes) (t q : I32), name.length < 2 ^ 31 →
      ReportsTruncation (compact f).readMessageBegin s (CompactSpec.message name t q)) ∧
    (∀ v : Byte, ReportsTruncation (compact f).readByte s (CompactSpec.encode (.byte v))) ∧
    (∀ v, ReportsTruncation (compact f).readBool s (CompactSpec.encode (.bool v))) ∧
    (∀ v, ReportsTruncation (compact f).readI16 s (CompactSpec.encode (.i16 v))) ∧
    (∀ v, ReportsTruncation (compact f).readI32 s (CompactSpec.encode (.i32 v))) ∧
    (∀ v, ReportsTruncation (compact f).readI64 s (CompactSpec.encode (.i64 v))) ∧
    (∀ v, ReportsTruncation (compact f).readDouble s (CompactSpec.encode (.double v)))

/-- A string cut inside its bytes is returned as a success, with zeros in place
of what is missing. -/
theorem C20_string_cut_silently (f : Nat) (hf : 10 ≤ f) (s : Cmp) (v : Bytes) (hv : v.length < 2 ^ 31) (k : Nat)
    (hk : k < v.length) :
    (compact f).readString.run memory s (leb128 v.length ++ v.take k) =
      (.ok ((v.take k ++ List.replicate (v.length - k) 0, none), s), []) := by
  have hp : v.length ≠ 0 := by omega
  have key : (readString f).run duplex s (leb128 v.length ++ v.take k, []) =
      (.ok ((v.take k ++ List.replicate (v.length - k) 0, none), s), ([], [])) := by
    have e := Cmp.reads_varint32 (BitVec.ofNat 32 v.length) s f hf
    rw [Cmp.toNat_len _ hv] at e
    have h1 : BitVec.ofNat 32 v.length ≠ 0#32 := by
      intro hc
      have := congrArg BitVec.toNat hc
      rw [Cmp.toNat_len _ hv] at this
      exact hp this
    have h2 : ¬ (BitVec.ofNat 32 v.length).toInt < 0 := by rw [Cmp.toInt_len _ hv]; omega
    have h3 : (BitVec.ofNat 32 v.length).toInt.toNat = v.length := by rw [Cmp.toInt_len _ hv]; omega
    have h4 : ¬ v.length ≤ (v.take k).length := by rw [List.length_take]; omega
    simp only [readString, readBinary, P.run_bind, e (v.take k) [], andThen_ok]
    simp only [Option.isSome_none, Bool.false_eq_true, if_false, P.run_ite, P.run_bind, P.run_readAll_duplex, h2, h3, h4]
    rw [if_neg (show ¬ BitVec.ofNat 32 v.length = 0 from h1)]
    simp [fillBuf, Nat.min_eq_left (Nat.le_of_lt hk)]
  exact memory_of_reads (readString f s) _ _ [] _ key

/-- C20 does not hold. -/
theorem C20_violated : ¬ C20_statement := by
  intro h
  obtain ⟨a, e, s', left, h1⟩ := (h 10 Cmp.new (by decide) rfl).1 [1, 2] (by decide) 2 (by
    simp only [CompactSpec.encode]; rw [leb128_small (by decide)]; decide)
  have h2 := C20_string_cut_silently 10 (by decide) Cmp.new [1, 2] (by decide) 1 (by decide)
  have h3 : (CompactSpec.encode (.str [1, 2])).take 2 = leb128 ([1, 2] : Bytes).length ++ ([1, 2] : Bytes).take 1 := by
    simp only [CompactSpec.encode]; rw [leb128_small (by decide)]; rfl
  rw [h3, h2] at h1
  simp at h1

theorem binary_prefix_cut (f : Nat) (hf : 10 ≤ f) (s : Cmp) (n : I32) (k : Nat) (hk : k < (leb128 n.toNat).length)
    (out : Bytes) : ∃ e s' left, (readBinary f).run duplex s ((leb128 n.toNat).take k, out) =
      (.ok (([], some e), s'), (left, out)) := by
  obtain ⟨⟨b, e⟩, s'', i, h1, h2⟩ := (Cmp.honest_varint32 f).truncated (Cmp.reads_varint32 n s f hf) k hk out
  have h2' : e.isSome = true := h2
  obtain ⟨e', he'⟩ := Option.isSome_iff_exists.1 (isSome_protocolFromOsError e h2')
  refine ⟨e', s'', i, ?_⟩
  simp only [readBinary, P.run_bind, h1, andThen_ok, h2', if_true, P.run_pure, he']

theorem string_prefix_cut (f : Nat) (hf : 10 ≤ f) (s : Cmp) (n : I32) (k : Nat) (hk : k < (leb128 n.toNat).length)
    (out : Bytes) : ∃ e s' left, (readString f).run duplex s ((leb128 n.toNat).take k, out) =
      (.ok (([], some e), s'), (left, out)) := by
  obtain ⟨e, s', left, h⟩ := binary_prefix_cut f hf s n k hk out
  obtain ⟨e', he'⟩ := Option.isSome_iff_exists.1 (isSome_protocolFromOsError (some e) rfl)
  exact ⟨e', s', left, by simp only [readString, P.run_bind, h, andThen_ok, P.run_pure, he']⟩

/-- C20, what remains: all scalars, list, set, map and field headers, strings and
byte arrays cut inside the length prefix, message headers cut before the bytes of
the name.  Missing: cuts inside the bytes of a string, byte array or message
name, which are not reported (`C20_string_cut_silently`). -/
theorem C20_compact_truncation_partial (f : Nat) (hf : 10 ≤ f) (s : Cmp) (hs : s.boolValueIsNotNull = false) :
    (∀ v : Byte, ReportsTruncation (compact f).readByte s (CompactSpec.encode (.byte v))) ∧
    (∀ v, ReportsTruncation (compact f).readBool s (CompactSpec.encode (.bool v))) ∧
    (∀ v, ReportsTruncation (compact f).readI16 s (CompactSpec.encode (.i16 v))) ∧
    (∀ v, ReportsTruncation (compact f).readI32 s (CompactSpec.encode (.i32 v))) ∧
    (∀ v, ReportsTruncation (compact f).readI64 s (CompactSpec.encode (.i64 v))) ∧
    (∀ v, ReportsTruncation (compact f).readDouble s (CompactSpec.encode (.double v))) ∧
    (∀ t n, IsWireType t → n < 2 ^ 31 → ReportsTruncation (compact f).readListBegin s (CompactSpec.listHeader t n)) ∧
    (∀ t n, IsWireType t → n < 2 ^ 31 → ReportsTruncation (compact f).readSetBegin s (CompactSpec.listHeader t n)) ∧
    (∀ kt vt n, IsWireType kt → IsWireType vt → n < 2 ^ 31 →
      ReportsTruncation (compact f).readMapBegin s (CompactSpec.mapHeader kt vt n)) ∧
    (∀ (v : Val) (id : I16), v ≠ .bool false → ReportsTruncation (compact f).readFieldBegin s
      (CompactSpec.fieldHeader s.lastFieldId id.toInt (CompactSpec.fieldCode v))) ∧
    (∀ (v : Bytes) (k : Nat), v.length < 2 ^ 31 → k < (leb128 v.length).length →
      ∃ a e s' left, (compact f).readString.run memory s ((CompactSpec.encode (.str v)).take k) = (.ok ((a, some e), s'), left)) ∧
    (∀ (v : Bytes) (k : Nat), v.length < 2 ^ 31 → k < (leb128 v.length).length →
      ∃ a e s' left, (compact f).readBinary.run memory s ((CompactSpec.encode (.str v)).take k) = (.ok ((a, some e), s'), left)) ∧
    (∀ (name : Bytes) (t q : I32) (k : Nat), name.length < 2 ^ 31 →
      k + name.length < (CompactSpec.message name t q).length →
      ∃ a e s' left, (compact f).readMessageBegin.run memory s ((CompactSpec.message name t q).take k) =
        (.ok ((a, some e), s'), left)) := by
  refine ⟨fun v => Cmp.honest_byte.reports (Cmp.reads_byte v s), fun v => Cmp.honest_bool.reports (Cmp.reads_bool v s hs),
    fun v => (Cmp.honest_i16 f).reports (Cmp.reads_i16 v s f hf), fun v => (Cmp.honest_i32 f).reports (Cmp.reads_i32 v s f hf),
    fun v => (Cmp.honest_i64 f).reports (Cmp.reads_i64 v s f hf), fun v => Cmp.honest_double.reports (Cmp.reads_double v s),
    fun t n ht hn => (Cmp.honest_listBegin f).reports (Cmp.reads_listBegin t ht n hn s f hf),
    fun t n ht hn => (Cmp.honest_listBegin f).reports (Cmp.reads_listBegin t ht n hn s f hf),
    fun kt vt n hk hv hn => (Cmp.honest_mapBegin f).reports (Cmp.reads_mapBegin kt vt hk hv n hn s f hf), ?_, ?_, ?_, ?_⟩
  · intro v id hv
    have hc : CompactSpec.fieldCode v = CompactSpec.typeCode v.type := by
      cases v with
      | bool b => cases b; exact absurd rfl hv; rfl
      | _ => rfl
    have ht := Cmp.typeCode_wire v.type_wire
    rw [hc]
    exact (Cmp.honest_fieldBegin f).reports (Cmp.reads_fieldBegin v.type _ ⟨ht.1, ht.2.1, ht.2.2.1⟩ ht.2.2.2
      s.lastFieldId id s (fun _ => rfl) f hf)
  · intro v k hv hk
    have hk' : k < (leb128 (BitVec.ofNat 32 v.length).toNat).length := by rw [Cmp.toNat_len _ hv]; exact hk
    obtain ⟨e, s', left, h⟩ := string_prefix_cut f hf s (BitVec.ofNat 32 v.length) k hk' []
    rw [Cmp.toNat_len _ hv] at h
    refine ⟨[], e, s', left, ?_⟩
    simp only [CompactSpec.encode]
    rw [List.take_append_of_le_length (by omega)]
    exact memory_of_reads (readString f s) _ _ [] _ h
  · intro v k hv hk
    have hk' : k < (leb128 (BitVec.ofNat 32 v.length).toNat).length := by rw [Cmp.toNat_len _ hv]; exact hk
    obtain ⟨e, s', left, h⟩ := binary_prefix_cut f hf s (BitVec.ofNat 32 v.length) k hk' []
    rw [Cmp.toNat_len _ hv] at h
    refine ⟨[], e, s', left, ?_⟩
    simp only [CompactSpec.encode]
    rw [List.take_append_of_le_length (by omega)]
    exact memory_of_reads (readBinary f s) _ _ [] _ h
  · intro name t q k hn hk
    suffices ∃ a e s' left, (readMessageBegin f).run duplex s ((CompactSpec.message name t q).take k, []) =
        (.ok ((a, some e), s'), (left, [])) by
      obtain ⟨a, e, s', left, h⟩ := this
      exact ⟨a, e, s', left, memory_of_reads (readMessageBegin f s) _ _ [] _ h⟩
    have hb := (Cmp.messageByte (t.setWidth 8)).2.1
    have h8 : (t.setWidth 8).toNat % 8 = t.toNat % 8 := by rw [BitVec.toNat_setWidth]; omega
    rw [h8] at hb
    match k, hk with
    | 0, _ => exact ⟨([], 0, 0), _, s, [], by
        simp [readMessageBegin, readByte, P.run_readAll_duplex, PROTOCOL_ID]; rfl⟩
    | 1, _ =>
      have h1 := Cmp.reads_byte 0x82 s [] []
      refine ⟨([], 0, 0), ?_⟩
      simp only [CompactSpec.message, List.cons_append, List.take_succ_cons, List.take_zero]
      simp only [List.append_nil] at h1
      refine ⟨readAllErr, s, [], ?_⟩
      simp only [readMessageBegin, P.run_bind, h1, andThen_ok]
      simp [readByte, P.run_readAll_duplex, PROTOCOL_ID, fillBuf]
    | k + 2, hk =>
      have h1 := fun x => Cmp.reads_byte 0x82 s x []
      have h2 := fun x => Cmp.reads_byte (BitVec.ofNat 8 (1 + 32 * (t.toNat % 8))) s x []
      simp only [CompactSpec.message, List.cons_append, List.nil_append, List.take_succ_cons,
        List.length_cons, List.length_append] at hk ⊢
      have hx : ∀ x, ∀ b : Byte, b :: x = [b] ++ x := fun _ _ => rfl
      by_cases hq : k < (leb128 q.toNat).length
      · obtain ⟨⟨b, e⟩, s'', i, h3, h4⟩ := (Cmp.honest_varint32 f).truncated (Cmp.reads_varint32 q s f hf) k hq []
        have h4' : e.isSome = true := h4
        obtain ⟨e', he'⟩ := Option.isSome_iff_exists.1 (isSome_protocolFromOsError e h4')
        refine ⟨([], (((BitVec.ofNat 8 (1 + 32 * (t.toNat % 8)) : Byte) >>> 5) &&& 0x03).setWidth 32, b), e', s'', i, ?_⟩
        rw [List.take_append_of_le_length (by omega), hx, hx _ (BitVec.ofNat 8 _)]
        simp only [readMessageBegin, P.run_bind, h1, andThen_ok]
        rw [if_neg (by decide)]
        simp only [P.run_bind, h2, andThen_ok, hb]
        simp only [Option.isSome_none, Bool.false_eq_true, if_false, ne_eq, not_true_eq_false, P.run_bind, h3, andThen_ok,
          h4', if_true, P.run_pure, he']
      · have hlen : k - (leb128 q.toNat).length < (leb128 (BitVec.ofNat 32 name.length).toNat).length := by
          rw [Cmp.toNat_len _ hn]; omega
        obtain ⟨e, s', left, h⟩ := string_prefix_cut f hf s (BitVec.ofNat 32 name.length) _ hlen []
        rw [Cmp.toNat_len _ hn] at h
        refine ⟨([], (((BitVec.ofNat 8 (1 + 32 * (t.toNat % 8)) : Byte) >>> 5) &&& 0x03).setWidth 32, q), e, s', left, ?_⟩
        have htake : List.take k (leb128 q.toNat ++ (leb128 name.length ++ name)) =
            leb128 q.toNat ++ (leb128 name.length).take (k - (leb128 q.toNat).length) := by
          rw [List.take_append, List.take_of_length_le (by omega), List.take_append_of_le_length (by omega)]
        have h3 := fun x => Cmp.reads_varint32 q s f hf x []
        rw [htake, hx, hx _ (BitVec.ofNat 8 _)]
        simp only [readMessageBegin, P.run_bind, h1, andThen_ok]
        rw [if_neg (by decide)]
        simp only [P.run_bind, h2, andThen_ok, hb]
        simp only [Option.isSome_none, Bool.false_eq_true, if_false, ne_eq, not_true_eq_false, P.run_bind, h3, andThen_ok,
          P.run_pure, h]

example : (1 : Nat) < (CompactSpec.mapHeader 11 8 3).length := by
  simp [CompactSpec.mapHeader, leb128_small]

/-! ## C21 no panic -/

/-- The read calls of the compact protocol. -/
inductive CmpRead where
  | message | field | map | list | set | bool | byte | i16 | i32 | i64 | double | string | binary
  | structBegin | structEnd | fieldEnd | mapEnd | listEnd | setEnd | messageEnd | skip (t : TType)
  deriving Repr, DecidableEq

/-- One read call; only its error is kept. -/
def CmpRead.call (f : Nat) : CmpRead → P Cmp GoErr
  | .message => do return (← (compact f).readMessageBegin).2
  | .field => do return (← (compact f).readFieldBegin).2
  | .map => do return (← (compact f).readMapBegin).2
  | .list => do return (← (compact f).readListBegin).2
  | .set => do return (← (compact f).readSetBegin).2
  | .bool => do return (← (compact f).readBool).2
  | .byte => do return (← (compact f).readByte).2
  | .i16 => do return (← (compact f).readI16).2
  | .i32 => do return (← (compact f).readI32).2
  | .i64 => do return (← (compact f).readI64).2
  | .double => do return (← (compact f).readDouble).2
  | .string => do return (← (compact f).readString).2
  | .binary => do return (← (compact f).readBinary).2
  | .structBegin => do return (← (compact f).readStructBegin).2
  | .structEnd => (compact f).readStructEnd
  | .fieldEnd => (compact f).readFieldEnd
  | .mapEnd => (compact f).readMapEnd
  | .listEnd => (compact f).readListEnd
  | .setEnd => (compact f).readSetEnd
  | .messageEnd => (compact f).readMessageEnd
  | .skip t => skipDefaultDepth (compact f) 100 f t

/-- C21 in full: every call on every input returns (for `ReadStructEnd`: after a
`ReadStructBegin`). -/
def C21_statement : Prop :=
  ∀ (c : CmpRead) (s : Cmp) (inp : Bytes) (f : Nat), inp.length + 1 < f → (c = .structEnd → s.lastField ≠ []) →
    ∃ e s' left, (c.call f).run memory s inp = (.ok (e, s'), left)

/-- A byte array or string whose length is read as negative panics. -/
theorem C21_negative_length_panics (n : I32) (hn : n.toInt < 0) (s : Cmp) (f : Nat) (hf : 10 ≤ f) (rest : Bytes) :
    (∃ left, (compact f).readBinary.run memory s (leb128 n.toNat ++ rest) = (.panic, left)) ∧
    (∃ left, (compact f).readString.run memory s (leb128 n.toNat ++ rest) = (.panic, left)) := by
  have h0 : n ≠ 0#32 := by rintro rfl; revert hn; decide
  have h1 : (readBinary f).run duplex s (leb128 n.toNat ++ rest, []) = (.panic, (rest, [])) := by
    simp only [readBinary, P.run_bind, Cmp.reads_varint32 n s f hf rest [], andThen_ok, Option.isSome_none,
      Bool.false_eq_true, if_false, P.run_ite, hn, if_true, P.run_panic]
    rw [if_neg (show ¬ n = 0 from h0)]
  refine ⟨⟨rest, memory_of_reads (readBinary f s) _ _ [] _ h1⟩, ⟨rest, memory_of_reads (readString f s) _ _ [] _ ?_⟩⟩
  show (readString f).run duplex s _ = _
  simp only [readString, P.run_bind, h1, andThen_panic]

/-- C21 does not hold. -/
theorem C21_violated : ¬ C21_statement := by
  intro h
  obtain ⟨e, s', left, h1⟩ := h .binary Cmp.new (leb128 (0x80000000#32).toNat ++ []) (12) (by
    rw [List.append_nil]
    have := leb128_length_le 5 (0x80000000#32).toNat (by decide) (by decide)
    omega) (by decide)
  obtain ⟨⟨left', h2⟩, _⟩ := C21_negative_length_panics 0x80000000#32 (by decide) Cmp.new 12 (by decide) []
  have h3 : (CmpRead.binary.call 12).run memory Cmp.new (leb128 (0x80000000#32).toNat ++ []) = (.panic, left') := by
    simp only [CmpRead.call, P.run_bind, h2, andThen_panic]
  rw [h3] at h1
  simp at h1

/-- Calls that do not read a string. -/
def CmpRead.plain : CmpRead → Bool
  | .message | .string | .binary | .skip _ => false
  | _ => true

/-- C21, what remains: the calls that read no string always return; the others
return or panic, but never loop for ever.  Missing: the panic for negative
lengths (`C21_negative_length_panics`). -/
theorem C21_compact_total_partial (c : CmpRead) (s : Cmp) (inp : Bytes) (f : Nat) (hf : inp.length + 1 < f)
    (hs : c = .structEnd → s.lastField ≠ []) :
    (∃ e s' left, (c.call f).run memory s inp = (.ok (e, s'), left) ∧ left.length ≤ inp.length) ∨
    (c.plain = false ∧ ∃ left, (c.call f).run memory s inp = (.panic, left)) := by
  have plain : ∀ {c : CmpRead}, Wp (c.call f) s inp (fun _ _ i => i.length ≤ inp.length) NoPanic →
      (∃ e s' left, (c.call f).run memory s inp = (.ok (e, s'), left) ∧ left.length ≤ inp.length) ∨
      (c.plain = false ∧ ∃ left, (c.call f).run memory s inp = (.panic, left)) := by
    intro c h
    rcases h.memory with ⟨e, s', left, h1, h2⟩ | ⟨_, _, h⟩
    · exact .inl ⟨e, s', left, h1, h2⟩
    · exact h.elim
  have other : ∀ {c : CmpRead}, c.plain = false → Wp (c.call f) s inp (fun _ _ i => i.length ≤ inp.length) (fun _ => True) →
      (∃ e s' left, (c.call f).run memory s inp = (.ok (e, s'), left) ∧ left.length ≤ inp.length) ∨
      (c.plain = false ∧ ∃ left, (c.call f).run memory s inp = (.panic, left)) := by
    intro c hc h
    rcases h.memory with ⟨e, s', left, h1, h2⟩ | ⟨left, h1, _⟩
    · exact .inl ⟨e, s', left, h1, h2⟩
    · exact .inr ⟨hc, left, h1⟩
  have E {α : Type} {X : Bytes → Prop} {m : P Cmp (α × GoErr)} (h : Wp m s inp (Cmp.Eats s inp) X) :
      Wp (do return (← m).2) s inp (fun _ _ i => i.length ≤ inp.length) X :=
    Wp.bind h fun _ _ _ h => Wp.pure h.2.1
  cases c with
  | message => exact other rfl (Wp.bind (Cmp.wp_messageBegin f s inp (by omega) fun _ => trivial) fun _ _ _ h => Wp.pure h.2)
  | field => exact plain (Wp.bind (Cmp.wp_fieldBegin f s inp (by omega)) fun _ _ _ h => Wp.pure h.2.1)
  | map => exact plain (E (Cmp.wp_mapBegin f s inp (by omega)))
  | list => exact plain (E (Cmp.wp_listBegin f s inp (by omega)))
  | set => exact plain (E (Cmp.wp_listBegin f s inp (by omega)))
  | bool => exact plain (Wp.bind (Cmp.wp_bool s inp) fun _ _ _ h => Wp.pure h.2)
  | byte => exact plain (E (Cmp.wp_byte s inp))
  | i16 => exact plain (E (Cmp.wp_i16 f s inp (by omega)))
  | i32 => exact plain (E (Cmp.wp_i32 f s inp (by omega)))
  | i64 => exact plain (E (Cmp.wp_i64 f s inp (by omega)))
  | double => exact plain (E (Cmp.wp_double s inp))
  | string => exact other rfl (E (Cmp.wp_string f s inp (by omega) fun _ => trivial))
  | binary => exact other rfl (E (Cmp.wp_binary f s inp (by omega) fun _ => trivial))
  | structBegin =>
    exact plain (Wp.bind (Q := fun _ _ i => i = inp) (Wp.bind (Q := fun _ _ i => i = inp) (Wp.modify rfl)
      fun _ _ _ h => Wp.pure h) fun _ _ _ h => Wp.pure (by rw [h]; exact Nat.le_refl _))
  | structEnd =>
    refine plain ?_
    show Wp readStructEnd s inp _ _
    unfold readStructEnd
    refine Wp.bind (Q := fun u _ i => u = s ∧ i = inp) (Wp.get ⟨rfl, rfl⟩) fun u t i hu => ?_
    obtain ⟨rfl, rfl⟩ := hu
    cases hl : u.lastField with
    | nil => exact absurd hl (hs rfl)
    | cons top rest =>
      dsimp only
      exact Wp.bind (Q := fun _ _ j => j = i) (Wp.modify rfl) fun _ _ _ h => Wp.pure (by rw [h]; exact Nat.le_refl _)
  | skip t =>
    refine other rfl ?_
    exact Wp.mono (Cmp.wp_skip f 100 (fun _ => trivial) f t 100 s inp (by omega) (by omega)) fun _ _ _ h => h.2
  | _ => exact plain (Wp.pure (Nat.le_refl _))

example : ∃ e s' left, (CmpRead.list.call 20).run memory Cmp.new [0xf9, 0xff, 0xff] = (.ok (e, s'), left) :=
  match C21_compact_total_partial .list Cmp.new [0xf9, 0xff, 0xff] 20 (by decide) (by decide) with
  | .inl ⟨e, s', left, h, _⟩ => ⟨e, s', left, h⟩
  | .inr ⟨h, _⟩ => by simp [CmpRead.plain] at h

/-! ## C22 bookkeeping -/

/-- Read one value after another. -/
def readMany (f fuel : Nat) : List Byte → P Cmp GoErr
  | [] => return none
  | t :: ts => do
    let (_, e) ← readVal (compact f) fuel t
    if e.isSome then return e
    readMany f fuel ts

/-- C22 in full: reading complete structs leaves the bookkeeping at its initial
size. -/
def C22_statement : Prop :=
  ∀ (f fuel : Nat) (vs : List Val) (s : Cmp), 10 ≤ f → (∀ v ∈ vs, v.type = TT.STRUCT ∧ v.WF ∧ v.size ≤ fuel) →
    s.boolValueIsNotNull = false → ∀ e s' left,
    (readMany f fuel (vs.map Val.type)).run memory s (vs.flatMap CompactSpec.encode) = (.ok (e, s'), left) →
    s'.lastField.length = s.lastField.length

/-- The exact growth: one entry for every struct in the data, for every value
that can be read back. -/
theorem C22_reader_growth (f : Nat) (hf : 10 ≤ f) (v : Val) (hv : v.WF) (ht : v.Tame) (s : Cmp)
    (hs : s.boolValueIsNotNull = false) (fuel : Nat) (hz : v.size ≤ fuel) (after : Bytes) :
    ∃ s', (readVal (compact f) fuel v.type).run memory s (CompactSpec.encode v ++ after) =
        (.ok ((v.norm, none), s'), after) ∧ s'.lastField.length = s.lastField.length + v.structs := by
  obtain ⟨s', h, _, l, hl, hn⟩ := Cmp.reads_val f hf v s fuel hs hv ht hz
  refine ⟨s', h.memory after, ?_⟩
  rw [hl, List.length_append]; omega

/-- Over a whole connection: the stack holds one entry for every struct ever
read. -/
theorem C22_reader_growth_history (f : Nat) (hf : 10 ≤ f) (fuel : Nat) : ∀ (vs : List Val) (s : Cmp),
    (∀ v ∈ vs, v.WF ∧ v.Tame ∧ v.size ≤ fuel) → s.boolValueIsNotNull = false → ∀ after, ∃ s',
    (readMany f fuel (vs.map Val.type)).run memory s (vs.flatMap CompactSpec.encode ++ after) = (.ok (none, s'), after) ∧
    s'.lastField.length = s.lastField.length + (vs.map Val.structs).sum
  | [], s, _, _, after => ⟨s, rfl, by simp⟩
  | v :: vs, s, hv, hs, after => by
    obtain ⟨h1, h2, h3⟩ := hv v (by simp)
    obtain ⟨s1, hr, hk, l, hl, hn⟩ := Cmp.reads_val f hf v s fuel hs h1 h2 h3
    obtain ⟨s', ih, ihl⟩ := C22_reader_growth_history f hf fuel vs s1 (fun w hw => hv w (by simp [hw])) hk.1 after
    refine ⟨s', ?_, ?_⟩
    · simp only [List.map_cons, readMany, List.flatMap_cons, List.append_assoc, P.run_bind]
      rw [hr.memory]
      simpa using ih
    · rw [ihl, hl, List.length_append, hn, List.map_cons, List.sum_cons]; omega

/-- C22 does not hold. -/
theorem C22_violated : ¬ C22_statement := by
  intro h
  have h1 := C22_reader_growth_history 10 (by decide) 10 [.struct .nil] Cmp.new (by
    intro v hv; simp at hv; subst hv
    simp [Val.WF, Fields.WF, Val.Tame, Fields.Tame, Val.size, Fields.size]) rfl []
  obtain ⟨s', h2, h3⟩ := h1
  rw [List.append_nil] at h2
  have h4 := h 10 10 [.struct .nil] Cmp.new (by decide) (by
    intro v hv; simp at hv; subst hv
    simp [Val.WF, Fields.WF, Val.size, Fields.size, Val.type]) rfl _ _ _ h2
  rw [h3] at h4
  simp [Val.structs, Fields.structs] at h4

/-- The writing side does keep its bookkeeping: after any value, of any depth, the
writer is exactly as before. -/
theorem C22_writer_state_restored (f : Nat) (v : Val) (hv : v.WF) (s : Cmp) (hs : s.booleanField = none)
    (before : Bytes) : ∃ out, (writeVal (compact f) v).run memory s before = (.ok (none, s), out) :=
  ⟨_, C19_compact_conforms f v hv s hs before⟩

/-- C22, what remains for the reader: values without structs leave the
bookkeeping as it was.  Missing: structs, each of which leaves one entry behind
(`C22_reader_growth_history`). -/
theorem C22_reader_state_partial (f : Nat) (hf : 10 ≤ f) (v : Val) (hv : v.WF) (ht : v.Tame) (h0 : v.structs = 0)
    (s : Cmp) (hs : s.boolValueIsNotNull = false) (fuel : Nat) (hz : v.size ≤ fuel) (after : Bytes) :
    ∃ s', (readVal (compact f) fuel v.type).run memory s (CompactSpec.encode v ++ after) =
        (.ok ((v.norm, none), s'), after) ∧ s'.lastField.length = s.lastField.length := by
  obtain ⟨s', h1, h2⟩ := C22_reader_growth f hf v hv ht s hs fuel hz after
  exact ⟨s', h1, by omega⟩

example : Val.structs (.list 8 (.cons (.i32 1) .nil)) = 0 := by
  simp [Val.structs, Vals.structs]
example : sampleVal.structs = 1 := by simp [sampleVal, Val.structs, Fields.structs, Pairs.structs, Vals.structs]

/-! ## C23 every declared type -/

/-- The type codes the code generator puts into generated code
(t_go_generator.cc:3203-3252): the wire types and BINARY. -/
def IsGeneratedType (t : Byte) : Prop := IsWireType t ∨ t = TT.BINARY

/-- The wire type of a declared type. -/
def wireOf (t : Byte) : Byte := if t = 18 then 11 else t

theorem wireOf_wire {t : Byte} (h : IsGeneratedType t) : IsWireType (wireOf t) := by
  rcases h with h | rfl
  · have : t ≠ 18 := by rintro rfl; revert h; decide
    rw [wireOf, if_neg this]; exact h
  · decide

/-- The header calls of protocol `p` complete for types `t`, `t'`, and a reader
`q` sees the wire types. -/
def HeadersWork (p : Proto π) (sw sr : π) (t t' : Byte) (id : I16) (n : Nat) : Prop :=
  (∃ bs s1 s2, (∀ before, (writeHeaders p [(id, t, true)]).run memory sw before = (.ok (none, s1), before ++ bs)) ∧
    ∀ after, (readHeaders p 1).run memory sr (bs ++ after) =
      (.ok (([(id, wireOf t, decide (t = 2))], none), s2), after)) ∧
  RoundTrips (p.writeListBegin t n) sw p.readListBegin sr (wireOf t, (n : Int)) ∧
  RoundTrips (p.writeSetBegin t n) sw p.readSetBegin sr (wireOf t, (n : Int)) ∧
  (n ≠ 0 → RoundTrips (p.writeMapBegin t t' n) sw p.readMapBegin sr (wireOf t, wireOf t', (n : Int)))

/-- C23 in full, for both protocols. -/
def C23_statement : Prop :=
  ∀ (t t' : Byte) (id : I16) (n : Nat), IsGeneratedType t → IsGeneratedType t' → n < 2 ^ 31 →
    (∀ sw sr : Bin, sr.checkReadLength = false → HeadersWork binary sw sr t t' id n) ∧
    (∀ (sw sr : Cmp) (f : Nat), 10 ≤ f → sw.booleanField = none → sr.boolValueIsNotNull = false →
      sr.lastFieldId = sw.lastFieldId → HeadersWork (compact f) sw sr t t' id n)

/-- The header calls of the binary protocol work for every declared type. -/
theorem C23_binary_headers (t t' : Byte) (id : I16) (n : Nat) (ht : IsGeneratedType t) (_ht' : IsGeneratedType t')
    (hn : n < 2 ^ 31) (sw sr : Bin) (hr : sr.checkReadLength = false) : HeadersWork binary sw sr t t' id n := by
  have hw : ∀ t, thriftTypeId t = wireOf t := fun t => rfl
  refine ⟨?_, ?_, ?_, fun _ => ?_⟩
  · by_cases hb : t = 2
    · subst hb
      refine ⟨([2] ++ be 2 id.toNat) ++ [1], sw, sr, Emits.memory ?_, Runs.memory ?_⟩
      · simp only [writeHeaders, if_true]
        exact (Emits.seq (Bin.emits_fieldBegin [] 2 id sw) (Emits.seq (Bin.emits_bool true sw)
          (Emits.seq (Emits.pure sw) (Emits.pure sw)))).congr (by simp [thriftTypeId])
      · refine Runs.congr (a := ([2] ++ be 2 id.toNat) ++ ([1] ++ ([] ++ ([] ++ [])))) ?_ (by simp)
        simp only [readHeaders]
        rstep (Bin.reads_fieldBegin 2 (by decide) id sr hr)
        rw [if_pos trivial]
        rstep (Bin.reads_bool true sr hr)
        rstep (Runs.pure sr none)
        rstep (Runs.pure sr ([], none))
        exact Runs.pure _ _
    · have hs : wireOf t ≠ TT.STOP := wire_ne_stop (wireOf_wire ht)
      have hwb : wireOf t ≠ 2 := by
        unfold wireOf; split
        · decide
        · exact hb
      refine ⟨[wireOf t] ++ be 2 id.toNat, sw, sr, Emits.memory ?_, Runs.memory ?_⟩
      · simp only [writeHeaders, hb, if_false]
        exact (Emits.seq (Bin.emits_fieldBegin [] t id sw) (Emits.seq (Emits.pure sw)
          (Emits.seq (Emits.pure sw) (Emits.pure sw)))).congr (by simp [hw])
      · refine Runs.congr (a := ([wireOf t] ++ be 2 id.toNat) ++ ([] ++ ([] ++ ([] ++ [])))) ?_ (by simp)
        simp only [readHeaders]
        rstep (Bin.reads_fieldBegin (wireOf t) hs id sr hr)
        rw [if_neg hwb]
        rstep (Runs.pure sr (false, none))
        rstep (Runs.pure sr none)
        rstep (Runs.pure sr ([], none))
        simp only [hb, decide_false]
        exact Runs.pure _ _
  · exact ⟨_, (Bin.emits_listBegin t n hn sw).memory, (Bin.reads_listBegin (wireOf t) n hn sr hr).memory⟩
  · exact ⟨_, (Bin.emits_listBegin t n hn sw).memory, (Bin.reads_listBegin (wireOf t) n hn sr hr).memory⟩
  · exact ⟨_, (Bin.emits_mapBegin t t' n hn sw).memory, (Bin.reads_mapBegin (wireOf t) (wireOf t') n hn sr hr).memory⟩

/-- Under the compact protocol every header call for BINARY panics. -/
theorem C23_compact_binary_panics (f : Nat) (s : Cmp) (name : Bytes) (id : I16) (n : Nat) (before : Bytes) :
    ((compact f).writeFieldBegin name TT.BINARY id).run memory s before = (.panic, before) ∧
    ((compact f).writeListBegin TT.BINARY n).run memory s before = (.panic, before) ∧
    ((compact f).writeSetBegin TT.BINARY n).run memory s before = (.panic, before) := by
  have hl : (writeListBegin TT.BINARY n).run memory s before = (.panic, before) := by
    unfold writeListBegin writeCollectionBegin
    have : ∀ t : Bytes, (getCompactType TT.BINARY : P Cmp Byte).run memory s t = (.panic, t) := fun _ => rfl
    by_cases hn : (n : Int) ≤ 14
    · simp only [if_pos hn, P.run_bind, this]; rfl
    · simp only [if_neg hn, P.run_bind, this]; rfl
  exact ⟨rfl, hl, hl⟩

/-- C23 does not hold. -/
theorem C23_violated : ¬ C23_statement := by
  intro h
  obtain ⟨_, ⟨bs, h1, _⟩, _⟩ := (h 18 18 0 0 (.inr rfl) (.inr rfl) (by decide)).2 Cmp.new Cmp.new 10 (by decide) rfl rfl rfl
  have := (C23_compact_binary_panics 10 Cmp.new [] 0 0 []).2.1.symm.trans (h1 [])
  simp at this

/-- C23, what remains for the compact protocol: every declared type but binary.
Missing: binary, for which the header calls panic. -/
theorem C23_compact_headers_partial (t t' : Byte) (id : I16) (n : Nat) (ht : IsWireType t) (ht' : IsWireType t')
    (hn : n < 2 ^ 31) (sw sr : Cmp) (f : Nat) (hf : 10 ≤ f) (hw : sw.booleanField = none)
    (hr : sr.boolValueIsNotNull = false) (hl : sr.lastFieldId = sw.lastFieldId) :
    HeadersWork (compact f) sw sr t t' id n := by
  have hw1 : ∀ {t}, IsWireType t → wireOf t = t := by
    intro t h
    have : t ≠ 18 := by rintro rfl; revert h; decide
    rw [wireOf, if_neg this]
  unfold HeadersWork
  rw [hw1 ht, hw1 ht']
  refine ⟨?_, ⟨_, (Cmp.emits_listBegin t ht n hn sw).memory, (Cmp.reads_listBegin t ht n hn sr f hf).memory⟩,
    ⟨_, (Cmp.emits_listBegin t ht n hn sw).memory, (Cmp.reads_listBegin t ht n hn sr f hf).memory⟩, fun h0 => ?_⟩
  · obtain ⟨bs, s1, s2, h1, h2⟩ := C17_field_headers_partial f hf [(id, t, true)] sw sr (by
      intro h hm; simp at hm; subst hm; exact ⟨ht, fun _ => rfl⟩) hw hr hl
    refine ⟨bs, s1, s2, h1, fun after => ?_⟩
    have := h2 after
    simp only [List.map_cons, List.map_nil, normHeader, List.length_cons, List.length_nil] at this
    rw [this]
    by_cases hb : t = 2 <;> simp [hb]
  · have h := Cmp.reads_mapBegin t t' ht ht' n hn sr f hf
    rw [if_neg h0] at h
    exact ⟨_, (Cmp.emits_mapBegin t t' ht ht' n hn sw).memory, h.memory⟩

example : HeadersWork binary Bin.default Bin.default 18 2 (-3) 20 :=
  C23_binary_headers 18 2 (-3) 20 (.inr rfl) (.inl (by decide)) (by decide) _ _ rfl

/-! ## C91 version gate -/

/-- C91, the protocol id: a first byte other than 0x82 is rejected with
BAD_VERSION, and nothing more is read. -/
theorem C91_compact_protocol_id (f : Nat) (p : Byte) (hp : p.toNat ≠ 0x82) (rest : Bytes) (s : Cmp) :
    ∃ hdr msg, ((compact f).readMessageBegin).run memory s (p :: rest) =
      (.ok ((hdr, some ⟨.protocol, 4, msg⟩), s), rest) := by
  have key : Runs (CompactProtocol.readMessageBegin f) s s [p] (([], 0, 0), some ⟨.protocol, 4, ascii "Expected protocol id"⟩) := by
    refine Runs.congr (a := [p] ++ []) ?_ (by simp)
    unfold CompactProtocol.readMessageBegin
    refine Runs.bind (Cmp.reads_byte p s) ?_
    dsimp only
    rw [if_pos fun e => hp (by rw [e]; rfl)]
    exact Runs.pure _ _
  exact ⟨_, _, key.memory rest⟩

/-- C91, the version: after the protocol id, a version other than 1 in the low
five bits of the second byte is rejected with BAD_VERSION, and nothing more is
read. -/
theorem C91_compact_version (f : Nat) (v : Byte) (hv : v.toNat % 32 ≠ 1) (rest : Bytes) (s : Cmp) :
    ∃ hdr msg, ((compact f).readMessageBegin).run memory s (0x82 :: v :: rest) =
      (.ok ((hdr, some ⟨.protocol, 4, msg⟩), s), rest) := by
  have hm : v &&& CompactProtocol.VERSION_MASK ≠ CompactProtocol.VERSION := by
    revert hv
    revert v
    decide +kernel
  have key : Runs (CompactProtocol.readMessageBegin f) s s [0x82, v]
      (([], ((v >>> 5) &&& 0x03).setWidth 32, 0), some ⟨.protocol, 4, ascii "Expected version"⟩) := by
    refine Runs.congr (a := [0x82] ++ ([v] ++ [])) ?_ (by simp)
    unfold CompactProtocol.readMessageBegin
    refine Runs.bind (Cmp.reads_byte 0x82 s) ?_
    dsimp only
    rw [if_neg (by decide)]
    refine Runs.bind (Cmp.reads_byte v s) ?_
    simp only [hm, Option.isSome_none, Bool.false_eq_true, if_false, ne_eq, not_false_eq_true, if_true]
    exact Runs.pure _ _
  exact ⟨_, _, key.memory rest⟩

/-- C91, acceptance: with both right, the header is accepted whatever the message
type bits are. -/
theorem C91_compact_accepted (f : Nat) (hf : 10 ≤ f) (name : Bytes) (hn : name.length < 2 ^ 31) (t q : I32)
    (rest : Bytes) (s : Cmp) :
    ((compact f).readMessageBegin).run memory s (CompactSpec.message name t q ++ rest) =
      (.ok (((name, BitVec.ofNat 32 (t.toNat % 4), q), none), s), rest) :=
  (Cmp.reads_message name hn t q s f hf).memory rest

example : (0x81 : Byte).toNat ≠ 0x82 ∧ (0x22 : Byte).toNat % 32 ≠ 1 ∧ (0x21 : Byte).toNat % 32 = 1 := by decide

end Thrift
