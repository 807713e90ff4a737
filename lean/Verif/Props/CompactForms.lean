import Verif.Lemmas.CompactForms
import Verif.Props.Compact
/-!
# Which compact encodings of other writers are read (C188)
-/

namespace Thrift
open CompactProtocol CompactSpec

/-! ## Numerals -/

/-- A numeral of any length, leading zeros included, is read as its value modulo
2^64. -/
theorem C188_numeral64 (bs : Bytes) (h : IsLeb128 bs) (s : Cmp) (fuel : Nat) (hf : bs.length ≤ fuel) (rest : Bytes) :
    (readVarint64 fuel).run memory s (bs ++ rest) = (.ok ((BitVec.ofNat 64 (leb128Value bs), none), s), rest) :=
  (Cmp.reads_numeral64 bs s fuel h hf).memory rest

/-- ... and as a 32 bit number modulo 2^32. -/
theorem C188_numeral32 (bs : Bytes) (h : IsLeb128 bs) (s : Cmp) (fuel : Nat) (hf : bs.length ≤ fuel) (rest : Bytes) :
    (readVarint32 fuel).run memory s (bs ++ rest) = (.ok ((BitVec.ofNat 32 (leb128Value bs), none), s), rest) :=
  (Cmp.reads_numeral32 bs s fuel h hf).memory rest

/-! Five with eleven leading zeros, and a numeral for 2^64 + 3. -/
example : (readVarint64 20).run memory Cmp.new
    [0x85, 0x80, 0x80, 0x80, 0x80, 0x80, 0x80, 0x80, 0x80, 0x80, 0x80, 0x00, 9] = (.ok ((5, none), Cmp.new), [9]) :=
  C188_numeral64 [0x85, 0x80, 0x80, 0x80, 0x80, 0x80, 0x80, 0x80, 0x80, 0x80, 0x80, 0x00] (by simp [IsLeb128]) _ 20
    (by decide) [9]
example : (readVarint64 20).run memory Cmp.new [0x83, 0x80, 0x80, 0x80, 0x80, 0x80, 0x80, 0x80, 0x80, 0x02] =
    (.ok ((3, none), Cmp.new), []) :=
  C188_numeral64 [0x83, 0x80, 0x80, 0x80, 0x80, 0x80, 0x80, 0x80, 0x80, 0x02] (by simp [IsLeb128]) _ 20
    (by decide) []

/-! ## The canonical encoding is one of the permitted ones -/

theorem numeral_leb128 (n : Nat) : Numeral (leb128 n) n := ⟨isLeb128_leb128 n, leb128Value_leb128 n⟩

theorem fieldHead_canonical (last id : Int) (long : Prop) (code : Nat)
    (h : long → ¬ (1 ≤ id - last ∧ id - last ≤ 15)) : FieldHead last id long code (fieldHeader last id code) := by
  unfold fieldHeader
  by_cases hd : 1 ≤ id - last ∧ id - last ≤ 15
  · rw [if_pos hd]
    exact .inl ⟨fun hl => h hl hd, hd.1, hd.2, rfl⟩
  · rw [if_neg hd]
    exact .inr ⟨_, numeral_leb128 _, rfl⟩

theorem listHead_canonical (fr : Freedom) (t : Byte) (n : Nat) : ListHead fr t n (listHeader t n) := by
  refine ⟨typeCode t, .inl rfl, ?_⟩
  unfold listHeader
  by_cases h : n ≤ 14
  · rw [if_pos h]; exact .inl ⟨h, rfl⟩
  · rw [if_neg h]; exact .inr ⟨_, numeral_leb128 n, rfl⟩

theorem mapHead_canonical (fr : Freedom) (kt vt : Byte) (n : Nat) : MapHead fr kt vt n (mapHeader kt vt n) := by
  refine ⟨leb128 n, numeral_leb128 n, ?_⟩
  unfold mapHeader
  by_cases h : n = 0
  · subst h; rw [if_pos rfl]; exact .inl ⟨rfl, by rw [Cmp.leb128_zero]⟩
  · rw [if_neg h]; exact .inr ⟨h, _, _, .inl rfl, .inl rfl, rfl⟩

theorem encodeFields_split (last : Int) (id : I16) (v : Val) (r : Fields) :
    ∃ body, encodeFields last (.cons id v r) = fieldHeader last id.toInt (fieldCode v) ++ body ++ encodeFields id.toInt r ∧
      ((v = .bool true ∧ body = []) ∨ (v = .bool false ∧ body = []) ∨ ((∀ b, v ≠ .bool b) ∧ body = encode v)) := by
  by_cases hb : ∃ b, v = .bool b
  · obtain ⟨b, rfl⟩ := hb
    cases b
    · exact ⟨[], by simp [encodeFields, fieldCode], .inr (.inl ⟨rfl, rfl⟩)⟩
    · exact ⟨[], by simp [encodeFields, fieldCode], .inl ⟨rfl, rfl⟩⟩
  · have hb' : ∀ b, v ≠ .bool b := fun b hc => hb ⟨b, hc⟩
    exact ⟨encode v, by rw [Cmp.encodeFields_cons _ _ _ _ hb', Cmp.fieldCode_eq hb'], .inr (.inr ⟨hb', rfl⟩)⟩

mutual
theorem denotes_all : ∀ v : Val, Denotes all v (encode v)
  | .bool true => .inl ⟨rfl, rfl⟩
  | .bool false => .inr ⟨rfl, .inl rfl⟩
  | .byte _ => rfl
  | .i16 _ => numeral_leb128 _
  | .i32 _ => numeral_leb128 _
  | .i64 _ => numeral_leb128 _
  | .double _ => rfl
  | .str _ => ⟨_, numeral_leb128 _, rfl⟩
  | .struct fs => by simp only [Denotes, encode]; exact denotes_all_fields fs 0 _ (fun h => h.elim)
  | .map kt vt ps => by
    simp only [Denotes, encode]
    exact ⟨_, _, mapHead_canonical all kt vt _, denotes_all_pairs ps, rfl⟩
  | .set t vs => by
    simp only [Denotes, encode]
    exact ⟨_, _, listHead_canonical all t _, denotes_all_vals vs, rfl⟩
  | .list t vs => by
    simp only [Denotes, encode]
    exact ⟨_, _, listHead_canonical all t _, denotes_all_vals vs, rfl⟩
theorem denotes_all_fields : ∀ (fs : Fields) (last : Int) (long : Prop), ¬ long → DenotesFields all last long fs (encodeFields last fs)
  | .nil, _, _, _ => by simp only [DenotesFields, encodeFields]
  | .cons id v r, last, long, hl => by
    obtain ⟨body, he, hb⟩ := encodeFields_split last id v r
    rw [he]
    simp only [DenotesFields]
    refine ⟨_, body, _, fieldHead_canonical last _ long _ (fun h => absurd h hl), ?_,
      denotes_all_fields r _ _ (fun h => h.2 trivial), rfl⟩
    rcases hb with hb | hb | ⟨hb, rfl⟩
    · exact .inl hb
    · exact .inr (.inl ⟨trivial, hb⟩)
    · exact .inr (.inr ⟨hb, denotes_all v⟩)
theorem denotes_all_vals : ∀ vs : Vals, DenotesVals all vs (encodeVals vs)
  | .nil => by simp only [DenotesVals, encodeVals]
  | .cons v r => by
    simp only [DenotesVals, encodeVals]
    exact ⟨_, _, denotes_all v, denotes_all_vals r, rfl⟩
theorem denotes_all_pairs : ∀ ps : Pairs, DenotesPairs all ps (encodePairs ps)
  | .nil => by simp only [DenotesPairs, encodePairs]
  | .cons k v r => by
    simp only [DenotesPairs, encodePairs]
    exact ⟨_, _, _, denotes_all k, denotes_all v, denotes_all_pairs r, rfl⟩
end

mutual
theorem denotes_careful : ∀ v : Val, v.Tame → Denotes careful v (encode v)
  | .bool true, _ => .inl ⟨rfl, rfl⟩
  | .bool false, _ => .inr ⟨rfl, .inl rfl⟩
  | .byte _, _ => rfl
  | .i16 _, _ => numeral_leb128 _
  | .i32 _, _ => numeral_leb128 _
  | .i64 _, _ => numeral_leb128 _
  | .double _, _ => rfl
  | .str _, _ => ⟨_, numeral_leb128 _, rfl⟩
  | .struct fs, h => by simp only [Denotes, encode]; exact denotes_careful_fields fs 0 _ (fun h => h.elim) h
  | .map kt vt ps, h => by
    simp only [Denotes, encode]
    exact ⟨_, _, mapHead_canonical _ kt vt _, denotes_careful_pairs ps h, rfl⟩
  | .set t vs, h => by
    simp only [Denotes, encode]
    exact ⟨_, _, listHead_canonical _ t _, denotes_careful_vals vs h, rfl⟩
  | .list t vs, h => by
    simp only [Denotes, encode]
    exact ⟨_, _, listHead_canonical _ t _, denotes_careful_vals vs h, rfl⟩
theorem denotes_careful_fields : ∀ (fs : Fields) (last : Int) (long : Prop), (long → ¬ fs.startsShort last) → fs.Tame →
    DenotesFields careful last long fs (encodeFields last fs)
  | .nil, _, _, _, _ => by simp only [DenotesFields, encodeFields]
  | .cons id v r, last, long, hl, ht => by
    obtain ⟨hfalse, htv, hdeep, htr⟩ := ht
    obtain ⟨body, he, hb⟩ := encodeFields_split last id v r
    rw [he]
    simp only [DenotesFields]
    refine ⟨_, body, _, fieldHead_canonical last _ long _ hl, ?_,
      denotes_careful_fields r _ _ (fun h => hdeep h.1) htr, rfl⟩
    rcases hb with hb | hb | ⟨hb, rfl⟩
    · exact .inl hb
    · exact absurd hb.1 hfalse
    · exact .inr (.inr ⟨hb, denotes_careful v htv⟩)
theorem denotes_careful_vals : ∀ vs : Vals, vs.Tame → DenotesVals careful vs (encodeVals vs)
  | .nil, _ => by simp only [DenotesVals, encodeVals]
  | .cons v r, h => by
    simp only [DenotesVals, encodeVals]
    exact ⟨_, _, denotes_careful v h.1, denotes_careful_vals r h.2, rfl⟩
theorem denotes_careful_pairs : ∀ ps : Pairs, ps.Tame → DenotesPairs careful ps (encodePairs ps)
  | .nil, _ => by simp only [DenotesPairs, encodePairs]
  | .cons k v r, h => by
    simp only [DenotesPairs, encodePairs]
    exact ⟨_, _, _, denotes_careful k h.1, denotes_careful v h.2.1, denotes_careful_pairs r h.2.2, rfl⟩
end

/-- The bytes this library writes for a value are one of the encodings permitted. -/
theorem C188_canonical (v : Val) : Denotes all v (encode v) := denotes_all v

/-- ... and a careful one exactly for what C19 reads back. -/
theorem C188_canonical_careful (v : Val) (h : v.Tame) : Denotes careful v (encode v) := denotes_careful v h

/-! ## C188 -/

/-- C188 in full: every permitted encoding of a value is read as that value
(types of empty maps apart) and the reader stops at its end. -/
def C188_statement : Prop :=
  ∀ (v : Val) (bs : Bytes) (f fuel : Nat) (s : Cmp), v.WF → Denotes all v bs → bs.length ≤ f → v.size ≤ fuel →
    s.boolValueIsNotNull = false → ∀ rest, ∃ s',
      (readVal (compact f) fuel v.type).run memory s (bs ++ rest) = (.ok ((v.norm, none), s'), rest)

/-- A list of one boolean with the type code 2. -/
theorem C188_violated : ¬ C188_statement := by
  intro h
  have hd : Denotes all (.list 2 (.cons (.bool true) .nil)) [0x12, 1] := by
    simp only [Denotes]
    exact ⟨[0x12], [1], ⟨2, .inr ⟨trivial, rfl, rfl⟩, .inl ⟨by decide, rfl⟩⟩,
      by simp only [DenotesVals]; exact ⟨[1], [], .inl ⟨rfl, rfl⟩, rfl, rfl⟩, rfl⟩
  obtain ⟨s', h1⟩ := h (.list 2 (.cons (.bool true) .nil)) [0x12, 1] 10 10 Cmp.new (by simp [Val.WF, Vals.WF, Vals.length, Val.type]; decide) hd
    (by decide) (by decide) rfl []
  have h2 : ∃ a e s'', (readVal (compact 10) 10 15).run memory Cmp.new [0x12, 1] = (.ok ((a, some e), s''), [1]) :=
    ⟨_, _, _, rfl⟩
  obtain ⟨a, e, s'', h2⟩ := h2
  have := h2.symm.trans h1
  simp at this

theorem getTType_two (a : Fin 16) : getTType (BitVec.ofNat 8 (16 * a.val + 2)) = getTType 2 := by
  have hq := (Cmp.pack a ⟨2, by omega⟩).2.2.1
  simp only at hq
  simp only [getTType, hq]; rfl

theorem error_two : ∃ e, protocolFromOsError (getTType 2).2 = some e := ⟨_, rfl⟩

/-- A short header with the code 2 for the elements is refused, for every list
and set. -/
theorem C188_elem2 (k : Nat) (hk : k < 15) (f : Nat) (s : Cmp) (rest : Bytes) : ∃ e,
    (readListBegin f).run memory s (BitVec.ofNat 8 (16 * k + 2) :: rest) =
      (.ok (((TT.STOP, (k : Int)), some e), s), rest) := by
  have hp := (Cmp.pack ⟨k, by omega⟩ ⟨2, by omega⟩).2.2.2.2.1
  have hg := getTType_two ⟨k, by omega⟩
  simp only at hp hg
  have h1 : (BitVec.ofNat 8 k).toNat = k := by rw [BitVec.toNat_ofNat, Nat.mod_eq_of_lt (by omega)]
  have h2 : ¬ ((k : Int) = 15) := by omega
  obtain ⟨e, he⟩ := error_two
  have key : Runs (readListBegin f) s s [BitVec.ofNat 8 (16 * k + 2)] ((TT.STOP, (k : Int)), some e) := by
    rw [← he]
    refine Runs.congr (a := [BitVec.ofNat 8 (16 * k + 2)] ++ ([] ++ [])) ?_ (by simp)
    unfold readListBegin
    rstep (Cmp.reads_byte (BitVec.ofNat 8 (16 * k + 2)) s)
    simp only [hp, h1, h2, if_false]
    refine Runs.bind (r := ((k : Int), none)) (s' := s) (fun _ _ => rfl) ?_
    simp only [hg, Option.isSome_none, Bool.false_eq_true, if_false]
    exact Runs.pure _ _
  exact ⟨e, key.memory rest⟩

example : ∃ e, (readListBegin 10).run memory Cmp.new [0x32, 7] = (.ok (((TT.STOP, 3), some e), Cmp.new), [7]) :=
  C188_elem2 3 (by decide) 10 Cmp.new [7]

/-- A long header with that code is refused too. -/
theorem C188_elem2_long (k : Nat) (hk : k < 2 ^ 31) (n : Bytes) (hn : Numeral n k) (f : Nat) (hf : n.length ≤ f) (s : Cmp)
    (rest : Bytes) : ∃ e, (readListBegin f).run memory s (0xf2 :: n ++ rest) =
      (.ok (((TT.STOP, (k : Int)), some e), s), rest) := by
  obtain ⟨e, he⟩ := error_two
  have key : Runs (readListBegin f) s s (0xf2 :: n) ((TT.STOP, (k : Int)), some e) := by
    rw [← he]
    refine Runs.congr (a := [0xf2] ++ ((n ++ []) ++ [])) ?_ (by simp)
    unfold readListBegin
    rstep (Cmp.reads_byte 0xf2 s)
    have hp : ((0xf2 : Byte) >>> 4) &&& 0x0f = 15 := by decide
    have h1 : (15 : Byte).toNat = 15 := rfl
    simp only [hp, h1]
    refine Runs.bind (r := ((k : Int), none)) (s' := s) ?_ ?_
    · rstep (Cmp.numeral_reads_len hn s f hf)
      simp only [Cmp.toInt_len k hk]
      exact Runs.pure _ _
    · simp only [show getTType 0xf2 = getTType 2 from getTType_two ⟨15, by omega⟩, Option.isSome_none, Bool.false_eq_true, if_false]
      exact Runs.pure _ _
  exact ⟨e, key.memory rest⟩

/-- In the header of a map it is not refused: the type of the keys becomes the
one that ends a struct. -/
theorem C188_elem2_map (k d : Nat) (hk : k < 2 ^ 31) (h0 : k ≠ 0) (hd : d < 16) (n : Bytes) (hn : Numeral n k) (f : Nat)
    (hf : n.length ≤ f) (s : Cmp) (rest : Bytes) :
    (readMapBegin f).run memory s (n ++ BitVec.ofNat 8 (32 + d) :: rest) =
      (.ok (((TT.STOP, (getTType (BitVec.ofNat 8 d)).1, (k : Int)), none), s), rest) := by
  have key : Runs (readMapBegin f) s s (n ++ [BitVec.ofNat 8 (32 + d)])
      ((TT.STOP, (getTType (BitVec.ofNat 8 d)).1, (k : Int)), none) := by
    refine Runs.congr (a := n ++ ([BitVec.ofNat 8 (32 + d)] ++ [])) ?_ (by simp)
    unfold readMapBegin
    rstep (Cmp.numeral_reads_len hn s f hf)
    have hn' : (k : Int) ≠ 0 := by omega
    simp only [Cmp.toInt_len k hk, hn', ne_eq, not_false_eq_true, if_true]
    rstep (Cmp.reads_byte (BitVec.ofNat 8 (32 + d)) s)
    have hp := (Cmp.pack ⟨2, by omega⟩ ⟨d, hd⟩).2.2
    simp only [Nat.reduceMul] at hp
    have h1 : BitVec.ofNat 8 (32 + d) &&& 0xf = BitVec.ofNat 8 d := hp.1
    simp only [hp.2.2.2, h1]
    exact Runs.pure _ _
  have := key.memory rest
  simpa using this

/-- The header of a `false` field is refused, short or long. -/
theorem C188_falseField (last : Int) (id : I16) (long : Prop) (h : Bytes) (hh : FieldHead last id.toInt long 2 h) (f : Nat)
    (hf : h.length ≤ f) (s : Cmp) (rest : Bytes) :
    ∃ a e, (readFieldBegin f).run memory s (h ++ rest) = (.ok ((a, some e), s), rest) := by
  have nib : ∀ a : Fin 16, BitVec.ofNat 8 (16 * a.val + 2) &&& 0x0f = (2 : Byte) ∧
      (BitVec.ofNat 8 (16 * a.val + 2) &&& 0xf0) >>> 4 = BitVec.ofNat 8 a.val ∧
      (BitVec.setWidth 16 (BitVec.ofNat 8 a.val) = (0 : I16) ↔ a.val = 0) := by decide +kernel
  obtain ⟨e, he⟩ := error_two
  have key : ∃ i, Runs (readFieldBegin f) s s h (([], TT.STOP, i), some e) := by
    rw [← he]
    rcases hh with ⟨_, h1, h2, rfl⟩ | ⟨n, hn, rfl⟩
    · obtain ⟨n1, n2, n3⟩ := nib ⟨(id.toInt - last).toNat, by omega⟩
      simp only at n1 n2 n3
      refine ⟨BitVec.ofInt 16 s.lastFieldId + BitVec.setWidth 16 (BitVec.ofNat 8 (id.toInt - last).toNat), Runs.congr (a := [BitVec.ofNat 8 (16 * (id.toInt - last).toNat + 2)] ++ ([] ++ ([] ++ []))) ?_ (by simp)⟩
      unfold readFieldBegin
      rstep (Cmp.reads_byte (BitVec.ofNat 8 (16 * (id.toInt - last).toNat + 2)) s)
      rw [n1, if_neg (show ¬ (2 : Byte) = TT.STOP by decide), n2]
      refine Runs.bind (r := s) (s' := s) (fun _ _ => rfl) ?_
      rw [if_neg (fun h => absurd (n3.1 h) (by omega))]
      refine Runs.bind (r := (_, none)) (s' := s) (Runs.pure _ _) ?_
      exact Runs.pure _ _
    · refine ⟨id, Runs.congr (a := [BitVec.ofNat 8 2] ++ ([] ++ (n ++ []))) ?_ (by simp)⟩
      unfold readFieldBegin
      rstep (Cmp.reads_byte (BitVec.ofNat 8 2) s)
      rw [show BitVec.ofNat 8 2 &&& 0x0f = (2 : Byte) by decide, if_neg (show ¬ (2 : Byte) = TT.STOP by decide),
        show (BitVec.ofNat 8 2 &&& 0xf0) >>> 4 = (0 : Byte) by decide]
      refine Runs.bind (r := s) (s' := s) (fun _ _ => rfl) ?_
      rw [if_pos (by rfl)]
      refine Runs.bind (r := (id, none)) (s' := s) (Cmp.numeral_reads_i16 hn s f (by simp at hf; omega)) ?_
      exact Runs.pure _ _
  obtain ⟨i, key⟩ := key
  exact ⟨_, e, key.memory rest⟩

example : ∃ a e, (readFieldBegin 10).run memory Cmp.new [0x12, 7] = (.ok ((a, some e), Cmp.new), [7]) :=
  C188_falseField 0 1 False [0x12] (.inl ⟨id, by decide, by decide, by decide⟩) 10 (by decide) Cmp.new [7]

/-- C188, what remains: encodings with none of the three choices (boolean
elements under the code 2, `false` fields, a short header after a field with
structs two or more deep), whatever the forms of all numerals and headers, by a
reader with any history. -/
theorem C188_partial (v : Val) (bs : Bytes) (f fuel : Nat) (s : Cmp) (hv : v.WF) (hd : Denotes careful v bs)
    (hf : bs.length ≤ f) (hz : v.size ≤ fuel) (hs : s.boolValueIsNotNull = false) : ∃ s', ∀ rest,
      (readVal (compact f) fuel v.type).run memory s (bs ++ rest) = (.ok ((v.norm, none), s'), rest) := by
  obtain ⟨s', h, _⟩ := Cmp.forms_reads f v bs s fuel hd hf hs hv hz
  exact ⟨s', h.memory⟩

/-! A struct with field 1 in the long form with a leading zero, and a set of one
`false` written as 0 under a long header. -/
def oddVal : Val := .struct (.cons 1 (.i32 3) (.cons 2 (.set 2 (.cons (.bool false) .nil)) .nil))
def oddBytes : Bytes := [0x05, 0x82, 0x00, 0x86, 0x80, 0x00, 0x1a, 0xf1, 0x81, 0x00, 0x00, 0x00]

theorem oddBytes_denotes : Denotes careful oddVal oddBytes := by
  simp only [oddVal, Denotes, DenotesFields, DenotesVals]
  refine ⟨[0x05, 0x82, 0x00], [0x86, 0x80, 0x00], [0x1a, 0xf1, 0x81, 0x00, 0x00, 0x00], .inr ⟨[0x82, 0x00], ⟨?_, by decide⟩, rfl⟩,
    .inr (.inr ⟨by simp, ⟨?_, by decide⟩⟩), ⟨[0x1a], [0xf1, 0x81, 0x00, 0x00], [0x00], .inl ⟨?_, by decide, by decide, rfl⟩,
      .inr (.inr ⟨by simp, [0xf1, 0x81, 0x00], [0x00], ⟨1, .inl rfl, .inr ⟨[0x81, 0x00], ⟨?_, rfl⟩, rfl⟩⟩,
        ⟨[0x00], [], by simp, rfl, rfl⟩, rfl⟩), rfl, rfl⟩, rfl⟩
  · simp [IsLeb128]
  · simp [IsLeb128]
  · simp [Val.structDepth]
  · simp [IsLeb128]

example : ∃ s', ∀ rest, (readVal (compact 12) 10 12).run memory Cmp.new (oddBytes ++ rest) =
    (.ok ((oddVal, none), s'), rest) :=
  C188_partial oddVal oddBytes 12 10 Cmp.new (by simp [oddVal, Val.WF, Fields.WF, Vals.WF, Vals.length, Val.type]; decide)
    oddBytes_denotes (by decide) (by decide) rfl

/-- Two values of one type with a careful encoding in common are the same, types
of empty maps apart, and so is what follows. -/
theorem C188_determined (v w : Val) (bs cs rest rest' : Bytes) (hv : v.WF) (hw : w.WF) (ht : v.type = w.type)
    (h1 : Denotes careful v bs) (h2 : Denotes careful w cs) (he : bs ++ rest = cs ++ rest') :
    v.norm = w.norm ∧ bs = cs ∧ rest = rest' := by
  obtain ⟨s1, e1⟩ := C188_partial v bs (bs.length + cs.length) (v.size + w.size) Cmp.new hv h1 (by omega) (by omega) rfl
  obtain ⟨s2, e2⟩ := C188_partial w cs (bs.length + cs.length) (v.size + w.size) Cmp.new hw h2 (by omega) (by omega) rfl
  have := (e1 rest).symm.trans ((congrArg _ he).trans (ht ▸ e2 rest'))
  simp only [Prod.mk.injEq, Res.ok.injEq, and_true] at this
  obtain ⟨⟨h, _⟩, rfl⟩ := this
  exact ⟨h, List.append_cancel_right he, rfl⟩

/-- A message header in any form is read; of the message type two bits are. -/
theorem C188_message (name : Bytes) (hn : name.length < 2 ^ 31) (t q : I32) (bs : Bytes) (h : MessageHead name t q bs)
    (s : Cmp) (f : Nat) (hf : bs.length ≤ f) (rest : Bytes) :
    (readMessageBegin f).run memory s (bs ++ rest) =
      (.ok (((name, BitVec.ofNat 32 (t.toNat % 4), q), none), s), rest) := by
  obtain ⟨a, b, ha, hb', rfl⟩ := h
  simp only [List.length_append, List.length_cons, List.length_nil] at hf
  have hb := (Cmp.messageByte (t.setWidth 8)).2
  have h8 : (t.setWidth 8).toNat % 8 = t.toNat % 8 := by
    rw [BitVec.toNat_setWidth]; omega
  have h4 : (t.setWidth 8).toNat % 4 = t.toNat % 4 := by
    rw [BitVec.toNat_setWidth]; omega
  rw [h8, h4] at hb
  have key : Reads (readMessageBegin f) s s ([0x82, BitVec.ofNat 8 (1 + 32 * (t.toNat % 8))] ++ a ++ b ++ name)
      (name, BitVec.ofNat 32 (t.toNat % 4), q) := by
    unfold readMessageBegin
    refine Runs.congr (a := [0x82] ++ ([BitVec.ofNat 8 (1 + 32 * (t.toNat % 8))] ++ (a ++ ((b ++ name) ++ [])))) ?_ (by simp)
    refine Runs.bind (Cmp.reads_byte 0x82 s) ?_
    dsimp only
    rw [if_neg (by decide)]
    refine Runs.bind (Cmp.reads_byte (BitVec.ofNat 8 (1 + 32 * (t.toNat % 8))) s) ?_
    simp only [hb.1, hb.2, Option.isSome_none, Bool.false_eq_true, if_false, ne_eq, not_true_eq_false]
    have e := Cmp.reads_numeral32 a s f ha.1 (by omega)
    rw [ha.2, BitVec.ofNat_toNat, BitVec.setWidth_eq] at e
    rstep e
    rstep (Cmp.numeral_reads_string hb' hn s f (by omega))
    have : BitVec.setWidth 32 (BitVec.ofNat 8 (t.toNat % 4)) = BitVec.ofNat 32 (t.toNat % 4) := by
      apply BitVec.eq_of_toNat_eq
      simp; omega
    rw [this]
    exact Runs.pure _ _
  exact key.memory rest

example : (readMessageBegin 9).run memory Cmp.new [0x82, 0x21, 0x87, 0x00, 0x81, 0x00, 0x61] =
    (.ok ((([0x61], 1, 7), none), Cmp.new), []) :=
  C188_message [0x61] (by decide) 1 7 _ ⟨[0x87, 0x00], [0x81, 0x00], ⟨by simp [IsLeb128], by decide⟩,
    ⟨by simp [IsLeb128], rfl⟩, rfl⟩ Cmp.new 9 (by decide) []

end Thrift
