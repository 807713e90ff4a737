import Verif.Lemmas.BinaryForms
/-!
# C191: what the binary reader accepts

C01 says that what was written is read.  Here the other direction: which bytes are
read without error at all, and as what.
-/

namespace Thrift
open BinaryProtocol BinarySpec

/-! ## Facts about the relation -/

theorem wordOf (n : I32) (l : Nat) (h : l = n.toInt.toNat) : l < 2 ^ 31 ∧ (l ≠ 0 → n.toNat = l) := by
  have := n.isLt
  rw [BitVec.toInt_eq_toNat_cond] at h
  split at h <;> omega

mutual
/-- The encoding of the specification is one of the forms. -/
theorem loose_encode : ∀ v : Val, v.WF → Loose v (encode v)
  | .bool b, _ => by simp only [Loose]; exact ⟨_, by cases b <;> decide, rfl⟩
  | .byte _, _ | .i16 _, _ | .i32 _, _ | .i64 _, _ | .double _, _ => by simp only [Loose, encode]
  | .str b, h => by
    simp only [Loose, encode]
    simp only [Val.WF] at h
    exact ⟨BitVec.ofNat 32 b.length, by rw [toInt_ofNat32 h]; rfl, by rw [toNat_ofNat32 h]⟩
  | .struct fs, h => by simp only [Loose, encode]; exact loose_encodeFields fs (by simpa only [Val.WF] using h)
  | .map kt vt ps, h => by
    simp only [Loose, encode]
    simp only [Val.WF] at h
    exact ⟨BitVec.ofNat 32 ps.length, _, by rw [toInt_ofNat32 h.2.2.1]; rfl, loose_encodePairs kt vt ps h.2.2.2, by rw [toNat_ofNat32 h.2.2.1]⟩
  | .set t vs, h => by
    simp only [Loose, encode]
    simp only [Val.WF] at h
    exact ⟨BitVec.ofNat 32 vs.length, _, by rw [toInt_ofNat32 h.2.1]; rfl, loose_encodeVals t vs h.2.2, by rw [toNat_ofNat32 h.2.1]⟩
  | .list t vs, h => by
    simp only [Loose, encode]
    simp only [Val.WF] at h
    exact ⟨BitVec.ofNat 32 vs.length, _, by rw [toInt_ofNat32 h.2.1]; rfl, loose_encodeVals t vs h.2.2, by rw [toNat_ofNat32 h.2.1]⟩
theorem loose_encodeFields : ∀ fs : Fields, fs.WF → LooseFields fs (encodeFields fs)
  | .nil, _ => by simp only [LooseFields, encodeFields]
  | .cons id v r, h => by
    simp only [LooseFields, encodeFields]
    simp only [Fields.WF] at h
    exact ⟨_, _, loose_encode v h.1, loose_encodeFields r h.2, rfl⟩
theorem loose_encodeVals : ∀ (t : Byte) (vs : Vals), vs.WF t → LooseVals t vs (encodeVals vs)
  | _, .nil, _ => by simp only [LooseVals, encodeVals]
  | t, .cons v r, h => by
    simp only [LooseVals, encodeVals]
    simp only [Vals.WF] at h
    exact ⟨h.1, _, _, loose_encode v h.2.1, loose_encodeVals t r h.2.2, rfl⟩
theorem loose_encodePairs : ∀ (kt vt : Byte) (ps : Pairs), ps.WF kt vt → LoosePairs kt vt ps (encodePairs ps)
  | _, _, .nil, _ => by simp only [LoosePairs, encodePairs]
  | kt, vt, .cons k v r, h => by
    simp only [LoosePairs, encodePairs]
    simp only [Pairs.WF] at h
    exact ⟨h.1, h.2.1, _, _, _, loose_encode k h.2.2.1, loose_encode v h.2.2.2.1, loose_encodePairs kt vt r h.2.2.2.2, rfl⟩
end

mutual
theorem loose_length : ∀ (v : Val) (bs : Bytes), Loose v bs → bs.length = (encode v).length
  | .bool b, _, h => by simp only [Loose] at h; obtain ⟨x, _, rfl⟩ := h; simp [encode]
  | .byte _, _, h | .i16 _, _, h | .i32 _, _, h | .i64 _, _, h | .double _, _, h => by simp only [Loose] at h; rw [h, encode]
  | .str b, _, h => by simp only [Loose] at h; obtain ⟨n, _, rfl⟩ := h; simp [encode, be_length]
  | .struct fs, bs, h => by simp only [Loose] at h; simp only [encode]; exact loose_lengthFields fs bs h
  | .map kt vt ps, bs, h => by
    simp only [Loose] at h
    obtain ⟨n, c, _, hp, rfl⟩ := h
    have := loose_lengthPairs kt vt ps c hp
    simp [encode, be_length, this]
  | .set t vs, bs, h => by
    simp only [Loose] at h
    obtain ⟨n, c, _, hp, rfl⟩ := h
    have := loose_lengthVals t vs c hp
    simp [encode, be_length, this]
  | .list t vs, bs, h => by
    simp only [Loose] at h
    obtain ⟨n, c, _, hp, rfl⟩ := h
    have := loose_lengthVals t vs c hp
    simp [encode, be_length, this]
theorem loose_lengthFields : ∀ (fs : Fields) (bs : Bytes), LooseFields fs bs → bs.length = (encodeFields fs).length
  | .nil, _, h => by simp only [LooseFields] at h; rw [h, encodeFields]
  | .cons id v r, _, h => by
    simp only [LooseFields] at h
    obtain ⟨a, c, h1, h2, rfl⟩ := h
    simp [encodeFields, be_length, loose_length v a h1, loose_lengthFields r c h2]
theorem loose_lengthVals : ∀ (t : Byte) (vs : Vals) (bs : Bytes), LooseVals t vs bs → bs.length = (encodeVals vs).length
  | _, .nil, _, h => by simp only [LooseVals] at h; rw [h, encodeVals]
  | t, .cons v r, _, h => by
    simp only [LooseVals] at h
    obtain ⟨_, a, c, h1, h2, rfl⟩ := h
    simp [encodeVals, loose_length v a h1, loose_lengthVals t r c h2]
theorem loose_lengthPairs : ∀ (kt vt : Byte) (ps : Pairs) (bs : Bytes), LoosePairs kt vt ps bs → bs.length = (encodePairs ps).length
  | _, _, .nil, _, h => by simp only [LoosePairs] at h; rw [h, encodePairs]
  | kt, vt, .cons k v r, _, h => by
    simp only [LoosePairs] at h
    obtain ⟨_, _, a, b, c, h1, h2, h3, rfl⟩ := h
    simp [encodePairs, loose_length k a h1, loose_length v b h2, loose_lengthPairs kt vt r c h3]
end

theorem Vals.length_ne_zero {vs : Vals} (h : vs ≠ .nil) : vs.length ≠ 0 := by
  cases vs with
  | nil => exact absurd rfl h
  | cons => simp [Vals.length]
theorem Pairs.length_ne_zero {vs : Pairs} (h : vs ≠ .nil) : vs.length ≠ 0 := by
  cases vs with
  | nil => exact absurd rfl h
  | cons => simp [Pairs.length]

mutual
theorem loose_tight : ∀ (v : Val) (bs : Bytes), Tight v → Loose v bs → bs = encode v
  | .bool b, _, ht, _ => by simp only [Tight] at ht
  | .byte _, _, _, h | .i16 _, _, _, h | .i32 _, _, _, h | .i64 _, _, _, h | .double _, _, _, h => by simp only [Loose] at h; rw [h, encode]
  | .str b, _, ht, h => by
    simp only [Loose] at h; obtain ⟨n, hn, rfl⟩ := h
    simp only [Tight] at ht
    rw [encode, (wordOf n _ hn).2 (fun e => ht (List.length_eq_zero_iff.1 e))]
  | .struct fs, bs, ht, h => by
    simp only [Loose] at h; simp only [Tight] at ht; simp only [encode]; exact loose_tightFields fs bs ht h
  | .map kt vt ps, bs, ht, h => by
    simp only [Loose] at h
    obtain ⟨n, c, hn, hp, rfl⟩ := h
    simp only [Tight] at ht
    rw [encode, loose_tightPairs kt vt ps c ht.2 hp, (wordOf n _ hn).2 (Pairs.length_ne_zero ht.1)]
  | .set t vs, bs, ht, h => by
    simp only [Loose] at h
    obtain ⟨n, c, hn, hp, rfl⟩ := h
    simp only [Tight] at ht
    rw [encode, loose_tightVals t vs c ht.2 hp, (wordOf n _ hn).2 (Vals.length_ne_zero ht.1)]
  | .list t vs, bs, ht, h => by
    simp only [Loose] at h
    obtain ⟨n, c, hn, hp, rfl⟩ := h
    simp only [Tight] at ht
    rw [encode, loose_tightVals t vs c ht.2 hp, (wordOf n _ hn).2 (Vals.length_ne_zero ht.1)]
theorem loose_tightFields : ∀ (fs : Fields) (bs : Bytes), TightFields fs → LooseFields fs bs → bs = encodeFields fs
  | .nil, _, _, h => by simp only [LooseFields] at h; rw [h, encodeFields]
  | .cons id v r, _, ht, h => by
    simp only [LooseFields] at h
    obtain ⟨a, c, h1, h2, rfl⟩ := h
    simp only [TightFields] at ht
    rw [encodeFields, loose_tight v a ht.1 h1, loose_tightFields r c ht.2 h2]
theorem loose_tightVals : ∀ (t : Byte) (vs : Vals) (bs : Bytes), TightVals vs → LooseVals t vs bs → bs = encodeVals vs
  | _, .nil, _, _, h => by simp only [LooseVals] at h; rw [h, encodeVals]
  | t, .cons v r, _, ht, h => by
    simp only [LooseVals] at h
    obtain ⟨_, a, c, h1, h2, rfl⟩ := h
    simp only [TightVals] at ht
    rw [encodeVals, loose_tight v a ht.1 h1, loose_tightVals t r c ht.2 h2]
theorem loose_tightPairs : ∀ (kt vt : Byte) (ps : Pairs) (bs : Bytes), TightPairs ps → LoosePairs kt vt ps bs → bs = encodePairs ps
  | _, _, .nil, _, _, h => by simp only [LoosePairs] at h; rw [h, encodePairs]
  | kt, vt, .cons k v r, _, ht, h => by
    simp only [LoosePairs] at h
    obtain ⟨_, _, a, b, c, h1, h2, h3, rfl⟩ := h
    simp only [TightPairs] at ht
    rw [encodePairs, loose_tight k a ht.1 h1, loose_tight v b ht.2.1 h2, loose_tightPairs kt vt r c ht.2.2 h3]
end

/-! ## The claim -/

/-- C191 in full: what the reader of a value accepts is the encoding of a well-formed
value, and it is read as that value. -/
def C191_statement : Prop :=
  ∀ (s : Bin) (fuel : Nat) (t : TType) (inp : Bytes) (v : Val) (s' : Bin) (rest : Bytes), s.checkReadLength = false →
    (readVal binary fuel t).run memory s inp = (.ok ((v, none), s'), rest) → v.WF ∧ inp = encode v ++ rest

/-- The byte 7 is read as `false`, which is written as 0. -/
theorem C191_violated : ¬ C191_statement := by
  intro h
  have := (h Bin.default 1 TT.BOOL [7] (.bool false) Bin.default [] rfl rfl).2
  simp [encode] at this

/-- A list of -1 elements is read as an empty list. -/
theorem C191_negative_violated : (readVal binary 1 TT.LIST).run memory Bin.default [8, 255, 255, 255, 255, 9] =
    (.ok ((.list TT.I32 .nil, none), Bin.default), [9]) := by rfl

/-- An empty list of elements of a type that does not exist is read. -/
theorem C191_type_violated : (readVal binary 1 TT.LIST).run memory Bin.default [99, 0, 0, 0, 0] =
    (.ok ((.list 99 .nil, none), Bin.default), []) ∧ ¬ (Val.list 99 .nil).WF := by
  refine ⟨rfl, fun h => ?_⟩
  simp only [Val.WF] at h
  exact absurd h.1 (by decide)

/-- Exactly which bytes the reader accepts, as which values, and where it stops: some
prefix denotes the value, where bytes other than 1 denote `false` and negative lengths
denote 0. -/
theorem C191_partial (s : Bin) (hs : s.checkReadLength = false) (t : TType) (inp : Bytes) (v : Val) (s' : Bin) (rest : Bytes) :
    (∃ fuel, (readVal binary fuel t).run memory s inp = (.ok ((v, none), s'), rest)) ↔
      s' = s ∧ v.type = t ∧ ∃ bs, inp = bs ++ rest ∧ Loose v bs := by
  constructor
  · rintro ⟨fuel, h⟩
    obtain ⟨rfl, bs, h1, h2, h3⟩ := sound_val s hs fuel t inp v s' rest h
    exact ⟨rfl, h2, bs, h1, h3⟩
  · rintro ⟨rfl, rfl, bs, rfl, hl⟩
    exact ⟨v.size, (Loose.readVal s' hs v v.size (Nat.le_refl _) hl).memory rest⟩

/-- ... for every fuel that suffices. -/
theorem C191_fuel_partial (s : Bin) (hs : s.checkReadLength = false) (inp : Bytes) (v : Val) (s' : Bin) (rest : Bytes) (fuel : Nat)
    (hf : v.size ≤ fuel) : (readVal binary fuel v.type).run memory s inp = (.ok ((v, none), s'), rest) ↔
      s' = s ∧ ∃ bs, inp = bs ++ rest ∧ Loose v bs := by
  constructor
  · intro h
    obtain ⟨rfl, bs, h1, h2, h3⟩ := sound_val s hs fuel _ inp v s' rest h
    exact ⟨rfl, bs, h1, h3⟩
  · rintro ⟨rfl, bs, rfl, hl⟩
    exact (Loose.readVal s' hs v fuel hf hl).memory rest

example : Loose (.list TT.BOOL (.cons (.bool true) (.cons (.bool false) .nil))) [2, 0, 0, 0, 2, 1, 77] ∧
    (readVal binary 9 TT.LIST).run memory Bin.default [2, 0, 0, 0, 2, 1, 77, 5] =
      (.ok ((.list TT.BOOL (.cons (.bool true) (.cons (.bool false) .nil)), none), Bin.default), [5]) := by
  refine ⟨?_, rfl⟩
  simp only [Loose, LooseVals, Val.type]
  exact ⟨2, [1, 77], by decide, ⟨trivial, [1], [77], ⟨1, by decide, rfl⟩, ⟨trivial, [77], [], ⟨77, by decide, rfl⟩, rfl, rfl⟩, rfl⟩, by decide⟩

/-- The forms of a value are all as long as its encoding, which is one of them. -/
theorem C191_length (v : Val) : (v.WF → Loose v (encode v)) ∧ ∀ bs, Loose v bs → bs.length = (encode v).length :=
  ⟨loose_encode v, loose_length v⟩

/-- A value without booleans and without anything empty has no form but its encoding. -/
theorem C191_tight (s : Bin) (hs : s.checkReadLength = false) (fuel : Nat) (t : TType) (inp : Bytes) (v : Val) (s' : Bin) (rest : Bytes)
    (hv : Tight v) (h : (readVal binary fuel t).run memory s inp = (.ok ((v, none), s'), rest)) : inp = encode v ++ rest := by
  obtain ⟨_, bs, h1, _, h3⟩ := sound_val s hs fuel t inp v s' rest h
  rw [h1, loose_tight v bs hv h3]

example : Tight (.list TT.I16 (.cons (.i16 7) .nil)) ∧ (readVal binary 9 TT.LIST).run memory Bin.default [6, 0, 0, 0, 1, 0, 7] =
    (.ok ((.list TT.I16 (.cons (.i16 7) .nil), none), Bin.default), []) :=
  ⟨by simp [Tight, TightVals], rfl⟩

/-- No bytes denote two values of one type, and no form of a value begins another. -/
theorem C191_determined (v w : Val) (bs cs rest rest' : Bytes) (ht : v.type = w.type) (h1 : Loose v bs) (h2 : Loose w cs)
    (he : bs ++ rest = cs ++ rest') : v = w ∧ bs = cs ∧ rest = rest' := by
  have e1 := (Loose.readVal Bin.default rfl v (v.size + w.size) (by omega) h1).memory rest
  have e2 := (Loose.readVal Bin.default rfl w (v.size + w.size) (by omega) h2).memory rest'
  have := e1.symm.trans ((congrArg _ he).trans (ht ▸ e2))
  simp only [Prod.mk.injEq, Res.ok.injEq, and_true] at this
  obtain ⟨h, rfl⟩ := this
  exact ⟨h, List.append_cancel_right he, rfl⟩

/-! ## Message headers -/

theorem sound_messageBegin (s : Bin) (h : s.checkReadLength = false) :
    Consumes readMessageBegin s (fun r bs => LooseMessage s.strictRead r.1 r.2.1 r.2.2 bs) :=
  Consumes.check (G := fun w r cs =>
      (w.signExtend 64 &&& VERSION_MASK = VERSION_1.setWidth 64 ∧ r.2.1 = w &&& 0x0ff ∧ ∃ a, Loose (.str r.1) a ∧ cs = a ++ be 4 r.2.2.toNat) ∨
      (s.strictRead = false ∧ ¬ w.toInt < 0 ∧ r.1.length = w.toInt.toNat ∧ ∃ y : Byte, r.2.1 = y.setWidth 32 ∧
        cs = r.1 ++ [y] ++ be 4 r.2.2.toNat)) Bin.isSome_wrap (sound_i32 s h)
    (fun w _ _ => by
      dsimp only
      by_cases hw : w.toInt < 0
      · rw [if_pos hw]
        by_cases hv : w.signExtend 64 &&& VERSION_MASK = VERSION_1.setWidth 64
        · rw [if_neg (not_not_intro hv)]
          exact Consumes.check (G := fun name r cs => r.1 = name ∧ r.2.1 = w &&& 0x0ff ∧ cs = be 4 r.2.2.toNat) Bin.isSome_wrap (sound_string s h)
            (fun name _ _ => Consumes.check (G := fun q r cs => r = (name, w &&& 0x0ff, q) ∧ cs = []) Bin.isSome_wrap (sound_i32 s h)
              (fun q _ _ => Consumes.pure s _ _ ⟨rfl, rfl⟩)
              (by rintro q r bs cs rfl ⟨rfl, rfl⟩; exact ⟨rfl, rfl, by simp⟩))
            (by rintro name r bs cs hn ⟨rfl, h1, rfl⟩; exact .inl ⟨hv, h1, bs, hn, rfl⟩)
        · rw [if_pos hv]
          intro inp r s' rest he
          simp only [P.run_pure, Prod.mk.injEq, Res.ok.injEq] at he
          exact absurd he.1.1.2 (by simp)
      · rw [if_neg hw]
        intro inp r s' rest he
        rw [P.run_bind, P.run_get] at he
        simp only [andThen_ok] at he
        by_cases hst : s.strictRead = true
        · rw [if_pos hst] at he
          simp only [P.run_pure, Prod.mk.injEq, Res.ok.injEq] at he
          exact absurd he.1.1.2 (by simp)
        · rw [if_neg hst] at he
          obtain ⟨g1, cs, g2, g3⟩ := Consumes.check (w := id) (G := fun name r cs => r.1 = name ∧ ∃ y : Byte, r.2.1 = y.setWidth 32 ∧ cs = [y] ++ be 4 r.2.2.toNat)
            (H := fun r cs => r.1.length = w.toInt.toNat ∧ ∃ y : Byte, r.2.1 = y.setWidth 32 ∧ cs = r.1 ++ [y] ++ be 4 r.2.2.toNat) (fun _ h => h) (sound_stringBody s h w.toInt)
            (fun name _ _ => Consumes.check (w := id) (G := fun y r cs => r.1 = name ∧ r.2.1 = y.setWidth 32 ∧ cs = be 4 r.2.2.toNat)
              (fun _ h => h) (sound_byte s h)
              (fun y _ _ => Consumes.check (w := id) (G := fun q r cs => r = (name, y.setWidth 32, q) ∧ cs = []) (fun _ h => h) (sound_i32 s h)
                (fun q _ _ => Consumes.pure s _ _ ⟨rfl, rfl⟩)
                (by rintro q r bs cs rfl ⟨rfl, rfl⟩; exact ⟨rfl, rfl, by simp⟩))
              (by rintro y r bs cs rfl ⟨rfl, h1, rfl⟩; exact ⟨rfl, y, h1, rfl⟩))
            (by rintro name r bs cs ⟨rfl, hl⟩ ⟨rfl, y, h1, rfl⟩; exact ⟨hl, y, h1, by simp⟩) inp r s' rest he
          exact ⟨g1, cs, g2, .inr ⟨by simpa using hst, hw, g3⟩⟩)
    (by
      rintro w r bs cs rfl (⟨hv, h1, a, ha, rfl⟩ | ⟨hst, hw, hl, y, h1, rfl⟩)
      · obtain ⟨x, y, e1, e2⟩ := strictWord w hv
        exact .inl ⟨x, y, a, h1.trans e2, ha, by rw [e1]; simp⟩
      · have := w.isLt
        have e : w.toNat = r.1.length := by
          rw [BitVec.toInt_eq_toNat_cond] at hl hw
          split at hl <;> omega
        exact .inr ⟨hst, (wordOf w _ hl).1, y, h1, by rw [e]; simp⟩)

theorem reads_messageBegin_any (s : Bin) (h : s.checkReadLength = false) (name : Bytes) (typeId seqid : I32) (bs : Bytes)
    (hm : LooseMessage s.strictRead name typeId seqid bs) : Reads readMessageBegin s s bs (name, typeId, seqid) := by
  rcases hm with ⟨x, y, a, rfl, ha, rfl⟩ | ⟨hst, hl, y, rfl, rfl⟩
  · obtain ⟨w, hb, hw, hy, hv⟩ := strictWord_of x y
    simp only [Loose] at ha
    obtain ⟨n, hn, rfl⟩ := ha
    refine Runs.congr (a := be 4 w.toNat ++ ((be 4 n.toNat ++ name) ++ (be 4 seqid.toNat ++ []))) ?_ (by rw [hb]; simp)
    show Runs (readI32 >>= _) _ _ _ _
    rstep (Bin.reads_i32 w s h)
    simp only [if_pos hw, hv, ne_eq, not_true_eq_false, if_false, hy]
    rstep (reads_string_any s h n name hn)
    rstep (Bin.reads_i32 seqid s h)
    exact Runs.pure _ _
  · have hw : ¬ (BitVec.ofNat 32 name.length).toInt < 0 := by rw [toInt_ofNat32 hl]; omega
    refine Runs.congr (a := be 4 (BitVec.ofNat 32 name.length).toNat ++ (name ++ ([y] ++ (be 4 seqid.toNat ++ [])))) ?_
      (by rw [toNat_ofNat32 hl]; simp)
    show Runs (readI32 >>= _) _ _ _ _
    rstep (Bin.reads_i32 (BitVec.ofNat 32 name.length) s h)
    simp only [if_neg hw]
    intro rest out
    rw [P.run_bind, P.run_get]
    simp only [andThen_ok, hst, Bool.false_eq_true, if_false]
    revert rest out
    show Runs (readStringBody _ >>= _) _ _ _ _
    rstep (reads_stringBody_any s h (BitVec.ofNat 32 name.length).toInt name (by rw [toInt_ofNat32 hl]; rfl))
    rstep (Bin.reads_byte y s h)
    rstep (Bin.reads_i32 seqid s h)
    exact Runs.pure _ _

/-- Exactly which bytes are taken for which message header. -/
theorem C191_message (s : Bin) (hs : s.checkReadLength = false) (inp : Bytes) (name : Bytes) (typeId seqid : I32) (s' : Bin) (rest : Bytes) :
    readMessageBegin.run memory s inp = (.ok (((name, typeId, seqid), none), s'), rest) ↔
      s' = s ∧ ∃ bs, inp = bs ++ rest ∧ LooseMessage s.strictRead name typeId seqid bs := by
  constructor
  · intro h
    obtain ⟨h1, bs, h2, h3⟩ := sound_messageBegin s hs inp _ s' rest h
    exact ⟨h1, bs, h2, h3⟩
  · rintro ⟨rfl, bs, rfl, hm⟩
    exact (reads_messageBegin_any s' hs name typeId seqid bs hm).memory rest

example : readMessageBegin.run memory Bin.default ([0x80, 0x01, 0x55, 0x01] ++ [255, 255, 255, 255] ++ [0, 0, 0, 7] ++ [3]) =
    (.ok ((([], 1, 7), none), Bin.default), [3]) := by rfl

end Thrift
