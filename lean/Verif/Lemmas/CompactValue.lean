import Verif.Lemmas.Compact
/-!
# Whole values through the compact protocol
-/

namespace Thrift
open CompactProtocol

/-! ## The values the compact reader can read back -/

/-- The next field is in short form. -/
def Fields.startsShort (last : Int) : Fields → Prop
  | .nil => False
  | .cons id _ _ => 1 ≤ id.toInt - last ∧ id.toInt - last ≤ 15

mutual
/-- No field is the boolean `false`, and a field whose value has structs two or
more deep is the last of its struct or followed by a field whose id is not 1..15
above its own. -/
def Val.Tame : Val → Prop
  | .struct fs => fs.Tame
  | .map _ _ ps => ps.Tame
  | .set _ vs => vs.Tame
  | .list _ vs => vs.Tame
  | _ => True
def Fields.Tame : Fields → Prop
  | .nil => True
  | .cons id v r => v ≠ .bool false ∧ v.Tame ∧ (2 ≤ v.structDepth → ¬ r.startsShort id.toInt) ∧ r.Tame
def Vals.Tame : Vals → Prop
  | .nil => True
  | .cons v r => v.Tame ∧ r.Tame
def Pairs.Tame : Pairs → Prop
  | .nil => True
  | .cons k v r => k.Tame ∧ v.Tame ∧ r.Tame
end

theorem Val.norm_type (v : Val) : v.norm.type = v.type := by
  cases v with
  | map kt vt ps => cases ps <;> rfl
  | _ => rfl

theorem Vals.norm_length : ∀ vs : Vals, vs.norm.length = vs.length
  | .nil => rfl
  | .cons _ r => by simp [Vals.norm, Vals.length, Vals.norm_length r]
theorem Pairs.norm_length : ∀ ps : Pairs, ps.norm.length = ps.length
  | .nil => rfl
  | .cons _ _ r => by simp [Pairs.norm, Pairs.length, Pairs.norm_length r]

mutual
theorem Val.norm_size : ∀ v : Val, v.norm.size = v.size
  | .bool _ | .byte _ | .i16 _ | .i32 _ | .i64 _ | .double _ | .str _ => rfl
  | .struct fs => by simp [Val.norm, Val.size, Fields.norm_size fs]
  | .map kt vt .nil => by simp [Val.norm, Val.size]
  | .map kt vt (.cons k v r) => by
    simp [Val.norm, Val.size, Pairs.size, Val.norm_size k, Val.norm_size v, Pairs.norm_size r]
  | .set t vs => by simp [Val.norm, Val.size, Vals.norm_size vs]
  | .list t vs => by simp [Val.norm, Val.size, Vals.norm_size vs]
theorem Fields.norm_size : ∀ fs : Fields, fs.norm.size = fs.size
  | .nil => rfl
  | .cons _ v r => by simp [Fields.norm, Fields.size, Val.norm_size v, Fields.norm_size r]
theorem Vals.norm_size : ∀ vs : Vals, vs.norm.size = vs.size
  | .nil => rfl
  | .cons v r => by simp [Vals.norm, Vals.size, Val.norm_size v, Vals.norm_size r]
theorem Pairs.norm_size : ∀ ps : Pairs, ps.norm.size = ps.size
  | .nil => rfl
  | .cons k v r => by simp [Pairs.norm, Pairs.size, Val.norm_size k, Val.norm_size v, Pairs.norm_size r]
end

namespace Cmp

/-! ## Writing -/

/-- The fields without the final stop byte, and the last id. -/
def encodeBody (last : Int) : Fields → Bytes
  | .nil => []
  | .cons id (.bool b) r => CompactSpec.fieldHeader last id.toInt (if b then 1 else 2) ++ encodeBody id.toInt r
  | .cons id v r =>
    CompactSpec.fieldHeader last id.toInt (CompactSpec.fieldCode v) ++ CompactSpec.encode v ++ encodeBody id.toInt r

def lastId (last : Int) : Fields → Int
  | .nil => last
  | .cons id _ r => lastId id.toInt r

theorem encodeBody_stop : ∀ (fs : Fields) (last : Int),
    CompactSpec.encodeFields last fs = encodeBody last fs ++ [0]
  | .nil, _ => rfl
  | .cons id v r, last => by
    cases v <;> simp [CompactSpec.encodeFields, encodeBody, encodeBody_stop r]

theorem encodeBody_cons (last : Int) (id : I16) (v : Val) (r : Fields) (h : ∀ b, v ≠ .bool b) :
    encodeBody last (.cons id v r) =
      CompactSpec.fieldHeader last id.toInt (CompactSpec.typeCode v.type) ++ CompactSpec.encode v ++ encodeBody id.toInt r := by
  cases v with
  | bool b => exact absurd rfl (h b)
  | _ => rfl

theorem encodeFields_cons (last : Int) (id : I16) (v : Val) (r : Fields) (h : ∀ b, v ≠ .bool b) :
    CompactSpec.encodeFields last (.cons id v r) =
      CompactSpec.fieldHeader last id.toInt (CompactSpec.typeCode v.type) ++ CompactSpec.encode v ++
        CompactSpec.encodeFields id.toInt r := by
  cases v with
  | bool b => exact absurd rfl (h b)
  | _ => rfl

theorem notBool_type {v : Val} (h : ∀ b, v ≠ .bool b) : v.type ≠ TT.BOOL := by
  cases v with
  | bool b => exact absurd rfl (h b)
  | _ => simp only [Val.type]; decide

theorem emits_nop (s : Cmp) : Emits nop s s [] := Emits.pure s

theorem emits_structBegin (n : Bytes) (s : Cmp) :
    Emits (writeStructBegin n) s { s with lastField := s.lastFieldId :: s.lastField, lastFieldId := 0 } [] := by
  intro inp out; simp [writeStructBegin]

theorem emits_structEnd (s : Cmp) (l : Int) :
    Emits writeStructEnd { s with lastField := s.lastFieldId :: s.lastField, lastFieldId := l } s [] := by
  intro inp out; simp [writeStructEnd]

mutual
theorem emits_val (f : Nat) : ∀ (v : Val) (s : Cmp), s.booleanField = none → v.WF →
    Emits (writeVal (compact f) v) s s (CompactSpec.encode v)
  | .bool b, s, h, _ => emits_bool b s h
  | .byte b, s, _, _ => emits_byte b s
  | .i16 v, s, _, _ => emits_i16 v s
  | .i32 v, s, _, _ => emits_i32 v s
  | .i64 v, s, _, _ => emits_i64 v s
  | .double v, s, _, _ => emits_double v s
  | .str b, s, _, h => emits_string b h s
  | .struct fs, s, hs, h => by
    simp only [writeVal]
    have hb := emits_fields f fs { s with lastField := s.lastFieldId :: s.lastField, lastFieldId := 0 } hs h
    refine (Emits.seq (emits_structBegin [] s) (Emits.seq hb
      (Emits.seq (emits_fieldStop _) (emits_structEnd s (lastId 0 fs))))).congr ?_
    simp [CompactSpec.encode, encodeBody_stop]
  | .map kt vt ps, s, hs, h => by
    obtain ⟨hk, hv, hl, hp⟩ := h
    simp only [writeVal]
    refine (Emits.seq (emits_mapBegin kt vt hk hv ps.length hl s)
      (Emits.seq (emits_pairs f kt vt ps s hs hp) (emits_nop s))).congr ?_
    simp [CompactSpec.encode]
  | .set t vs, s, hs, h => by
    obtain ⟨ht, hl, hv⟩ := h
    simp only [writeVal]
    refine (Emits.seq (emits_listBegin t ht vs.length hl s)
      (Emits.seq (emits_vals f t vs s hs hv) (emits_nop s))).congr ?_
    simp [CompactSpec.encode]
  | .list t vs, s, hs, h => by
    obtain ⟨ht, hl, hv⟩ := h
    simp only [writeVal]
    refine (Emits.seq (emits_listBegin t ht vs.length hl s)
      (Emits.seq (emits_vals f t vs s hs hv) (emits_nop s))).congr ?_
    simp [CompactSpec.encode]
theorem emits_fields (f : Nat) : ∀ (fs : Fields) (s : Cmp), s.booleanField = none → fs.WF →
    Emits (writeFields (compact f) fs) s { s with lastFieldId := lastId s.lastFieldId fs }
      (encodeBody s.lastFieldId fs)
  | .nil, s, _, _ => by
    simp only [writeFields]; exact Emits.pure s
  | .cons id (.bool b) r, s, hs, h => by
    obtain ⟨_, hr⟩ := h
    simp only [writeFields]
    exact (Emits.seq (emits_boolFieldBegin [] id s) (Emits.seq (emits_boolField [] id b s hs)
      (Emits.seq (emits_nop _) (emits_fields f r (s.atField id) hs hr)))).congr (by simp [encodeBody, atField])
  | .cons id (.byte b) r, s, hs, h =>
    emits_cons f id (.byte b) r s (by simp) h.1 (emits_val f _ _ hs h.1) (emits_fields f r (s.atField id) hs h.2)
  | .cons id (.i16 b) r, s, hs, h =>
    emits_cons f id (.i16 b) r s (by simp) h.1 (emits_val f _ _ hs h.1) (emits_fields f r (s.atField id) hs h.2)
  | .cons id (.i32 b) r, s, hs, h =>
    emits_cons f id (.i32 b) r s (by simp) h.1 (emits_val f _ _ hs h.1) (emits_fields f r (s.atField id) hs h.2)
  | .cons id (.i64 b) r, s, hs, h =>
    emits_cons f id (.i64 b) r s (by simp) h.1 (emits_val f _ _ hs h.1) (emits_fields f r (s.atField id) hs h.2)
  | .cons id (.double b) r, s, hs, h =>
    emits_cons f id (.double b) r s (by simp) h.1 (emits_val f _ _ hs h.1) (emits_fields f r (s.atField id) hs h.2)
  | .cons id (.str b) r, s, hs, h =>
    emits_cons f id (.str b) r s (by simp) h.1 (emits_val f _ _ hs h.1) (emits_fields f r (s.atField id) hs h.2)
  | .cons id (.struct b) r, s, hs, h =>
    emits_cons f id (.struct b) r s (by simp) h.1 (emits_val f _ _ hs h.1) (emits_fields f r (s.atField id) hs h.2)
  | .cons id (.map kt vt b) r, s, hs, h =>
    emits_cons f id (.map kt vt b) r s (by simp) h.1 (emits_val f _ _ hs h.1) (emits_fields f r (s.atField id) hs h.2)
  | .cons id (.set t b) r, s, hs, h =>
    emits_cons f id (.set t b) r s (by simp) h.1 (emits_val f _ _ hs h.1) (emits_fields f r (s.atField id) hs h.2)
  | .cons id (.list t b) r, s, hs, h =>
    emits_cons f id (.list t b) r s (by simp) h.1 (emits_val f _ _ hs h.1) (emits_fields f r (s.atField id) hs h.2)
theorem emits_cons (f : Nat) (id : I16) (v : Val) (r : Fields) (s : Cmp) (hb : ∀ b, v ≠ .bool b)
    (_ : v.WF) (hv : Emits (writeVal (compact f) v) (s.atField id) (s.atField id) (CompactSpec.encode v))
    (hr : Emits (writeFields (compact f) r) (s.atField id)
      { s.atField id with lastFieldId := lastId (s.atField id).lastFieldId r }
      (encodeBody (s.atField id).lastFieldId r)) :
    Emits (writeFields (compact f) (.cons id v r)) s { s with lastFieldId := lastId s.lastFieldId (.cons id v r) }
      (encodeBody s.lastFieldId (.cons id v r)) := by
  rw [encodeBody_cons _ _ _ _ hb]
  simp only [writeFields]
  exact (Emits.seq (emits_fieldBegin [] v.type v.type_wire (notBool_type hb) id s) (Emits.seq hv
    (Emits.seq (emits_nop _) hr))).congr (by simp [atField])
theorem emits_vals (f : Nat) : ∀ (t : Byte) (vs : Vals) (s : Cmp), s.booleanField = none → vs.WF t →
    Emits (writeVals (compact f) vs) s s (CompactSpec.encodeVals vs)
  | t, .nil, s, _, _ => by
    simp only [writeVals]; exact Emits.pure s
  | t, .cons v r, s, hs, h => by
    obtain ⟨_, hv, hr⟩ := h
    simp only [writeVals]
    exact Emits.seq (emits_val f v s hs hv) (emits_vals f t r s hs hr)
theorem emits_pairs (f : Nat) : ∀ (kt vt : Byte) (ps : Pairs) (s : Cmp), s.booleanField = none → ps.WF kt vt →
    Emits (writePairs (compact f) ps) s s (CompactSpec.encodePairs ps)
  | kt, vt, .nil, s, _, _ => by
    simp only [writePairs]; exact Emits.pure s
  | kt, vt, .cons k v r, s, hs, h => by
    obtain ⟨_, _, hk, hv, hr⟩ := h
    simp only [writePairs]
    refine (Emits.seq (emits_val f k s hs hk) (Emits.seq (emits_val f v s hs hv)
      (emits_pairs f kt vt r s hs hr))).congr ?_
    simp [CompactSpec.encodePairs]
end

/-! ## Reading -/

/-- No boolean field header is waiting for its `ReadBool`. -/
def Idle (s : Cmp) : Prop := s.boolValueIsNotNull = false

/-- What reading a value with structs `d` deep does to the bookkeeping. -/
def Kept (d : Nat) (s s' : Cmp) : Prop :=
  Idle s' ∧ (d = 0 → s'.lastField = s.lastField) ∧ (d ≤ 1 → s'.lastFieldId = s.lastFieldId)

theorem Kept.refl {d : Nat} {s : Cmp} (h : Idle s) : Kept d s s := ⟨h, fun _ => rfl, fun _ => rfl⟩

theorem Kept.trans {a b : Nat} {s s' s'' : Cmp} (h1 : Kept a s s') (h2 : Kept b s' s'') :
    Kept (max a b) s s'' :=
  ⟨h2.1, fun h => by rw [h2.2.1 (by omega), h1.2.1 (by omega)],
    fun h => by rw [h2.2.2 (by omega), h1.2.2 (by omega)]⟩

theorem reads_structBegin (s : Cmp) :
    Reads readStructBegin s { s with lastField := s.lastFieldId :: s.lastField, lastFieldId := 0 } [] [] := by
  intro rest out; simp [readStructBegin]

theorem reads_structEnd (s : Cmp) (top : Int) (r : List Int) (h : s.lastField = top :: r) :
    Runs readStructEnd s { s with lastFieldId := top } [] none := by
  intro rest out; simp [readStructEnd, h]

/-- Each struct read leaves one more entry on the stack. -/
def Grown (n : Nat) (s s' : Cmp) : Prop := ∃ l : List Int, s'.lastField = l ++ s.lastField ∧ l.length = n

theorem Grown.refl (s : Cmp) : Grown 0 s s := ⟨[], rfl, rfl⟩
theorem Grown.trans {m n : Nat} {s s' s'' : Cmp} (h1 : Grown m s s') (h2 : Grown n s' s'') : Grown (m + n) s s'' := by
  obtain ⟨a, ha, la⟩ := h1; obtain ⟨b, hb, lb⟩ := h2
  exact ⟨b ++ a, by rw [hb, ha, List.append_assoc], by rw [List.length_append]; omega⟩

variable (f : Nat) (hf : 10 ≤ f)
set_option linter.unusedSectionVars false
include hf

mutual
theorem dec_val : ∀ (v : Val) (s : Cmp), Idle s → v.WF → v.Tame →
    ∃ s', Dec (compact f) v.norm s s' (CompactSpec.encode v) ∧ Kept v.structDepth s s' ∧ Grown v.structs s s'
  | .bool b, s, h, _, _ => ⟨s, reads_bool b s h, Kept.refl h, Grown.refl s⟩
  | .byte b, s, h, _, _ => ⟨s, reads_byte b s, Kept.refl h, Grown.refl s⟩
  | .i16 b, s, h, _, _ => ⟨s, reads_i16 b s f hf, Kept.refl h, Grown.refl s⟩
  | .i32 b, s, h, _, _ => ⟨s, reads_i32 b s f hf, Kept.refl h, Grown.refl s⟩
  | .i64 b, s, h, _, _ => ⟨s, reads_i64 b s f hf, Kept.refl h, Grown.refl s⟩
  | .double b, s, h, _, _ => ⟨s, reads_double b s, Kept.refl h, Grown.refl s⟩
  | .str b, s, h, hw, _ => ⟨s, ⟨reads_string b hw s f hf, reads_binary b hw s f hf⟩, Kept.refl h, Grown.refl s⟩
  | .struct fs, s, h, hw, ht => by
    obtain ⟨s', hr, hi, hl, l, hg, hgl⟩ := dec_fields fs { s with lastField := s.lastFieldId :: s.lastField, lastFieldId := 0 }
      0 h (fun _ => rfl) hw ht
    have hne : ∃ top r, s'.lastField = top :: r := by
      rw [hg]; cases l <;> simp
    obtain ⟨top, r, htop⟩ := hne
    refine ⟨{ s' with lastFieldId := top }, ?_, ⟨hi, fun hd => ?_, fun hd => ?_⟩, ?_⟩
    · exact ⟨_, s', [], _, [], _, reads_structBegin s, hr, reads_structEnd s' top r htop, by simp [CompactSpec.encode]⟩
    · simp [Val.structDepth] at hd
    · have := hl (by simp only [Val.structDepth] at hd; omega)
      rw [htop] at this
      simp only [List.cons.injEq] at this
      exact this.1
    · exact ⟨l ++ [s.lastFieldId], by simp [hg], by simp [Val.structs, hgl]⟩
  | .map kt vt ps, s, h, hw, ht => by
    obtain ⟨hk, hv, hl, hp⟩ := hw
    cases ps with
    | nil =>
      exact ⟨s, ⟨s, s, CompactSpec.mapHeader kt vt 0, [], [], reads_mapBegin kt vt hk hv 0 hl s f hf, ⟨rfl, rfl⟩,
        Runs.pure s none, by simp [CompactSpec.encode, Pairs.length, CompactSpec.encodePairs]⟩, Kept.refl h, Grown.refl s⟩
    | cons k v r =>
      obtain ⟨s', hr, hkept⟩ := dec_pairs kt vt (.cons k v r) s h hp ht
      have hm := reads_mapBegin kt vt hk hv (Pairs.cons k v r).length hl s f hf
      rw [if_neg (by simp [Pairs.length])] at hm
      refine ⟨s', ⟨s, s', _, _, [], ?_, hr, Runs.pure s' none, by simp [CompactSpec.encode]; rfl⟩, hkept⟩
      rw [show (Pairs.cons k.norm v.norm r.norm).length = (Pairs.cons k v r).length from Pairs.norm_length (.cons k v r)]
      exact hm
  | .set t vs, s, h, ⟨ht, hl, hv⟩, htm => by
    obtain ⟨s', hr, hkept⟩ := dec_vals t vs s h hv htm
    refine ⟨s', ⟨s, s', CompactSpec.listHeader t vs.length, _, [], ?_, hr, Runs.pure s' none, by simp [CompactSpec.encode]⟩, hkept⟩
    rw [Vals.norm_length]
    exact reads_listBegin t ht vs.length hl s f hf
  | .list t vs, s, h, ⟨ht, hl, hv⟩, htm => by
    obtain ⟨s', hr, hkept⟩ := dec_vals t vs s h hv htm
    refine ⟨s', ⟨s, s', CompactSpec.listHeader t vs.length, _, [], ?_, hr, Runs.pure s' none, by simp [CompactSpec.encode]⟩, hkept⟩
    rw [Vals.norm_length]
    exact reads_listBegin t ht vs.length hl s f hf
theorem dec_fields : ∀ (fs : Fields) (s : Cmp) (last : Int), Idle s →
    (fs.startsShort last → s.lastFieldId = last) → fs.WF → fs.Tame →
    ∃ s', DecFields (compact f) fs.norm s s' (CompactSpec.encodeFields last fs) ∧
      Idle s' ∧ (fs.structDepth = 0 → s'.lastField = s.lastField) ∧ Grown fs.structs s s'
  | .nil, s, last, h, hl, hw, ht => ⟨s, ⟨0, reads_fieldStop s f⟩, h, fun _ => rfl, Grown.refl s⟩
  | .cons id v r, s, last, h, hl, hw, ht => by
    obtain ⟨hv, hr⟩ := hw
    obtain ⟨hfalse, htv, hdeep, htr⟩ := ht
    by_cases hb : ∃ b, v = .bool b
    · obtain ⟨b, rfl⟩ := hb
      have hb : b = true := by cases b; exact absurd rfl hfalse; rfl
      subst hb
      obtain ⟨s', hrr, hi, hk, hg⟩ := dec_fields r
        { s with boolValue := true, boolValueIsNotNull := false, lastFieldId := id.toInt } id.toInt rfl
        (fun _ => rfl) hr htr
      exact ⟨s', ⟨_, _, _, CompactSpec.fieldHeader last id.toInt 1, [], [], _,
        reads_fieldBegin TT.BOOL 1 (by omega) rfl last id s hl f hf, reads_boolField (s.readField id 1) rfl,
        Runs.pure _ none, hrr, by simp [CompactSpec.encodeFields]⟩, hi,
        fun hd => hk (by simp only [Fields.structDepth] at hd; omega),
        by simp only [Fields.structs, Val.structs, Nat.zero_add]; exact hg⟩
    · have hb' : ∀ b, v ≠ .bool b := fun b hc => hb ⟨b, hc⟩
      have hc := typeCode_wire v.type_wire
      have hne1 : CompactSpec.typeCode v.type ≠ 1 := by
        cases v with
        | bool b => exact absurd rfl (hb' b)
        | _ => simp only [Val.type]; decide
      obtain ⟨s1, hrv, hk1, hg1⟩ := dec_val v { s with lastFieldId := id.toInt } h hv htv
      obtain ⟨s', hrr, hi, hk, hg⟩ := dec_fields r s1 id.toInt hk1.1
        (fun hs => by
          by_cases hd : 2 ≤ v.structDepth
          · exact absurd hs (hdeep hd)
          · exact hk1.2.2 (by omega)) hr htr
      have hg1' : Grown v.structs s s1 := hg1
      refine ⟨s', ?_, hi, fun hd => ?_, hg1'.trans hg⟩
      · rw [encodeFields_cons _ _ _ _ hb']
        have hfb := reads_fieldBegin v.type (CompactSpec.typeCode v.type) ⟨hc.1, hc.2.1, hc.2.2.1⟩ hc.2.2.2 last id s hl f hf
        simp only [readField, hne1, if_false] at hfb
        rw [← Val.norm_type] at hfb
        exact ⟨_, s1, s1, _, _, [], _, hfb, hrv, Runs.pure s1 none, hrr, by simp [Val.norm_type]⟩
      · simp only [Fields.structDepth] at hd
        rw [hk (by omega)]
        exact hk1.2.1 (by omega)
theorem dec_vals : ∀ (t : Byte) (vs : Vals) (s : Cmp), Idle s → vs.WF t → vs.Tame →
    ∃ s', DecVals (compact f) t vs.norm s s' (CompactSpec.encodeVals vs) ∧
      Kept vs.structDepth s s' ∧ Grown vs.structs s s'
  | t, .nil, s, h, _, _ => ⟨s, ⟨rfl, rfl⟩, Kept.refl h, Grown.refl s⟩
  | t, .cons v r, s, h, hw, ht => by
    obtain ⟨rfl, hv, hr⟩ := hw
    obtain ⟨s1, h1, k1, g1⟩ := dec_val v s h hv ht.1
    obtain ⟨s2, h2, k2, g2⟩ := dec_vals v.type r s1 k1.1 hr ht.2
    exact ⟨s2, ⟨s1, _, _, Val.norm_type v, h1, h2, rfl⟩, k1.trans k2, g1.trans g2⟩
theorem dec_pairs : ∀ (kt vt : Byte) (ps : Pairs) (s : Cmp), Idle s → ps.WF kt vt → ps.Tame →
    ∃ s', DecPairs (compact f) kt vt ps.norm s s' (CompactSpec.encodePairs ps) ∧
      Kept ps.structDepth s s' ∧ Grown ps.structs s s'
  | kt, vt, .nil, s, h, _, _ => ⟨s, ⟨rfl, rfl⟩, Kept.refl h, Grown.refl s⟩
  | kt, vt, .cons k v r, s, h, hw, ht => by
    obtain ⟨rfl, rfl, hk, hv, hr⟩ := hw
    obtain ⟨s1, h1, k1, g1⟩ := dec_val k s h hk ht.1
    obtain ⟨s2, h2, k2, g2⟩ := dec_val v s1 k1.1 hv ht.2.1
    obtain ⟨s3, h3, k3, g3⟩ := dec_pairs k.type v.type r s2 k2.1 hr ht.2.2
    exact ⟨s3, ⟨s1, s2, _, _, _, Val.norm_type k, Val.norm_type v, h1, h2, h3, by simp [CompactSpec.encodePairs]⟩,
      k1.trans (k2.trans k3), g1.trans (g2.trans g3)⟩
end

theorem reads_val (v : Val) (s : Cmp) (fuel : Nat) (h : Idle s) (hw : v.WF) (ht : v.Tame) (hz : v.size ≤ fuel) :
    ∃ s', Reads (readVal (compact f) fuel v.type) s s' (CompactSpec.encode v) v.norm ∧ Kept v.structDepth s s' ∧
      Grown v.structs s s' := by
  obtain ⟨s', hd, hk⟩ := dec_val f hf v s h hw ht
  have := Dec.readVal v.norm fuel (by rw [Val.norm_size]; exact hz) hd
  rw [Val.norm_type] at this
  exact ⟨s', this, hk⟩

end Cmp
end Thrift
