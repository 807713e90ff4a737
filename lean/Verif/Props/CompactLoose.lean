import Verif.Lemmas.CompactExact
import Verif.Lemmas.KernelRfl
import Verif.Props.CompactForms
/-!
# Exactly what the compact reader takes for what (C194)
-/

namespace Thrift
open CompactProtocol CompactSpec

/-- C194 in full: what the reader of a value accepts is a permitted encoding of a
well-formed value, and it is read as that value (types of empty maps apart). -/
def C194_statement : Prop :=
  ∀ (s : Cmp) (f fuel : Nat) (t : TType) (inp : Bytes) (v : Val) (s' : Cmp) (rest : Bytes), s.boolValueIsNotNull = false →
    (readVal (compact f) fuel t).run memory s inp = (.ok ((v, none), s'), rest) →
      ∃ w bs, w.WF ∧ w.norm = v ∧ Denotes all w bs ∧ inp = bs ++ rest

/-- The byte 7 is read as `false`, which is 2 or 0. -/
theorem C194_violated : ¬ C194_statement := by
  intro h
  obtain ⟨w, bs, _, h2, h3, h4⟩ := h Cmp.new 10 1 TT.BOOL [7] (.bool false) Cmp.new [] rfl rfl
  cases w with
  | bool b =>
    rw [List.append_nil] at h4
    subst h4
    simp [Denotes] at h3
  | map kt vt ps => cases ps <;> simp [Val.norm] at h2
  | _ => simp [Val.norm] at h2

/-- A byte whose upper half is not 0 ends a struct. -/
theorem C194_stop_violated : (readVal (compact 10) 3 TT.STRUCT).run memory Cmp.new [0x70, 9] =
    (.ok ((.struct .nil, none), ⟨[0], 0, none, false, false⟩), [9]) := by rfl

/-- A string of 5 bytes of which the input has one is filled with zeros. -/
theorem C194_string_violated : (readVal (compact 10) 3 TT.STRING).run memory Cmp.new [5, 65] =
    (.ok ((.str [65, 0, 0, 0, 0], none), Cmp.new), []) := by rfl

/-- A list of -1 elements is empty. -/
theorem C194_negative_violated : (readVal (compact 10) 3 TT.LIST).run memory Cmp.new [0xf5, 0xff, 0xff, 0xff, 0xff, 0x0f, 9] =
    (.ok ((.list TT.I32 .nil, none), Cmp.new), [9]) := by rfl

/-- 65536 as a 16 bit number is 0. -/
theorem C194_cut_violated : (readVal (compact 10) 3 TT.I16).run memory Cmp.new [0x80, 0x80, 0x08] =
    (.ok ((.i16 0, none), Cmp.new), []) := by rfl

/-- An empty list may have elements of no type. -/
theorem C194_type_violated : (readVal (compact 10) 3 TT.LIST).run memory Cmp.new [0x00] =
    (.ok ((.list 0 .nil, none), Cmp.new), []) ∧ ¬ (Val.list 0 .nil).WF := by
  refine ⟨rfl, fun h => ?_⟩
  simp only [Val.WF] at h
  exact absurd h.1 (by decide)

/-- The second field has the id 2, and is read as 6. -/
theorem C194_id_violated :
    Denotes all (.struct (.cons 1 (.struct (.cons 5 (.struct .nil) .nil)) (.cons 2 (.i32 1) .nil))) [0x1c, 0x5c, 0, 0, 0x15, 2, 0] ∧
    (readVal (compact 10) 5 TT.STRUCT).run memory Cmp.new [0x1c, 0x5c, 0, 0, 0x15, 2, 0] =
      (.ok ((.struct (.cons 1 (.struct (.cons 5 (.struct .nil) .nil)) (.cons 6 (.i32 1) .nil)), none), ⟨[5, 1, 0], 5, none, false, false⟩), []) := by
  refine ⟨?_, by kernel_rfl⟩
  have h := denotes_all (.struct (.cons 1 (.struct (.cons 5 (.struct .nil) .nil)) (.cons 2 (.i32 1) .nil)))
  have e : encode (.struct (.cons 1 (.struct (.cons 5 (.struct .nil) .nil)) (.cons 2 (.i32 1) .nil))) = [0x1c, 0x5c, 0, 0, 0x15, 2, 0] := by
    simp [encode, encodeFields, fieldHeader, fieldCode, typeCode, leb128, zigzag, Val.type]
  rw [e] at h
  exact h

/-! ## The fuel -/

mutual
theorem Val.need_le : ∀ v : Val, v.need ≤ v.size
  | .struct fs => by
    have := Fields.need_le fs
    have := Fields.length_lt_size fs
    simp only [Val.need, Val.size]; omega
  | .map _ _ ps => by have := Pairs.need_le ps; simp only [Val.need, Val.size]; omega
  | .set _ vs => by have := Vals.need_le vs; simp only [Val.need, Val.size]; omega
  | .list _ vs => by have := Vals.need_le vs; simp only [Val.need, Val.size]; omega
  | .bool _ => Nat.le_refl _
  | .byte _ => Nat.le_refl _
  | .i16 _ => Nat.le_refl _
  | .i32 _ => Nat.le_refl _
  | .i64 _ => Nat.le_refl _
  | .double _ => Nat.le_refl _
  | .str _ => Nat.le_refl _
theorem Fields.need_le : ∀ fs : Fields, fs.need ≤ fs.size
  | .nil => Nat.zero_le _
  | .cons _ v r => by
    have := Val.need_le v
    have := Fields.need_le r
    simp only [Fields.need, Fields.size]; omega
theorem Fields.length_lt_size : ∀ fs : Fields, fs.length + 1 ≤ fs.size
  | .nil => Nat.le_refl _
  | .cons _ v r => by
    have := Fields.length_lt_size r
    have : 1 ≤ v.size := by cases v <;> simp [Val.size]
    simp only [Fields.length, Fields.size]; omega
theorem Vals.need_le : ∀ vs : Vals, vs.need ≤ vs.size
  | .nil => Nat.le_refl _
  | .cons v r => by
    have := Val.need_le v
    have := Vals.need_le r
    simp only [Vals.need, Vals.size]; omega
theorem Pairs.need_le : ∀ ps : Pairs, ps.need ≤ ps.size
  | .nil => Nat.le_refl _
  | .cons k v r => by
    have := Val.need_le k
    have := Val.need_le v
    have := Pairs.need_le r
    simp only [Pairs.need, Pairs.size]; omega
end

/-! ## Values -/

/-- Exactly which inputs the reader accepts, as which values, where it stops and what
it remembers afterwards, for every fuel. -/
theorem C194_fuel_partial (s : Cmp) (hs : s.boolValueIsNotNull = false) (f : Nat) (inp : Bytes) (hf : inp.length ≤ f) (fuel : Nat) (t : TType)
    (v : Val) (m' : Memo) (rest : Bytes) :
    (∃ s', (readVal (compact f) fuel t).run memory s inp = (.ok ((v, none), s'), rest) ∧ s'.boolValueIsNotNull = false ∧
      s'.lastField = m'.begun ∧ s'.lastFieldId = m'.last) ↔
      v.type = t ∧ v.need ≤ fuel ∧ Takes ⟨s.lastField, s.lastFieldId⟩ inp v m' rest := by
  obtain ⟨h1, h2⟩ := Cmp.exact_val (f := f) fuel t s hs inp hf
  constructor
  · rintro ⟨s', hr, hi, hb, hl⟩
    have := (h1 _ _ _ hr).2.2
    rw [show Cmp.memo s' = m' by unfold Cmp.memo; rw [hb, hl]] at this
    exact this
  · intro h
    obtain ⟨s', hr, rfl⟩ := h2 _ _ _ h
    exact ⟨s', hr, (h1 _ _ _ hr).1, rfl, rfl⟩

/-- No success leaves a boolean pending, so that the equivalence is about all of them. -/
theorem C194_idle (s : Cmp) (hs : s.boolValueIsNotNull = false) (f : Nat) (inp : Bytes) (hf : inp.length ≤ f) (fuel : Nat) (t : TType)
    (v : Val) (s' : Cmp) (rest : Bytes) (h : (readVal (compact f) fuel t).run memory s inp = (.ok ((v, none), s'), rest)) :
    s'.boolValueIsNotNull = false :=
  ((Cmp.exact_val (f := f) fuel t s hs inp hf).1 _ _ _ h).1

/-- Exactly which inputs the reader accepts as which values, and where it stops. -/
theorem C194_partial (s : Cmp) (hs : s.boolValueIsNotNull = false) (t : TType) (inp : Bytes) (v : Val) (rest : Bytes) :
    (∃ f fuel s', inp.length ≤ f ∧ (readVal (compact f) fuel t).run memory s inp = (.ok ((v, none), s'), rest)) ↔
      v.type = t ∧ ∃ m', Takes ⟨s.lastField, s.lastFieldId⟩ inp v m' rest := by
  constructor
  · rintro ⟨f, fuel, s', hf, h⟩
    obtain ⟨h1, _, h2⟩ := (C194_fuel_partial s hs f inp hf fuel t v ⟨s'.lastField, s'.lastFieldId⟩ rest).1
      ⟨s', h, C194_idle s hs f inp hf fuel t v s' rest h, rfl, rfl⟩
    exact ⟨h1, _, h2⟩
  · rintro ⟨h1, m', h2⟩
    obtain ⟨s', h, _⟩ := (C194_fuel_partial s hs inp.length inp (Nat.le_refl _) v.size t v m' rest).2 ⟨h1, v.need_le, h2⟩
    exact ⟨_, _, s', Nat.le_refl _, h⟩

/-- For a new protocol. -/
theorem C194_new (t : TType) (inp : Bytes) (v : Val) (rest : Bytes) :
    (∃ f fuel s', inp.length ≤ f ∧ (readVal (compact f) fuel t).run memory Cmp.new inp = (.ok ((v, none), s'), rest)) ↔
      v.type = t ∧ ∃ m', Takes ⟨[], 0⟩ inp v m' rest := C194_partial Cmp.new rfl t inp v rest

/-! A struct with field 1 being `true` and a field 3 with a list of -1 elements. -/
example : ∃ m', Takes ⟨[], 0⟩ [0x11, 0x29, 0xf5, 0xff, 0xff, 0xff, 0xff, 0x0f, 0x70, 9]
    (.struct (.cons 1 (.bool true) (.cons 3 (.list TT.I32 .nil) .nil))) m' [9] :=
  ((C194_new TT.STRUCT _ _ _).1 ⟨10, 5, ⟨[0], 0, none, true, false⟩, by decide, by kernel_rfl⟩).2

/-- An input is taken for one value of a type at most. -/
theorem C194_determined (m : Memo) (inp : Bytes) (v w : Val) (a b : Memo) (rest rest' : Bytes) (ht : v.type = w.type)
    (h1 : Takes m inp v a rest) (h2 : Takes m inp w b rest') : v = w ∧ a = b ∧ rest = rest' := by
  have hs : (⟨m.begun, m.last, none, false, false⟩ : Cmp).boolValueIsNotNull = false := rfl
  obtain ⟨s₁, e1, _, hb1, hl1⟩ := (C194_fuel_partial _ hs inp.length inp (Nat.le_refl _) (v.need + w.need) v.type v a rest).2 ⟨rfl, by omega, h1⟩
  obtain ⟨s₂, e2, _, hb2, hl2⟩ := (C194_fuel_partial _ hs inp.length inp (Nat.le_refl _) (v.need + w.need) v.type w b rest').2 ⟨ht.symm, by omega, h2⟩
  have := e1.symm.trans e2
  simp only [Prod.mk.injEq, Res.ok.injEq, and_true] at this
  obtain ⟨⟨rfl, rfl⟩, rfl⟩ := this
  refine ⟨rfl, ?_, rfl⟩
  cases a; cases b
  simp only at hb1 hb2 hl1 hl2
  rw [← hb1, ← hl1, hb2, hl2]

/-- What C188 says is read is among what is taken. -/
theorem C194_careful (v : Val) (bs rest : Bytes) (hv : v.WF) (hd : Denotes careful v bs) (m : Memo) :
    ∃ m', Takes m (bs ++ rest) v.norm m' rest := by
  obtain ⟨s', h⟩ := C188_partial v bs (bs ++ rest).length v.size ⟨m.begun, m.last, none, false, false⟩ hv hd (by simp) (Nat.le_refl _) rfl
  exact ((C194_partial ⟨m.begun, m.last, none, false, false⟩ rfl v.type (bs ++ rest) v.norm rest).1
    ⟨_, _, s', Nat.le_refl _, h rest⟩).2

/-! ## What no input gives -/

mutual
/-- Well-formed, but for the types of empty containers, and without a field that is
`false`. -/
def Taken : Val → Prop
  | .str b => b.length < 2 ^ 31
  | .struct fs => TakenFields fs
  | .map kt vt ps => ps.length < 2 ^ 31 ∧ TakenPairs kt vt ps
  | .set t vs => vs.length < 2 ^ 31 ∧ (IsWireType t ∨ (t = 0 ∧ vs = .nil)) ∧ TakenVals t vs
  | .list t vs => vs.length < 2 ^ 31 ∧ (IsWireType t ∨ (t = 0 ∧ vs = .nil)) ∧ TakenVals t vs
  | _ => True
def TakenFields : Fields → Prop
  | .nil => True
  | .cons _ v r => v ≠ .bool false ∧ Taken v ∧ TakenFields r
def TakenVals (t : Byte) : Vals → Prop
  | .nil => True
  | .cons v r => v.type = t ∧ Taken v ∧ TakenVals t r
def TakenPairs (kt vt : Byte) : Pairs → Prop
  | .nil => True
  | .cons k v r => k.type = kt ∧ v.type = vt ∧ Taken k ∧ Taken v ∧ TakenPairs kt vt r
end

theorem count_lt (n : Nat) : count n < 2 ^ 31 := by
  unfold count; split
  · assumption
  · decide

theorem high_small {b : Byte} : high b < 2 ^ 31 := by
  have := b.isLt; unfold high; omega

theorem listStart_lt {inp : Bytes} {t : Byte} {k : Nat} {rest : Bytes} (h : ListStart inp t k rest) : k < 2 ^ 31 := by
  obtain ⟨b, mid, _, _, ⟨_, rfl, _⟩ | ⟨_, n, _, rfl⟩⟩ := h
  · exact high_small
  · exact count_lt n

theorem type_ne_zero (v : Val) : v.type ≠ 0 := by cases v <;> simp [Val.type]

theorem listStart_type {inp : Bytes} {t : Byte} {vs : Vals} {mid rest : Bytes} {m m' : Memo} (h : ListStart inp t vs.length mid)
    (hv : TakesVals m mid t vs m' rest) : IsWireType t ∨ (t = 0 ∧ vs = .nil) := by
  obtain ⟨b, _, _, ⟨_, h0⟩ | hc, _⟩ := h
  · right
    refine ⟨h0, ?_⟩
    cases vs with
    | nil => rfl
    | cons v r =>
      simp only [TakesVals] at hv
      exact absurd (hv.1.trans h0) (type_ne_zero v)
  · exact .inl hc.1

mutual
theorem takes_taken : ∀ (v : Val) (m : Memo) (inp : Bytes) (m' : Memo) (rest : Bytes), Takes m inp v m' rest → Taken v
  | .bool _, _, _, _, _, _ => by simp only [Taken]
  | .byte _, _, _, _, _, _ => by simp only [Taken]
  | .i16 _, _, _, _, _, _ => by simp only [Taken]
  | .i32 _, _, _, _, _, _ => by simp only [Taken]
  | .i64 _, _, _, _, _, _ => by simp only [Taken]
  | .double _, _, _, _, _, _ => by simp only [Taken]
  | .str b, m, inp, m', rest, h => by
    simp only [Takes] at h
    obtain ⟨_, n, mid, _, h1, h2, _⟩ := h
    simp only [Taken]; omega
  | .struct fs, m, inp, m', rest, h => by
    simp only [Takes] at h
    obtain ⟨m₁, top, h1, _⟩ := h
    simp only [Taken]
    exact takes_takenFields fs _ _ _ _ h1
  | .map kt vt ps, m, inp, m', rest, h => by
    simp only [Takes] at h
    obtain ⟨mid, ⟨n, _, _, h1, _⟩, h2⟩ := h
    simp only [Taken]
    exact ⟨h1 ▸ count_lt n, takes_takenPairs ps kt vt _ _ _ _ h2⟩
  | .set t vs, m, inp, m', rest, h => by
    simp only [Takes] at h
    obtain ⟨mid, h1, h2⟩ := h
    simp only [Taken]
    exact ⟨listStart_lt h1, listStart_type h1 h2, takes_takenVals vs t _ _ _ _ h2⟩
  | .list t vs, m, inp, m', rest, h => by
    simp only [Takes] at h
    obtain ⟨mid, h1, h2⟩ := h
    simp only [Taken]
    exact ⟨listStart_lt h1, listStart_type h1 h2, takes_takenVals vs t _ _ _ _ h2⟩
theorem takes_takenFields : ∀ (fs : Fields) (m : Memo) (inp : Bytes) (m' : Memo) (rest : Bytes), TakesFields m inp fs m' rest → TakenFields fs
  | .nil, _, _, _, _, _ => by simp only [TakenFields]
  | .cons id v r, m, inp, m', rest, h => by
    simp only [TakesFields] at h
    obtain ⟨c, mid, mid', m₁, _, _, h1, h2⟩ := h
    simp only [TakenFields]
    refine ⟨?_, ?_, takes_takenFields r _ _ _ _ h2⟩
    · rcases h1 with ⟨rfl, _⟩ | ⟨h3, _⟩
      · simp
      · rintro rfl; exact h3 rfl
    · rcases h1 with ⟨rfl, _⟩ | ⟨_, h3⟩
      · simp only [Taken]
      · exact takes_taken v _ _ _ _ h3
theorem takes_takenVals : ∀ (vs : Vals) (t : Byte) (m : Memo) (inp : Bytes) (m' : Memo) (rest : Bytes), TakesVals m inp t vs m' rest → TakenVals t vs
  | .nil, _, _, _, _, _, _ => by simp only [TakenVals]
  | .cons v r, t, m, inp, m', rest, h => by
    simp only [TakesVals] at h
    obtain ⟨h1, m₁, mid, h2, h3⟩ := h
    simp only [TakenVals]
    exact ⟨h1, takes_taken v _ _ _ _ h2, takes_takenVals r t _ _ _ _ h3⟩
theorem takes_takenPairs : ∀ (ps : Pairs) (kt vt : Byte) (m : Memo) (inp : Bytes) (m' : Memo) (rest : Bytes), TakesPairs m inp kt vt ps m' rest →
    TakenPairs kt vt ps
  | .nil, _, _, _, _, _, _, _ => by simp only [TakenPairs]
  | .cons k v r, kt, vt, m, inp, m', rest, h => by
    simp only [TakesPairs] at h
    obtain ⟨h0, h1, m₁, mid, m₂, mid₂, h2, h3, h4⟩ := h
    simp only [TakenPairs]
    exact ⟨h0, h1, takes_taken k _ _ _ _ h2, takes_taken v _ _ _ _ h3, takes_takenPairs r kt vt _ _ _ _ h4⟩
end

/-- Whatever the input, no struct that is read has a field that is `false`, no length
is out of range, all elements have the type of the header, and containers of elements of
no type are empty. -/
theorem C194_taken (s : Cmp) (hs : s.boolValueIsNotNull = false) (f fuel : Nat) (t : TType) (inp : Bytes) (hf : inp.length ≤ f) (v : Val) (s' : Cmp)
    (rest : Bytes) (h : (readVal (compact f) fuel t).run memory s inp = (.ok ((v, none), s'), rest)) : Taken v := by
  obtain ⟨_, m', h2⟩ := (C194_partial s hs t inp v rest).1 ⟨f, fuel, s', hf, h⟩
  exact takes_taken v _ _ _ _ h2

example : Taken (.struct .nil) := C194_taken Cmp.new rfl 10 3 TT.STRUCT [0x70, 9] (by decide) _ _ _ C194_stop_violated

/-! ## Message headers -/

/-- A message header: the id, the version with the type, the sequence number and the
name.  Of the type two bits are looked at. -/
def TakesMessage (inp : Bytes) (name : Bytes) (typeId seqid : I32) (rest : Bytes) : Prop :=
  ∃ b mid n mid', inp = 0x82 :: b :: mid ∧ b.toNat % 32 = 1 ∧ typeId = BitVec.ofNat 32 (b.toNat / 32 % 4) ∧ Num mid n mid' ∧
    seqid = BitVec.ofNat 32 n ∧ TakesString mid' name rest

theorem versionByte : ∀ b : Byte, (b &&& VERSION_MASK = VERSION ↔ b.toNat % 32 = 1) ∧
    ((b >>> 5) &&& 0x03).setWidth 32 = BitVec.ofNat 32 (b.toNat / 32 % 4) := by decide +kernel

/-- Exactly which bytes are taken for which message header. -/
theorem C194_message (s : Cmp) (f : Nat) (inp : Bytes) (hf : inp.length ≤ f) (name : Bytes) (typeId seqid : I32) (s' : Cmp) (rest : Bytes) :
    (readMessageBegin f).run memory s inp = (.ok (((name, typeId, seqid), none), s'), rest) ↔
      s' = s ∧ TakesMessage inp name typeId seqid rest := by
  have body : ∀ (b : Byte) (mid : Bytes), mid.length ≤ f → (Cmp.Gives (readVarint32 f >>= fun r => if r.2.isSome then
        Pure.pure ((([] : Bytes), (((b >>> 5) &&& 0x03).setWidth 32 : TMessageType), r.1), protocolFromOsError r.2) else
          readString f >>= fun x => Pure.pure ((x.1, (((b >>> 5) &&& 0x03).setWidth 32 : TMessageType), r.1), x.2)) s mid (name, typeId, seqid) s' rest ↔
      s' = s ∧ typeId = BitVec.ofNat 32 (b.toNat / 32 % 4) ∧ ∃ n mid', Num mid n mid' ∧ seqid = BitVec.ofNat 32 n ∧ TakesString mid' name rest) := by
    intro b mid hm
    rw [(versionByte b).2]
    refine (Cmp.Gives.check (m := readVarint32 f) (bad := fun r => (([] : Bytes), (BitVec.ofNat 32 (b.toNat / 32 % 4) : TMessageType), r.1))
      (k := fun r => readString f >>= fun x => Pure.pure ((x.1, (BitVec.ofNat 32 (b.toNat / 32 % 4) : TMessageType), r.1), x.2)) Cmp.isSome_wrap).trans ?_
    constructor
    · rintro ⟨q, s₁, mid', h1, h2⟩
      obtain ⟨rfl, n, hn, rfl⟩ := (Cmp.gives_num32 hm).1 h1
      have hl := Cmp.Num.length hn
      obtain ⟨x, h3, e⟩ := (Cmp.Gives.map (g := fun x => (x, (BitVec.ofNat 32 (b.toNat / 32 % 4) : TMessageType), BitVec.ofNat 32 n))).1 h2
      obtain ⟨rfl, h4⟩ := (Cmp.gives_string (by omega)).1 h3
      simp only [Prod.mk.injEq] at e
      obtain ⟨rfl, rfl, rfl⟩ := e
      exact ⟨rfl, rfl, n, mid', hn, rfl, h4⟩
    · rintro ⟨rfl, rfl, n, mid', hn, rfl, h4⟩
      have hl := Cmp.Num.length hn
      exact ⟨_, s', mid', (Cmp.gives_num32 hm).2 ⟨rfl, n, hn, rfl⟩,
        (Cmp.Gives.map (g := fun x => (x, (BitVec.ofNat 32 (b.toNat / 32 % 4) : TMessageType), BitVec.ofNat 32 n))).2
          ⟨name, (Cmp.gives_string (by omega)).2 ⟨rfl, h4⟩, rfl⟩⟩
  have none₁ : ∀ s : Cmp, ∃ e, readByte.run memory s [] = (.ok ((0, some e), s), []) := by
    intro s
    unfold readByte
    rw [P.run_bind, P.run_readAll, memory_readAll]
    have := Cmp.isSome_wrap (some readAllErr) rfl
    obtain ⟨e, he⟩ := Option.isSome_iff_exists.1 this
    exact ⟨e, by simp [he]⟩
  unfold readMessageBegin
  rw [P.run_bind]
  cases inp with
  | nil =>
    obtain ⟨e, he⟩ := none₁ s
    rw [he]
    constructor
    · intro h; cases h
    · rintro ⟨_, b, mid, n, mid', h, _⟩; cases h
  | cons a inp =>
    have h1 : readByte.run memory s (a :: inp) = (.ok ((a, none), s), inp) := Cmp.gives_byte.2 ⟨rfl, rfl⟩
    rw [h1]
    simp only [andThen_ok]
    by_cases ha : a = PROTOCOL_ID
    · subst ha
      rw [if_neg (by simp), P.run_bind]
      cases inp with
      | nil =>
        obtain ⟨e, he⟩ := none₁ s
        rw [he]
        constructor
        · intro h
          simp only [andThen_ok, Option.isSome_some, if_true, P.run_pure, Prod.mk.injEq, Res.ok.injEq] at h
          exact absurd h.1.1.2 (by simp)
        · rintro ⟨_, b, mid, n, mid', h, _⟩; cases h
      | cons b inp =>
        have h1 : readByte.run memory s (b :: inp) = (.ok ((b, none), s), inp) := Cmp.gives_byte.2 ⟨rfl, rfl⟩
        rw [h1]
        simp only [andThen_ok, Option.isSome_none, Bool.false_eq_true, if_false]
        by_cases hv : b &&& VERSION_MASK = VERSION
        · rw [if_neg (not_not_intro hv)]
          refine (body b inp (by simp at hf; omega)).trans ?_
          constructor
          · rintro ⟨rfl, rfl, n, mid', hn, rfl, h4⟩
            exact ⟨rfl, b, inp, n, mid', rfl, (versionByte b).1.1 hv, rfl, hn, rfl, h4⟩
          · rintro ⟨rfl, b', mid, n, mid', e, _, rfl, hn, rfl, h4⟩
            simp only [List.cons.injEq, PROTOCOL_ID] at e
            obtain ⟨_, rfl, rfl⟩ := e
            exact ⟨rfl, rfl, n, mid', hn, rfl, h4⟩
        · rw [if_pos hv]
          constructor
          · intro h
            simp only [P.run_pure, Prod.mk.injEq, Res.ok.injEq] at h
            exact absurd h.1.1.2 (by simp)
          · rintro ⟨rfl, b', mid, n, mid', e, h5, _⟩
            simp only [List.cons.injEq, PROTOCOL_ID] at e
            obtain ⟨_, rfl, rfl⟩ := e
            exact absurd ((versionByte b).1.2 h5) hv
    · rw [if_pos ha]
      constructor
      · intro h
        simp only [P.run_pure, Prod.mk.injEq, Res.ok.injEq] at h
        exact absurd h.1.1.2 (by simp)
      · rintro ⟨rfl, b', mid, n, mid', e, h5, _⟩
        simp only [List.cons.injEq] at e
        exact absurd e.1 ha

/-! A header of the unknown type 7 with a name cut off, taken for type 3. -/
example : (readMessageBegin 10).run memory Cmp.new [0x82, 0xe1, 5, 3, 65] = (.ok ((([65, 0, 0], 3, 5), none), Cmp.new), []) := by rfl

end Thrift
