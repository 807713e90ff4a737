import Verif.Lemmas.JsonValue
import Verif.Lemmas.Decode
/-!
# Reading back documents of the tagged JSON protocol
-/

namespace Thrift

namespace JsonR
open JsonProtocol JsonSpec JsonW

variable {τ : Type} {α β : Type} {E : JsonEnv τ}

/-! ## From programs to runs -/

/-- The object `s` lies over transport state `t`, with these contexts and this text
in its buffer, and no error is pending as long as the transport has more to give. -/
structure St (E : JsonEnv τ) (t : τ) (dc pc : List JCtx) (b : Bytes) (s : Json τ) : Prop where
  parse : s.parse = pc
  dump : s.dump = dc
  buf : s.buf = b
  t : s.t = t
  err : s.err = none ∨ Dry E s.t

theorem Gets.runs {t : τ} {m : P (Json τ) α} {pc b a pc' b'} (h : Gets E t m pc b a pc' b') {dc} {s : Json τ} (hs : St E t dc pc b s) :
    ∃ s', St E t dc pc' b' s' ∧ Runs m s s' [] a := by
  obtain ⟨p, d, bf, er, tt⟩ := s
  obtain ⟨rfl, rfl, rfl, rfl, her⟩ := hs
  obtain ⟨er', he', h'⟩ := h d er
  refine ⟨⟨pc', d, b', er', tt⟩, ⟨rfl, rfl, rfl, rfl, ?_⟩, fun rest out => ?_⟩
  · rcases he' with rfl | he'
    · exact her
    · exact Or.inr he'
  · simp only [P.run, h', Prog.run, List.nil_append]

/-- The tagged protocol with strings in place of binary data. -/
def textual (E : JsonEnv τ) : Proto (Json τ) := { tjson E with readBinary := readString E }

/-! ## What follows -/

theorem Follows.of {t : τ} {d : Byte} {r : Bytes} (hd : Delim d) (h : 2 ≤ r.length ∨ Dry E t) : Follows E t 3 (d :: r) :=
  ⟨⟨d, r, rfl, hd⟩, h.imp_left fun h => by simp; omega⟩

theorem Follows.one {t : τ} {k} {rest : Bytes} (h : Follows E t k rest) : 1 ≤ rest.length := by
  obtain ⟨d, r, rfl, _⟩ := h.delim
  simp

theorem Follows.weaken {t : τ} {rest : Bytes} (h : Follows E t 3 rest) : Follows E t 1 rest :=
  ⟨h.delim, Or.inl h.one⟩

theorem doubleText_ne (hL : Lawful L) (v : F64) : doubleText L v ≠ [] := by
  unfold doubleText
  split
  · exact number_ne_nil (hL.format_number v (by assumption))
  · split
    · decide
    · split <;> decide

theorem text_pos (hL : Lawful L) (v : Val) (hv : Readable v) : 1 ≤ (text L v).length := by
  have pos : ∀ n : Int, 1 ≤ (decimal n).length := fun n => List.length_pos_iff.2 (number_ne_nil (decimal_number n))
  cases v with
  | bool b => cases b <;> simp [text, ascii]
  | byte _ => exact pos _
  | i16 _ => exact pos _
  | i32 _ => exact pos _
  | i64 _ => exact pos _
  | double x => rw [text]; exact List.length_pos_iff.2 (doubleText_ne hL x)
  | str b =>
    rw [text]
    obtain ⟨body, hq, _⟩ := hL.quote_string b hv
    rw [hq]; simp
  | struct _ => simp [text]
  | map _ _ _ => simp [text]
  | set _ _ => simp [text]
  | list _ _ => simp [text]

theorem follows_elements (hL : Lawful E.L) {t : τ} {rest : Bytes} (h : Follows E t 3 rest) :
    ∀ vs : Vals, ReadableV vs → Follows E t 3 (elements E.L vs ++ 93 :: rest)
  | .nil, _ => Follows.of (Or.inr (Or.inr (Or.inl rfl))) (h.ready.imp_left fun h => by omega)
  | .cons v r, hv => by
    have := text_pos hL v hv.1
    simp only [elements, List.cons_append]
    exact Follows.of (Or.inl rfl) (Or.inl (by simp; omega))

theorem follows_pairs (hL : Lawful E.L) {t : τ} {rest : Bytes} (h : Follows E t 3 rest) :
    ∀ ps : Pairs, ReadableP ps → Follows E t 3 (pairs E.L ps ++ 93 :: rest)
  | .nil, _ => Follows.of (Or.inr (Or.inr (Or.inl rfl))) (h.ready.imp_left fun h => by omega)
  | .cons k v r, hv => by
    have := text_pos hL k hv.1
    simp only [pairs, List.cons_append]
    exact Follows.of (Or.inl rfl) (Or.inl (by simp; omega))

/-! ## Headers -/

theorem utf8_plain : ∀ s : Bytes, (∀ b ∈ s, IsPlain b) → Utf8 s
  | [], _ => .nil
  | a :: r, h => by
    refine .one a r ?_ (utf8_plain r fun b hb => h b (by simp [hb]))
    rcases h a (by simp) with h | h | h | h
    · have : 48 ≤ a.toNat ∧ a.toNat ≤ 57 := h
      omega
    · omega
    · omega
    · subst h; decide

theorem gets_plain (hL : Lawful E.L) {t : τ} {c pc} {rest : Bytes} (s : Bytes) (hs : ∀ b ∈ s, IsPlain b)
    (hf : s.length + 2 < E.fuel) (h : Follows E t 3 rest) :
    Gets E t (readString E) (c :: pc) (sepOf c ++ (inQuotes s ++ rest)) (s, none) (JCtx.next c :: pc) rest := by
  have := gets_string (c := c) (pc := pc) hL (utf8_plain s hs) (by rw [hL.quote_plain s hs]; simp; omega) ⟨h.delim, h.ready.imp_left fun h => by omega⟩
  rwa [hL.quote_plain s hs] at this

theorem stringToTypeId_name {t : Byte} (h : IsWireType t) (h16 : t ≠ TT.I16) : TJsonProtocol.stringToTypeId (typeName t) = t := by
  revert h16
  simp only [IsWireType, List.mem_cons, List.not_mem_nil, or_false] at h
  rcases h with rfl | rfl | rfl | rfl | rfl | rfl | rfl | rfl | rfl | rfl | rfl <;> decide

theorem typeName_len (t : Byte) : (typeName t).length ≤ 3 := by
  unfold typeName
  split <;> decide

theorem gets_sized {t : τ} {c pc} {rest : Bytes} (n : Nat) (hn : n < 2 ^ 31) (hf : (decimal n).length < E.fuel) (h : Follows E t 3 rest) :
    Gets E t (readI64 E) (c :: pc) (sepOf c ++ (decimal n ++ rest)) (BitVec.ofNat 64 n, none) (JCtx.next c :: pc) rest := by
  have := gets_i64n (c := c) (pc := pc) n (by omega) hf h
  rwa [BitVec.ofInt_natCast] at this

theorem gets_mapBegin (hL : Lawful E.L) {t : τ} {c pc} {kt vt : Byte} (hk : IsWireType kt) (hv : IsWireType vt) (hk16 : kt ≠ TT.I16)
    (hv16 : vt ≠ TT.I16) {n : Nat} (hn : n < 2 ^ 31) {rest : Bytes} (hf : (decimal n).length + 8 < E.fuel) (h : Follows E t 3 rest) :
    Gets E t (TJsonProtocol.readMapBegin E) (c :: pc)
      (sepOf c ++ 91 :: (inQuotes (typeName kt) ++ 44 :: (inQuotes (typeName vt) ++ 44 :: (decimal n ++ rest))))
      ((kt, vt, (n : Int)), none) (.list :: c :: pc) rest := by
  have h1 := typeName_len kt
  have h2 := typeName_len vt
  have hp : 1 ≤ (decimal n).length := List.length_pos_iff.2 (number_ne_nil (decimal_number n))
  unfold TJsonProtocol.readMapBegin
  refine Gets.bind (gets_listBegin (by simp [inQuotes]; omega)) ?_
  simp only [Option.isSome_none, Bool.false_eq_true, or_self, if_false]
  refine Gets.bind (gets_plain (c := .listFirst) hL (typeName kt) (typeName_plain hk) (by omega)
    (rest := 44 :: (inQuotes (typeName vt) ++ 44 :: (decimal n ++ rest)))
    (Follows.of (Or.inl rfl) (Or.inl (by simp [inQuotes]; omega)))) ?_
  simp only [Option.isSome_none, Bool.false_eq_true, if_false]
  refine Gets.bind (gets_plain (c := .list) hL (typeName vt) (typeName_plain hv) (by omega)
    (rest := 44 :: (decimal n ++ rest))
    (Follows.of (Or.inl rfl) (Or.inl (by have := h.one; simp; omega)))) ?_
  simp only [Option.isSome_none, Bool.false_eq_true, if_false]
  have := gets_map (gets_sized (c := .list) (pc := c :: pc) n hn (by omega) h)
    (fun x : I64 => (TJsonProtocol.stringToTypeId (typeName kt), TJsonProtocol.stringToTypeId (typeName vt), x.toInt))
  simp only [stringToTypeId_name hk hk16, stringToTypeId_name hv hv16, toInt_ofNat64 hn] at this ⊢
  exact this

theorem gets_elemBegin {t : τ} {c pc} (et : Byte) {n : Nat} (hn : n < 2 ^ 31) {rest : Bytes}
    (hf : (decimal et.toNat).length < E.fuel) (hf' : (decimal n).length < E.fuel) (h : Follows E t 3 rest) :
    Gets E t (parseElemListBegin E) (c :: pc) (sepOf c ++ 91 :: (decimal et.toNat ++ 44 :: (decimal n ++ rest)))
      ((et, (n : Int)), none) (.list :: c :: pc) rest := by
  have hp : 1 ≤ (decimal n).length := List.length_pos_iff.2 (number_ne_nil (decimal_number n))
  have hp' : 1 ≤ (decimal et.toNat).length := List.length_pos_iff.2 (number_ne_nil (decimal_number et.toNat))
  unfold parseElemListBegin
  refine Gets.bind (gets_listBegin (by simp; omega)) ?_
  simp only [Option.isSome_none, Bool.false_eq_true, or_self, if_false]
  refine Gets.bind (gets_byte (c := .listFirst) et hf (rest := 44 :: (decimal n ++ rest))
    (Follows.of (Or.inl rfl) (Or.inl (by have := h.one; simp; omega)))) ?_
  simp only [Option.isSome_none, Bool.false_eq_true, if_false]
  have := gets_map (gets_sized (c := .list) (pc := c :: pc) n hn hf' h) (fun x : I64 => (et, x.toInt))
  simp only [toInt_ofNat64 hn] at this
  exact this

theorem gets_fieldBegin (hL : Lawful E.L) {t : τ} {c pc} (hc : c = .objectFirst ∨ c = .nextKey) (id : I16) {vt : Byte} (hv : IsWireType vt)
    (hv16 : vt ≠ TT.I16) {rest : Bytes} (hf : (decimal id.toInt).length + 8 < E.fuel) (hr : 3 ≤ (58 :: rest).length) :
    Gets E t (TJsonProtocol.readFieldBegin E) (c :: pc)
      (sepOf c ++ (inQuotes (decimal id.toInt) ++ 58 :: 123 :: (inQuotes (typeName vt) ++ 58 :: rest)))
      (([], vt, id), none) (.nextValue :: .nextValue :: pc) (58 :: rest) := by
  have hrest : Gets E t (TJsonProtocol.readFieldRest E id) (.nextValue :: pc) (58 :: 123 :: (inQuotes (typeName vt) ++ 58 :: rest))
      (([], vt, id), none) (.nextValue :: .nextValue :: pc) (58 :: rest) := by
    unfold TJsonProtocol.readFieldRest
    refine Gets.bind (gets_objectStart (c := .nextValue) (by omega) (Or.inl (by simp [inQuotes] at hr ⊢; omega))) ?_
    simp only [Option.isSome_none, Bool.false_eq_true, if_false]
    have h2 := typeName_len vt
    have := gets_map (gets_plain (c := .objectFirst) (pc := .nextValue :: pc) (t := t) hL (typeName vt) (typeName_plain hv) (by omega)
      (rest := 58 :: rest) (Follows.of (Or.inr (Or.inl rfl)) (Or.inl (by simpa using hr))))
      (fun x : Bytes => (([] : Bytes), TJsonProtocol.stringToTypeId x, id))
    rw [stringToTypeId_name hv hv16] at this
    exact this
  have hnum := gets_i16Key (E := E) (c := c) (pc := pc) (t := t) id (by omega) (rest := 58 :: 123 :: (inQuotes (typeName vt) ++ 58 :: rest))
    (Follows.of (Or.inr (Or.inl rfl)) (Or.inl (by simp [inQuotes])))
  have hnext : JCtx.next c = .nextValue := by rcases hc with rfl | rfl <;> rfl
  rw [hnext] at hnum
  have key := Gets.bind (k := fun x : I16 × GoErr => if x.2.isSome then (Pure.pure (([], TT.STOP, x.1), x.2) : P (Json τ) _)
    else TJsonProtocol.readFieldRest E x.1) hnum (by simpa using hrest)
  intro dc er
  obtain ⟨er', he', h'⟩ := key dc er
  refine ⟨er', he', ?_⟩
  have hb : ∃ b tl, sepOf c ++ (inQuotes (decimal id.toInt) ++ 58 :: 123 :: (inQuotes (typeName vt) ++ 58 :: rest)) = b :: tl ∧
      ¬ (b = RBRACE ∨ b = RBRACKET) := by
    rcases hc with rfl | rfl
    · exact ⟨34, _, rfl, by decide⟩
    · exact ⟨44, _, rfl, by decide⟩
  obtain ⟨b, tl, hb, hne⟩ := hb
  rw [hb] at h' ⊢
  refine Eq.trans ?_ h'
  show (if b = RBRACE ∨ b = RBRACKET then _ else _ : P (Json τ) _) _ = _
  rw [if_neg hne]

theorem gets_fieldStop {t : τ} {pc} {rest : Bytes} :
    Gets E t (TJsonProtocol.readFieldBegin E) pc (125 :: rest) (([], TT.STOP, -1), none) pc (125 :: rest) :=
  fun _ er => ⟨er, Or.inl rfl, rfl⟩

/-! ## Values -/

theorem afterFields_key : ∀ (fs : Fields) {c : JCtx}, c = .objectFirst ∨ c = .nextKey → afterFields c fs = .objectFirst ∨ afterFields c fs = .nextKey
  | .nil, _, h => h
  | .cons _ _ r, _, _ => afterFields_key r (Or.inr rfl)

/-- A struct can be followed by anything. -/
theorem struct_of {t : τ} {dc : List JCtx} {fs : Fields} {c : JCtx} {pc : List JCtx} {rest : Bytes} {s : Json τ} (hf : 0 < E.fuel)
    (hm : 3 ≤ (members E.L fs ++ 125 :: rest).length ∨ Dry E t) (hs : St E t dc (c :: pc) (sepOf c ++ 123 :: (members E.L fs ++ 125 :: rest)) s)
    (hfs : ∀ s₁, St E t dc (.objectFirst :: c :: pc) (membersIn E.L .objectFirst fs ++ 125 :: rest) s₁ →
      ∃ s₂, St E t dc (afterFields .objectFirst fs :: c :: pc) (125 :: rest) s₂ ∧ DecFields (textual E) fs s₁ s₂ []) :
    ∃ s', St E t dc (JCtx.next c :: pc) (rest.dropWhile isWs) s' ∧ Dec (textual E) (.struct fs) s s' [] := by
  have hb := gets_map (gets_objectStart (E := E) (t := t) (c := c) (pc := pc) hf hm) (fun _ : Bool => ([] : Bytes))
  obtain ⟨s₁, hs₁, r₁⟩ := hb.runs hs
  obtain ⟨s₂, hs₂, r₂⟩ := hfs s₁ (by rw [(membersIn_first E.L fs).1]; exact hs₁)
  obtain ⟨s₃, hs₃, r₃⟩ := (gets_objectEnd (E := E) hf (afterFields_key fs (Or.inl rfl))).runs hs₂
  exact ⟨s₃, hs₃, s₁, s₂, [], [], [], [], r₁, r₂, r₃, rfl⟩

mutual
theorem dec_val (hL : Lawful E.L) {t : τ} {dc : List JCtx} : ∀ (v : Val) (c : JCtx) (pc : List JCtx) (rest : Bytes) (s : Json τ),
    v.WF → Readable v → (text E.L v).length + 8 < E.fuel → Follows E t 3 rest →
    St E t dc (c :: pc) (sepOf c ++ (text E.L v ++ rest)) s →
    ∃ s', St E t dc (JCtx.next c :: pc) rest s' ∧ Dec (textual E) v s s' []
  | .bool b, c, pc, rest, s, _, _, hf, h, hs => by
    obtain ⟨s', h1, h2⟩ := (gets_bool b (by omega) h.weaken).runs hs
    exact ⟨s', h1, h2⟩
  | .byte b, c, pc, rest, s, _, _, hf, h, hs => by
    obtain ⟨s', h1, h2⟩ := (gets_byte b (by simp only [text] at hf; omega) h).runs hs
    exact ⟨s', h1, h2⟩
  | .i16 b, c, pc, rest, s, _, _, hf, h, hs => by
    obtain ⟨s', h1, h2⟩ := (gets_i16 b (by simp only [text] at hf; omega) h).runs hs
    exact ⟨s', h1, h2⟩
  | .i32 b, c, pc, rest, s, _, _, hf, h, hs => by
    obtain ⟨s', h1, h2⟩ := (gets_i32 b (by simp only [text] at hf; omega) h).runs hs
    exact ⟨s', h1, h2⟩
  | .i64 b, c, pc, rest, s, _, _, hf, h, hs => by
    obtain ⟨s', h1, h2⟩ := (gets_i64 b (by simp only [text] at hf; omega) h).runs hs
    exact ⟨s', h1, h2⟩
  | .double b, c, pc, rest, s, _, hr, hf, h, hs => by
    rw [text] at hs hf
    obtain ⟨s', h1, h2⟩ := (gets_double hL b hr (by omega) (by omega) h).runs hs
    exact ⟨s', h1, h2⟩
  | .str b, c, pc, rest, s, _, hr, hf, h, hs => by
    rw [text] at hs hf
    obtain ⟨s', h1, h2⟩ := (gets_string hL hr (by omega) ⟨h.delim, h.ready.imp_left fun h => by omega⟩).runs hs
    exact ⟨s', h1, h2, h2⟩
  | .struct fs, c, pc, rest, s, hw, hr, hf, h, hs => by
    rw [text] at hs hf
    simp only [List.length_cons, List.length_append] at hf
    have := struct_of (E := E) (fs := fs) (rest := rest) (by omega) (by
      rcases h.ready with h' | h'
      · left; simp; omega
      · exact Or.inr h') (by simpa using hs) fun s₁ hs₁ =>
      dec_fields hL fs .objectFirst (c :: pc) rest s₁ (Or.inl rfl) hw hr (by rw [(membersIn_first E.L fs).1]; omega)
        (Or.inl h.one) hs₁
    rwa [h.tight] at this
  | .map kt vt ps, c, pc, rest, s, ⟨hk, hv, hl, hp⟩, hr, hf, h, hs => by
    rw [text] at hs hf
    simp only [List.length_cons, List.length_append, inQuotes] at hf
    obtain ⟨s₁, hs₁, r₁⟩ := (gets_mapBegin (c := c) (pc := pc) hL hk hv hr.1 hr.2.1 hl (by omega)
      (follows_pairs hL h ps hr.2.2)).runs (s := s) (dc := dc) (by simpa using hs)
    obtain ⟨s₂, hs₂, r₂⟩ := dec_pairs hL ps kt vt (c :: pc) (93 :: rest) s₁ hp hr.2.2 (by omega)
      (Follows.of (Or.inr (Or.inr (Or.inl rfl))) (h.ready.imp_left fun h => by omega)) hs₁
    obtain ⟨s₃, hs₃, r₃⟩ := (gets_listEnd (E := E) (by omega)).runs hs₂
    rw [h.tight] at hs₃
    exact ⟨s₃, hs₃, s₁, s₂, [], [], [], r₁, r₂, r₃, rfl⟩
  | .set et vs, c, pc, rest, s, ⟨ht, hl, hv⟩, hr, hf, h, hs => by
    rw [text] at hs hf
    simp only [List.length_cons, List.length_append] at hf
    obtain ⟨s₁, hs₁, r₁⟩ := (gets_elemBegin (c := c) (pc := pc) et hl (by omega) (by omega)
      (follows_elements hL h vs hr)).runs (s := s) (dc := dc) (by simpa using hs)
    obtain ⟨s₂, hs₂, r₂⟩ := dec_vals hL vs et (c :: pc) (93 :: rest) s₁ hv hr (by omega)
      (Follows.of (Or.inr (Or.inr (Or.inl rfl))) (h.ready.imp_left fun h => by omega)) hs₁
    obtain ⟨s₃, hs₃, r₃⟩ := (gets_listEnd (E := E) (by omega)).runs hs₂
    rw [h.tight] at hs₃
    exact ⟨s₃, hs₃, s₁, s₂, [], [], [], r₁, r₂, r₃, rfl⟩
  | .list et vs, c, pc, rest, s, ⟨ht, hl, hv⟩, hr, hf, h, hs => by
    rw [text] at hs hf
    simp only [List.length_cons, List.length_append] at hf
    obtain ⟨s₁, hs₁, r₁⟩ := (gets_elemBegin (c := c) (pc := pc) et hl (by omega) (by omega)
      (follows_elements hL h vs hr)).runs (s := s) (dc := dc) (by simpa using hs)
    obtain ⟨s₂, hs₂, r₂⟩ := dec_vals hL vs et (c :: pc) (93 :: rest) s₁ hv hr (by omega)
      (Follows.of (Or.inr (Or.inr (Or.inl rfl))) (h.ready.imp_left fun h => by omega)) hs₁
    obtain ⟨s₃, hs₃, r₃⟩ := (gets_listEnd (E := E) (by omega)).runs hs₂
    rw [h.tight] at hs₃
    exact ⟨s₃, hs₃, s₁, s₂, [], [], [], r₁, r₂, r₃, rfl⟩
theorem dec_fields (hL : Lawful E.L) {t : τ} {dc : List JCtx} : ∀ (fs : Fields) (c : JCtx) (pc : List JCtx) (rest : Bytes) (s : Json τ),
    c = .objectFirst ∨ c = .nextKey → fs.WF → ReadableF fs → (membersIn E.L c fs).length + 8 < E.fuel → (1 ≤ rest.length ∨ Dry E t) →
    St E t dc (c :: pc) (membersIn E.L c fs ++ 125 :: rest) s →
    ∃ s', St E t dc (afterFields c fs :: pc) (125 :: rest) s' ∧ DecFields (textual E) fs s s' []
  | .nil, c, pc, rest, s, hc, _, _, hf, _, hs => by
    obtain ⟨s', h1, h2⟩ := (gets_fieldStop (E := E)).runs hs
    exact ⟨s', h1, -1, h2⟩
  | .cons id v fs, c, pc, rest, s, hc, ⟨hw, hws⟩, ⟨h16, hr, hrs⟩, hf, h, hs => by
    have hlen : (membersIn E.L c (.cons id v fs)).length = (sepOf c).length + ((decimal id.toInt).length + 2 + (2 +
        ((typeName v.type).length + 2 + (1 + ((text E.L v).length + (1 + (membersIn E.L .nextKey fs).length)))))) := by
      rw [membersIn]; simp [inQuotes]; omega
    have hp := text_pos hL v hr
    obtain ⟨s₁, hs₁, r₁⟩ := (gets_fieldBegin (c := c) (pc := pc) (t := t) hL hc id v.type_wire h16 (by omega)
      (rest := text E.L v ++ 125 :: (membersIn E.L .nextKey fs ++ 125 :: rest)) (by simp; omega)).runs (s := s) (dc := dc)
      (by rw [membersIn] at hs; simpa using hs)
    obtain ⟨s₂, hs₂, r₂⟩ := dec_val hL v .nextValue (.nextValue :: pc) (125 :: (membersIn E.L .nextKey fs ++ 125 :: rest)) s₁ hw hr
      (by omega) (Follows.of (Or.inr (Or.inr (Or.inr rfl))) (by
        cases fs with
        | nil => simpa [membersIn] using h
        | cons id' v' r' => left; rw [membersIn]; simp [inQuotes]; omega)) hs₁
    obtain ⟨s₃, hs₃, r₃⟩ := (gets_objectEnd (E := E) (by omega) (Or.inr rfl)).runs hs₂
    have htight : (membersIn E.L .nextKey fs ++ 125 :: rest).dropWhile isWs = membersIn E.L .nextKey fs ++ 125 :: rest := by
      cases fs with
      | nil => rfl
      | cons id' v' r' => rfl
    rw [htight] at hs₃
    obtain ⟨s₄, hs₄, r₄⟩ := dec_fields hL fs .nextKey pc rest s₃ (Or.inr rfl) hws hrs (by omega) h hs₃
    exact ⟨s₄, hs₄, s₁, s₂, s₃, [], [], [], [], r₁, r₂, r₃, r₄, rfl⟩
theorem dec_vals (hL : Lawful E.L) {t : τ} {dc : List JCtx} : ∀ (vs : Vals) (et : Byte) (pc : List JCtx) (rest : Bytes) (s : Json τ),
    vs.WF et → ReadableV vs → (elements E.L vs).length + 8 < E.fuel → Follows E t 3 rest →
    St E t dc (.list :: pc) (elements E.L vs ++ rest) s →
    ∃ s', St E t dc (.list :: pc) rest s' ∧ DecVals (textual E) et vs s s' []
  | .nil, _, _, _, s, _, _, _, _, hs => ⟨s, hs, rfl, rfl⟩
  | .cons v vs, et, pc, rest, s, ⟨ht, hw, hws⟩, ⟨hr, hrs⟩, hf, h, hs => by
    rw [elements] at hs hf
    simp only [List.length_cons, List.length_append] at hf
    obtain ⟨s₁, hs₁, r₁⟩ := dec_val hL v .list pc (elements E.L vs ++ rest) s hw hr (by omega) (by
      cases vs with
      | nil => exact h
      | cons v' vs' =>
        have := text_pos hL v' hrs.1
        have := h.one
        simp only [elements, List.cons_append]
        exact Follows.of (Or.inl rfl) (Or.inl (by simp; omega))) (by simpa [sepOf] using hs)
    obtain ⟨s₂, hs₂, r₂⟩ := dec_vals hL vs et pc rest s₁ hws hrs (by omega) h hs₁
    exact ⟨s₂, hs₂, s₁, [], [], ht, r₁, r₂, rfl⟩
theorem dec_pairs (hL : Lawful E.L) {t : τ} {dc : List JCtx} : ∀ (ps : Pairs) (kt vt : Byte) (pc : List JCtx) (rest : Bytes) (s : Json τ),
    ps.WF kt vt → ReadableP ps → (pairs E.L ps).length + 8 < E.fuel → Follows E t 3 rest →
    St E t dc (.list :: pc) (pairs E.L ps ++ rest) s →
    ∃ s', St E t dc (.list :: pc) rest s' ∧ DecPairs (textual E) kt vt ps s s' []
  | .nil, _, _, _, _, s, _, _, _, _, hs => ⟨s, hs, rfl, rfl⟩
  | .cons k v ps, kt, vt, pc, rest, s, ⟨hkt, hvt, hwk, hwv, hws⟩, ⟨hrk, hrv, hrs⟩, hf, h, hs => by
    rw [pairs] at hs hf
    simp only [List.length_cons, List.length_append] at hf
    have hp := text_pos hL v hrv
    have hone := h.one
    obtain ⟨s₁, hs₁, r₁⟩ := dec_val hL k .list pc (44 :: (text E.L v ++ (pairs E.L ps ++ rest))) s hwk hrk (by omega)
      (Follows.of (Or.inl rfl) (Or.inl (by simp; omega))) (by simpa [sepOf] using hs)
    obtain ⟨s₂, hs₂, r₂⟩ := dec_val hL v .list pc (pairs E.L ps ++ rest) s₁ hwv hrv (by omega) (by
      cases ps with
      | nil => exact h
      | cons k' v' ps' =>
        have := text_pos hL k' hrs.1
        simp only [pairs, List.cons_append]
        exact Follows.of (Or.inl rfl) (Or.inl (by simp; omega))) hs₁
    obtain ⟨s₃, hs₃, r₃⟩ := dec_pairs hL ps kt vt pc rest s₂ hws hrs (by omega) h hs₂
    exact ⟨s₃, hs₃, s₁, s₂, [], [], [], hkt, hvt, r₁, r₂, r₃, rfl⟩
end

theorem dec_struct (hL : Lawful E.L) {t : τ} {dc : List JCtx} (fs : Fields) (c : JCtx) (pc : List JCtx) (rest : Bytes) (s : Json τ)
    (hw : fs.WF) (hr : ReadableF fs) (hf : (text E.L (.struct fs)).length + 8 < E.fuel) (h : 1 ≤ rest.length ∨ Dry E t)
    (hm : 3 ≤ (members E.L fs ++ 125 :: rest).length ∨ Dry E t)
    (hs : St E t dc (c :: pc) (sepOf c ++ 123 :: (members E.L fs ++ 125 :: rest)) s) :
    ∃ s', St E t dc (JCtx.next c :: pc) (rest.dropWhile isWs) s' ∧ Dec (textual E) (.struct fs) s s' [] := by
  rw [text] at hf
  simp only [List.length_cons, List.length_append] at hf
  exact struct_of (by omega) hm hs fun s₁ hs₁ =>
    dec_fields hL fs .objectFirst (c :: pc) rest s₁ (Or.inl rfl) hw hr (by rw [(membersIn_first E.L fs).1]; omega) h hs₁

end JsonR
end Thrift
