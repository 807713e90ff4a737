import Verif.Lemmas.Run
import Verif.Lemmas.BinaryValue
import Verif.Model.Driver
import Verif.Spec.Json
/-!
# What the JSON protocols write
-/

namespace Thrift
namespace JsonW
open JsonProtocol JsonSpec

/-! ## Decimal text -/

theorem natDigits_eq : ∀ (fuel n : Nat), n < 10 ^ fuel → natDigits (fuel + 1) n = digits n
  | 0, n, h => by
    have : n < 10 := by omega
    rw [digits]
    simp [natDigits, this]
  | fuel + 1, n, h => by
    rw [digits]
    by_cases h10 : n < 10
    · simp [natDigits, h10]
    · have : n / 10 < 10 ^ fuel := by
        rw [Nat.pow_succ] at h
        omega
      rw [natDigits]
      simp only [h10, if_false]
      rw [natDigits_eq fuel (n / 10) this]

theorem formatInt_eq (n : Int) (h : n.natAbs < 10 ^ 19) : formatInt n = decimal n := by
  simp only [formatInt, decimal, natDigits_eq 19 n.natAbs h]

theorem isDigit_ofNat {n : Nat} (h : n < 10) : IsDigit (BitVec.ofNat 8 (48 + n)) := by
  have : (BitVec.ofNat 8 (48 + n)).toNat = 48 + n := by
    rw [BitVec.toNat_ofNat, Nat.mod_eq_of_lt]; omega
  exact ⟨by omega, by omega⟩

theorem digits_isDigit : ∀ (n : Nat), ∀ b ∈ digits n, IsDigit b
  | n => by
    have ih : 10 ≤ n → ∀ b ∈ digits (n / 10), IsDigit b := fun _ => digits_isDigit (n / 10)
    rw [digits]
    split
    · intro b hb
      rw [List.mem_singleton] at hb
      exact hb ▸ isDigit_ofNat (by assumption)
    · intro b hb
      rw [List.mem_append, List.mem_singleton] at hb
      rcases hb with hb | hb
      · exact ih (by omega) b hb
      · exact hb ▸ isDigit_ofNat (by omega)

theorem digits_ne_nil (n : Nat) : digits n ≠ [] := by
  rw [digits]; split <;> simp

theorem digits_head : ∀ (n : Nat), n ≠ 0 → (digits n).head? ≠ some 48
  | n, h0 => by
    rw [digits]
    by_cases h : n < 10
    · simp only [h, if_true, List.head?_cons, ne_eq, Option.some.injEq]
      intro hc
      have := congrArg BitVec.toNat hc
      simp only [BitVec.toNat_ofNat] at this
      have e : (48 : Byte).toNat = 48 := rfl
      omega
    · simp only [h, if_false]
      rw [List.head?_append]
      have hne : (digits (n / 10)).head? ≠ none := by simpa using digits_ne_nil (n / 10)
      have := digits_head (n / 10) (by omega)
      cases hd : (digits (n / 10)).head? with
      | none => exact absurd hd hne
      | some x => simpa [hd] using this

theorem digits_intPart (n : Nat) : IntPart (digits n) := by
  by_cases h : n = 0
  · subst h; left; rw [digits]; rfl
  · exact Or.inr ⟨⟨digits_ne_nil n, digits_isDigit n⟩, digits_head n h⟩

theorem decimal_number (n : Int) : IsNumber (decimal n) := by
  unfold decimal
  split
  · exact ⟨[45], digits n.natAbs, [], [], by simp, Or.inr rfl, digits_intPart _, Or.inl rfl, Or.inl rfl⟩
  · exact ⟨[], digits n.natAbs, [], [], by simp, Or.inl rfl, digits_intPart _, Or.inl rfl, Or.inl rfl⟩

theorem decimal_plain (n : Int) : ∀ b ∈ decimal n, IsPlain b := by
  intro b hb
  unfold decimal at hb
  split at hb
  · simp only [List.mem_cons] at hb
    rcases hb with rfl | hb
    · exact Or.inr (Or.inr (Or.inr rfl))
    · exact Or.inl (digits_isDigit _ b hb)
  · exact Or.inl (digits_isDigit _ b hb)

instance (b : Byte) : Decidable (IsDigit b) := inferInstanceAs (Decidable (_ ∧ _))
instance (b : Byte) : Decidable (IsPlain b) := inferInstanceAs (Decidable (_ ∨ _ ∨ _ ∨ _))

theorem typeName_plain {t : Byte} (h : IsWireType t) : ∀ b ∈ typeName t, IsPlain b := by
  revert t
  unfold IsWireType
  decide +kernel

theorem typeIdToString_eq {t : Byte} (h : IsWireType t) : TJsonProtocol.typeIdToString t = typeName t := by
  revert t
  unfold IsWireType
  decide +kernel

/-! ## Primitive writes -/

/-- What stands before a value in a context. -/
def sepOf : JCtx → Bytes
  | .list | .nextKey => [44]
  | .nextValue => [58]
  | _ => []

variable {τ : Type}

/-- The object with the context `c` on top of `r`. -/
abbrev _root_.Thrift.Json.at (s : Json τ) (c : JCtx) (r : List JCtx) : Json τ := { s with dump := c :: r }

theorem emits_put (bs : Bytes) (s : Json τ) : Emits (put bs) s s bs := by
  intro inp out; simp [put]

theorem run_dumpTop (T : Transport σ) (t : σ) (s : Json τ) (c : JCtx) (r : List JCtx) :
    dumpTop.run T (s.at c r) t = (.ok (c, s.at c r), t) := rfl

theorem emits_pre (s : Json τ) (c : JCtx) (r : List JCtx) : Emits outputPreValue (s.at c r) (s.at c r) (sepOf c) := by
  intro inp out
  simp only [outputPreValue, P.run_bind, run_dumpTop, andThen_ok]
  cases c <;> simp [sepOf, put, COMMA, COLON]

theorem emits_post (s : Json τ) (c : JCtx) (r : List JCtx) :
    Emits outputPostValue (s.at c r) (s.at (JCtx.next c) r) [] := by
  intro inp out
  show (Res.ok (none, s.at (JCtx.next c) r), (inp, out)) = _
  simp

theorem emits_data (v : Bytes) (s : Json τ) : Emits (outputStringData v) s s v := by
  intro inp out
  by_cases h : v = [] <;> simp [outputStringData, h]

theorem emits_text (q : Bytes → Bytes) (v : Bytes) (s : Json τ) (c : JCtx) (r : List JCtx) :
    Emits (outputText q v) (s.at c r) (s.at (JCtx.next c) r) (sepOf c ++ if JCtx.isKey c then q v else v) := by
  intro inp out
  simp only [outputText, P.run_bind, emits_pre s c r inp out, andThen_ok, Option.isSome_none, Bool.false_eq_true, if_false,
    run_dumpTop, emits_data _ (s.at c r) inp _, emits_post s c r inp _]
  simp

variable (E : JsonEnv τ)

theorem emits_string (v : Bytes) (s : Json τ) (c : JCtx) (r : List JCtx) :
    Emits (outputString E v) (s.at c r) (s.at (JCtx.next c) r) (sepOf c ++ E.L.quote v) := by
  refine (emits_text id (E.L.quote v) s c r).congr ?_
  simp

theorem emits_begin (ch : Byte) (n : JCtx) (s : Json τ) (c : JCtx) (r : List JCtx) :
    Emits (outputBegin ch n) (s.at c r) (s.at n (c :: r)) (sepOf c ++ [ch]) := by
  intro inp out
  simp only [outputBegin, P.run_bind, emits_pre s c r inp out, andThen_ok, Option.isSome_none, Bool.false_eq_true, if_false,
    emits_put _ (s.at c r) inp _, P.run_modify, P.run_pure]
  simp

theorem emits_end (ch : Byte) (s : Json τ) (n c : JCtx) (r : List JCtx) :
    Emits (outputEnd ch) (s.at n (c :: r)) (s.at (JCtx.next c) r) [ch] := by
  intro inp out
  simp only [outputEnd, P.run_bind, emits_put _ (s.at n (c :: r)) inp out, andThen_ok, Option.isSome_none, Bool.false_eq_true,
    if_false, run_dumpTop, P.run_modify, List.tail_cons, emits_post s c r inp _]
  simp

/-! ## Numbers and words -/

theorem emits_i64 (v : I64) (s : Json τ) (c : JCtx) (r : List JCtx) (hc : JCtx.isKey c = false) :
    Emits (outputI64 E v) (s.at c r) (s.at (JCtx.next c) r) (sepOf c ++ decimal v.toInt) := by
  refine (emits_text E.L.quote (formatInt v.toInt) s c r).congr ?_
  rw [hc, formatInt_eq]
  · rfl
  · have := v.isLt
    rw [BitVec.toInt_eq_toNat_cond]
    split <;> omega

theorem emits_i64_key (hL : Lawful E.L) (v : I64) (s : Json τ) (c : JCtx) (r : List JCtx) (hc : JCtx.isKey c = true) :
    Emits (outputI64 E v) (s.at c r) (s.at (JCtx.next c) r) (sepOf c ++ inQuotes (decimal v.toInt)) := by
  refine (emits_text E.L.quote (formatInt v.toInt) s c r).congr ?_
  rw [hc, formatInt_eq]
  · rw [if_pos rfl, hL.quote_plain _ (decimal_plain _)]; rfl
  · have := v.isLt
    rw [BitVec.toInt_eq_toNat_cond]
    split <;> omega

theorem emits_byte (v : Byte) (s : Json τ) (c : JCtx) (r : List JCtx) (hc : JCtx.isKey c = false) :
    Emits (writeByte E v) (s.at c r) (s.at (JCtx.next c) r) (sepOf c ++ decimal v.toNat) := by
  refine (emits_i64 E _ s c r hc).congr ?_
  have := v.isLt
  rw [BitVec.toInt_eq_toNat_of_lt] <;> rw [BitVec.toNat_setWidth, Nat.mod_eq_of_lt] <;> omega

theorem emits_i32 (v : I32) (s : Json τ) (c : JCtx) (r : List JCtx) (hc : JCtx.isKey c = false) :
    Emits (writeI32 E v) (s.at c r) (s.at (JCtx.next c) r) (sepOf c ++ decimal v.toInt) := by
  refine (emits_i64 E _ s c r hc).congr ?_
  rw [BitVec.toInt_signExtend_of_le (by decide)]

theorem emits_i16 (v : I16) (s : Json τ) (c : JCtx) (r : List JCtx) (hc : JCtx.isKey c = false) :
    Emits (writeI16 E v) (s.at c r) (s.at (JCtx.next c) r) (sepOf c ++ decimal v.toInt) := by
  refine (emits_i64 E _ s c r hc).congr ?_
  rw [BitVec.toInt_signExtend_of_le (by decide)]

theorem emits_i16_key (hL : Lawful E.L) (v : I16) (s : Json τ) (c : JCtx) (r : List JCtx) (hc : JCtx.isKey c = true) :
    Emits (writeI16 E v) (s.at c r) (s.at (JCtx.next c) r) (sepOf c ++ inQuotes (decimal v.toInt)) := by
  refine (emits_i64_key E hL _ s c r hc).congr ?_
  rw [BitVec.toInt_signExtend_of_le (by decide)]

theorem isNaN_iff (v : F64) : F64.isNaN v = true ↔ v.toNat % 2 ^ 63 > 0x7ff0000000000000 := by
  have h : (v &&& 0x7fffffffffffffff).toNat = v.toNat % 2 ^ 63 := by
    rw [BitVec.toNat_and, show (0x7fffffffffffffff : F64).toNat = 2 ^ 63 - 1 from rfl, Nat.and_two_pow_sub_one_eq_mod]
  simp only [F64.isNaN, h, decide_eq_true_eq]

theorem eq_posInf (v : F64) : v = posInf ↔ v.toNat = 0x7ff0000000000000 := by
  rw [← BitVec.toNat_inj]; rfl
theorem eq_negInf (v : F64) : v = negInf ↔ v.toNat = 0xfff0000000000000 := by
  rw [← BitVec.toNat_inj]; rfl

theorem emits_double (v : F64) (s : Json τ) (c : JCtx) (r : List JCtx) (hc : JCtx.isKey c = false) :
    Emits (outputF64 E v) (s.at c r) (s.at (JCtx.next c) r) (sepOf c ++ doubleText E.L v) := by
  have hlt := v.isLt
  have h1 := isNaN_iff v
  have h2 := eq_posInf v
  have h3 := eq_negInf v
  have hp : (v = 0x7ff0000000000000) ↔ v = posInf := Iff.rfl
  have hn : (v = 0xfff0000000000000) ↔ v = negInf := Iff.rfl
  unfold outputF64 doubleText Finite
  simp only [hp, hn]
  by_cases a : F64.isNaN v = true
  · have : ¬ v = posInf ∧ ¬ v = negInf ∧ ¬ (v.toNat / 2 ^ 52 % 2 ^ 11 ≠ 2 ^ 11 - 1) := by
      rw [h1] at a; rw [h2, h3]; omega
    rw [if_pos a, if_neg this.2.2, if_neg this.1, if_neg this.2.1]
    refine (emits_text id _ s c r).congr ?_
    rw [hc]; rfl
  · rw [if_neg a]
    by_cases b : v = posInf
    · have : ¬ (v.toNat / 2 ^ 52 % 2 ^ 11 ≠ 2 ^ 11 - 1) := by
        rw [h2] at b; omega
      rw [if_pos b, if_neg this, if_pos b]
      refine (emits_text id _ s c r).congr ?_
      rw [hc]; rfl
    · rw [if_neg b]
      by_cases d : v = negInf
      · have : ¬ (v.toNat / 2 ^ 52 % 2 ^ 11 ≠ 2 ^ 11 - 1) := by
          rw [h3] at d; omega
        rw [if_pos d, if_neg this, if_neg b, if_pos d]
        refine (emits_text id _ s c r).congr ?_
        rw [hc]; rfl
      · have : (v.toNat / 2 ^ 52 % 2 ^ 11 ≠ 2 ^ 11 - 1) := by
          rw [h1] at a; rw [h2] at b; rw [h3] at d; omega
        rw [if_neg d, if_pos this]
        refine (emits_text quoted _ s c r).congr ?_
        rw [hc]; rfl

/-! ## Whole values, tagged protocol -/

theorem next_listFirst : JCtx.next .listFirst = .list := rfl
theorem next_list : JCtx.next .list = .list := rfl

theorem toInt_ofNat64 {n : Nat} (h : n < 2 ^ 31) : (BitVec.ofNat 64 n).toInt = n := by
  have : (BitVec.ofNat 64 n).toNat = n := by
    rw [BitVec.toNat_ofNat, Nat.mod_eq_of_lt]; omega
  rw [BitVec.toInt_eq_toNat_of_lt] <;> rw [this]
  omega

theorem emits_listBegin (t : TType) (n : Nat) (h : n < 2 ^ 31) (s : Json τ) (c : JCtx) (r : List JCtx) :
    Emits (outputElemListBegin E t n) (s.at c r) (s.at .list (c :: r)) (sepOf c ++ 91 :: (decimal t.toNat ++ 44 :: decimal n)) := by
  unfold outputElemListBegin outputListBegin
  rw [ofInt_natCast]
  refine (Emits.seq (emits_begin LBRACKET .listFirst s c r) (Emits.seq (emits_byte E t s .listFirst (c :: r) rfl)
    (emits_i64 E _ s .list (c :: r) rfl))).congr ?_
  rw [toInt_ofNat64 h]
  simp [sepOf, LBRACKET]

theorem emits_name (hL : Lawful E.L) (t : TType) (h : IsWireType t) (s : Json τ) (c : JCtx) (r : List JCtx) :
    Emits (outputString E (TJsonProtocol.typeIdToString t)) (s.at c r) (s.at (JCtx.next c) r) (sepOf c ++ inQuotes (typeName t)) := by
  refine (emits_string E _ s c r).congr ?_
  rw [typeIdToString_eq h, hL.quote_plain _ (typeName_plain h)]
  rfl

theorem emits_mapBegin (hL : Lawful E.L) (kt vt : TType) (hk : IsWireType kt) (hv : IsWireType vt) (n : Nat) (h : n < 2 ^ 31)
    (s : Json τ) (c : JCtx) (r : List JCtx) :
    Emits (TJsonProtocol.writeMapBegin E kt vt n) (s.at c r) (s.at .list (c :: r))
      (sepOf c ++ 91 :: (inQuotes (typeName kt) ++ 44 :: (inQuotes (typeName vt) ++ 44 :: decimal n))) := by
  unfold TJsonProtocol.writeMapBegin outputListBegin
  rw [ofInt_natCast]
  refine (Emits.seq (emits_begin LBRACKET .listFirst s c r) (Emits.seq (emits_name E hL kt hk s .listFirst (c :: r))
    (Emits.seq (emits_name E hL vt hv s .list (c :: r)) (emits_i64 E _ s .list (c :: r) rfl)))).congr ?_
  rw [toInt_ofNat64 h]
  simp [sepOf, LBRACKET]

theorem emits_fieldBegin (hL : Lawful E.L) (t : TType) (h : IsWireType t) (id : I16) (s : Json τ) (c : JCtx) (r : List JCtx)
    (hc : JCtx.isKey c = true) :
    Emits (TJsonProtocol.writeFieldBegin E t id) (s.at c r) (s.at .nextValue (.nextValue :: r))
      (sepOf c ++ (inQuotes (decimal id.toInt) ++ 58 :: 123 :: inQuotes (typeName t))) := by
  unfold TJsonProtocol.writeFieldBegin outputObjectBegin
  have hn : JCtx.next c = .nextValue := by cases c <;> first | rfl | simp [JCtx.isKey] at hc
  have h1 := emits_i16_key E hL id s c r hc
  rw [hn] at h1
  refine (Emits.seq h1 (Emits.seq (emits_begin LBRACE .objectFirst s .nextValue r)
    (emits_name E hL t h s .objectFirst (.nextValue :: r)))).congr ?_
  simp [sepOf, LBRACE]

/-- The members as the writer gives them in context `c`. -/
def membersIn (L : JsonLib) (c : JCtx) : Fields → Bytes
  | .nil => []
  | .cons id v r => sepOf c ++ (inQuotes (decimal id.toInt) ++ 58 :: 123 :: (inQuotes (typeName v.type) ++ 58 :: (text L v ++ 125 ::
      membersIn L .nextKey r)))

theorem membersIn_first (L : JsonLib) : ∀ fs : Fields, membersIn L .objectFirst fs = members L fs ∧
    membersIn L .nextKey fs = (match fs with | .nil => [] | _ => 44 :: members L fs)
  | .nil => ⟨rfl, rfl⟩
  | .cons id v .nil => by simp [membersIn, members, sepOf]
  | .cons id v (.cons id' v' r) => by
    have := (membersIn_first L (.cons id' v' r)).2
    simp only at this
    refine ⟨?_, ?_⟩
    · rw [membersIn, this, members]; simp [sepOf]
    · rw [membersIn, this]; simp only [members]; simp [sepOf]

/-- The context after some fields. -/
def afterFields (c : JCtx) : Fields → JCtx
  | .nil => c
  | .cons _ _ r => afterFields .nextKey r

mutual
theorem emits_val (hL : Lawful E.L) : ∀ (v : Val) (s : Json τ) (c : JCtx) (r : List JCtx), v.WF → JCtx.isKey c = false →
    Emits (writeVal (tjson E) v) (s.at c r) (s.at (JCtx.next c) r) (sepOf c ++ text E.L v)
  | .bool b, s, c, r, _, hc => by
    refine (emits_text _ _ s c r).congr ?_
    rw [hc]; cases b <;> rfl
  | .byte b, s, c, r, _, hc => emits_byte E b s c r hc
  | .i16 b, s, c, r, _, hc => emits_i16 E b s c r hc
  | .i32 b, s, c, r, _, hc => emits_i32 E b s c r hc
  | .i64 b, s, c, r, _, hc => emits_i64 E b s c r hc
  | .double b, s, c, r, _, hc => emits_double E b s c r hc
  | .str b, s, c, r, _, hc => emits_string E b s c r
  | .struct fs, s, c, r, hw, hc => by
    simp only [writeVal]
    refine (Emits.seq (emits_begin LBRACE .objectFirst s c r) (Emits.seq (emits_fields hL fs s .objectFirst (c :: r) hw rfl)
      (Emits.seq (Emits.pure _) (emits_end RBRACE s (afterFields .objectFirst fs) c r)))).congr ?_
    rw [(membersIn_first E.L fs).1, text]
    simp [LBRACE, RBRACE]
  | .map kt vt ps, s, c, r, ⟨hk, hv, hl, hp⟩, hc => by
    simp only [writeVal]
    refine (Emits.seq (emits_mapBegin E hL kt vt hk hv ps.length hl s c r)
      (Emits.seq (emits_pairs hL kt vt ps s (c :: r) hp) (emits_end RBRACKET s .list c r))).congr ?_
    rw [text]; simp [RBRACKET]
  | .set t vs, s, c, r, ⟨ht, hl, hv⟩, hc => by
    simp only [writeVal]
    refine (Emits.seq (emits_listBegin E t vs.length hl s c r)
      (Emits.seq (emits_vals hL t vs s (c :: r) hv) (emits_end RBRACKET s .list c r))).congr ?_
    rw [text]; simp [RBRACKET]
  | .list t vs, s, c, r, ⟨ht, hl, hv⟩, hc => by
    simp only [writeVal]
    refine (Emits.seq (emits_listBegin E t vs.length hl s c r)
      (Emits.seq (emits_vals hL t vs s (c :: r) hv) (emits_end RBRACKET s .list c r))).congr ?_
    rw [text]; simp [RBRACKET]
theorem emits_fields (hL : Lawful E.L) : ∀ (fs : Fields) (s : Json τ) (c : JCtx) (r : List JCtx), fs.WF → JCtx.isKey c = true →
    Emits (writeFields (tjson E) fs) (s.at c r) (s.at (afterFields c fs) r) (membersIn E.L c fs)
  | .nil, s, c, r, _, _ => by
    simp only [writeFields]; exact Emits.pure _
  | .cons id v fs, s, c, r, ⟨hv, hr⟩, hc => by
    simp only [writeFields]
    refine (Emits.seq (emits_fieldBegin E hL v.type v.type_wire id s c r hc)
      (Emits.seq (emits_val hL v s .nextValue (.nextValue :: r) hv rfl)
        (Emits.seq (emits_end RBRACE s .nextKey .nextValue r) (emits_fields hL fs s .nextKey r hr rfl)))).congr ?_
    rw [membersIn]
    simp [sepOf, RBRACE]
theorem emits_vals (hL : Lawful E.L) : ∀ (t : Byte) (vs : Vals) (s : Json τ) (r : List JCtx), vs.WF t →
    Emits (writeVals (tjson E) vs) (s.at .list r) (s.at .list r) (elements E.L vs)
  | _, .nil, s, r, _ => by simp only [writeVals]; exact Emits.pure _
  | t, .cons v vs, s, r, ⟨_, hv, hr⟩ => by
    simp only [writeVals]
    refine (Emits.seq (emits_val hL v s .list r hv rfl) (emits_vals hL t vs s r hr)).congr ?_
    simp [elements, sepOf]
theorem emits_pairs (hL : Lawful E.L) : ∀ (kt vt : Byte) (ps : Pairs) (s : Json τ) (r : List JCtx), ps.WF kt vt →
    Emits (writePairs (tjson E) ps) (s.at .list r) (s.at .list r) (pairs E.L ps)
  | _, _, .nil, s, r, _ => by simp only [writePairs]; exact Emits.pure _
  | kt, vt, .cons k v ps, s, r, ⟨_, _, hk, hv, hr⟩ => by
    simp only [writePairs]
    refine (Emits.seq (emits_val hL k s .list r hk rfl) (Emits.seq (emits_val hL v s .list r hv rfl)
      (emits_pairs hL kt vt ps s r hr))).congr ?_
    simp [pairs, sepOf]
end

end JsonW
end Thrift
