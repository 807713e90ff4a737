import Verif.Lemmas.JsonWrite
/-!
# The documents of the tagged format are JSON
-/

namespace Thrift
namespace JsonSpec

theorem plain_chars : ∀ (s : Bytes), (∀ b ∈ s, IsPlain b) → Chars s
  | [], _ => .nil
  | b :: r, h => by
    have hb := h b (by simp)
    have hr := plain_chars r fun x hx => h x (by simp [hx])
    have n34 : b ≠ 34 := by
      rintro rfl; revert hb; decide
    have n92 : b ≠ 92 := by
      rintro rfl; revert hb; decide
    refine .plain b r ?_ n34 n92 hr
    rcases hb with ⟨h1, _⟩ | ⟨h1, _⟩ | ⟨h1, _⟩ | rfl
    · omega
    · omega
    · omega
    · decide

theorem plain_string (s : Bytes) (h : ∀ b ∈ s, IsPlain b) : IsString (inQuotes s) := ⟨s, rfl, plain_chars s h⟩

theorem typeName_string (t : Byte) : IsString (inQuotes (typeName t)) := by
  apply plain_string
  by_cases h : IsWireType t
  · exact JsonW.typeName_plain h
  · have : typeName t = [] := by
      revert t; decide +kernel
    simp [this]

theorem decimal_string (n : Int) : IsString (inQuotes (decimal n)) := plain_string _ (JsonW.decimal_plain n)

variable {L : JsonLib}

theorem double_value (hL : Lawful L) (v : F64) : IsValue (doubleText L v) := by
  unfold doubleText
  split
  · exact .number _ (hL.format_number v (by assumption))
  · split
    · exact .string _ (plain_string (ascii "Infinity") (by decide +kernel))
    · split
      · exact .string _ (plain_string (ascii "-Infinity") (by decide +kernel))
      · exact .string _ (plain_string (ascii "NaN") (by decide +kernel))

mutual
theorem text_value (hL : Lawful L) : ∀ v : Val, TextOnly v → IsValue (text L v)
  | .bool b, _ => by
    cases b
    · exact .false
    · exact .true
  | .byte b, _ => .number _ (JsonW.decimal_number _)
  | .i16 b, _ => .number _ (JsonW.decimal_number _)
  | .i32 b, _ => .number _ (JsonW.decimal_number _)
  | .i64 b, _ => .number _ (JsonW.decimal_number _)
  | .double v, _ => double_value hL v
  | .str b, h => .string _ (hL.quote_string b h)
  | .struct fs, h => by
    by_cases hn : fs = .nil
    · subst hn; exact .emptyObject
    · rw [text]; exact .object _ (members_members hL fs hn h)
  | .map kt vt ps, h => by
    rw [text]
    have := pairs_elements hL ps (decimal ps.length) h (.number _ (JsonW.decimal_number _))
    have := IsElements.more _ _ (.string _ (typeName_string vt)) this
    have := IsElements.more _ _ (.string _ (typeName_string kt)) this
    simpa using IsValue.array _ this
  | .set t vs, h => by
    rw [text]
    have := elements_elements hL vs (decimal vs.length) h (.number _ (JsonW.decimal_number _))
    have := IsElements.more _ _ (.number _ (JsonW.decimal_number t.toNat)) this
    simpa using IsValue.array _ this
  | .list t vs, h => by
    rw [text]
    have := elements_elements hL vs (decimal vs.length) h (.number _ (JsonW.decimal_number _))
    have := IsElements.more _ _ (.number _ (JsonW.decimal_number t.toNat)) this
    simpa using IsValue.array _ this
theorem members_members (hL : Lawful L) : ∀ (fs : Fields), fs ≠ .nil → TextOnlyF fs → IsMembers (members L fs)
  | .nil, hn, _ => absurd rfl hn
  | .cons id v .nil, _, h => by
    rw [members]
    have := IsMembers.last _ _ (typeName_string v.type) (text_value hL v h.1)
    have := IsMembers.last _ _ (decimal_string id.toInt) (IsValue.object _ this)
    simpa using this
  | .cons id v (.cons id' v' r), _, h => by
    rw [members]
    have := IsMembers.last _ _ (typeName_string v.type) (text_value hL v h.1)
    have := IsMembers.more _ _ _ (decimal_string id.toInt) (IsValue.object _ this) (members_members hL (.cons id' v' r) (by simp) h.2)
    simpa using this
theorem elements_elements (hL : Lawful L) : ∀ (vs : Vals) (x : Bytes), TextOnlyV vs → IsValue x → IsElements (x ++ elements L vs)
  | .nil, x, _, hx => by simpa [elements] using IsElements.last x hx
  | .cons v r, x, h, hx => by
    simpa [elements] using IsElements.more x _ hx (elements_elements hL r _ h.2 (text_value hL v h.1))
theorem pairs_elements (hL : Lawful L) : ∀ (ps : Pairs) (x : Bytes), TextOnlyP ps → IsValue x → IsElements (x ++ pairs L ps)
  | .nil, x, _, hx => by simpa [pairs] using IsElements.last x hx
  | .cons k v r, x, h, hx => by
    have := IsElements.more _ _ (text_value hL k h.1) (pairs_elements hL r _ h.2.2 (text_value hL v h.2.1))
    simpa [pairs] using IsElements.more x _ hx this
end

end JsonSpec
end Thrift
