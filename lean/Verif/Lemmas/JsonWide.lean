import Verif.Lemmas.JsonNamedRead
/-!
# Values of two bytes or more, with two bytes after them

The reader looks at four bytes before a number, so a number of at least two bytes
needs only two bytes after it.
-/

namespace Thrift
namespace JsonR
open JsonProtocol JsonSpec JsonW

variable {τ : Type} {α β : Type} {E : JsonEnv τ}

theorem Follows.peek2 {t : τ} {rest : Bytes} (h : Follows E t 2 rest) {x : Bytes} (hx : 2 ≤ x.length) :
    4 ≤ (x ++ rest).length ∨ Dry E t := by
  rcases h.ready with h | h
  · left; simp only [List.length_append]; omega
  · exact Or.inr h

theorem gets_number_wide {t : τ} {c pc} {x rest : Bytes} (hx : IsNumber x) (hf : x.length < E.fuel) (h : Follows E t 2 rest) (hx2 : 2 ≤ x.length) :
    Gets E t (parseNumber E) (c :: pc) (sepOf c ++ (x ++ rest)) (numericOf E x, none) (JCtx.next c :: pc) rest := by
  obtain ⟨d, r, hd, hdd⟩ := h.delim
  obtain ⟨c', r', hc, hcd⟩ := number_head hx
  refine gets_parseNumber hc (isWs_digit hcd) ?_ (by omega) (h.peek2 hx2) h.tight ?_
  · rintro rfl
    rcases hcd with h | h
    · revert h; decide
    · revert h; decide
  · subst hd
    exact gets_loop E x hx d hdd r hf

theorem gets_word_wide {t : τ} {c pc} {rest : Bytes} (hf : 8 < E.fuel) (h : Follows E t 2 rest) (w : Bytes) (num : Num)
    (hw : (w = ascii "NaN" ∧ num = Num.nan) ∨ (w = ascii "Infinity" ∧ num = Num.inf) ∨ (w = ascii "-Infinity" ∧ num = Num.negInf)) :
    Gets E t (parseNumber E) (c :: pc) (sepOf c ++ (inQuotes w ++ rest)) (num, none) (JCtx.next c :: pc) rest := by
  refine gets_parseNumber (x := inQuotes w) (h := 34) rfl rfl (by decide) (by omega) (h.peek2 (by simp [inQuotes])) h.tight ?_
  obtain ⟨f, hfu⟩ : ∃ f, E.fuel = f + 1 + 1 + 1 := ⟨E.fuel - 3, by omega⟩
  rw [hfu]
  have quote : ∀ pc, Gets E t readQuoteIfNext pc (34 :: rest) () pc rest := fun pc dc er => ⟨er, Or.inl rfl, rfl⟩
  have step : ∀ (pre x : Bytes) (v : Num), x ≠ [] → Gets E t (readWord E pre (pre ++ x) v true) (c :: pc) (x ++ 34 :: rest) (v, none)
      (c :: pc) rest := by
    intro pre x v hx
    unfold readWord
    rw [show (pre ++ x).length - pre.length = x.length by simp]
    refine Gets.bind (gets_readUpTo E x (34 :: rest) hx) ?_
    simp only [Option.isSome_none, Bool.false_eq_true, if_false, fillBuf_self, ne_eq, not_true, if_true]
    exact Gets.bind (quote _) (Gets.pure _ _ _)
  intro dc er
  rcases hw with ⟨rfl, rfl⟩ | ⟨rfl, rfl⟩ | ⟨rfl, rfl⟩
  · obtain ⟨er', he', h'⟩ := step [78] (ascii "aN") Num.nan (by decide) dc er
    refine ⟨er', he', ?_⟩
    rw [show inQuotes (ascii "NaN") ++ rest = 34 :: 78 :: (ascii "aN" ++ 34 :: rest) from rfl, loop_quote, numberLoop, ← h']
    psimp [getByte_cons]
    rfl
  · obtain ⟨er', he', h'⟩ := step [73] (ascii "nfinity") Num.inf (by decide) dc er
    refine ⟨er', he', ?_⟩
    rw [show inQuotes (ascii "Infinity") ++ rest = 34 :: 73 :: (ascii "nfinity" ++ 34 :: rest) from rfl, loop_quote, numberLoop, ← h']
    psimp [getByte_cons]
    rfl
  · obtain ⟨er', he', h'⟩ := step [45, 73] (ascii "nfinity") Num.negInf (by decide) dc er
    refine ⟨er', he', ?_⟩
    rw [show inQuotes (ascii "-Infinity") ++ rest = 34 :: 45 :: 73 :: (ascii "nfinity" ++ 34 :: rest) from rfl, loop_quote,
      loop_sign _ _ _ _ _ _ _ _ _ (Or.inl rfl) rfl, numberLoop, ← h']
    psimp [getByte_cons]
    rfl

theorem gets_i64n_wide {t : τ} {c pc} {rest : Bytes} (n : Int) (hn : -2 ^ 63 ≤ n ∧ n < 2 ^ 63) (hf : (decimal n).length < E.fuel)
    (h : Follows E t 2 rest) (hx2 : 2 ≤ (decimal n).length) :
    Gets E t (readI64 E) (c :: pc) (sepOf c ++ (decimal n ++ rest)) (BitVec.ofInt 64 n, none) (JCtx.next c :: pc) rest := by
  have := gets_map (gets_number_wide (c := c) (pc := pc) (decimal_number n) hf h hx2) (fun x : Num => x.i)
  rwa [numericOf_decimal E n hn] at this

theorem gets_i64_wide {t : τ} {c pc} {rest : Bytes} (v : I64) (hf : (decimal v.toInt).length < E.fuel) (h : Follows E t 2 rest) (hx2 : 2 ≤ (decimal v.toInt).length) :
    Gets E t (readI64 E) (c :: pc) (sepOf c ++ (decimal v.toInt ++ rest)) (v, none) (JCtx.next c :: pc) rest := by
  have := gets_i64n_wide (c := c) (pc := pc) v.toInt (toInt_range (by omega) v) hf h hx2
  rwa [BitVec.ofInt_toInt] at this

theorem gets_i32_wide {t : τ} {c pc} {rest : Bytes} (v : I32) (hf : (decimal v.toInt).length < E.fuel) (h : Follows E t 2 rest) (hx2 : 2 ≤ (decimal v.toInt).length) :
    Gets E t (readI32 E) (c :: pc) (sepOf c ++ (decimal v.toInt ++ rest)) (v, none) (JCtx.next c :: pc) rest := by
  have := gets_map (gets_i64n_wide (c := c) (pc := pc) v.toInt (toInt_range (by omega) v) hf h hx2) (fun x : I64 => x.setWidth 32)
  rwa [setWidth_ofInt_toInt (by omega) v] at this

theorem gets_i16_wide {t : τ} {c pc} {rest : Bytes} (v : I16) (hf : (decimal v.toInt).length < E.fuel) (h : Follows E t 2 rest) (hx2 : 2 ≤ (decimal v.toInt).length) :
    Gets E t (readI16 E) (c :: pc) (sepOf c ++ (decimal v.toInt ++ rest)) (v, none) (JCtx.next c :: pc) rest := by
  have := gets_map (gets_i64n_wide (c := c) (pc := pc) v.toInt (toInt_range (by omega) v) hf h hx2) (fun x : I64 => x.setWidth 16)
  rwa [setWidth_ofInt_toInt (by omega) v] at this

theorem gets_byte_wide {t : τ} {c pc} {rest : Bytes} (v : Byte) (hf : (decimal v.toNat).length < E.fuel) (h : Follows E t 2 rest) (hx2 : 2 ≤ (decimal v.toNat).length) :
    Gets E t (readByte E) (c :: pc) (sepOf c ++ (decimal v.toNat ++ rest)) (v, none) (JCtx.next c :: pc) rest := by
  have hv := v.isLt
  have := gets_map (gets_i64n_wide (c := c) (pc := pc) v.toNat (by omega) hf h hx2) (fun x : I64 => x.setWidth 8)
  have e : (BitVec.ofInt 64 (v.toNat : Int)).setWidth 8 = v := by
    apply BitVec.eq_of_toNat_eq
    rw [BitVec.toNat_setWidth, BitVec.ofInt_natCast, BitVec.toNat_ofNat]
    omega
  rwa [e] at this

theorem gets_double_wide (hL : Lawful E.L) {t : τ} {c pc} {rest : Bytes} (v : F64) (hv : F64.isNaN v = true → v = canonicalNaN)
    (hf : (doubleText E.L v).length + 2 < E.fuel) (hf8 : 8 < E.fuel) (h : Follows E t 2 rest) (hx2 : 2 ≤ (doubleText E.L v).length) :
    Gets E t (readDouble E) (c :: pc) (sepOf c ++ (doubleText E.L v ++ rest)) (v, none) (JCtx.next c :: pc) rest := by
  unfold doubleText at hf hx2 ⊢
  by_cases a : Finite v
  · simp only [a, if_true] at hf hx2 ⊢
    have := gets_map (gets_number_wide (c := c) (pc := pc) (hL.format_number v a) (by omega) h hx2) (fun x : Num => x.d)
    simp only [numericOf, hL.parse_format v a] at this
    exact this
  · simp only [a, if_false] at hf ⊢
    split
    · rename_i b
      have := gets_map (gets_word_wide (c := c) (pc := pc) hf8 h (ascii "Infinity") Num.inf (Or.inr (Or.inl ⟨rfl, rfl⟩))) (fun x : Num => x.d)
      subst b; exact this
    · split
      · rename_i b
        have := gets_map (gets_word_wide (c := c) (pc := pc) hf8 h (ascii "-Infinity") Num.negInf (Or.inr (Or.inr ⟨rfl, rfl⟩))) (fun x : Num => x.d)
        subst b; exact this
      · rename_i b1 b2
        have hnan : F64.isNaN v = true := by
          have hlt := v.isLt
          have h2 : ¬ v = posInf := b1
          have h3 : ¬ v = negInf := b2
          rw [eq_posInf] at h2
          rw [eq_negInf] at h3
          rw [isNaN_iff]
          simp only [Finite] at a
          omega
        have := gets_map (gets_word_wide (c := c) (pc := pc) hf8 h (ascii "NaN") Num.nan (Or.inl ⟨rfl, rfl⟩)) (fun x : Num => x.d)
        rw [hv hnan]; exact this


end JsonR
end Thrift
