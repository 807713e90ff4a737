import Verif.Lemmas.JsonDoc
/-!
# Library functions that keep the promises

A small implementation of the assumed library functions, which shows that the
assumptions can be met: quoting escapes quotes, backslashes and control
characters; numbers are written as their 64 bits.
-/

namespace Thrift
namespace JsonPlain
open JsonSpec JsonProtocol

def hexDigit (n : Nat) : Byte := BitVec.ofNat 8 (if n < 10 then 48 + n else 87 + n)
def hexValue (b : Byte) : Nat := if b.toNat < 58 then b.toNat - 48 else b.toNat - 87

def escape (b : Byte) : Bytes :=
  if b.toNat < 32 ∨ b = 34 ∨ b = 92 then [92, 117, 48, 48, hexDigit (b.toNat / 16), hexDigit (b.toNat % 16)] else [b]

def quoteBody : Bytes → Bytes
  | [] => []
  | b :: r => escape b ++ quoteBody r

def unquoteBody : Bytes → Option Bytes
  | [34] => some []
  | 92 :: 117 :: 48 :: 48 :: h :: l :: r => (unquoteBody r).map (BitVec.ofNat 8 (hexValue h * 16 + hexValue l) :: ·)
  | b :: r => if b = 34 ∨ b = 92 then none else (unquoteBody r).map (b :: ·)
  | [] => none

def lib : JsonLib where
  quote s := 34 :: (quoteBody s ++ [34])
  unquote
    | 34 :: r => unquoteBody r
    | _ => none
  format v := formatInt v.toInt
  parse s := BitVec.ofInt 64 ((decimalValue s).getD 0)

theorem hexDigit_hex {n : Nat} (h : n < 16) : IsHex (hexDigit n) := by
  unfold hexDigit IsHex IsDigit
  split <;> (simp; omega)

theorem hexValue_digit {n : Nat} (h : n < 16) : hexValue (hexDigit n) = n := by
  unfold hexValue hexDigit
  split <;> split <;> (simp at *; omega)

theorem quoteBody_chars : ∀ s, Chars (quoteBody s)
  | [] => .nil
  | b :: r => by
    have ih := quoteBody_chars r
    unfold quoteBody escape
    split
    · have := b.isLt
      exact .unicode 48 48 _ _ _ (Or.inl (by decide)) (Or.inl (by decide)) (hexDigit_hex (by omega)) (hexDigit_hex (by omega)) ih
    · rename_i h
      simp only [not_or] at h
      exact .plain b _ (by omega) h.2.1 h.2.2 ih

theorem unquoteBody_plain (b : Byte) (r : Bytes) (h : b ≠ 34) (h' : b ≠ 92) : unquoteBody (b :: r) = (unquoteBody r).map (b :: ·) := by
  have hn : ¬ (b = 34 ∨ b = 92) := by simp only [not_or]; exact ⟨h, h'⟩
  rw [unquoteBody.eq_3]
  · rw [if_neg hn]
  · intro e; exact absurd e h
  · intro _ _ _ e; exact absurd e h'

theorem unquoteBody_quote : ∀ s, unquoteBody (quoteBody s ++ [34]) = some s
  | [] => rfl
  | b :: r => by
    have ih := unquoteBody_quote r
    have hb := b.isLt
    unfold quoteBody escape
    split
    · have : BitVec.ofNat 8 (hexValue (hexDigit (b.toNat / 16)) * 16 + hexValue (hexDigit (b.toNat % 16))) = b := by
        rw [hexValue_digit (by omega), hexValue_digit (by omega), show b.toNat / 16 * 16 + b.toNat % 16 = b.toNat by omega]
        exact BitVec.eq_of_toNat_eq (by simp)
      show unquoteBody (92 :: 117 :: 48 :: 48 :: hexDigit (b.toNat / 16) :: hexDigit (b.toNat % 16) :: (quoteBody r ++ [34])) = _
      have e := unquoteBody.eq_2 (hexDigit (b.toNat / 16)) (hexDigit (b.toNat % 16)) (quoteBody r ++ [34])
      rw [this, ih] at e
      exact e
    · rename_i h
      simp only [not_or] at h
      show unquoteBody (b :: (quoteBody r ++ [34])) = _
      rw [unquoteBody_plain b _ h.2.1 h.2.2, ih]; rfl

theorem quoteBody_plain : ∀ s : Bytes, (∀ b ∈ s, IsPlain b) → quoteBody s = s
  | [], _ => rfl
  | b :: r, h => by
    have hb : IsPlain b := h b (by simp)
    have : ¬ (b.toNat < 32 ∨ b = 34 ∨ b = 92) := by
      rintro (h' | rfl | rfl)
      · rcases hb with h | h | h | rfl
        · have : 48 ≤ b.toNat := h.1
          omega
        · omega
        · omega
        · revert h'; decide
      · revert hb; decide
      · revert hb; decide
    rw [quoteBody, escape, if_neg this, quoteBody_plain r fun x hx => h x (by simp [hx])]
    rfl

theorem lawful : Lawful lib where
  quote_string s _ := ⟨_, rfl, quoteBody_chars s⟩
  quote_plain s h := by
    show 34 :: (quoteBody s ++ [34]) = _
    rw [quoteBody_plain s h]
  unquote_quote s _ := unquoteBody_quote s
  format_number v _ := by
    have := JsonR.toInt_range (by omega) v
    show IsNumber (formatInt v.toInt)
    rw [JsonW.formatInt_eq _ (by omega)]
    exact JsonW.decimal_number _
  parse_format v _ := by
    have := JsonR.toInt_range (by omega) v
    show BitVec.ofInt 64 ((decimalValue (formatInt v.toInt)).getD 0) = v
    rw [JsonW.formatInt_eq _ (by omega), JsonR.decimalValue_decimal]
    simp

/-- An environment over a memory buffer. -/
def env (fuel : Nat) : JsonEnv Bytes := ⟨memory, lib, fun _ => List.replicate 8 0, fuel⟩

end JsonPlain
end Thrift
