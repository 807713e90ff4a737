import Verif.Lemmas.Dyn
/-! # Lemmas about parsing decimal text and coercing integers -/

namespace Thrift

theorem digitsValue_ge : ∀ cs n m, digitsValue cs (some n) = some m → n ≤ m
  | [], n, m, h => by simp [digitsValue] at h; omega
  | c :: cs, n, m, h => by
    unfold digitsValue at h
    split at h
    · have := digitsValue_ge cs _ m h
      simp only [Option.getD_some] at this
      omega
    · contradiction

theorem parseUintLoop_eq : ∀ cs n, n < 2 ^ 64 →
    match digitsValue cs (some n) with
    | some m => if m < 2 ^ 64 then parseUintLoop cs n = .ok m else parseUintLoop cs n = .rangeError
    | none => parseUintLoop cs n = .syntaxError ∨ parseUintLoop cs n = .rangeError
  | [], n, h => by simp only [digitsValue]; rw [if_pos h]; rfl
  | c :: cs, n, h => by
    unfold digitsValue parseUintLoop
    by_cases hc : 48 ≤ c.toNat ∧ c.toNat ≤ 57
    · rw [if_pos hc, if_neg (by omega)]
      simp only [Option.getD_some]
      by_cases h1 : n * 10 + (c.toNat - 48) ≥ 2 ^ 64
      · have : (if n ≥ (2 ^ 64 - 1) / 10 + 1 then ParsedUint.rangeError
            else if n * 10 + (c.toNat - 48) ≥ 2 ^ 64 then .rangeError
            else parseUintLoop cs (n * 10 + (c.toNat - 48))) = .rangeError := by
          rw [if_pos h1]; split <;> rfl
        rw [this]
        split
        · rename_i m hm
          have := digitsValue_ge _ _ _ hm
          rw [if_neg (by omega)]
        · exact Or.inr rfl
      · rw [if_neg (by omega), if_neg h1]
        exact parseUintLoop_eq cs _ (by omega)
    · rw [if_neg hc, if_pos (by omega)]
      exact Or.inl rfl

theorem parseUint_eq (s : Bytes) :
    match digitsValue s none with
    | some m => if m < 2 ^ 64 then parseUint s = .ok m else parseUint s = .rangeError
    | none => parseUint s = .syntaxError ∨ parseUint s = .rangeError := by
  cases s with
  | nil => exact Or.inl rfl
  | cons c cs =>
    have : digitsValue (c :: cs) none = digitsValue (c :: cs) (some 0) := rfl
    rw [this]
    have := parseUintLoop_eq (c :: cs) 0 (by decide)
    exact this

/-- `ParseInt` of a sign and digits. -/
def parseSigned (neg : Bool) (d : Bytes) : I64 × Bool :=
  match parseUint d with
  | .syntaxError => (0, true)
  | .rangeError => if neg then (BitVec.ofInt 64 (-2 ^ 63), true) else (BitVec.ofInt 64 (2 ^ 63 - 1), true)
  | .ok n =>
    if !neg && n ≥ 2 ^ 63 then (BitVec.ofInt 64 (2 ^ 63 - 1), true)
    else if neg && n > 2 ^ 63 then (BitVec.ofInt 64 (-2 ^ 63), true)
    else (BitVec.ofInt 64 (if neg then -(n : Int) else n), false)

/-- What an error of `ParseInt` leaves as the value. -/
def ErrorValue (v : I64) : Prop := v = 0 ∨ v = BitVec.ofInt 64 (2 ^ 63 - 1) ∨ v = BitVec.ofInt 64 (-2 ^ 63)

theorem parseSigned_eq (neg : Bool) (d : Bytes) :
    match (digitsValue d none).map fun (n : Nat) => if neg then -(n : Int) else n with
    | some n => if -2 ^ 63 ≤ n ∧ n < 2 ^ 63 then parseSigned neg d = (BitVec.ofInt 64 n, false)
        else ∃ v, ErrorValue v ∧ parseSigned neg d = (v, true)
    | none => ∃ v, ErrorValue v ∧ parseSigned neg d = (v, true) := by
  have h := parseUint_eq d
  have err : parseUint d = .syntaxError ∨ parseUint d = .rangeError → ∃ v, ErrorValue v ∧ parseSigned neg d = (v, true) := by
    intro h
    rcases h with h | h
    · exact ⟨0, Or.inl rfl, by simp [parseSigned, h]⟩
    · cases neg
      · exact ⟨_, Or.inr (Or.inl rfl), by simp [parseSigned, h]⟩
      · exact ⟨_, Or.inr (Or.inr rfl), by simp [parseSigned, h]⟩
  cases hd : digitsValue d none with
  | none =>
    rw [hd] at h
    exact err h
  | some m =>
    rw [hd] at h
    simp only [Option.map_some] at h ⊢
    by_cases hm : m < 2 ^ 64
    · rw [if_pos hm] at h
      cases neg
      · simp only [Bool.false_eq_true, if_false]
        have hcase : m < 2 ^ 63 ∨ 2 ^ 63 ≤ m := by omega
        cases hcase with
        | inl hr =>
          have hin : -2 ^ 63 ≤ (m : Int) ∧ (m : Int) < 2 ^ 63 := by omega
          rw [if_pos hin, parseSigned, h]
          have : ¬ m ≥ 2 ^ 63 := by omega
          simp [this]
        | inr hr =>
          have hin : ¬ (-2 ^ 63 ≤ (m : Int) ∧ (m : Int) < 2 ^ 63) := by omega
          rw [if_neg hin]
          refine ⟨_, Or.inr (Or.inl rfl), ?_⟩
          have : m ≥ 2 ^ 63 := by omega
          rw [parseSigned, h]
          simp [this]
      · simp only [if_true]
        by_cases hr : (m : Int) ≤ 2 ^ 63
        · rw [if_pos ⟨by omega, by omega⟩]
          have : ¬ m > 2 ^ 63 := by omega
          rw [parseSigned, h]
          simp [this]
        · rw [if_neg (by omega)]
          refine ⟨_, Or.inr (Or.inr rfl), ?_⟩
          have : m > 2 ^ 63 := by omega
          rw [parseSigned, h]
          simp [this]
    · rw [if_neg hm] at h
      have hx : ¬ (-2 ^ 63 ≤ (if neg = true then -(m : Int) else m) ∧ (if neg = true then -(m : Int) else m) < 2 ^ 63) := by
        cases neg
        · simp only [Bool.false_eq_true, if_false]; omega
        · simp only [if_true]; omega
      rw [if_neg hx]
      exact err (Or.inr h)

theorem parseInt_eq (s : Bytes) :
    match decimalValue s with
    | some n => if -2 ^ 63 ≤ n ∧ n < 2 ^ 63 then parseInt s = (BitVec.ofInt 64 n, false)
        else ∃ v, ErrorValue v ∧ parseInt s = (v, true)
    | none => ∃ v, ErrorValue v ∧ parseInt s = (v, true) := by
  cases s with
  | nil => exact ⟨0, Or.inl rfl, rfl⟩
  | cons c cs =>
    by_cases h1 : c = 43
    · subst h1; exact parseSigned_eq false cs
    · by_cases h2 : c = 45
      · subst h2; exact parseSigned_eq true cs
      · have e1 : parseInt (c :: cs) = parseSigned false (c :: cs) := by
          unfold parseInt
          simp only [if_neg h1, if_neg h2]
          rfl
        have e2 : decimalValue (c :: cs) = (digitsValue (c :: cs) none).map fun (n : Nat) => (n : Int) := by
          unfold decimalValue
          simp only [if_neg h1, if_neg h2]
        rw [e1, e2]
        exact parseSigned_eq false (c :: cs)

/-- The integer types. -/
inductive IsIntType : TType → Nat → Prop
  | byte : IsIntType TT.BYTE 8
  | i16 : IsIntType TT.I16 16
  | i32 : IsIntType TT.I32 32
  | i64 : IsIntType TT.I64 64

/-- The values that a type can hold (BYTE is unsigned in this library). -/
def Holds (p : TType) (w : Nat) (n : Int) : Prop :=
  if p = TT.BYTE then 0 ≤ n ∧ n < 256 else -2 ^ (w - 1) ≤ n ∧ n < 2 ^ (w - 1)

/-- The value of a given integer type. -/
def mkInt (p : TType) (n : Int) : Dyn :=
  if p = TT.BYTE then .byte (BitVec.ofInt 8 n)
  else if p = TT.I16 then .int16 (BitVec.ofInt 16 n)
  else if p = TT.I32 then .int32 (BitVec.ofInt 32 n)
  else .int64 (BitVec.ofInt 64 n)

theorem ofInt_toInt_setWidth (w : Nat) (h : w ≤ 64) (v : I64) : v.setWidth w = BitVec.ofInt w v.toInt := by
  apply BitVec.eq_of_toNat_eq
  rw [BitVec.toNat_setWidth, BitVec.toNat_ofInt, BitVec.toInt_eq_toNat_cond]
  have hd : ((2 ^ w : Nat) : Int) ∣ ((2 ^ 64 : Nat) : Int) := by
    exact_mod_cast Nat.pow_dvd_pow 2 h
  have key : (if 2 * v.toNat < 2 ^ 64 then (v.toNat : Int) else (v.toNat : Int) - ((2 ^ 64 : Nat) : Int)) % ((2 ^ w : Nat) : Int)
      = (v.toNat : Int) % ((2 ^ w : Nat) : Int) := by
    split
    · rfl
    · obtain ⟨k, hk⟩ := hd
      rw [hk, Int.sub_mul_emod_self_left]
  rw [key]
  omega

theorem coerceData_text (L : FloatLib) {p w} (hp : IsIntType p w) (s : Bytes) :
    coerceData L p (.string s) = .ok (if (parseInt s).2 then (mkInt p (parseInt s).1.toInt, true) else (mkInt p 0, false)) := by
  cases hp
  · show Res.ok (if (parseInt s).2 then (Dyn.byte ((parseInt s).1.setWidth 8), true) else (Dyn.byte 0, false)) = _
    rw [ofInt_toInt_setWidth 8 (by decide)]; rfl
  · show Res.ok (if (parseInt s).2 then (Dyn.int16 ((parseInt s).1.setWidth 16), true) else (Dyn.int16 0, false)) = _
    rw [ofInt_toInt_setWidth 16 (by decide)]; rfl
  · show Res.ok (if (parseInt s).2 then (Dyn.int32 ((parseInt s).1.setWidth 32), true) else (Dyn.int32 0, false)) = _
    rw [ofInt_toInt_setWidth 32 (by decide)]; rfl
  · show Res.ok (if (parseInt s).2 then (Dyn.int64 ((parseInt s).1.setWidth 64), true) else (Dyn.int64 0, false)) = _
    rw [ofInt_toInt_setWidth 64 (by decide)]; rfl

theorem coerceData_int (L : FloatLib) {p w} (hp : IsIntType p w) {d : Dyn} {n : Int} (hd : d.intValue = some n) :
    coerceData L p d = .ok (mkInt p n, true) := by
  cases hp <;> cases d <;> simp only [Dyn.intValue, Option.some.injEq, reduceCtorEq] at hd <;> subst hd <;>
    first
      | rfl
      | (rename_i v; show Res.ok (Dyn.byte v, true) = Res.ok (Dyn.byte (BitVec.ofInt 8 v.toNat), true)
         rw [BitVec.ofInt_natCast, BitVec.ofNat_toNat, BitVec.setWidth_eq])

theorem coerceData_bool (L : FloatLib) {p w} (hp : IsIntType p w) (b : Bool) :
    coerceData L p (.bool b) = .ok (mkInt p (if b then 1 else 0), true) := by
  cases hp <;> cases b <;> rfl

theorem mkInt_value {p w} (hp : IsIntType p w) {n : Int} (h : Holds p w n) : (mkInt p n).intValue = some n := by
  cases hp
  · have h : 0 ≤ n ∧ n < 256 := h
    show some (((BitVec.ofInt 8 n).toNat : Nat) : Int) = some n
    rw [BitVec.toNat_ofInt]
    congr 1
    omega
  · have h : -2 ^ 15 ≤ n ∧ n < 2 ^ 15 := h
    show some (BitVec.ofInt 16 n).toInt = some n
    rw [BitVec.toInt_ofInt_eq_self (by decide) h.1 h.2]
  · have h : -2 ^ 31 ≤ n ∧ n < 2 ^ 31 := h
    show some (BitVec.ofInt 32 n).toInt = some n
    rw [BitVec.toInt_ofInt_eq_self (by decide) h.1 h.2]
  · have h : -2 ^ 63 ≤ n ∧ n < 2 ^ 63 := h
    show some (BitVec.ofInt 64 n).toInt = some n
    rw [BitVec.toInt_ofInt_eq_self (by decide) h.1 h.2]

end Thrift
