import Verif.Model.Numeric
import Verif.Props.Containers
/-!
# Numbers and types: C168 – C172
-/

namespace Thrift

/-! ## C168: floating point numbers by value -/

/-- The value of a floating point number with `f` bits of fraction, from its bits
without the sign, in units of the smallest positive number.  Infinity has the
value that the next exponent would have. -/
def magnitude (f mag : Nat) : Nat :=
  if mag / 2 ^ f = 0 then mag % 2 ^ f else (2 ^ f + mag % 2 ^ f) * 2 ^ (mag / 2 ^ f - 1)

/-- The value of a double in units of 2⁻¹⁰⁷⁴. -/
def F64.value (v : F64) : Int := (if v.msb then -1 else 1) * (magnitude 52 (v.toNat % 2 ^ 63) : Int)
/-- The value of a single precision number in units of 2⁻¹⁴⁹. -/
def F32.value (v : BitVec 32) : Int := (if v.msb then -1 else 1) * (magnitude 23 (v.toNat % 2 ^ 31) : Int)
/-- Not a number. -/
def F32.isNaN (v : BitVec 32) : Bool := v.toNat % 2 ^ 31 > 0x7f800000

theorem magnitude_zero (f : Nat) : magnitude f 0 = 0 := by simp [magnitude]

theorem magnitude_step (f n : Nat) : magnitude f n < magnitude f (n + 1) := by
  have hpos : 0 < 2 ^ f := Nat.two_pow_pos f
  unfold magnitude
  generalize hP : 2 ^ f = P at *
  have hdm := Nat.div_add_mod n P
  have hlt := Nat.mod_lt n hpos
  by_cases h : n % P + 1 < P
  · have e1 : (n + 1) / P = n / P := by
      rw [show n + 1 = (n % P + 1) + P * (n / P) by omega, Nat.add_mul_div_left _ _ hpos, Nat.div_eq_of_lt h, Nat.zero_add]
    have e2 : (n + 1) % P = n % P + 1 := by
      rw [show n + 1 = (n % P + 1) + P * (n / P) by omega, Nat.add_mul_mod_self_left, Nat.mod_eq_of_lt h]
    rw [e1, e2]
    by_cases h0 : n / P = 0
    · rw [if_pos h0, if_pos h0]; omega
    · rw [if_neg h0, if_neg h0]
      exact Nat.mul_lt_mul_of_pos_right (by omega) (Nat.two_pow_pos _)
  · have hm : n % P + 1 = P := by omega
    have e1 : (n + 1) / P = n / P + 1 := by
      rw [show n + 1 = P + P * (n / P) by omega, Nat.add_mul_div_left _ _ hpos, Nat.div_self hpos]
      omega
    have e2 : (n + 1) % P = 0 := by
      rw [show n + 1 = P + P * (n / P) by omega, Nat.add_mul_mod_self_left, Nat.mod_self]
    rw [e1, e2, if_neg (Nat.succ_ne_zero _)]
    by_cases h0 : n / P = 0
    · rw [if_pos h0, h0]; simp; exact hlt
    · rw [if_neg h0]
      have : n / P + 1 - 1 = (n / P - 1) + 1 := by generalize n / P = q at *; omega
      rw [this, Nat.pow_succ, Nat.mul_comm (2 ^ (n / P - 1)) 2, ← Nat.mul_assoc]
      exact Nat.mul_lt_mul_of_pos_right (by omega) (Nat.two_pow_pos _)

theorem magnitude_lt (f : Nat) {a b : Nat} (h : a < b) : magnitude f a < magnitude f b := by
  induction h with
  | refl => exact magnitude_step f a
  | step _ ih => exact Nat.lt_trans ih (magnitude_step f _)

/-- Numbers are ordered as their bits with the sign in front. -/
theorem signed_lt (f : Nat) (s t : Bool) (a b : Nat) :
    ((if s then -1 else 1) * (magnitude f a : Int) < (if t then -1 else 1) * (magnitude f b : Int) ↔
      (if s then -(a : Int) else a) < if t then -(b : Int) else b) ∧
    ((if s then -1 else 1) * (magnitude f a : Int) = (if t then -1 else 1) * (magnitude f b : Int) ↔
      (if s then -(a : Int) else a) = if t then -(b : Int) else b) := by
  have h0 := magnitude_zero f
  have ha : 0 < a → 0 < magnitude f a := fun h => by have := magnitude_lt f h; omega
  have hb : 0 < b → 0 < magnitude f b := fun h => by have := magnitude_lt f h; omega
  have hz (x : Nat) (h : x = 0) : magnitude f x = 0 := by rw [h, h0]
  have za := hz a
  have zb := hz b
  have l1 := @magnitude_lt f a b
  have l2 := @magnitude_lt f b a
  have l3 : a = b → magnitude f a = magnitude f b := fun h => by rw [h]
  generalize magnitude f a = A at *
  generalize magnitude f b = B at *
  cases s <;> cases t <;> simp only [Bool.false_eq_true, if_false, if_true, Int.one_mul, Int.neg_one_mul] <;>
    constructor <;> constructor <;> intro h <;> omega

theorem and_mask64 (v : F64) : (v &&& 0x7fffffffffffffff).toNat = v.toNat % 2 ^ 63 := by
  rw [BitVec.toNat_and]
  exact Nat.and_two_pow_sub_one_eq_mod v.toNat 63
theorem and_mask32 (v : BitVec 32) : (v &&& 0x7fffffff).toNat = v.toNat % 2 ^ 31 := by
  rw [BitVec.toNat_and]
  exact Nat.and_two_pow_sub_one_eq_mod v.toNat 31

theorem F64.rank_bits (v : F64) : F64.rank v = if v.msb then -((v.toNat % 2 ^ 63 : Nat) : Int) else (v.toNat % 2 ^ 63 : Nat) := by
  unfold F64.rank
  rw [and_mask64]

/-- Go's `<` and `==` on doubles compare the numbers, except that nothing is less than or
equal to NaN. -/
theorem F64.lt_iff (a b : F64) : F64.lt a b = true ↔ F64.isNaN a = false ∧ F64.isNaN b = false ∧ F64.value a < F64.value b := by
  rw [F64.lt, F64.value, F64.value, (signed_lt 52 _ _ _ _).1, ← F64.rank_bits, ← F64.rank_bits]
  cases F64.isNaN a <;> cases F64.isNaN b <;> simp

theorem F64.eq_iff (a b : F64) : F64.eq a b = true ↔ F64.isNaN a = false ∧ F64.isNaN b = false ∧ F64.value a = F64.value b := by
  rw [F64.eq, F64.value, F64.value, (signed_lt 52 _ _ _ _).2, ← F64.rank_bits, ← F64.rank_bits]
  cases F64.isNaN a <;> cases F64.isNaN b <;> simp

theorem F32.lt_iff (a b : BitVec 32) : F32.lt a b = true ↔ F32.isNaN a = false ∧ F32.isNaN b = false ∧ F32.value a < F32.value b := by
  rw [F32.lt, F32.value, F32.value, (signed_lt 23 _ _ _ _).1, F32.isNaN, F32.isNaN]
  simp only [and_mask32, Bool.and_eq_true, decide_eq_true_eq, decide_eq_false_iff_not, Nat.not_lt, and_assoc, gt_iff_lt]

theorem F32.eq_iff (a b : BitVec 32) : F32.eq a b = true ↔ F32.isNaN a = false ∧ F32.isNaN b = false ∧ F32.value a = F32.value b := by
  rw [F32.eq, F32.value, F32.value, (signed_lt 23 _ _ _ _).2, F32.isNaN, F32.isNaN]
  simp only [and_mask32, Bool.and_eq_true, decide_eq_true_eq, decide_eq_false_iff_not, Nat.not_lt, and_assoc, gt_iff_lt, beq_iff_eq]

/-- The sign of a difference. -/
def SignDiff (c a b : Int) : Prop := (c < 0 ↔ a < b) ∧ (c = 0 ↔ a = b) ∧ (0 < c ↔ b < a)

/-- C168 as stated: `Compare` as DOUBLE puts any two doubles in the order of their
values, NaN being equal to NaN. -/
def C168_statement : Prop :=
  ∀ (L : FloatLib) (a b : F64), ∃ c, compare L TT.DOUBLE (.float64 a) (.float64 b) = .ok (c, true) ∧
    (a = b → c = 0) ∧ (F64.isNaN a = false → F64.isNaN b = false → SignDiff c (F64.value a) (F64.value b))

/-- NaN is greater than itself. -/
theorem C168_violated : ¬ C168_statement := by
  intro h
  obtain ⟨c, hc, h0, _⟩ := h exampleLib 0x7ff8000000000000 0x7ff8000000000000
  rw [show compare exampleLib TT.DOUBLE (.float64 0x7ff8000000000000) (.float64 0x7ff8000000000000) = .ok (1, true) by kernel_rfl] at hc
  injection hc with hc
  injection hc with hc
  exact absurd (h0 rfl) (by omega)

theorem compare_double (L : FloatLib) (a b : F64) :
    compare L TT.DOUBLE (.float64 a) (.float64 b) = .ok (cmp3 (F64.eq a b) (F64.lt a b)) := by
  rw [compare, compareFuel_native L _ (show Native TT.DOUBLE (.float64 a) from rfl) (show Native TT.DOUBLE (.float64 b) from rfl),
    if_pos (by decide), Dyn.goEq, Res.bind_ok,
    show compareCoerced (compareFuel L (max (Dyn.float64 a).depth (Dyn.float64 b).depth)) TT.DOUBLE (.float64 a) (.float64 b) =
      .ok (cmp3 (F64.eq a b) (F64.lt a b)) from rfl]
  cases F64.eq a b <;> rfl

/-- All doubles but NaN are ordered by value; where a NaN takes part the answer is
always "greater". -/
theorem C168_partial (L : FloatLib) (a b : F64) : ∃ c, compare L TT.DOUBLE (.float64 a) (.float64 b) = .ok (c, true) ∧
    (F64.isNaN a = false → F64.isNaN b = false → SignDiff c (F64.value a) (F64.value b)) ∧
    (F64.isNaN a = true ∨ F64.isNaN b = true → c = 1) := by
  rw [compare_double]
  have he := F64.eq_iff a b
  have hl := F64.lt_iff a b
  unfold cmp3 SignDiff
  cases h1 : F64.eq a b
  · cases h2 : F64.lt a b
    · refine ⟨1, rfl, fun ha hb => ?_, fun _ => rfl⟩
      have n1 : ¬ F64.value a = F64.value b := fun h => by rw [he.2 ⟨ha, hb, h⟩] at h1; exact absurd h1 (by decide)
      have n2 : ¬ F64.value a < F64.value b := fun h => by rw [hl.2 ⟨ha, hb, h⟩] at h2; exact absurd h2 (by decide)
      omega
    · obtain ⟨x, y, z⟩ := hl.1 h2
      exact ⟨-1, rfl, fun _ _ => by omega, fun h => by rw [x, y] at h; exact absurd h (by decide)⟩
  · obtain ⟨x, y, z⟩ := he.1 h1
    exact ⟨0, rfl, fun _ _ => by omega, fun h => by rw [x, y] at h; exact absurd h (by decide)⟩

/-- Widening to `float64` keeps the value, as Go promises: NaN stays NaN, infinity
infinity, and the value of any other number (counted in smaller units) is the same. -/
structure FloatLib.Widens (L : FloatLib) : Prop where
  nan : ∀ v, F64.isNaN (L.widen v) = F32.isNaN v
  inf : L.widen 0x7f800000 = 0x7ff0000000000000 ∧ L.widen 0xff800000 = 0xfff0000000000000
  value : ∀ v, v.toNat % 2 ^ 31 < 0x7f800000 → F64.value (L.widen v) = F32.value v * 2 ^ 925

theorem F32.finite_bound (v : BitVec 32) (h : v.toNat % 2 ^ 31 < 0x7f800000) :
    -(2 : Int) ^ 277 < F32.value v ∧ F32.value v < 2 ^ 277 := by
  have h1 := magnitude_lt 23 h
  rw [show magnitude 23 0x7f800000 = 2 ^ 277 by decide +kernel] at h1
  unfold F32.value
  have : ((2 ^ 277 : Nat) : Int) = 2 ^ 277 := by decide +kernel
  generalize magnitude 23 (v.toNat % 2 ^ 31) = m at *
  generalize (2 : Nat) ^ 277 = K at *
  generalize (2 : Int) ^ 277 = K' at *
  split <;> omega

theorem F32.inf_cases (v : BitVec 32) (hn : F32.isNaN v = false) :
    v.toNat % 2 ^ 31 < 0x7f800000 ∨ v = 0x7f800000 ∨ v = 0xff800000 := by
  have hn : ¬ v.toNat % 2 ^ 31 > 0x7f800000 := of_decide_eq_false hn
  by_cases h : v.toNat % 2 ^ 31 < 0x7f800000
  · exact .inl h
  · right
    have := v.isLt
    by_cases h2 : v.toNat < 2 ^ 31
    · left; apply BitVec.eq_of_toNat_eq; show v.toNat = 0x7f800000; omega
    · right; apply BitVec.eq_of_toNat_eq; show v.toNat = 0xff800000; omega

/-- Widening keeps the order. -/
theorem FloatLib.Widens.order {L : FloatLib} (hL : L.Widens) (a b : BitVec 32) (ha : F32.isNaN a = false) (hb : F32.isNaN b = false) :
    (F64.value (L.widen a) < F64.value (L.widen b) ↔ F32.value a < F32.value b) ∧
    (F64.value (L.widen a) = F64.value (L.widen b) ↔ F32.value a = F32.value b) := by
  have p32 : F32.value 0x7f800000 = 2 ^ 277 := by decide +kernel
  have n32 : F32.value 0xff800000 = -2 ^ 277 := by decide +kernel
  have p64 : F64.value 0x7ff0000000000000 = 2 ^ 2098 := by decide +kernel
  have n64 : F64.value 0xfff0000000000000 = -2 ^ 2098 := by decide +kernel
  have hbig : (2 : Int) ^ 277 * 2 ^ 925 < 2 ^ 2098 := by decide +kernel
  have hx : (0 : Int) < 2 ^ 277 * 2 ^ 925 := by decide +kernel
  have hp : (0 : Int) < 2 ^ 925 := by decide +kernel
  have hq : (0 : Int) < 2 ^ 277 := by decide +kernel
  have fin (v : BitVec 32) (h : v.toNat % 2 ^ 31 < 0x7f800000) :
      F64.value (L.widen v) = F32.value v * 2 ^ 925 ∧ -(2 : Int) ^ 277 < F32.value v ∧ F32.value v < 2 ^ 277 ∧
      -((2 : Int) ^ 277 * 2 ^ 925) < F32.value v * 2 ^ 925 ∧ F32.value v * 2 ^ 925 < 2 ^ 277 * 2 ^ 925 := by
    obtain ⟨h1, h2⟩ := F32.finite_bound v h
    refine ⟨hL.value v h, h1, h2, ?_, Int.mul_lt_mul_of_pos_right h2 hp⟩
    rw [← Int.neg_mul]
    exact Int.mul_lt_mul_of_pos_right h1 hp
  have wp := hL.inf.1
  have wn := hL.inf.2
  rcases F32.inf_cases a ha with h1 | rfl | rfl <;> rcases F32.inf_cases b hb with h2 | rfl | rfl
  · obtain ⟨e1, _⟩ := fin a h1
    obtain ⟨e2, _⟩ := fin b h2
    rw [e1, e2, Int.mul_lt_mul_right hp, Int.mul_eq_mul_right_iff (by omega)]
    exact ⟨Iff.rfl, Iff.rfl⟩
  all_goals
    first
    | obtain ⟨e1, b1, b2, b3, b4⟩ := fin a h1; rw [e1]
    | obtain ⟨e1, b1, b2, b3, b4⟩ := fin b h2; rw [e1]
    | skip
    simp only [wp, wn, p32, n32, p64, n64]
    generalize (2 : Int) ^ 277 * 2 ^ 925 = X at *
    generalize (2 : Int) ^ 277 = Q at *
    generalize (2 : Int) ^ 2098 = Y at *
    try generalize F32.value a * 2 ^ 925 = Z at *
    try generalize F32.value b * 2 ^ 925 = Z at *
    constructor <;> constructor <;> intro h <;> omega

/-- Single precision numbers compare by value, too. -/
theorem C168_single_partial (L : FloatLib) (hL : L.Widens) (a b : BitVec 32) (ha : F32.isNaN a = false) (hb : F32.isNaN b = false) :
    ∃ c, compare L TT.DOUBLE (.float32 a) (.float32 b) = .ok (c, true) ∧ SignDiff c (F32.value a) (F32.value b) := by
  by_cases h : F32.eq a b = true
  · refine ⟨0, ?_, ?_⟩
    · rw [compare, compareFuel, if_pos (by decide), Dyn.goEq, h]
      rfl
    · have := ((F32.eq_iff a b).1 h).2.2
      unfold SignDiff
      omega
  · obtain ⟨c, hc, hs, _⟩ := C168_partial L (L.widen a) (L.widen b)
    have hs := hs ((hL.nan a).trans ha) ((hL.nan b).trans hb)
    refine ⟨c, ?_, ?_⟩
    · rw [compare_double] at hc
      rw [← hc, compare, compareFuel, if_pos (by decide), Dyn.goEq]
      simp only [Bool.not_eq_true] at h
      rw [h]
      show (do
        let same ← Dyn.goEq (.float64 (L.widen a)) (.float64 (L.widen b))
        if same then return (0, true)
        compareCoerced (compareFuel L 0) TT.DOUBLE (.float64 (L.widen a)) (.float64 (L.widen b))) = _
      rw [Dyn.goEq, Res.bind_ok, show compareCoerced (compareFuel L 0) TT.DOUBLE (.float64 (L.widen a)) (.float64 (L.widen b)) =
        .ok (cmp3 (F64.eq (L.widen a) (L.widen b)) (F64.lt (L.widen a) (L.widen b))) from rfl]
      cases F64.eq (L.widen a) (L.widen b) <;> rfl
    · obtain ⟨o1, o2⟩ := hL.order a b ha hb
      obtain ⟨o3, _⟩ := hL.order b a hb ha
      unfold SignDiff at hs ⊢
      rw [o1, o2, o3] at hs
      exact hs

/-! A library that keeps values, as an example. -/

/-- The bits without sign of the same number as a double. -/
def widenMag (m : Nat) : Nat :=
  if m > 0x7f800000 then 0x7ff8000000000000
  else if m = 0x7f800000 then 0x7ff0000000000000
  else if m = 0 then 0
  else if m < 2 ^ 23 then (Nat.log2 m + 874) * 2 ^ 52 + (m - 2 ^ Nat.log2 m) * 2 ^ (52 - Nat.log2 m)
  else (m / 2 ^ 23 + 896) * 2 ^ 52 + m % 2 ^ 23 * 2 ^ 29

def widenBits (v : BitVec 32) : F64 := BitVec.ofNat 64 ((if v.msb then 2 ^ 63 else 0) + widenMag (v.toNat % 2 ^ 31))

theorem magnitude_make (e r : Nat) (hr : r < 2 ^ 52) (he : e ≠ 0) : magnitude 52 (e * 2 ^ 52 + r) = (2 ^ 52 + r) * 2 ^ (e - 1) := by
  unfold magnitude
  have h1 : (e * 2 ^ 52 + r) / 2 ^ 52 = e := by omega
  have h2 : (e * 2 ^ 52 + r) % 2 ^ 52 = r := by omega
  rw [h1, h2, if_neg he]

theorem widenMag_lt (m : Nat) (h : m < 2 ^ 31) : widenMag m < 2 ^ 63 := by
  unfold widenMag
  split
  · decide
  split
  · decide
  split
  · decide
  split
  · rename_i h0 h1
    have hk : Nat.log2 m < 23 := (Nat.log2_lt h0).2 h1
    have := Nat.log2_self_le h0
    have h3 : m < 2 ^ (Nat.log2 m + 1) := Nat.lt_log2_self
    rw [Nat.pow_succ] at h3
    have h4 : (m - 2 ^ Nat.log2 m) * 2 ^ (52 - Nat.log2 m) < 2 ^ Nat.log2 m * 2 ^ (52 - Nat.log2 m) :=
      Nat.mul_lt_mul_of_pos_right (by omega) (Nat.two_pow_pos _)
    rw [← Nat.pow_add, show Nat.log2 m + (52 - Nat.log2 m) = 52 by omega] at h4
    omega
  · omega

theorem widenMag_value (m : Nat) (h : m < 0x7f800000) : magnitude 52 (widenMag m) = magnitude 23 m * 2 ^ 925 := by
  unfold widenMag
  rw [if_neg (by omega), if_neg (by omega)]
  split
  · rename_i h0
    subst h0
    rw [magnitude_zero, magnitude_zero, Nat.zero_mul]
  split
  · rename_i h0 h1
    have hk : Nat.log2 m < 23 := (Nat.log2_lt h0).2 h1
    have hle := Nat.log2_self_le h0
    have h3 : m < 2 ^ (Nat.log2 m + 1) := Nat.lt_log2_self
    rw [Nat.pow_succ] at h3
    have h4 : (m - 2 ^ Nat.log2 m) * 2 ^ (52 - Nat.log2 m) < 2 ^ Nat.log2 m * 2 ^ (52 - Nat.log2 m) :=
      Nat.mul_lt_mul_of_pos_right (by omega) (Nat.two_pow_pos _)
    have h5 : 2 ^ Nat.log2 m * 2 ^ (52 - Nat.log2 m) = 2 ^ 52 := by
      rw [← Nat.pow_add, show Nat.log2 m + (52 - Nat.log2 m) = 52 by omega]
    rw [h5] at h4
    rw [magnitude_make _ _ h4 (by omega), ← h5, ← Nat.add_mul, show 2 ^ Nat.log2 m + (m - 2 ^ Nat.log2 m) = m by omega,
      Nat.mul_assoc, ← Nat.pow_add, show 52 - Nat.log2 m + (Nat.log2 m + 874 - 1) = 925 by omega]
    congr 1
    unfold magnitude
    rw [if_pos (by omega), Nat.mod_eq_of_lt h1]
  · rename_i h0 h1
    have hr : m % 2 ^ 23 * 2 ^ 29 < 2 ^ 52 := by omega
    rw [magnitude_make _ _ hr (by omega)]
    unfold magnitude
    rw [if_neg (by omega), show (2 ^ 52 + m % 2 ^ 23 * 2 ^ 29) = (2 ^ 23 + m % 2 ^ 23) * 2 ^ 29 by omega, Nat.mul_assoc,
      ← Nat.pow_add, Nat.mul_assoc, ← Nat.pow_add]
    have : m / 2 ^ 23 ≠ 0 := by omega
    rw [show 29 + (m / 2 ^ 23 + 896 - 1) = m / 2 ^ 23 - 1 + 925 by omega]

theorem widenBits_parts (v : BitVec 32) : (widenBits v).msb = v.msb ∧ (widenBits v).toNat % 2 ^ 63 = widenMag (v.toNat % 2 ^ 31) := by
  have hm := widenMag_lt (v.toNat % 2 ^ 31) (Nat.mod_lt _ (by decide))
  unfold widenBits
  rw [BitVec.msb_eq_decide, BitVec.toNat_ofNat]
  cases h : v.msb
  · simp only [Bool.false_eq_true, if_false, Nat.zero_add]
    rw [Nat.mod_eq_of_lt (by omega)]
    exact ⟨decide_eq_false (by omega), Nat.mod_eq_of_lt hm⟩
  · simp only [if_true]
    rw [Nat.mod_eq_of_lt (by omega)]
    exact ⟨decide_eq_true (by omega), by omega⟩

/-- A library that widens as Go does. -/
def widenLib : FloatLib := { exampleLib with widen := widenBits }

theorem widenLib_widens : widenLib.Widens where
  nan v := by
    show F64.isNaN (widenBits v) = _
    unfold F64.isNaN F32.isNaN
    rw [and_mask64, (widenBits_parts v).2]
    by_cases h : v.toNat % 2 ^ 31 > 0x7f800000
    · rw [decide_eq_true h]
      unfold widenMag
      rw [if_pos h]
      decide
    · rw [decide_eq_false h, decide_eq_false_iff_not]
      by_cases h2 : v.toNat % 2 ^ 31 = 0x7f800000
      · rw [h2]; decide
      · intro h3
        have e := widenMag_value _ (show v.toNat % 2 ^ 31 < 0x7f800000 by omega)
        have h4 := magnitude_lt 52 h3
        have h5 := magnitude_lt 23 (show v.toNat % 2 ^ 31 < 0x7f800000 by omega)
        rw [e, show magnitude 52 0x7ff0000000000000 = 2 ^ 2098 by decide +kernel] at h4
        rw [show magnitude 23 0x7f800000 = 2 ^ 277 by decide +kernel] at h5
        have h6 : magnitude 23 (v.toNat % 2 ^ 31) * 2 ^ 925 < 2 ^ 277 * 2 ^ 925 := Nat.mul_lt_mul_of_pos_right h5 (Nat.two_pow_pos _)
        rw [← Nat.pow_add] at h6
        have h7 : 2 ^ (277 + 925) < 2 ^ 2098 := Nat.pow_lt_pow_right (by decide) (by decide)
        exact absurd (Nat.lt_trans h4 (Nat.lt_trans h6 h7)) (Nat.lt_irrefl _)
  inf := by decide +kernel
  value v h := by
    show F64.value (widenBits v) = _
    unfold F64.value F32.value
    rw [(widenBits_parts v).1, (widenBits_parts v).2, widenMag_value _ h]
    cases v.msb <;> simp <;> omega

/-- -1 and 1 in single precision. -/
example : ∃ c, compare widenLib TT.DOUBLE (.float32 0xbf800000) (.float32 0x3f800000) = .ok (c, true) ∧
    SignDiff c (F32.value 0xbf800000) (F32.value 0x3f800000) :=
  C168_single_partial widenLib widenLib_widens _ _ (by decide) (by decide)

example : F64.value 0x3ff0000000000000 = 2 ^ 1074 ∧ F64.value 0xbff0000000000000 = -2 ^ 1074 ∧ F64.value 1 = 1 := by
  decide +kernel
example : F64.isNaN 0x7ff0000000000000 = false ∧ F64.isNaN 0x7ff8000000000000 = true := by decide +kernel

/-! ## C169: the comparison helpers -/

theorem compareInt_diff (a b : Int) : SignDiff (compareInt a b) a b := by
  unfold compareInt SignDiff
  split
  · omega
  · split <;> omega

/-- C169 as stated: each helper gives the sign of the difference of its two arguments.
The helper for `int64` has parameters of type `int32`, to which its arguments have to be
converted. -/
def C169_statement : Prop :=
  (∀ a b : I16, SignDiff (compareInt16 a b) a.toInt b.toInt) ∧ (∀ a b : I32, SignDiff (compareInt32 a b) a.toInt b.toInt) ∧
  (∀ a b : I64, SignDiff (compareInt64 (a.setWidth 32) (b.setWidth 32)) a.toInt b.toInt) ∧
  (∀ a b : Byte, SignDiff (compareByte a b) a.toNat b.toNat) ∧
  (∀ a b : Bool, SignDiff (compareBool a b) (if a then 1 else 0) (if b then 1 else 0)) ∧
  (∀ a b : F64, SignDiff (compareDouble a b) (F64.value a) (F64.value b)) ∧
  (∀ a b : BitVec 32, SignDiff (compareFloat a b) (F32.value a) (F32.value b))

/-- 2³² and 0 as `int64`. -/
theorem C169_violated : ¬ C169_statement := fun h => absurd ((h.2.2.1 0x100000000 0).2.1.1 (by decide)) (by decide)

/-- NaN equals every number, so that this is not the equality of anything. -/
theorem C169_nan_violated : compareDouble 0x7ff8000000000000 0 = 0 ∧ compareDouble 0x7ff8000000000000 0x3ff0000000000000 = 0 ∧
    compareDouble 0 0x3ff0000000000000 = -1 := by decide +kernel

/-- Where the converted arguments are in range, and without NaN, it holds. -/
theorem C169_partial :
    (∀ a b : I16, SignDiff (compareInt16 a b) a.toInt b.toInt) ∧ (∀ a b : I32, SignDiff (compareInt32 a b) a.toInt b.toInt) ∧
    (∀ a b : I32, SignDiff (compareInt64 a b) a.toInt b.toInt) ∧
    (∀ a b : Byte, SignDiff (compareByte a b) a.toNat b.toNat) ∧
    (∀ a b : Bool, SignDiff (compareBool a b) (if a then 1 else 0) (if b then 1 else 0)) ∧
    (∀ a b : F64, F64.isNaN a = false → F64.isNaN b = false → SignDiff (compareDouble a b) (F64.value a) (F64.value b)) ∧
    (∀ a b : BitVec 32, F32.isNaN a = false → F32.isNaN b = false → SignDiff (compareFloat a b) (F32.value a) (F32.value b)) := by
  refine ⟨fun a b => compareInt_diff _ _, fun a b => compareInt_diff _ _, fun a b => compareInt_diff _ _, fun a b => ?_,
    fun a b => ?_, fun a b ha hb => ?_, fun a b ha hb => ?_⟩
  · unfold compareByte SignDiff
    split
    · omega
    · split <;> omega
  · cases a <;> cases b <;> unfold compareBool SignDiff <;> decide
  · have h1 := F64.lt_iff a b
    have h2 := F64.lt_iff b a
    simp only [ha, hb, true_and] at h1 h2
    unfold compareDouble SignDiff
    by_cases x : F64.value b < F64.value a
    · rw [if_pos (h2.2 x)]; omega
    · rw [if_neg fun h => x (h2.1 h)]
      by_cases y : F64.value a < F64.value b
      · rw [if_pos (h1.2 y)]; omega
      · rw [if_neg fun h => y (h1.1 h)]; omega
  · have h1 := F32.lt_iff a b
    have h2 := F32.lt_iff b a
    simp only [ha, hb, true_and] at h1 h2
    unfold compareFloat SignDiff
    by_cases x : F32.value b < F32.value a
    · rw [if_pos (h2.2 x)]; omega
    · rw [if_neg fun h => x (h2.1 h)]
      by_cases y : F32.value a < F32.value b
      · rw [if_pos (h1.2 y)]; omega
      · rw [if_neg fun h => y (h1.1 h)]; omega

/-- Text as the row of its bytes. -/
def textKey (s : Bytes) : List Int := s.map fun b => (b.toNat : Int)

theorem textKey_inj {a b : Bytes} (h : textKey a = textKey b) : a = b := by
  unfold textKey at h
  exact List.map_inj_right (f := fun (x : Byte) => (x.toNat : Int)) (fun x y h => BitVec.eq_of_toNat_eq (Int.ofNat.inj h)) |>.1 h

theorem compareStrings_same : ∀ (pre xs ys : List Bytes), compareStrings (pre ++ xs) (pre ++ ys) = compareStrings xs ys
  | [], _, _ => rfl
  | x :: pre, xs, ys => by
    rw [List.cons_append, List.cons_append, compareStrings, (compareString_sign x x).zero_iff.2 rfl]
    exact compareStrings_same pre xs ys

/-- Text is compared byte by byte, rows of texts by their length and then by the first
difference. -/
theorem C169_texts (a b : Bytes) (xs ys pre : List Bytes) :
    ((compareString a b < 0 ↔ LexLt (textKey a) (textKey b)) ∧ (compareString a b = 0 ↔ a = b) ∧
      (0 < compareString a b ↔ LexLt (textKey b) (textKey a))) ∧
    (xs.length < ys.length → compareStringArray xs ys = -1 ∧ compareStringArray ys xs = 1) ∧
    compareStringArray xs xs = 0 ∧
    (xs.length = ys.length → a ≠ b → compareStringArray (pre ++ a :: xs) (pre ++ b :: ys) = compareString a b) := by
  have hs := compareString_sign a b
  refine ⟨⟨hs.neg_iff, ⟨fun h => textKey_inj (hs.zero_iff.1 h), fun h => hs.zero_iff.2 (by rw [h])⟩, hs.pos_iff⟩, fun h => ?_, ?_,
    fun hl hab => ?_⟩
  · have c1 : compareInt xs.length ys.length = -1 := by
      unfold compareInt
      rw [if_neg (by omega), if_pos (by omega)]
    have c2 : compareInt ys.length xs.length = 1 := by
      unfold compareInt
      rw [if_pos (by omega)]
    unfold compareStringArray
    rw [c1, c2]
    exact ⟨rfl, rfl⟩
  · have := compareStrings_same xs [] []
    rw [List.append_nil] at this
    unfold compareStringArray compareInt
    simp only [Int.lt_irrefl, gt_iff_lt, if_false, ne_eq, not_true]
    rw [this]; rfl
  · have hlen : (pre ++ a :: xs).length = (pre ++ b :: ys).length := by simp [hl]
    unfold compareStringArray compareInt
    rw [hlen]
    simp only [Int.lt_irrefl, gt_iff_lt, if_false, ne_eq, not_true]
    rw [compareStrings_same, compareStrings, if_pos fun h => hab (textKey_inj (hs.zero_iff.1 h))]

example : [ascii "b"].length < [ascii "a", ascii "a"].length ∧ ascii "a" ≠ ascii "b" := by decide

/-! ## C170: numbers as `Numeric` -/

/-- C170 as stated: a `Numeric` made of an integer has that integer as its value, and its
text is that integer in decimal. -/
def C170_statement : Prop :=
  ∀ (L : FloatLib) (v : I64), (Numeric.ofI64 L v).int64 = v ∧ (Numeric.ofI64 L v).isNull = false ∧
    decimalValue (Numeric.ofI64 L v).string = some v.toInt

/-- The text of no integer is that integer: `string(65)` is "A", `string(53)` is "5". -/
theorem C170_never_violated (L : FloatLib) (v : I64) (w : I32) : decimalValue (Numeric.ofI64 L v).string ≠ some v.toInt ∧
    decimalValue (Numeric.ofI32 L w).string ≠ some w.toInt := by
  have key (n : Int) : decimalValue (runeString n) ≠ some n := by
    unfold runeString
    split
    · rename_i h
      simp [decimalValue, digitsValue]
    · rename_i h
      simp only [not_or] at h
      obtain ⟨h0, h1, _⟩ := h
      have first (b : Nat) (rest : Bytes) (hb : 58 ≤ b) (hb' : b < 256) : decimalValue (BitVec.ofNat 8 b :: rest) = none := by
        have e : (BitVec.ofNat 8 b).toNat = b := by rw [BitVec.toNat_ofNat]; omega
        have n1 : BitVec.ofNat 8 b ≠ 43 := fun h => by have := congrArg BitVec.toNat h; rw [e] at this; simp at this; omega
        have n2 : BitVec.ofNat 8 b ≠ 45 := fun h => by have := congrArg BitVec.toNat h; rw [e] at this; simp at this; omega
        rw [decimalValue, if_neg n1, if_neg n2, digitsValue, if_neg (by rw [e]; omega)]
        rfl
      dsimp only
      split
      · rename_i hc
        have e : (BitVec.ofNat 8 n.toNat).toNat = n.toNat := by rw [BitVec.toNat_ofNat]; omega
        by_cases hb : 58 ≤ n.toNat
        · rw [first _ _ hb (by omega)]; nofun
        · rw [decimalValue]
          split
          · simp [digitsValue]
          · split
            · simp [digitsValue]
            · rw [digitsValue]
              split
              · rw [digitsValue, e]
                simp
                omega
              · simp
      · split
        · rw [first _ _ (by omega) (by omega)]; nofun
        · split
          · rw [first _ _ (by omega) (by omega)]; nofun
          · rw [first _ _ (by omega) (by omega)]; nofun
  exact ⟨key v.toInt, key w.toInt⟩

theorem C170_violated : ¬ C170_statement := fun h => (C170_never_violated exampleLib 0 0).1 (h exampleLib 0).2.2

/-- The values are right, and so are value and text of a `Numeric` made of a text in decimal;
the texts of the three special numbers make those. -/
theorem C170_partial (L : FloatLib) (v : I64) (w : I32) (s : Bytes) (n : Int) (hs : decimalValue s = some n)
    (hn : -2 ^ 63 ≤ n ∧ n < 2 ^ 63) :
    ((Numeric.ofI64 L v).int64 = v ∧ (Numeric.ofI64 L v).isNull = false ∧ (Numeric.ofI32 L w).int32 = w ∧
      (Numeric.ofI32 L w).int64.toInt = w.toInt ∧ (Numeric.ofI32 L w).isNull = false) ∧
    ((Numeric.ofString L s).int64.toInt = n ∧ (Numeric.ofString L s).string = s ∧ (Numeric.ofString L s).isNull = false) ∧
    ((Numeric.ofJSONString L s false).int64.toInt = n ∧ (Numeric.ofJSONString L s false).string = s ∧
      (Numeric.ofJSONString L s false).isNull = false) ∧
    (Numeric.ofJSONString L s true).isNull = true ∧
    ∀ x ∈ [Numeric.infinity, Numeric.negativeInfinity, Numeric.nan],
      Numeric.ofString L x.string = x ∧ Numeric.ofJSONString L x.string false = x ∧
      ∀ f, Numeric.ofDouble L f x.dValue = x := by
  have hp := parseInt_eq s
  rw [hs] at hp
  dsimp only at hp
  rw [if_pos hn] at hp
  have e1 : s ≠ ascii "Infinity" := fun h => by
    rw [h, show decimalValue (ascii "Infinity") = none by decide] at hs; exact absurd hs (by simp)
  have e2 : s ≠ ascii "-Infinity" := fun h => by
    rw [h, show decimalValue (ascii "-Infinity") = none by decide] at hs; exact absurd hs (by simp)
  have e3 : s ≠ ascii "NaN" := fun h => by
    rw [h, show decimalValue (ascii "NaN") = none by decide] at hs; exact absurd hs (by simp)
  have e4 : s.length ≠ 0 := fun h => by
    rw [List.eq_nil_of_length_eq_zero h, decimalValue] at hs; exact absurd hs (by simp)
  have hv : (BitVec.ofInt 64 n).toInt = n := by
    rw [BitVec.toInt_ofInt]
    exact Int.bmod_eq_of_le (by omega) (by omega)
  have hw : ((w.signExtend 64).setWidth 32 : I32) = w := by
    apply BitVec.eq_of_getLsbD_eq
    intro i hi
    simp [BitVec.getLsbD_signExtend, hi]
    omega
  refine ⟨⟨rfl, rfl, hw, ?_, rfl⟩, ?_, ?_, rfl, ?_⟩
  · exact BitVec.toInt_signExtend_of_le (by decide)
  · unfold Numeric.ofString
    rw [if_neg (show ¬ s = Numeric.infinity.sValue from e1), if_neg (show ¬ s = Numeric.negativeInfinity.sValue from e2),
      if_neg (show ¬ s = Numeric.nan.sValue from e3), hp]
    exact ⟨hv, rfl, decide_eq_false e4⟩
  · unfold Numeric.ofJSONString
    rw [if_neg (by decide), if_neg e1, if_neg e2, if_neg e3, hp]
    exact ⟨hv, rfl, rfl⟩
  · intro x hx
    simp only [List.mem_cons, List.not_mem_nil, or_false] at hx
    rcases hx with rfl | rfl | rfl
    · exact ⟨rfl, rfl, fun _ => rfl⟩
    · exact ⟨rfl, rfl, fun _ => rfl⟩
    · exact ⟨rfl, rfl, fun _ => rfl⟩

example : decimalValue (ascii "-42") = some (-42) := by decide

/-- The shorter accessors give the last bits of the value. -/
theorem C170_widths (L : FloatLib) (v : I64) (w : I32) :
    (Numeric.ofI64 L v).int32.toNat = v.toNat % 2 ^ 32 ∧ (Numeric.ofI64 L v).int16.toNat = v.toNat % 2 ^ 16 ∧
    (Numeric.ofI64 L v).byte.toNat = v.toNat % 2 ^ 8 ∧
    (Numeric.ofI32 L w).int16.toNat = w.toNat % 2 ^ 16 ∧ (Numeric.ofI32 L w).byte.toNat = w.toNat % 2 ^ 8 := by
  refine ⟨BitVec.toNat_setWidth .., BitVec.toNat_setWidth .., BitVec.toNat_setWidth .., ?_, ?_⟩
  · show ((w.signExtend 64).setWidth 16).toNat = _
    rw [BitVec.toNat_setWidth, BitVec.toNat_signExtend, BitVec.toNat_setWidth]
    split <;> omega
  · show ((w.signExtend 64).setWidth 8).toNat = _
    rw [BitVec.toNat_setWidth, BitVec.toNat_signExtend, BitVec.toNat_setWidth]
    split <;> omega

/-- `ZERO` is zero, in every respect, and so are the integers of the numbers that are none. -/
theorem C170_constants : decimalValue Numeric.zero.string = some 0 ∧ Numeric.zero.int64 = 0 ∧ F64.value Numeric.zero.dValue = 0 ∧
    Numeric.zero.isNull = false ∧
    ∀ x ∈ [Numeric.infinity, Numeric.negativeInfinity, Numeric.nan, Numeric.newNull], x.int64 = 0 ∧ decimalValue x.string = none := by
  decide +kernel

/-! ## C171: names and classes of types -/

/-- C171 as stated: no type is in two of the classes numbers, texts, containers, structs and
no types; the base types are the numbers and texts; and types with a name have different
names. -/
def C171_statement : Prop :=
  (∀ p : TType, ((isNumericType p).toNat + (isStringType p).toNat + (isContainerType p).toNat + (isStructType p).toNat +
    (isEmptyType p).toNat ≤ 1) ∧ isBaseType p = (isNumericType p || isStringType p)) ∧
  ∀ p q : TType, p.name = q.name → p.name ≠ ascii "Unknown" → p = q

/-- `ENUM` and `UTF8` are the same number. -/
theorem C171_violated : ¬ C171_statement := fun h => absurd (h.1 TT.ENUM).1 (by decide)

/-- That is the only exception: every other type with a name but GENERIC is in exactly one
class. -/
theorem C171_partial :
    (∀ p : TType, p ≠ TT.ENUM → ((isNumericType p).toNat + (isStringType p).toNat + (isContainerType p).toNat +
      (isStructType p).toNat + (isEmptyType p).toNat = if p.name = ascii "Unknown" ∨ p = TT.GENERIC then 0 else 1) ∧
      (isIntType p = true → isNumericType p = true)) ∧
    (∀ p : TType, isBaseType p = (isNumericType p || isStringType p)) ∧
    ∀ p q : TType, p.name = q.name → p.name ≠ ascii "Unknown" → p = q := by
  refine ⟨by decide +kernel, by decide +kernel, fun p q h hu => ?_⟩
  have inj : ∀ p : TType, p.name ≠ ascii "Unknown" → p ∈ [TT.STOP, TT.VOID, TT.BOOL, TT.BYTE, TT.DOUBLE, TT.I16, TT.I32, TT.I64,
    TT.STRING, TT.STRUCT, TT.MAP, TT.SET, TT.LIST, TT.ENUM, TT.UTF16, TT.GENERIC, TT.BINARY] := by decide +kernel
  have all : ∀ a ∈ [TT.STOP, TT.VOID, TT.BOOL, TT.BYTE, TT.DOUBLE, TT.I16, TT.I32, TT.I64,
    TT.STRING, TT.STRUCT, TT.MAP, TT.SET, TT.LIST, TT.ENUM, TT.UTF16, TT.GENERIC, TT.BINARY],
    ∀ b ∈ [TT.STOP, TT.VOID, TT.BOOL, TT.BYTE, TT.DOUBLE, TT.I16, TT.I32, TT.I64,
    TT.STRING, TT.STRUCT, TT.MAP, TT.SET, TT.LIST, TT.ENUM, TT.UTF16, TT.GENERIC, TT.BINARY], a.name = b.name → a = b := by
    decide +kernel
  exact all p (inj p hu) q (inj q (h ▸ hu)) h

example : TType.name TT.LIST = ascii "LIST" ∧ TType.name 5 = ascii "Unknown" := by decide

/-- The integer types are the numeric ones without `BOOL`, `DOUBLE` and `ENUM`; the last is the one enum type. -/
theorem C171_integers (p : TType) : (isIntType p = true ↔ isNumericType p = true ∧ p ≠ TT.BOOL ∧ p ≠ TT.DOUBLE ∧ p ≠ TT.ENUM) ∧
    (isEnumType p = true ↔ p = TT.ENUM) := by
  revert p
  decide +kernel

/-! ## C172: types from numbers -/

/-- C172 as stated: `Coerce` makes of an integer from 0 to 255, whatever its Go type, the type
with that number, so that `Equals` and `LessType` compare with it. -/
def C172_statement : Prop :=
  ∀ (L : FloatLib) (d : Dyn) (n : Int), d.intValue = some n → 0 ≤ n → n < 256 → ∀ p : TType,
    (coerceType L (.value d)).toNat = n ∧ (equalsType L p (.value d) = true ↔ (p.toNat : Int) = n) ∧
    (lessType L p (.value d) = true ↔ (p.toNat : Int) < n)

/-- An `int16`. -/
theorem C172_violated : ¬ C172_statement := fun h =>
  absurd (h exampleLib (.int16 8) 8 rfl (by decide) (by decide) 0).1 (by decide)

/-- `int16` and `uint16` are the only exceptions: they count as STOP.  The numbers of types
behave as expected. -/
theorem C172_partial (L : FloatLib) (d : Dyn) (n : Int) (hd : d.intValue = some n) (h0 : 0 ≤ n) (h1 : n < 256) (p q : TType) :
    (((∃ v, d = .int16 v) ∨ ∃ v, d = .uint16 v) → coerceType L (.value d) = TT.STOP) ∧
    (¬ ((∃ v, d = .int16 v) ∨ ∃ v, d = .uint16 v) → (coerceType L (.value d)).toNat = n ∧ (equalsType L p (.value d) = true ↔ (p.toNat : Int) = n) ∧
        (lessType L p (.value d) = true ↔ (p.toNat : Int) < n)) ∧
    coerceType L (.type q) = q ∧ (equalsType L p (.type q) = true ↔ p = q) ∧
    (lessType L p (.type q) = true ↔ p.toNat < q.toNat) := by
  refine ⟨?_, ?_, rfl, by unfold equalsType; exact decide_eq_true_iff, by unfold lessType; exact decide_eq_true_iff⟩
  · rintro (⟨v, rfl⟩ | ⟨v, rfl⟩) <;> rfl
  intro hex
  have fin (t : TType) (ht : coerceType L (.value d) = t) (hn : (t.toNat : Int) = n) :
      (coerceType L (.value d)).toNat = n ∧ (equalsType L p (.value d) = true ↔ (p.toNat : Int) = n) ∧
        (lessType L p (.value d) = true ↔ (p.toNat : Int) < n) := by
    rw [equalsType, lessType, ht, ← hn]
    refine ⟨rfl, ?_, by rw [decide_eq_true_eq]; omega⟩
    rw [decide_eq_true_eq]
    exact ⟨fun h => by rw [h], fun h => BitVec.eq_of_toNat_eq (by omega)⟩
  cases d with
  | int16 v => exact absurd (.inl ⟨v, rfl⟩) hex
  | uint16 v => exact absurd (.inr ⟨v, rfl⟩) hex
  | int v =>
    injection hd with hd
    refine fin (v.setWidth 8) rfl ?_
    rw [BitVec.toInt_eq_toNat_cond] at hd
    rw [BitVec.toNat_setWidth]
    split at hd <;> omega
  | int8 v =>
    injection hd with hd
    refine fin v rfl ?_
    rw [BitVec.toInt_eq_toNat_cond] at hd
    split at hd <;> omega
  | int32 v =>
    injection hd with hd
    refine fin (v.setWidth 8) rfl ?_
    rw [BitVec.toInt_eq_toNat_cond] at hd
    rw [BitVec.toNat_setWidth]
    split at hd <;> omega
  | int64 v =>
    injection hd with hd
    refine fin (v.setWidth 8) rfl ?_
    rw [BitVec.toInt_eq_toNat_cond] at hd
    rw [BitVec.toNat_setWidth]
    split at hd <;> omega
  | uint v =>
    injection hd with hd
    exact fin (v.setWidth 8) rfl (by rw [BitVec.toNat_setWidth]; omega)
  | byte v =>
    injection hd with hd
    exact fin v rfl hd
  | uint32 v =>
    injection hd with hd
    exact fin (v.setWidth 8) rfl (by rw [BitVec.toNat_setWidth]; omega)
  | uint64 v =>
    injection hd with hd
    exact fin (v.setWidth 8) rfl (by rw [BitVec.toNat_setWidth]; omega)
  | _ => exact absurd hd (by simp [Dyn.intValue])

example : Dyn.intValue (.int64 8) = some 8 := rfl

/-- Floating-point numbers stand for the last eight bits of their integral part; values of other kinds, 16-bit integers among them, stand
for `STOP`. -/
theorem C172_others (L : FloatLib) (v : F64) (w : BitVec 32) :
    coerceType L (.value (.float64 v)) = (L.toInt v).setWidth 8 ∧ coerceType L (.value (.float32 w)) = (L.toInt32 w).setWidth 8 ∧
    (∀ b : Bytes, coerceType L (.value (.bytes b)) = TT.STOP) ∧ coerceType L (.value .nil) = TT.STOP ∧
    ∀ i, coerceType L (.value (.int16 i)) = TT.STOP :=
  ⟨rfl, rfl, fun _ => rfl, rfl, fun _ => rfl⟩

end Thrift
