import Verif.Spec.Dyn
/-! # Lemmas about coercion and comparison of scalar values -/

namespace Thrift

@[simp] theorem Res.bind_ok (a : α) (f : α → Res β) : (Bind.bind (Res.ok a) f : Res β) = f a := rfl
@[simp] theorem Res.bind_panic (f : α → Res β) : (Bind.bind (Res.panic : Res α) f : Res β) = .panic := rfl
@[simp] theorem Res.bind_stuck (f : α → Res β) : (Bind.bind (Res.stuck : Res α) f : Res β) = .stuck := rfl
@[simp] theorem Res.pure_def (a : α) : (pure a : Res α) = .ok a := rfl

theorem LexLt.irrefl : ∀ a, ¬ LexLt a a
  | [] => id
  | x :: xs => by
    intro h
    rcases h with h | ⟨_, h⟩
    · omega
    · exact LexLt.irrefl xs h

theorem LexLt.trans : ∀ {a b c}, LexLt a b → LexLt b c → LexLt a c
  | [], [], _, h, _ => h.elim
  | [], _ :: _, [], _, h => h.elim
  | [], _ :: _, _ :: _, _, _ => trivial
  | _ :: _, [], _, h, _ => h.elim
  | _ :: _, _ :: _, [], _, h => h.elim
  | a :: as, b :: bs, c :: cs, h, h' => by
    rcases h with h | ⟨h, h1⟩ <;> rcases h' with h' | ⟨h', h2⟩
    · exact Or.inl (by omega)
    · exact Or.inl (by omega)
    · exact Or.inl (by omega)
    · exact Or.inr ⟨by omega, LexLt.trans h1 h2⟩

theorem LexLt.total : ∀ a b, LexLt a b ∨ a = b ∨ LexLt b a
  | [], [] => Or.inr (Or.inl rfl)
  | [], _ :: _ => Or.inl trivial
  | _ :: _, [] => Or.inr (Or.inr trivial)
  | a :: as, b :: bs => by
    rcases Int.lt_trichotomy a b with h | h | h
    · exact Or.inl (Or.inl h)
    · subst h
      rcases LexLt.total as bs with h | h | h
      · exact Or.inl (Or.inr ⟨rfl, h⟩)
      · exact Or.inr (Or.inl (by rw [h]))
      · exact Or.inr (Or.inr (Or.inr ⟨rfl, h⟩))
    · exact Or.inr (Or.inr (Or.inl h))

theorem LexLt.asymm (h : LexLt a b) : ¬ LexLt b a := fun h' => LexLt.irrefl _ (h.trans h')

/-- The sign that the order prescribes. -/
inductive SignOf (a b : List Int) : Int → Prop
  | lt : LexLt a b → SignOf a b (-1)
  | eq : a = b → SignOf a b 0
  | gt : LexLt b a → SignOf a b 1

theorem SignOf.unique (h : SignOf a b c) (h' : SignOf a b d) : c = d := by
  cases h <;> cases h' <;> first
    | rfl
    | (rename_i h h'; exact absurd h' h.asymm)
    | (rename_i h h'; subst h; exact absurd h' (LexLt.irrefl _))
    | (rename_i h h'; subst h'; exact absurd h (LexLt.irrefl _))

theorem SignOf.swap (h : SignOf a b c) : SignOf b a (-c) := by
  cases h
  · exact .gt ‹_›
  · exact .eq (Eq.symm ‹_›)
  · exact .lt ‹_›

theorem SignOf.zero_iff (h : SignOf a b c) : c = 0 ↔ a = b := by
  cases h <;> rename_i h
  · exact ⟨fun e => absurd e (by decide), fun e => by subst e; exact absurd h (LexLt.irrefl _)⟩
  · exact ⟨fun _ => h, fun _ => rfl⟩
  · exact ⟨fun e => absurd e (by decide), fun e => by subst e; exact absurd h (LexLt.irrefl _)⟩

theorem SignOf.neg_iff (h : SignOf a b c) : c < 0 ↔ LexLt a b := by
  cases h <;> rename_i h
  · exact ⟨fun _ => h, fun _ => by decide⟩
  · subst h; exact ⟨fun e => absurd e (by decide), fun e => absurd e (LexLt.irrefl _)⟩
  · exact ⟨fun e => absurd e (by decide), fun e => absurd e h.asymm⟩

theorem SignOf.pos_iff (h : SignOf a b c) : c > 0 ↔ LexLt b a := by
  cases h <;> rename_i h
  · exact ⟨fun e => absurd e (by decide), fun e => absurd e h.asymm⟩
  · subst h; exact ⟨fun e => absurd e (by decide), fun e => absurd e (LexLt.irrefl _)⟩
  · exact ⟨fun _ => h, fun _ => by decide⟩

theorem SignOf.exists (a b : List Int) : ∃ c, SignOf a b c := by
  rcases LexLt.total a b with h | h | h
  · exact ⟨_, .lt h⟩
  · exact ⟨_, .eq h⟩
  · exact ⟨_, .gt h⟩

theorem bytesLt_iff : ∀ a b : Bytes,
    bytesLt a b = true ↔ LexLt (a.map fun x => (x.toNat : Int)) (b.map fun x => (x.toNat : Int))
  | [], [] => by simp [bytesLt, LexLt]
  | [], _ :: _ => by simp [bytesLt, LexLt]
  | _ :: _, [] => by simp [bytesLt, LexLt]
  | a :: as, b :: bs => by
    simp only [bytesLt, List.map_cons, LexLt]
    by_cases h : a = b
    · subst h; simp [bytesLt_iff as bs]
    · have : (a.toNat : Int) ≠ b.toNat := by
        intro e; apply h; apply BitVec.eq_of_toNat_eq; omega
      simp only [if_neg h, decide_eq_true_eq]
      omega

theorem bytesKey_inj {a b : Bytes} (h : a.map (fun x => (x.toNat : Int)) = b.map fun x => (x.toNat : Int)) : a = b := by
  refine (List.map_inj_right ?_).1 h
  intro x y e
  exact BitVec.eq_of_toNat_eq (Int.ofNat.inj e)

theorem compareString_sign (a b : Bytes) :
    SignOf (a.map fun x => (x.toNat : Int)) (b.map fun x => (x.toNat : Int)) (compareString a b) := by
  unfold compareString
  split
  · exact .gt ((bytesLt_iff _ _).1 ‹_›)
  · split
    · exact .lt ((bytesLt_iff _ _).1 ‹_›)
    · rcases LexLt.total (a.map fun x => (x.toNat : Int)) (b.map fun x => (x.toNat : Int)) with h | h | h
      · exact absurd ((bytesLt_iff _ _).2 h) ‹_›
      · exact .eq h
      · exact absurd ((bytesLt_iff _ _).2 h) ‹_›

/-- A value of the right dynamic type is coerced to itself. -/
theorem coerceData_native (L : FloatLib) {p : TType} {v : Dyn} (h : Native p v) :
    coerceData L p v = .ok (v, true) := by
  cases v with
  | nil | int | int8 | uint | uint16 | uint32 | uint64 | float32 | numeric | stringer | enumer | obj => exact h.elim
  | string s => rcases h with h | h | h <;> subst h <;> rfl
  | int16 v =>
    cases h
    show Res.ok (Dyn.int16 (BitVec.ofInt 16 v.toInt), true) = _
    rw [BitVec.ofInt_toInt]
  | int32 v =>
    cases h
    show Res.ok (Dyn.int32 (BitVec.ofInt 32 v.toInt), true) = _
    rw [BitVec.ofInt_toInt]
  | int64 v =>
    cases h
    show Res.ok (Dyn.int64 (BitVec.ofInt 64 v.toInt), true) = _
    rw [BitVec.ofInt_toInt]
  | _ => cases h; rfl

theorem Native.not_nil (h : Native p v) : v.isNil = false := by
  cases v <;> first | rfl | exact h.elim

theorem F64.rank_refl (v : F64) (h : F64.isNaN v = false) : F64.eq v v = true := by
  simp [F64.eq, h]

theorem cmp3_sign {a b : List Int} {e l : Bool} (he : e = true ↔ a = b) (hl : e = false → (l = true ↔ LexLt a b)) :
    ∃ c, cmp3 e l = (c, true) ∧ SignOf a b c := by
  unfold cmp3
  cases e
  · cases l
    · refine ⟨1, rfl, .gt ?_⟩
      rcases LexLt.total a b with h | h | h
      · exact absurd ((hl rfl).2 h) (by decide)
      · exact absurd (he.2 h) (by decide)
      · exact h
    · exact ⟨-1, rfl, .lt ((hl rfl).1 rfl)⟩
  · exact ⟨0, rfl, .eq (he.1 rfl)⟩

theorem lexLt_single (a b : Int) : LexLt [a] [b] ↔ a < b := by simp [LexLt]

/-- `Compare` on two native values. -/
theorem compareFuel_native (L : FloatLib) (n : Nat) {p : TType} {a b : Dyn} (ha : Native p a) (hb : Native p b) :
    compareFuel L (n + 1) p a b = (do
      let same ← if p ≠ TT.BINARY then a.goEq b else .ok false
      if same then return (0, true)
      compareCoerced (compareFuel L n) p a b) := by
  rw [compareFuel]
  simp only [coerceData_native L ha, coerceData_native L hb, ha.not_nil, hb.not_nil, Res.bind_ok, Bool.and_false,
    Bool.false_eq_true, if_false, Bool.not_true, Bool.false_and]
  by_cases hp : p ≠ TT.BINARY
  · simp only [if_pos hp]
    cases a.goEq b with
    | ok s => cases s <;> rfl
    | panic => rfl
    | stuck => rfl
  · simp only [if_neg hp]

theorem compare_cmp3 (L : FloatLib) (n : Nat) {p : TType} {a b : Dyn} (ha : Native p a) (hb : Native p b)
    {e l : Bool} (hg : a.goEq b = .ok e) (hc : compareCoerced (compareFuel L n) p a b = .ok (cmp3 e l))
    (he : e = true ↔ a.key = b.key) (hl : e = false → (l = true ↔ LexLt a.key b.key)) :
    ∃ c, compareFuel L (n + 1) p a b = .ok (c, true) ∧ SignOf a.key b.key c := by
  obtain ⟨c, e1, s⟩ := cmp3_sign he hl
  refine ⟨c, ?_, s⟩
  rw [compareFuel_native L n ha hb, hg, hc, e1]
  by_cases hp : p ≠ TT.BINARY
  · rw [if_pos hp]
    cases e
    · rfl
    · have : c = 0 := by have : cmp3 true l = (0, true) := rfl; rw [this] at e1; injection e1 with h; exact h.symm
      rw [this]; rfl
  · rw [if_neg hp]; rfl

theorem single_inj (a b : Int) : [a] = [b] ↔ a = b := by simp

theorem natCast_inj (a b : Nat) : (a : Int) = b ↔ a = b := by omega

macro "nativeInv" : tactic => `(tactic| (
  intro h
  cases ‹Dyn› <;> first
    | exact ⟨_, rfl⟩
    | exact absurd h (by simp [Native, TT.BOOL, TT.BYTE, TT.DOUBLE, TT.I16, TT.I32, TT.I64, TT.STRING, TT.ENUM,
        TT.UTF16, TT.BINARY, TT.STRUCT, TT.MAP, TT.SET, TT.LIST])))

theorem native_bool {b : Dyn} : Native TT.BOOL b → ∃ x, b = .bool x := by nativeInv
theorem native_byte {b : Dyn} : Native TT.BYTE b → ∃ x, b = .byte x := by nativeInv
theorem native_float64 {b : Dyn} : Native TT.DOUBLE b → ∃ x, b = .float64 x := by nativeInv
theorem native_int16 {b : Dyn} : Native TT.I16 b → ∃ x, b = .int16 x := by nativeInv
theorem native_int32 {b : Dyn} : Native TT.I32 b → ∃ x, b = .int32 x := by nativeInv
theorem native_int64 {b : Dyn} : Native TT.I64 b → ∃ x, b = .int64 x := by nativeInv
theorem native_bytes {b : Dyn} : Native TT.BINARY b → ∃ x, b = .bytes x := by nativeInv
theorem native_string {p : TType} {b : Dyn} (hp : p = TT.STRING ∨ p = TT.ENUM ∨ p = TT.UTF16) :
    Native p b → ∃ x, b = .string x := by
  rcases hp with hp | hp | hp <;> subst hp <;> nativeInv

/-- `Compare` on two scalar values of one type answers with the sign that the
order prescribes. -/
theorem compareFuel_scalar (L : FloatLib) (n : Nat) {p : TType} {a b : Dyn} (ha : Scalar p a) (hb : Scalar p b) :
    ∃ c, compareFuel L (n + 1) p a b = .ok (c, true) ∧ SignOf a.key b.key c := by
  obtain ⟨ha, oa⟩ := ha
  obtain ⟨hb, ob⟩ := hb
  cases a with
  | nil | int | int8 | uint | uint16 | uint32 | uint64 | float32 | numeric | stringer | enumer | obj => exact ha.elim
  | struct | map | set | list => exact oa.elim
  | bool a =>
    have hp : p = _ := ha
    subst hp
    obtain ⟨b, rfl⟩ := native_bool hb
    refine compare_cmp3 L n ha hb (e := a = b) (l := a = false) rfl rfl ?_ ?_
    · cases a <;> cases b <;> decide
    · rw [Dyn.key, Dyn.key, lexLt_single]
      cases a <;> cases b <;> decide
  | byte a =>
    have hp : p = _ := ha
    subst hp
    obtain ⟨b, rfl⟩ := native_byte hb
    refine compare_cmp3 L n ha hb (e := a = b) (l := a.toNat < b.toNat) rfl rfl ?_ ?_
    · rw [Dyn.key, Dyn.key, single_inj, natCast_inj, BitVec.toNat_inj, decide_eq_true_eq]
    · intro _; rw [Dyn.key, Dyn.key, lexLt_single, decide_eq_true_eq]; omega
  | int16 a =>
    have hp : p = _ := ha
    subst hp
    obtain ⟨b, rfl⟩ := native_int16 hb
    refine compare_cmp3 L n ha hb (e := a = b) (l := a.toInt < b.toInt) rfl rfl ?_ ?_
    · rw [Dyn.key, Dyn.key, single_inj, BitVec.toInt_inj, decide_eq_true_eq]
    · intro _; rw [Dyn.key, Dyn.key, lexLt_single, decide_eq_true_eq]
  | int32 a =>
    have hp : p = _ := ha
    subst hp
    obtain ⟨b, rfl⟩ := native_int32 hb
    refine compare_cmp3 L n ha hb (e := a = b) (l := a.toInt < b.toInt) rfl rfl ?_ ?_
    · rw [Dyn.key, Dyn.key, single_inj, BitVec.toInt_inj, decide_eq_true_eq]
    · intro _; rw [Dyn.key, Dyn.key, lexLt_single, decide_eq_true_eq]
  | int64 a =>
    have hp : p = _ := ha
    subst hp
    obtain ⟨b, rfl⟩ := native_int64 hb
    refine compare_cmp3 L n ha hb (e := a = b) (l := a.toInt < b.toInt) rfl rfl ?_ ?_
    · rw [Dyn.key, Dyn.key, single_inj, BitVec.toInt_inj, decide_eq_true_eq]
    · intro _; rw [Dyn.key, Dyn.key, lexLt_single, decide_eq_true_eq]
  | float64 a =>
    have hp : p = _ := ha
    subst hp
    obtain ⟨b, rfl⟩ := native_float64 hb
    have oa : F64.isNaN a = false := oa
    have ob : F64.isNaN b = false := ob
    refine compare_cmp3 L n ha hb (e := F64.eq a b) (l := F64.lt a b) rfl rfl ?_ ?_
    · rw [Dyn.key, Dyn.key, single_inj]; simp [F64.eq, oa, ob]
    · intro _; rw [Dyn.key, Dyn.key, lexLt_single]; simp [F64.lt, oa, ob]
  | string a =>
    have : p = TT.STRING ∨ p = TT.ENUM ∨ p = TT.UTF16 := ha
    obtain ⟨b, rfl⟩ := native_string this hb
    refine compare_cmp3 L n ha hb (e := a = b) (l := bytesLt a b) rfl ?_ ?_ (fun _ => bytesLt_iff a b)
    · rcases this with h | h | h <;> subst h <;> rfl
    · rw [decide_eq_true_eq]
      exact ⟨fun h => by rw [h], bytesKey_inj⟩
  | bytes a =>
    have hp : p = _ := ha
    subst hp
    obtain ⟨b, rfl⟩ := native_bytes hb
    rw [compareFuel_native L n ha hb]
    exact ⟨compareString a b, rfl, compareString_sign a b⟩

theorem compare_scalar (L : FloatLib) {p : TType} {a b : Dyn} (ha : Scalar p a) (hb : Scalar p b) :
    ∃ c, compare L p a b = .ok (c, true) ∧ SignOf a.key b.key c :=
  compareFuel_scalar L _ ha hb

theorem F64.mag_toNat (v : F64) : (v &&& 0x7fffffffffffffff).toNat = v.toNat % 2 ^ 63 := by
  have : (0x7fffffffffffffff : F64).toNat = 2 ^ 63 - 1 := by decide
  rw [BitVec.toNat_and, this, Nat.and_two_pow_sub_one_eq_mod]

theorem F64.rank_eq {x y : F64} (h : F64.rank x = F64.rank y) : x = y ∨ F64.rank x = 0 := by
  have hx := x.isLt
  have hy := y.isLt
  unfold F64.rank at h ⊢
  simp only [F64.mag_toNat, BitVec.msb_eq_decide, decide_eq_true_eq] at h ⊢
  by_cases h0 : x.toNat % 2 ^ 63 = 0
  · right; rw [h0]; split <;> rfl
  · left
    apply BitVec.eq_of_toNat_eq
    split at h <;> split at h <;> omega

/-- Only the two zeros share their place. -/
theorem key_eq_iff {p : TType} {a b : Dyn} (ha : Scalar p a) (hb : Scalar p b) :
    a.key = b.key ↔ a = b ∨ ∃ x y, a = .float64 x ∧ b = .float64 y ∧ F64.rank x = 0 ∧ F64.rank y = 0 := by
  constructor
  · intro h
    obtain ⟨ha, oa⟩ := ha
    obtain ⟨hb, ob⟩ := hb
    cases a with
    | nil | int | int8 | uint | uint16 | uint32 | uint64 | float32 | numeric | stringer | enumer | obj => exact ha.elim
    | struct | map | set | list => exact oa.elim
    | bool a =>
      have hp : p = _ := ha
      subst hp
      obtain ⟨b, rfl⟩ := native_bool hb
      left
      cases a <;> cases b <;> first | rfl | exact absurd h (by decide)
    | byte a =>
      have hp : p = _ := ha
      subst hp
      obtain ⟨b, rfl⟩ := native_byte hb
      left
      rw [Dyn.key, Dyn.key, single_inj, natCast_inj, BitVec.toNat_inj] at h
      rw [h]
    | int16 a =>
      have hp : p = _ := ha
      subst hp
      obtain ⟨b, rfl⟩ := native_int16 hb
      left
      rw [Dyn.key, Dyn.key, single_inj, BitVec.toInt_inj] at h
      rw [h]
    | int32 a =>
      have hp : p = _ := ha
      subst hp
      obtain ⟨b, rfl⟩ := native_int32 hb
      left
      rw [Dyn.key, Dyn.key, single_inj, BitVec.toInt_inj] at h
      rw [h]
    | int64 a =>
      have hp : p = _ := ha
      subst hp
      obtain ⟨b, rfl⟩ := native_int64 hb
      left
      rw [Dyn.key, Dyn.key, single_inj, BitVec.toInt_inj] at h
      rw [h]
    | float64 a =>
      have hp : p = _ := ha
      subst hp
      obtain ⟨b, rfl⟩ := native_float64 hb
      rw [Dyn.key, Dyn.key, single_inj] at h
      rcases F64.rank_eq h with e | e
      · left; rw [e]
      · right; exact ⟨a, b, rfl, rfl, e, h ▸ e⟩
    | string a =>
      obtain ⟨b, rfl⟩ := native_string ha hb
      left; rw [bytesKey_inj h]
    | bytes a =>
      have hp : p = _ := ha
      subst hp
      obtain ⟨b, rfl⟩ := native_bytes hb
      left; rw [bytesKey_inj h]
  · rintro (h | ⟨x, y, rfl, rfl, hx, hy⟩)
    · rw [h]
    · rw [Dyn.key, Dyn.key, hx, hy]

end Thrift
