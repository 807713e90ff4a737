import Verif.Spec.Nested
import Verif.Lemmas.Collections
/-! # Lemmas about the order on nested lists and sets -/

namespace Thrift

/-- A row of numbers made self-delimiting, keeping the order. -/
def enc : List Int → List Int
  | [] => [0]
  | x :: xs => 1 :: x :: enc xs

theorem enc_lex : ∀ a b r s, LexLt (enc a ++ r) (enc b ++ s) ↔ LexLt a b ∨ a = b ∧ LexLt r s
  | [], [], r, s => by simp [enc, LexLt]
  | [], y :: ys, r, s => by simp [enc, LexLt]
  | x :: xs, [], r, s => by simp [enc, LexLt]
  | x :: xs, y :: ys, r, s => by
    simp only [enc, List.cons_append, LexLt, enc_lex xs ys r s, List.cons.injEq]
    constructor
    · rintro (h | ⟨_, h | ⟨h1, h2 | ⟨h3, h4⟩⟩⟩)
      · omega
      · exact Or.inl (Or.inl h)
      · exact Or.inl (Or.inr ⟨h1, h2⟩)
      · exact Or.inr ⟨⟨h1, h3⟩, h4⟩
    · rintro ((h | ⟨h1, h2⟩) | ⟨⟨h1, h2⟩, h3⟩)
      · exact Or.inr ⟨trivial, Or.inl h⟩
      · exact Or.inr ⟨trivial, Or.inr ⟨h1, Or.inl h2⟩⟩
      · exact Or.inr ⟨trivial, Or.inr ⟨h1, Or.inr ⟨h2, h3⟩⟩⟩

theorem enc_inj : ∀ a b r s, enc a ++ r = enc b ++ s ↔ a = b ∧ r = s
  | [], [], r, s => by simp [enc]
  | [], y :: ys, r, s => by simp [enc]
  | x :: xs, [], r, s => by simp [enc]
  | x :: xs, y :: ys, r, s => by
    simp only [enc, List.cons_append, List.cons.injEq, true_and, enc_inj xs ys r s]
    exact and_assoc.symm

/-- The place of a row of values. -/
def rowKey (k : Dyn → List Int) : List Dyn → List Int
  | [] => []
  | v :: vs => enc (k v) ++ rowKey k vs

/-- The place of a nested value. -/
def Shape.key : Shape → Dyn → List Int
  | .scalar _, d => d.key
  | .list s, .list _ _ vs => vs.length :: rowKey s.key vs
  | .set s, .set _ _ n vs => n :: vs.length :: rowKey s.key vs
  | _, _ => []

theorem rowSame_iff {k : Dyn → List Int} {same : Dyn → Dyn → Prop} : ∀ xs ys : List Dyn,
    (∀ x ∈ xs, ∀ y ∈ ys, same x y ↔ k x = k y) →
    (RowSame same xs ys ↔ xs.length = ys.length ∧ rowKey k xs = rowKey k ys)
  | [], [], _ => by simp [RowSame, rowKey]
  | [], _ :: _, _ => by simp [RowSame]
  | _ :: _, [], _ => by simp [RowSame]
  | x :: xs, y :: ys, h => by
    rw [RowSame, rowKey, rowKey, enc_inj, h x List.mem_cons_self y List.mem_cons_self,
      rowSame_iff xs ys fun x hx y hy => h x (List.mem_cons_of_mem _ hx) y (List.mem_cons_of_mem _ hy)]
    simp only [List.length_cons, Nat.add_right_cancel_iff]
    exact and_left_comm

theorem rowBefore_iff {k : Dyn → List Int} {same before : Dyn → Dyn → Prop} : ∀ xs ys : List Dyn,
    xs.length = ys.length → (∀ x ∈ xs, ∀ y ∈ ys, same x y ↔ k x = k y) →
    (∀ x ∈ xs, ∀ y ∈ ys, before x y ↔ LexLt (k x) (k y)) →
    (RowBefore same before xs ys ↔ LexLt (rowKey k xs) (rowKey k ys))
  | [], [], _, _, _ => by simp [RowBefore, rowKey, LexLt]
  | [], _ :: _, h, _, _ => by simp at h
  | _ :: _, [], h, _, _ => by simp at h
  | x :: xs, y :: ys, hl, h, h' => by
    rw [RowBefore, rowKey, rowKey, enc_lex, h x List.mem_cons_self y List.mem_cons_self,
      h' x List.mem_cons_self y List.mem_cons_self,
      rowBefore_iff xs ys (by simpa using hl)
        (fun x hx y hy => h x (List.mem_cons_of_mem _ hx) y (List.mem_cons_of_mem _ hy))
        (fun x hx y hy => h' x (List.mem_cons_of_mem _ hx) y (List.mem_cons_of_mem _ hy))]

variable {heap : Nat → Dyn}

theorem Shape.same_iff : ∀ {s : Shape} {a b : Dyn}, s.Has heap a → s.Has heap b → (s.Same a b ↔ s.key a = s.key b)
  | .scalar _, _, _, _, _ => Iff.rfl
  | .list s, _, _, ⟨_, xs, rfl, _, hx⟩, ⟨_, ys, rfl, _, hy⟩ => by
    rw [Shape.Same, Shape.key, Shape.key, rowSame_iff (k := s.key) xs ys fun x h y h' => s.same_iff (hx x h) (hy y h')]
    simp only [List.cons.injEq, natCast_inj]
  | .set s, _, _, ⟨_, m, xs, rfl, _, hx⟩, ⟨_, n, ys, rfl, _, hy⟩ => by
    rw [Shape.Same, Shape.key, Shape.key, rowSame_iff (k := s.key) xs ys fun x h y h' => s.same_iff (hx x h) (hy y h')]
    simp only [List.cons.injEq, natCast_inj]

theorem Shape.before_iff : ∀ {s : Shape} {a b : Dyn}, s.Has heap a → s.Has heap b →
    (s.Before a b ↔ LexLt (s.key a) (s.key b))
  | .scalar _, _, _, _, _ => Iff.rfl
  | .list s, _, _, ⟨_, xs, rfl, _, hx⟩, ⟨_, ys, rfl, _, hy⟩ => by
    rw [Shape.Before, Shape.key, Shape.key, LexLt, natCast_inj]
    refine or_congr (by omega) (and_congr_right fun hl => ?_)
    exact rowBefore_iff xs ys hl (fun x h y h' => s.same_iff (hx x h) (hy y h'))
      fun x h y h' => s.before_iff (hx x h) (hy y h')
  | .set s, _, _, ⟨_, m, xs, rfl, _, hx⟩, ⟨_, n, ys, rfl, _, hy⟩ => by
    rw [Shape.Before, Shape.key, Shape.key, LexLt, LexLt, natCast_inj]
    refine or_congr (by omega) (and_congr_right fun _ => or_congr (by omega) (and_congr_right fun hl => ?_))
    exact rowBefore_iff xs ys hl (fun x h y h' => s.same_iff (hx x h) (hy y h'))
      fun x h y h' => s.before_iff (hx x h) (hy y h')

theorem Shape.native : ∀ {s : Shape} {a : Dyn}, s.Has heap a → Native s.type a
  | .scalar _, _, h => h.1
  | .list _, _, ⟨_, _, rfl, _⟩ => rfl
  | .set _, _, ⟨_, _, _, rfl, _⟩ => rfl

/-- Row comparison over an element comparison that follows keys. -/
theorem compareArrays_sign {cmp : Dyn → Dyn → Res (Int × Bool)} {k : Dyn → List Int} : ∀ xs ys : List Dyn,
    xs.length = ys.length → (∀ x ∈ xs, ∀ y ∈ ys, ∃ c, cmp x y = .ok (c, true) ∧ SignOf (k x) (k y) c) →
    ∃ c, compareArrays cmp xs ys = .ok (c, true) ∧ SignOf (rowKey k xs) (rowKey k ys) c
  | [], [], _, _ => ⟨0, rfl, .eq rfl⟩
  | [], _ :: _, h, _ => by simp at h
  | _ :: _, [], h, _ => by simp at h
  | x :: xs, y :: ys, hl, h => by
    obtain ⟨c, hc, sc⟩ := h x List.mem_cons_self y List.mem_cons_self
    obtain ⟨d, hd, sd⟩ := compareArrays_sign xs ys (by simpa using hl)
      fun x hx y hy => h x (List.mem_cons_of_mem _ hx) y (List.mem_cons_of_mem _ hy)
    rw [compareArrays, hc]
    simp only [Res.bind_ok, rowKey]
    cases sc with
    | lt e => exact ⟨-1, by simp, .lt ((enc_lex _ _ _ _).2 (Or.inl e))⟩
    | gt e => exact ⟨1, by simp, .gt ((enc_lex _ _ _ _).2 (Or.inl e))⟩
    | eq e =>
      refine ⟨d, by simpa using hd, ?_⟩
      cases sd with
      | lt f => exact .lt ((enc_lex _ _ _ _).2 (Or.inr ⟨e, f⟩))
      | eq f => exact .eq ((enc_inj _ _ _ _).2 ⟨e, f⟩)
      | gt f => exact .gt ((enc_lex _ _ _ _).2 (Or.inr ⟨e.symm, f⟩))

theorem compareInt_sign (a b : Int) : SignOf [a] [b] (compareInt a b) := by
  unfold compareInt
  split
  · exact .gt ((lexLt_single _ _).2 (by omega))
  · split
    · exact .lt ((lexLt_single _ _).2 ‹_›)
    · exact .eq ((single_inj _ _).2 (by omega))

theorem signOf_cons_ne {a b : Int} {r s : List Int} (h : a ≠ b) : SignOf (a :: r) (b :: s) (compareInt a b) := by
  unfold compareInt
  split
  · exact .gt (Or.inl ‹_›)
  · split
    · exact .lt (Or.inl ‹_›)
    · omega

theorem SignOf.cons {a : Int} {r s : List Int} (h : SignOf r s c) : SignOf (a :: r) (a :: s) c := by
  cases h with
  | lt h => exact .lt (Or.inr ⟨rfl, h⟩)
  | eq h => exact .eq (by rw [h])
  | gt h => exact .gt (Or.inr ⟨rfl, h⟩)

theorem mem_depth {v : Dyn} : ∀ {vs : List Dyn}, v ∈ vs → v.depth ≤ dynsDepth vs
  | x :: xs, h => by
    rw [dynsDepth]
    rcases List.mem_cons.1 h with rfl | h
    · omega
    · have := mem_depth h; omega

/-- `Compare` on nested values, with enough fuel. -/
theorem compareFuel_shape (L : FloatLib) : ∀ (s : Shape) (fuel : Nat) {a b : Dyn}, s.Has heap a → s.Has heap b →
    a.depth < fuel → b.depth < fuel →
    ∃ c, compareFuel L fuel s.type a b = .ok (c, true) ∧ SignOf (s.key a) (s.key b) c
  | _, 0, _, _, _, _, h, _ => by omega
  | .scalar t, n + 1, _, _, ha, hb, _, _ => compareFuel_scalar L n ha hb
  | .list s, n + 1, a, b, ha, hb, da, db => by
    have na := Shape.native (s := .list s) ha
    have nb := Shape.native (s := .list s) hb
    obtain ⟨p, xs, rfl, hp, hx⟩ := ha
    obtain ⟨q, ys, rfl, hq, hy⟩ := hb
    rw [Dyn.depth] at da db
    rw [compareFuel_native L n na nb, if_pos (by simp [Shape.type, TT.LIST, TT.SET, TT.BINARY]), Dyn.goEq, Res.bind_ok]
    by_cases hpq : p = q
    · subst hpq
      have : xs = ys := by
        have := hp.symm.trans hq
        injection this with _ _ h
      subst this
      exact ⟨0, by simp, .eq rfl⟩
    · simp only [hpq, decide_false, Bool.false_eq_true, if_false]
      have hcc : ∀ r, compareCoerced r TT.LIST (.list p s.type xs) (.list q s.type ys) =
          if s.type ≠ s.type then .ok (compareInt s.type.toNat s.type.toNat, true)
          else if xs.length ≠ ys.length then .ok (compareInt xs.length ys.length, true)
          else compareArrays (r s.type) xs ys := fun _ => rfl
      rw [Shape.type, hcc, if_neg (by simp)]
      simp only [Shape.key]
      by_cases hl : xs.length = ys.length
      · rw [if_neg (by simp [hl])]
        obtain ⟨c, hc, sc⟩ := compareArrays_sign (k := s.key) xs ys hl fun x h y h' =>
          compareFuel_shape L s n (hx x h) (hy y h') (by have := mem_depth h; omega) (by have := mem_depth h'; omega)
        exact ⟨c, hc, by rw [hl]; exact sc.cons⟩
      · rw [if_pos (by simpa using hl)]
        exact ⟨_, rfl, signOf_cons_ne (by omega)⟩
  | .set s, n + 1, a, b, ha, hb, da, db => by
    have na := Shape.native (s := .set s) ha
    have nb := Shape.native (s := .set s) hb
    obtain ⟨p, i, xs, rfl, hp, hx⟩ := ha
    obtain ⟨q, j, ys, rfl, hq, hy⟩ := hb
    rw [Dyn.depth] at da db
    rw [compareFuel_native L n na nb, if_pos (by simp [Shape.type, TT.LIST, TT.SET, TT.BINARY]), Dyn.goEq, Res.bind_ok]
    by_cases hpq : p = q
    · subst hpq
      have h := hp.symm.trans hq
      injection h with _ _ h1 h2
      subst h1
      subst h2
      exact ⟨0, by simp, .eq rfl⟩
    · simp only [hpq, decide_false, Bool.false_eq_true, if_false]
      have hcc : ∀ r, compareCoerced r TT.SET (.set p s.type i xs) (.set q s.type j ys) =
          if s.type ≠ s.type then .ok (compareInt s.type.toNat s.type.toNat, true)
          else if i ≠ j then .ok (compareInt i j, true)
          else compareValueArrays (r s.type) xs ys := fun _ => rfl
      rw [Shape.type, hcc, if_neg (by simp)]
      simp only [Shape.key]
      by_cases hij : i = j
      · subst hij
        rw [if_neg (by simp), compareValueArrays]
        by_cases hl : xs.length = ys.length
        · obtain ⟨c, hc, sc⟩ := compareArrays_sign (k := s.key) xs ys hl fun x h y h' =>
            compareFuel_shape L s n (hx x h) (hy y h') (by have := mem_depth h; omega) (by have := mem_depth h'; omega)
          refine ⟨c, ?_, by rw [hl]; exact sc.cons.cons⟩
          have : compareInt xs.length ys.length = 0 := by rw [hl]; simp [compareInt]
          simp only [this, ne_eq, not_true_eq_false, if_false]
          exact hc
        · have : compareInt xs.length ys.length ≠ 0 := by
            unfold compareInt; split <;> (try split) <;> omega
          refine ⟨compareInt xs.length ys.length, ?_, (signOf_cons_ne (by omega)).cons⟩
          simp only [if_pos this]
      · rw [if_pos hij]
        exact ⟨_, rfl, signOf_cons_ne hij⟩

theorem compare_shape (L : FloatLib) {s : Shape} {a b : Dyn} (ha : s.Has heap a) (hb : s.Has heap b) :
    ∃ c, compare L s.type a b = .ok (c, true) ∧ SignOf (s.key a) (s.key b) c :=
  compareFuel_shape L s _ ha hb (by omega) (by omega)

theorem elemTest_shape (L : FloatLib) {s : Shape} {a b : Dyn} (ha : s.Has heap a) (hb : s.Has heap b) :
    elemTest L s.type a b = .ok (decide (s.key a = s.key b)) := by
  have hcmp := compare_shape L ha hb
  cases s with
  | scalar t => exact elemTest_scalar L ha hb
  | list s =>
    obtain ⟨p, xs, rfl, _, _⟩ := ha
    obtain ⟨c, hc, sc⟩ := hcmp
    have : elemTest L TT.LIST (.list p s.type xs) b = (.list p s.type xs : Dyn).equalsOther L b := rfl
    rw [Shape.type, this, Dyn.equalsOther]
    have hc : compare L (Dyn.list p s.type xs).ownType (Dyn.list p s.type xs).receiver b = .ok (c, true) := hc
    rw [hc]
    simp [sc.zero_iff]
  | set s =>
    obtain ⟨p, i, xs, rfl, _, _⟩ := ha
    obtain ⟨c, hc, sc⟩ := hcmp
    have : elemTest L TT.SET (.set p s.type i xs) b = (.set p s.type i xs : Dyn).equalsOther L b := rfl
    rw [Shape.type, this, Dyn.equalsOther]
    have hc : compare L (Dyn.set p s.type i xs).ownType (Dyn.set p s.type i xs).receiver b = .ok (c, true) := hc
    rw [hc]
    simp [sc.zero_iff]

/-- Nested values have an order in the sense of the set lemmas. -/
theorem shapeOrder (L : FloatLib) (heap : Nat → Dyn) (s : Shape) : KeyOrder L s.type (s.Has heap) s.key where
  native _ h := s.native h
  cmp _ _ ha hb := compare_shape L ha hb
  eqv _ _ ha hb := elemTest_shape L ha hb

end Thrift
