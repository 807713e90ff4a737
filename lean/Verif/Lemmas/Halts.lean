import Verif.Lemmas.Dyn
import Verif.Model.Collections
/-!
# The fuel of comparisons suffices
-/

namespace Thrift

namespace Res
theorem halts_bind {m : Res α} {f : α → Res β} (h : m ≠ .stuck) (hf : ∀ a, m = .ok a → f a ≠ .stuck) : (m >>= f) ≠ .stuck := by
  cases m with
  | ok a => exact hf a rfl
  | panic => exact fun h => nomatch h
  | stuck => exact absurd rfl h

theorem halts_ok (a : α) : (Res.ok a) ≠ .stuck := fun h => nomatch h
theorem halts_pure (a : α) : (Pure.pure a : Res α) ≠ .stuck := fun h => nomatch h
theorem halts_panic : (Res.panic : Res α) ≠ .stuck := fun h => nomatch h

theorem halts_ite {c : Prop} [Decidable c] {a b : Res α} (ha : a ≠ .stuck) (hb : b ≠ .stuck) : (if c then a else b) ≠ .stuck := by
  split
  · exact ha
  · exact hb

theorem halts_same {c : Prop} [Decidable c] {r : Res Bool} {f : Bool → Res β} (h : r ≠ .stuck) (hf : ∀ b, f b ≠ .stuck) :
    (if c then r >>= f else (Res.ok false >>= f)) ≠ .stuck := halts_ite (halts_bind h fun b _ => hf b) (hf false)

theorem of_ite {c : Prop} [Decidable c] {a b r : Res α} (h : (if c then a else b) = r) : a = r ∨ b = r := by
  split at h
  · exact .inl h
  · exact .inr h
end Res

open Res

theorem Dyn.goEq_halts (i j : Dyn) : i.goEq j ≠ .stuck := by
  cases i <;> cases j <;> simp [Dyn.goEq]

theorem coerceData_halts (L : FloatLib) (p : TType) (d : Dyn) : coerceData L p d ≠ .stuck := by
  unfold coerceData
  apply halts_ite
  · repeat' first | exact halts_ok _ | exact halts_panic | apply halts_ite
  · repeat' first | exact halts_ok _ | exact halts_panic | apply halts_ite

theorem depth_mem {d : Dyn} : ∀ {ds : List Dyn}, d ∈ ds → d.depth ≤ dynsDepth ds
  | [], h => nomatch h
  | x :: ds, h => by
    rw [dynsDepth]
    rcases List.mem_cons.1 h with rfl | h
    · omega
    · have := depth_mem h; omega

theorem depth_attr (id : Int) : ∀ as : List (Int × Dyn), (attributeOf as id).depth ≤ attrsDepth as
  | [] => by simp [attributeOf, Dyn.depth]
  | (i, d) :: as => by
    have ih := depth_attr id as
    rw [attrsDepth]
    unfold attributeOf at ih ⊢
    rw [List.find?_cons]
    by_cases h : i = id
    · simp only [h, decide_true]
      omega
    · simp only [h, decide_false]
      omega

theorem depth_field (g : Bool) (as : List (Int × Dyn)) (id : Int) : (attributeFromFieldId g as id).depth ≤ attrsDepth as := by
  unfold attributeFromFieldId
  cases g
  · exact depth_attr id as
  · simp [Dyn.depth]

theorem compareArrays_halts {cmp : Dyn → Dyn → Res (Int × Bool)} : ∀ xs ys : List Dyn, (∀ x ∈ xs, ∀ y ∈ ys, cmp x y ≠ .stuck) →
    compareArrays cmp xs ys ≠ .stuck
  | x :: xs, y :: ys, h => halts_bind (h x List.mem_cons_self y List.mem_cons_self) fun _ _ => halts_ite (halts_pure _)
      (compareArrays_halts xs ys fun x hx y hy => h x (List.mem_cons_of_mem _ hx) y (List.mem_cons_of_mem _ hy))
  | [], _, _ => halts_pure _
  | _ :: _, [], _ => halts_pure _

theorem compareValueArrays_halts {cmp : Dyn → Dyn → Res (Int × Bool)} (xs ys : List Dyn) (h : ∀ x ∈ xs, ∀ y ∈ ys, cmp x y ≠ .stuck) :
    compareValueArrays cmp xs ys ≠ .stuck := halts_ite (halts_ok _) (compareArrays_halts xs ys h)

theorem fieldsLoop_halts {rec : TType → Dyn → Dyn → Res (Int × Bool)} {ga gb : Bool} {aa ab : List (Int × Dyn)}
    (h : ∀ t id, rec t (attributeFromFieldId ga aa id) (attributeFromFieldId gb ab id) ≠ .stuck) :
    ∀ fs, compareCoerced.fieldsLoop rec ga aa gb ab fs ≠ .stuck
  | [] => halts_ok _
  | _ :: fs => halts_bind (h _ _) fun _ _ => halts_ite (halts_pure _) (fieldsLoop_halts h fs)

/-- Comparing two values needs comparisons of the values in them only. -/
theorem compareCoerced_halts {rec : TType → Dyn → Dyn → Res (Int × Bool)} {n : Nat}
    (h : ∀ t i j, i.depth < n → j.depth < n → rec t i j ≠ .stuck) (p : TType) (ci cj : Dyn) (hi : ci.depth ≤ n ∨ ci = emptyStruct) (hj : cj.depth ≤ n ∨ cj = emptyStruct) :
    compareCoerced rec p ci cj ≠ .stuck := by
  have hv : ∀ t (xs ys : List Dyn), dynsDepth xs < n → dynsDepth ys < n → ∀ x ∈ xs, ∀ y ∈ ys, rec t x y ≠ .stuck :=
    fun t xs ys hx hy x mx y my => h t x y (Nat.lt_of_le_of_lt (depth_mem mx) hx) (Nat.lt_of_le_of_lt (depth_mem my) hy)
  unfold compareCoerced
  repeat' first | exact halts_ok _ | exact halts_panic | apply halts_ite
  all_goals split
  all_goals try exact halts_ok _
  · refine halts_ite (halts_ok _) (halts_ite (halts_ok _) ?_)
    rename_i ga na _ fa aa _ gb nb _ fb ab
    rcases hi with hi | hi
    · simp only [Dyn.depth] at hi
      refine fieldsLoop_halts (fun t id => h t _ _ ?_ ?_) _
      · have := depth_field ga aa id; omega
      · have := depth_field gb ab id
        rcases hj with hj | hj
        · simp only [Dyn.depth] at hj; omega
        · simp only [emptyStruct, Dyn.struct.injEq] at hj
          rw [hj.2.2.2.2.2] at this ⊢
          simp only [attrsDepth] at this; omega
    · simp only [emptyStruct, Dyn.struct.injEq] at hi
      rw [hi.2.2.2.2.1]
      exact halts_ok _
  · simp only [Dyn.depth, emptyStruct, reduceCtorEq, or_false] at hi hj
    refine halts_ite (halts_ok _) (halts_ite (halts_ok _) (halts_ite (halts_ok _) (halts_bind ?_ fun _ _ => halts_ite (halts_pure _) ?_)))
    · exact compareValueArrays_halts _ _ (hv _ _ _ (by omega) (by omega))
    · exact compareValueArrays_halts _ _ (hv _ _ _ (by omega) (by omega))
  · simp only [Dyn.depth, emptyStruct, reduceCtorEq, or_false] at hi hj
    exact halts_ite (halts_ok _) (halts_ite (halts_ok _) (compareArrays_halts _ _ (hv _ _ _ (by omega) (by omega))))
  · simp only [Dyn.depth, emptyStruct, reduceCtorEq, or_false] at hi hj
    exact halts_ite (halts_ok _) (halts_ite (halts_ok _) (compareValueArrays_halts _ _ (hv _ _ _ (by omega) (by omega))))

theorem coerceText_flat {f : I64 → Dyn} (hf : ∀ i, (f i).depth = 0) (d : Dyn) : (coerceText f d).1.depth = 0 := by
  unfold coerceText
  repeat' split
  all_goals exact hf _

theorem coerceBool_flat (d : Dyn) : (coerceBool d).1.depth = 0 := by
  unfold coerceBool
  repeat' split
  all_goals rfl

theorem coerceByte_flat (L : FloatLib) (d : Dyn) : (coerceByte L d).1.depth = 0 := by
  unfold coerceByte
  repeat' split
  all_goals first | rfl | exact coerceText_flat (fun _ => rfl) _

theorem coerceDouble_flat (L : FloatLib) (d : Dyn) : (coerceDouble L d).1.depth = 0 := by
  unfold coerceDouble
  repeat' split
  all_goals try rfl
  all_goals
    dsimp only
    split <;> rfl

theorem coerceInt_flat (L : FloatLib) (w : Nat) {mk : BitVec w → Dyn} (hf : ∀ i, (mk i).depth = 0) (d : Dyn) :
    (coerceInt L w mk d).1.depth = 0 := by
  unfold coerceInt
  repeat' split
  all_goals first | exact hf _ | rfl | exact coerceText_flat (fun _ => hf _) _

/-- Coercion does not nest deeper, up to the empty struct. -/
theorem coerceData_depth (L : FloatLib) (p : TType) (d c : Dyn) (hd : d.isNil = false) (h : coerceData L p d = .ok (c, true)) :
    c.depth ≤ d.depth ∨ c = emptyStruct := by
  have K : ∀ {r : Dyn × Bool}, Res.ok r = .ok (c, true) → r.1.depth = 0 → c.depth ≤ d.depth ∨ c = emptyStruct := by
    intro r hr h0
    cases hr
    exact .inl (by simp only at h0; omega)
  unfold coerceData at h
  rw [if_neg (by simp [hd])] at h
  rcases of_ite h with h | h
  · exact K h rfl
  rcases of_ite h with h | h
  · exact K h (coerceBool_flat d)
  rcases of_ite h with h | h
  · exact K h (coerceByte_flat L d)
  rcases of_ite h with h | h
  · exact K h (coerceDouble_flat L d)
  rcases of_ite h with h | h
  · exact K h (coerceInt_flat L 16 (fun _ => rfl) d)
  rcases of_ite h with h | h
  · exact K h (coerceInt_flat L 32 (fun _ => rfl) d)
  rcases of_ite h with h | h
  · exact K h (coerceInt_flat L 64 (fun _ => rfl) d)
  rcases of_ite h with h | h
  · exact K h (by split <;> rfl)
  rcases of_ite h with h | h
  · exact K h (by split <;> rfl)
  rcases of_ite h with h | h
  · split at h
    · cases h; exact .inl (Nat.le_refl _)
    · cases h; exact .inr rfl
  rcases of_ite h with h | h
  · split at h
    · cases h; exact .inl (Nat.le_refl _)
    · cases h
  rcases of_ite h with h | h
  · split at h
    · cases h; exact .inl (Nat.le_refl _)
    · cases h
  rcases of_ite h with h | h
  · split at h
    · cases h; exact .inl (Nat.le_refl _)
    · cases h
  · cases h

theorem compareFuel_halts (L : FloatLib) : ∀ (n : Nat) (p : TType) (i j : Dyn), i.depth < n → j.depth < n → compareFuel L n p i j ≠ .stuck
  | 0, _, _, _, h, _ => by omega
  | n + 1, p, i, j, hi, hj => by
    unfold compareFuel
    refine halts_same (Dyn.goEq_halts _ _) fun x => ?_
    cases x
    · cases h1 : i.isNil
      · cases h2 : j.isNil
        · refine halts_bind (coerceData_halts _ _ _) fun a ha => halts_bind (coerceData_halts _ _ _) fun b hb => ?_
          obtain ⟨ci, iok⟩ := a
          obtain ⟨cj, jok⟩ := b
          cases iok <;> cases jok
          · exact halts_pure _
          · exact halts_pure _
          · exact halts_pure _
          · refine halts_same (Dyn.goEq_halts _ _) fun x => ?_
            cases x
            · refine halts_ite (halts_pure _) <| halts_ite (halts_ite (halts_pure _) (halts_pure _)) (halts_ite (halts_pure _)
                (compareCoerced_halts (n := n) (fun t i j hi hj => compareFuel_halts L n t i j hi hj) p ci cj ?_ ?_))
              · exact (coerceData_depth L p i ci h1 ha).imp (by omega) id
              · exact (coerceData_depth L p j cj h2 hb).imp (by omega) id
            · exact halts_pure _
        · exact halts_pure _
      · simp only [Bool.false_eq_true, if_false, if_true]
        exact halts_ite (halts_pure _) (halts_pure _)
    · exact halts_pure _

theorem compare_halts (L : FloatLib) (p : TType) (i j : Dyn) : compare L p i j ≠ .stuck :=
  compareFuel_halts L _ p i j (by omega) (by omega)

/-! ## Containers -/

theorem addLoop_halts (L : FloatLib) (t : TType) (d : Dyn) : ∀ l, TSet.addLoop L t d l ≠ .stuck
  | [] => halts_ok _
  | _ :: l => halts_bind (compare_halts _ _ _ _) fun _ _ => halts_ite (halts_ite (halts_pure _) (halts_pure _)) <|
      halts_bind (addLoop_halts L t d l) fun _ _ => halts_pure _

theorem add_halts (L : FloatLib) (s : TSet) (d : Dyn) : s.add L d ≠ .stuck :=
  halts_bind (coerceData_halts _ _ _) fun _ _ => halts_ite (halts_ite (halts_pure _) <| halts_bind (addLoop_halts _ _ _ _) fun _ _ => halts_pure _) (halts_pure _)

theorem push_halts (L : FloatLib) (s : TList) (d : Dyn) : s.push L d ≠ .stuck :=
  halts_bind (coerceData_halts _ _ _) fun _ _ => halts_ite (halts_pure _) (halts_pure _)

theorem insertSorted_halts (L : FloatLib) (t : TType) (k v : Dyn) : ∀ l, TMap.insertSorted L t k v l ≠ .stuck
  | [] => halts_ok _
  | _ :: l => halts_bind (compare_halts _ _ _ _) fun _ _ => halts_ite (halts_ite (halts_pure _) (halts_pure _)) <|
      halts_bind (insertSorted_halts L t k v l) fun _ _ => halts_pure _

theorem set_halts (L : FloatLib) (m : TMap) (k v : Dyn) : m.set L k v ≠ .stuck :=
  halts_bind (coerceData_halts _ _ _) fun _ _ => halts_ite (halts_pure _) <| halts_bind (coerceData_halts _ _ _) fun _ _ => halts_ite (halts_pure _) <|
    halts_ite (halts_bind (insertSorted_halts _ _ _ _ _) fun _ _ => halts_pure _) <| halts_ite (halts_pure _) <| halts_ite halts_panic (halts_pure _)

/-! ## More fuel changes nothing -/

/-- The same result, unless the first ran out of fuel. -/
def Res.Le (a b : Res α) : Prop := a ≠ .stuck → b = a

namespace Res.Le
theorem refl (a : Res α) : a.Le a := fun _ => rfl

theorem bind {m m' : Res α} {f f' : α → Res β} (h : m.Le m') (hf : ∀ a, (f a).Le (f' a)) : (m >>= f).Le (m' >>= f') := by
  intro hs
  cases m with
  | ok a => rw [h (nomatch ·)]; exact hf a hs
  | panic => rw [h (nomatch ·)]; rfl
  | stuck => exact absurd rfl hs

theorem ite {c : Prop} [Decidable c] {a a' b b' : Res α} (ha : a.Le a') (hb : b.Le b') : (if c then a else b).Le (if c then a' else b') := by
  split
  · exact ha
  · exact hb

theorem same {c : Prop} [Decidable c] {r : Res Bool} {f f' : Bool → Res β} (hf : ∀ b, (f b).Le (f' b)) :
    (if c then r >>= f else (Res.ok false >>= f)).Le (if c then r >>= f' else (Res.ok false >>= f')) :=
  .ite (.bind (.refl _) hf) (.bind (.refl _) hf)
end Res.Le

theorem compareArrays_le {cmp cmp' : Dyn → Dyn → Res (Int × Bool)} (h : ∀ x y, (cmp x y).Le (cmp' x y)) :
    ∀ xs ys, (compareArrays cmp xs ys).Le (compareArrays cmp' xs ys)
  | x :: xs, y :: ys => .bind (h x y) fun _ => .ite (.refl _) (compareArrays_le h xs ys)
  | [], _ => .refl _
  | _ :: _, [] => .refl _

theorem compareCoerced_le {rec rec' : TType → Dyn → Dyn → Res (Int × Bool)} (h : ∀ t x y, (rec t x y).Le (rec' t x y)) (p : TType)
    (ci cj : Dyn) : (compareCoerced rec p ci cj).Le (compareCoerced rec' p ci cj) := by
  have hv : ∀ t xs ys, (compareValueArrays (rec t) xs ys).Le (compareValueArrays (rec' t) xs ys) :=
    fun t xs ys => .ite (.refl _) (compareArrays_le (h t) xs ys)
  have hl : ∀ ga aa gb ab fs, (compareCoerced.fieldsLoop rec ga aa gb ab fs).Le (compareCoerced.fieldsLoop rec' ga aa gb ab fs) := by
    intro ga aa gb ab fs
    induction fs with
    | nil => exact .refl _
    | cons f fs ih => exact .bind (h _ _ _) fun _ => .ite (.refl _) ih
  unfold compareCoerced
  repeat' first | exact Res.Le.refl _ | apply Res.Le.ite
  · split
    · exact .ite (.refl _) (.ite (.refl _) (hl _ _ _ _ _))
    · exact .refl _
  · split
    · exact .ite (.refl _) (.ite (.refl _) (.ite (.refl _) (.bind (hv _ _ _) fun _ => .ite (.refl _) (hv _ _ _))))
    · exact .refl _
  · split
    · exact .ite (.refl _) (.ite (.refl _) (compareArrays_le (h _) _ _))
    · exact .refl _
  · split
    · exact .ite (.refl _) (.ite (.refl _) (hv _ _ _))
    · exact .refl _

theorem compareFuel_le (L : FloatLib) : ∀ {n m : Nat}, n ≤ m → ∀ (p : TType) (i j : Dyn), (compareFuel L n p i j).Le (compareFuel L m p i j)
  | 0, _, _, _, _, _ => fun h => absurd rfl h
  | n + 1, m + 1, h, p, i, j => by
    have ih := compareFuel_le L (Nat.le_of_succ_le_succ h)
    unfold compareFuel
    refine .same fun x => .ite (.refl _) <| .ite (.refl _) <| .ite (.refl _) <| .bind (.refl _) fun _ => .bind (.refl _) fun _ =>
      .ite (.refl _) <| .ite (.refl _) <| .ite (.refl _) <| .same fun x => .ite (.refl _) <| .ite (.refl _) <| .ite (.refl _) ?_
    exact compareCoerced_le ih _ _ _

theorem compareFuel_compare (L : FloatLib) (n : Nat) (p : TType) (i j : Dyn) (hi : i.depth < n) (hj : j.depth < n) :
    compareFuel L n p i j = compare L p i j :=
  compareFuel_le L (show max i.depth j.depth + 1 ≤ n by omega) p i j (compare_halts L p i j)

end Thrift
