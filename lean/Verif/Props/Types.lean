import Verif.Lemmas.Coerce
import Verif.Lemmas.Field
/-!
# C42 – C47: order, coercion and field metadata
-/

namespace Thrift

/-! ## C42 -/

/-- What the property asks of a comparison of the values in `S`. -/
structure OrdersTotally (cmp : Dyn → Dyn → Res (Int × Bool)) (S : Dyn → Prop) : Prop where
  succeeds : ∀ a b, S a → S b → ∃ c, cmp a b = .ok (c, true)
  zero : ∀ a b c, S a → S b → cmp a b = .ok (c, true) → (c = 0 ↔ a.key = b.key)
  swap : ∀ a b c d, S a → S b → cmp a b = .ok (c, true) → cmp b a = .ok (d, true) →
    (c < 0 ↔ 0 < d) ∧ (c = 0 ↔ d = 0)
  trans : ∀ a b c x y z, S a → S b → S c → cmp a b = .ok (x, true) → cmp b c = .ok (y, true) →
    cmp a c = .ok (z, true) → x ≤ 0 → y ≤ 0 → z ≤ 0 ∧ (x < 0 ∨ y < 0 → z < 0)

/-- The types of scalar values. -/
def ScalarType (p : TType) : Prop :=
  p = TT.BOOL ∨ p = TT.BYTE ∨ p = TT.DOUBLE ∨ p = TT.I16 ∨ p = TT.I32 ∨ p = TT.I64 ∨ p = TT.STRING ∨ p = TT.ENUM ∨
    p = TT.UTF16 ∨ p = TT.BINARY

/-- C42 as stated: `Compare` is a total order on every scalar type. -/
def C42_statement : Prop := ∀ (L : FloatLib) p, ScalarType p → OrdersTotally (compare L p) (Native p)

/-- A library of conversions, for the examples. -/
def exampleLib : FloatLib where
  ofInt _ := 0
  toInt _ := 0
  toInt32 _ := 0
  widen _ := 0
  format _ := []
  format32 _ := []
  parse _ := (0, true)

/-- NaN compares greater than itself. -/
theorem C42_violated : ¬ C42_statement := by
  intro h
  have := (h exampleLib TT.DOUBLE (Or.inr (Or.inr (Or.inl rfl)))).zero (.float64 0x7ff8000000000000)
    (.float64 0x7ff8000000000000) 1 rfl rfl (by decide +kernel)
  exact absurd (this.2 rfl) (by decide)

/-- C42 for all values that are not NaN: that exception is all that is missing. -/
theorem C42_partial (L : FloatLib) (p : TType) : OrdersTotally (compare L p) (Scalar p) where
  succeeds a b ha hb := let ⟨c, h, _⟩ := compare_scalar L ha hb; ⟨c, h⟩
  zero a b c ha hb h := by
    obtain ⟨c', h', s⟩ := compare_scalar L ha hb
    obtain rfl : c' = c := by rw [h] at h'; injection h' with e; injection e with e; exact e.symm
    exact s.zero_iff
  swap a b c d ha hb h h2 := by
    obtain ⟨c', h', s⟩ := compare_scalar L ha hb
    obtain rfl : c' = c := by rw [h] at h'; injection h' with e; injection e with e; exact e.symm
    obtain ⟨d', h', t⟩ := compare_scalar L hb ha
    obtain rfl : d' = d := by rw [h2] at h'; injection h' with e; injection e with e; exact e.symm
    exact ⟨by rw [s.neg_iff, ← gt_iff_lt, t.pos_iff], by rw [s.zero_iff, t.zero_iff]; exact eq_comm⟩
  trans a b c x y z ha hb hc h1 h2 h3 hx hy := by
    obtain ⟨x', h', s⟩ := compare_scalar L ha hb
    obtain rfl : x' = x := by rw [h1] at h'; injection h' with e; injection e with e; exact e.symm
    obtain ⟨y', h', t⟩ := compare_scalar L hb hc
    obtain rfl : y' = y := by rw [h2] at h'; injection h' with e; injection e with e; exact e.symm
    obtain ⟨z', h', u⟩ := compare_scalar L ha hc
    obtain rfl : z' = z := by rw [h3] at h'; injection h' with e; injection e with e; exact e.symm
    cases s with
    | gt => omega
    | eq e1 =>
      cases t with
      | gt => omega
      | eq e2 => rw [u.zero_iff.2 (e1.trans e2)]; decide
      | lt l2 => have := u.neg_iff.2 (e1 ▸ l2); omega
    | lt l1 =>
      cases t with
      | gt => omega
      | eq e2 => have := u.neg_iff.2 (e2 ▸ l1); omega
      | lt l2 => have := u.neg_iff.2 (l1.trans l2); omega

/-- The order is the expected one: numbers by value, text by its bytes.  Keys
coincide only for identical values and for the two zeros. -/
theorem C42_order_partial (L : FloatLib) {p : TType} {a b : Dyn} (ha : Scalar p a) (hb : Scalar p b) :
    (∃ c, compare L p a b = .ok (c, true) ∧ (c < 0 ↔ LexLt a.key b.key) ∧ (0 < c ↔ LexLt b.key a.key)) ∧
    (a.key = b.key ↔ a = b ∨ ∃ x y, a = .float64 x ∧ b = .float64 y ∧ F64.rank x = 0 ∧ F64.rank y = 0) := by
  obtain ⟨c, h, s⟩ := compare_scalar L ha hb
  exact ⟨⟨c, h, s.neg_iff, s.pos_iff⟩, key_eq_iff ha hb⟩

example : Scalar TT.I16 (.int16 (-3)) ∧ Scalar TT.DOUBLE (.float64 0x3ff0000000000000) ∧ Scalar TT.BINARY (.bytes [1, 2]) :=
  ⟨⟨rfl, trivial⟩, ⟨rfl, by show F64.isNaN _ = false; decide +kernel⟩, ⟨rfl, trivial⟩⟩

/-! ## C43 -/

/-- C43 as stated: `Less(a, b)` holds exactly when `Compare` puts `a` before `b`. -/
def C43_statement : Prop :=
  ∀ (L : FloatLib) p a b c, Scalar p a → Scalar p b → compare L p a b = .ok (c, true) →
    less L p a b = .ok (decide (c < 0))

theorem C43_violated : ¬ C43_statement := by
  intro h
  have := h exampleLib TT.I32 (.int32 1) (.int32 2) (-1) ⟨rfl, trivial⟩ ⟨rfl, trivial⟩ (by decide +kernel)
  exact absurd this (by decide +kernel)

/-- What holds instead: `Less(a, b)` is the strict order with the sides
exchanged. -/
theorem C43_partial (L : FloatLib) {p : TType} {a b : Dyn} (ha : Scalar p a) (hb : Scalar p b) :
    ∃ r, less L p a b = .ok r ∧ (r = true ↔ LexLt b.key a.key) := by
  obtain ⟨c, h, s⟩ := compare_scalar L ha hb
  refine ⟨decide (c > 0), by rw [less, h]; rfl, ?_⟩
  rw [decide_eq_true_eq]
  exact s.pos_iff

example : less exampleLib TT.I32 (.int32 2) (.int32 1) = .ok true := by decide +kernel

/-! ## C44 -/

/-- C44 as stated: text is coerced to an integer exactly when it is the decimal
form of a number that the type can hold, and then to that number. -/
def C44_statement : Prop :=
  ∀ (L : FloatLib) p w s, IsIntType p w → ∃ v ok, coerceData L p (.string s) = .ok (v, ok) ∧
    (ok = true ↔ ∃ n, decimalValue s = some n ∧ Holds p w n) ∧
    ∀ n, ok = true → decimalValue s = some n → v = mkInt p n

theorem C44_violated : ¬ C44_statement := by
  intro h
  obtain ⟨v, ok, e, h1, _⟩ := h exampleLib TT.I32 32 (ascii "7") .i32
  have : coerceData exampleLib TT.I32 (.string (ascii "7")) = .ok (.int32 0, false) := rfl
  rw [this] at e
  injection e with e
  injection e with _ e
  subst e
  exact absurd (h1.2 ⟨7, by decide +kernel, by show -2 ^ 31 ≤ (7 : Int) ∧ (7 : Int) < 2 ^ 31; decide⟩) (by decide)

/-- What holds instead, for every text: coercion succeeds exactly for text that
is *not* the decimal form of a 64-bit integer; a success gives 0 or a truncated
bound of the 64-bit range, a failure gives 0. -/
theorem C44_partial (L : FloatLib) {p w} (hp : IsIntType p w) (s : Bytes) :
    ((∃ n, decimalValue s = some n ∧ -2 ^ 63 ≤ n ∧ n < 2 ^ 63) → coerceData L p (.string s) = .ok (mkInt p 0, false)) ∧
    ((¬ ∃ n, decimalValue s = some n ∧ -2 ^ 63 ≤ n ∧ n < 2 ^ 63) →
      ∃ n, (n = 0 ∨ n = 2 ^ 63 - 1 ∨ n = -2 ^ 63) ∧ coerceData L p (.string s) = .ok (mkInt p n, true)) := by
  rw [coerceData_text L hp]
  have h := parseInt_eq s
  constructor
  · rintro ⟨n, hn, hr⟩
    rw [hn] at h
    simp only [if_pos hr] at h
    rw [h]; rfl
  · intro hne
    have : ∃ v, ErrorValue v ∧ parseInt s = (v, true) := by
      cases hd : decimalValue s with
      | none => rw [hd] at h; exact h
      | some n =>
        rw [hd] at h
        have hr : ¬ (-2 ^ 63 ≤ n ∧ n < 2 ^ 63) := fun hr => hne ⟨n, hd, hr⟩
        simp only [if_neg hr] at h
        exact h
    obtain ⟨v, hv, e⟩ := this
    rw [e]
    rcases hv with hv | hv | hv <;> subst hv
    · exact ⟨0, Or.inl rfl, rfl⟩
    · exact ⟨_, Or.inr (Or.inl rfl), by rw [BitVec.toInt_ofInt_eq_self (by decide) (by decide) (by decide)]; rfl⟩
    · exact ⟨_, Or.inr (Or.inr rfl), by rw [BitVec.toInt_ofInt_eq_self (by decide) (by decide) (by decide)]; rfl⟩

example : decimalValue (ascii "-42") = some (-42) ∧ decimalValue (ascii "4x") = none := by decide +kernel

/-! ## C45 -/

/-- Coercing an integer of any kind to an integer type that can hold it keeps the
value, and doing it again changes nothing. -/
theorem C45_int (L : FloatLib) {p w} (hp : IsIntType p w) {d : Dyn} {n : Int} (hd : d.intValue = some n)
    (hn : Holds p w n) :
    ∃ v, coerceData L p d = .ok (v, true) ∧ v.intValue = some n ∧ Native p v ∧ coerceData L p v = .ok (v, true) := by
  refine ⟨mkInt p n, coerceData_int L hp hd, mkInt_value hp hn, ?_, coerceData_int L hp (mkInt_value hp hn)⟩
  cases hp <;> rfl

/-- The same for booleans, which count as 1 and 0. -/
theorem C45_bool (L : FloatLib) {p w} (hp : IsIntType p w) (b : Bool) :
    ∃ v, coerceData L p (.bool b) = .ok (v, true) ∧ v.intValue = some (if b then 1 else 0) ∧
      coerceData L p v = .ok (v, true) := by
  have hn : Holds p w (if b then 1 else 0) := by
    cases hp <;> cases b <;> simp [Holds, TT.BYTE, TT.I16, TT.I32, TT.I64]
  exact ⟨_, coerceData_bool L hp b, mkInt_value hp hn, coerceData_int L hp (mkInt_value hp hn)⟩

/-- An integer that the type cannot hold still gives a value of the type, and the
result is stable. -/
theorem C45_idempotent (L : FloatLib) {p w} (hp : IsIntType p w) {d : Dyn} {n : Int} (hd : d.intValue = some n) :
    ∃ v, coerceData L p d = .ok (v, true) ∧ coerceData L p v = .ok (v, true) := by
  refine ⟨mkInt p n, coerceData_int L hp hd, coerceData_native L ?_⟩
  cases hp <;> rfl

example : (Dyn.uint16 40000).intValue = some 40000 ∧ Holds TT.I32 32 40000 ∧ ¬ Holds TT.I16 16 40000 := by
  simp [Dyn.intValue, Holds, TT.BYTE, TT.I16, TT.I32]

/-! ## C46 -/

/-- Look-ups of declared fields. -/
theorem C46_present (fs : List Field) (hid : (fs.map Field.id).Nodup) (hname : (fs.map Field.name).Nodup)
    (hne : ∀ f ∈ fs, f.name ≠ []) (f : Field) (hf : f ∈ fs) :
    (FieldContainer.new fs).fieldFromFieldId f.id = f ∧
    (FieldContainer.new fs).fieldFromFieldName f.name = f ∧
    (FieldContainer.new fs).fieldNameFromFieldId f.id = f.name ∧
    (FieldContainer.new fs).fieldIdFromFieldName f.name = f.id ∧
    (FieldContainer.new fs).containsId f.id = true ∧
    (FieldContainer.new fs).containsName f.name = true := by
  have h1 : (FieldContainer.new fs).byId f.id = some f := fillMaps_id_present fs _ _ hid f hf
  have h2 : (FieldContainer.new fs).byName f.name = some f := fillMaps_name_present fs _ _ hname f hf (hne f hf)
  refine ⟨?_, ?_, ?_, ?_, ?_, ?_⟩
  · rw [FieldContainer.fieldFromFieldId, h1]
  · rw [FieldContainer.fieldFromFieldName, h2]
  · rw [FieldContainer.fieldNameFromFieldId, h1]
  · rw [FieldContainer.fieldIdFromFieldName, h2]
  · exact List.any_eq_true.2 ⟨f, hf, decide_eq_true rfl⟩
  · exact List.any_eq_true.2 ⟨f, hf, decide_eq_true rfl⟩

/-- Look-ups of ids and names that no field has; for every list of fields. -/
theorem C46_absent (fs : List Field) :
    (∀ id, (∀ f ∈ fs, f.id ≠ id) →
      (FieldContainer.new fs).fieldFromFieldId id = ⟨[], TT.STOP, 0⟩ ∧
      (FieldContainer.new fs).fieldNameFromFieldId id = [] ∧ (FieldContainer.new fs).containsId id = false) ∧
    (∀ name, (∀ f ∈ fs, f.name ≠ name) →
      (FieldContainer.new fs).fieldFromFieldName name = ⟨[], TT.STOP, 0⟩ ∧
      (FieldContainer.new fs).fieldIdFromFieldName name = -1 ∧ (FieldContainer.new fs).containsName name = false) := by
  constructor
  · intro id h
    have h1 : (FieldContainer.new fs).byId id = none := fillMaps_id_absent fs _ _ id h
    refine ⟨?_, ?_, ?_⟩
    · rw [FieldContainer.fieldFromFieldId, h1]; rfl
    · rw [FieldContainer.fieldNameFromFieldId, h1]
    · rw [FieldContainer.containsId, List.any_eq_false]
      exact fun f hf e => h f hf (of_decide_eq_true e)
  · intro name h
    have h1 : (FieldContainer.new fs).byName name = none := fillMaps_name_absent fs _ _ name h
    refine ⟨?_, ?_, ?_⟩
    · rw [FieldContainer.fieldFromFieldName, h1]; rfl
    · rw [FieldContainer.fieldIdFromFieldName, h1]
    · rw [FieldContainer.containsName, List.any_eq_false]
      exact fun f hf e => h f hf (of_decide_eq_true e)

/-- `Len`. -/
theorem C46_len (fs : List Field) : (FieldContainer.new fs).len = fs.length := rfl

example : let fs : List Field := [⟨ascii "a", TT.I32, 1⟩, ⟨ascii "b", TT.STRING, 2⟩]
    (fs.map Field.id).Nodup ∧ (fs.map Field.name).Nodup ∧ ∀ f ∈ fs, f.name ≠ [] := by decide

/-! ## C47 -/

/-- C47 as stated. -/
def C47_statement : Prop :=
  (∀ p, (FieldContainer.new p).equals (FieldContainer.new p) = true) ∧
  (∀ p q, (FieldContainer.new p).equals (FieldContainer.new q) = true →
    (FieldContainer.new q).equals (FieldContainer.new p) = true) ∧
  (∀ p q r, (FieldContainer.new p).equals (FieldContainer.new q) = true →
    (FieldContainer.new q).equals (FieldContainer.new r) = true →
    (FieldContainer.new p).equals (FieldContainer.new r) = true)

/-- Two fields with one id against two fields with different ids. -/
theorem C47_violated : ¬ C47_statement := by
  intro h
  exact absurd (h.2.1 [⟨[], TT.I32, 1⟩, ⟨[], TT.I32, 1⟩] [⟨[], TT.I32, 1⟩, ⟨[], TT.I32, 2⟩] (by decide)) (by decide)

/-- C47 with symmetry restricted to containers whose fields differ in type or id
(as the fields of a declared struct do); reflexivity and transitivity hold
always. -/
theorem C47_partial :
    (∀ p, (FieldContainer.new p).equals (FieldContainer.new p) = true) ∧
    (∀ p q, (p.map fun f => (f.typeId, f.id)).Nodup → (FieldContainer.new p).equals (FieldContainer.new q) = true →
      (FieldContainer.new q).equals (FieldContainer.new p) = true) ∧
    (∀ p q r, (FieldContainer.new p).equals (FieldContainer.new q) = true →
      (FieldContainer.new q).equals (FieldContainer.new r) = true →
      (FieldContainer.new p).equals (FieldContainer.new r) = true) := by
  refine ⟨fun p => (container_equals_iff p p).2 ⟨rfl, fun _ h => h⟩, fun p q nd h => ?_, fun p q r h1 h2 => ?_⟩
  · obtain ⟨hl, hs⟩ := (container_equals_iff p q).1 h
    exact (container_equals_iff q p).2 ⟨hl.symm, subset_of_nodup _ _ nd hs (by simp [hl])⟩
  · obtain ⟨hl1, hs1⟩ := (container_equals_iff p q).1 h1
    obtain ⟨hl2, hs2⟩ := (container_equals_iff q r).1 h2
    exact (container_equals_iff p r).2 ⟨hl1.trans hl2, fun _ h => hs2 (hs1 h)⟩

/-- What two equal containers have in common: the same types and ids, whatever
the order and the names. -/
theorem C47_meaning_partial (p q : List Field) (hp : (p.map fun f => (f.typeId, f.id)).Nodup) :
    (FieldContainer.new p).equals (FieldContainer.new q) = true ↔
      p.length = q.length ∧ ∀ x : TType × Int, x ∈ p.map (fun f => (f.typeId, f.id)) ↔ x ∈ q.map fun f => (f.typeId, f.id) := by
  rw [container_equals_iff]
  constructor
  · intro ⟨hl, hs⟩
    exact ⟨hl, fun x => ⟨fun h => hs h, fun h => subset_of_nodup _ _ hp hs (by simp [hl]) h⟩⟩
  · intro ⟨hl, hs⟩
    exact ⟨hl, fun x h => (hs x).1 h⟩

example : (([⟨ascii "a", TT.I32, 1⟩, ⟨ascii "b", TT.I32, 2⟩] : List Field).map fun f => (f.typeId, f.id)).Nodup := by decide

end Thrift
