import Verif.Lemmas.GenWire
/-!
# The `IsSet` helpers (C120, C121)
-/

namespace Thrift

/-- The helper is generated. -/
def Member.HasIsSet (m : Member) : Prop := m.optional = true ∨ m.ty.isEnum = true

/-- No field of a new object is set. -/
def C120_statement : Prop := ∀ (S : Schema) (m : Member), m.HasIsSet → m.isSet S (m.initial S) = false

/-- Nothing is known about enums in these examples. -/
def plainSchema : Schema := ⟨fun _ => ⟨[], []⟩, fun _ _ => []⟩

/-- `1: Color c = 2`: set from the start. -/
theorem C120_violated : ¬ C120_statement := by
  intro h
  have := h plainSchema ⟨[], 1, .enum 0, true, some (.enumer 0 2 []), 0, true⟩ (.inl rfl)
  revert this
  decide

/-- `1: optional list<i32> l = [7]`: set from the start. -/
theorem C120_list_violated : ¬ ∀ (S : Schema) (m : Member), m.HasIsSet → (∀ k, m.ty ≠ .enum k) → m.isSet S (m.initial S) = false := by
  intro h
  have := h plainSchema ⟨[], 1, .list .i32, true, some (.list 0 TT.I32 [.int32 7]), 0, false⟩ (.inl rfl) (by simp)
  revert this
  decide

theorem F64.eq_self {c : F64} (h : F64.isNaN c = false) : F64.eq c c = true := by
  simp [F64.eq, h]

/-- Fields without a default, and fields of type `bool`, `byte`, `i16`, `i32`, `i64`,
`string` and `double` with one; for a `double` the default is the number that the
helper compares with, and not NaN. -/
theorem C120_partial (S : Schema) (m : Member)
    (h : m.dflt = none ∧ m.check = 0 ∨ (∃ d, m.dflt = some d ∧ Typed S m.ty d ∧ m.ty.canBeNil = false ∧ m.ty.isEnum = false ∧
      (m.ty = .double → d = .float64 m.check ∧ F64.isNaN m.check = false))) :
    m.isSet S (m.initial S) = false := by
  rcases h with ⟨hd, hc⟩ | ⟨d, hd, ht, hn, he, hf⟩
  · cases hty : m.ty <;>
      simp [Member.isSet, Member.initial, hty, hd, Ty.zero, Dyn.isNil, Dyn.goEq, hc]
    decide
  · cases hty : m.ty <;> rw [hty] at ht hn he hf <;> cases ht <;>
      simp_all [Member.isSet, Member.initial, Dyn.goEq, Ty.canBeNil, Ty.isEnum, F64.eq_self]

example : ∃ m : Member, m.dflt = none ∧ m.check = 0 ∧ m.ty = .list .i32 ∧ m.optional = true :=
  ⟨⟨[], 1, .list .i32, true, none, 0, true⟩, rfl, rfl, rfl, rfl⟩

example : Typed plainSchema .double (.float64 0x3ff0000000000000) ∧ F64.isNaN 0x3ff0000000000000 = false :=
  ⟨.double _, by decide⟩

/-- A field that was given another value than it starts with is set. -/
def C121_statement : Prop := ∀ (S : Schema) (m : Member) (d : Dyn), m.HasIsSet → Typed S m.ty d → d ≠ m.initial S → m.isSet S d = true

/-- An optional list that was given an empty list is not set (and is not sent). -/
theorem C121_violated : ¬ C121_statement := by
  intro h
  have := h plainSchema ⟨[], 1, .list .i32, true, none, 0, true⟩ (.list 0 TT.I32 []) (.inl rfl)
    (.list .i32 0 [] (by decide) (by simp)) (by simp [Member.initial, Ty.zero])
  revert this
  decide

/-- Nor is a `double` that was given the negative zero. -/
theorem C121_zero_violated : ¬ ∀ (S : Schema) (m : Member) (d : Dyn), m.HasIsSet → m.ty.canBeNil = false → Typed S m.ty d → d ≠ m.initial S →
    m.isSet S d = true := by
  intro h
  have := h plainSchema ⟨[], 1, .double, true, none, 0, true⟩ (.float64 0x8000000000000000) (.inl rfl) rfl (.double _)
    (by simp [Member.initial, Ty.zero])
  revert this
  decide

theorem Typed.ne_nil {S : Schema} {ty : Ty} {d : Dyn} (h : Typed S ty d) : d ≠ .nil := by
  cases h <;> simp [StructDef.object]

/-- All other values: containers with elements (or any container if the default has
some), and numbers that are not equal to the default in the sense of Go. -/
theorem C121_partial (S : Schema) (m : Member) (d : Dyn) (ht : Typed S m.ty d) (hi : d ≠ m.initial S)
    (hc : m.emptyDflt = true → d.isEmpty = false) (hf : ∀ v, d = .float64 v → F64.eq v m.check = false) : m.isSet S d = true := by
  have key : m.Assigned S d → m.isSet S d = true := fun ha => by
    by_cases ho : m.optional = true
    · have := (written_iff (.inr ht)).2 ⟨ht.ne_nil, fun _ => ha⟩
      simp [Member.written, ho] at this
      exact this.2
    · have := (written_iff (S := S) (m := { m with optional := true }) (.inr ht)).2 ⟨ht.ne_nil, fun _ => ha⟩
      simp [Member.written] at this
      exact this.2
  apply key
  cases hty : m.ty <;> simp only [Member.Assigned, hty]
  case binary | struct => exact ht.ne_nil
  case list | set | map => exact ⟨ht.ne_nil, hc⟩
  case double => exact hf
  case enum => 
    rintro k v s rfl
    rw [hty] at ht
    cases ht with
    | enum _ _ h => omega
  all_goals exact hi

example : ∃ (m : Member) (d : Dyn), m.HasIsSet ∧ Typed plainSchema m.ty d ∧ d ≠ m.initial plainSchema ∧
    (m.emptyDflt = true → d.isEmpty = false) ∧ ∀ v, d = .float64 v → F64.eq v m.check = false :=
  ⟨⟨[], 1, .i32, true, none, 0, true⟩, .int32 7, .inl rfl, .i32 _, by simp [Member.initial, Ty.zero], fun _ => rfl, by simp⟩

end Thrift
