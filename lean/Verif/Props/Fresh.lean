import Verif.Props.IsSet
import Verif.Lemmas.GenRoundTrip
/-!
# What a new object is worth: C161
-/

namespace Thrift

/-- The value of a number, truth value or text with which a new object starts: the
default of the declaration, or zero, false and the empty text.  No value for all
other types. -/
def Member.starts (m : Member) : Option Val :=
  match m.ty, m.dflt with
  | .bool, none => some (.bool false)
  | .byte, none => some (.byte 0)
  | .i16, none => some (.i16 0)
  | .i32, none => some (.i32 0)
  | .i64, none => some (.i64 0)
  | .double, none => some (.double 0)
  | .string, none => some (.str [])
  | .bool, some (.bool b) => some (.bool b)
  | .byte, some (.byte b) => some (.byte b)
  | .i16, some (.int16 v) => some (.i16 v)
  | .i32, some (.int32 v) => some (.i32 v)
  | .i64, some (.int64 v) => some (.i64 v)
  | .double, some (.float64 v) => some (.double v)
  | .string, some (.string s) => some (.str s)
  | _, _ => none

/-- No default, or a default of a number, truth value or text that is of the declared
type; the default of an optional `double` is the number that its `IsSet` compares
with; texts are no longer than Thrift can say. -/
def Member.PlainDefault (S : Schema) (m : Member) : Prop :=
  m.dflt = none ∧ m.check = 0 ∨ ∃ d, m.dflt = some d ∧ Typed S m.ty d ∧ m.ty.canBeNil = false ∧ m.ty.isEnum = false ∧
    (m.ty = .double → d = .float64 m.check ∧ F64.isNaN m.check = false) ∧ ∀ s, d = .string s → s.length < 2 ^ 31

/-- The encoding of the fields of a new object, in this order. -/
def freshBytes (ms : List Member) : Bytes :=
  ms.flatMap fun m => match (if m.optional then none else m.starts) with
    | some v => [v.type] ++ be 2 m.id.toNat ++ BinarySpec.encode v
    | none => []

/-- The fields of a new object that are sent. -/
def freshFields : List Member → Fields
  | [] => .nil
  | m :: ms => match (if m.optional then none else m.starts) with
    | some v => .cons m.id v (freshFields ms)
    | none => freshFields ms

theorem freshFields_encode : ∀ ms : List Member, BinarySpec.encodeFields (freshFields ms) = freshBytes ms ++ [0]
  | [] => rfl
  | m :: ms => by
    have ih := freshFields_encode ms
    rw [freshFields, freshBytes, List.flatMap_cons]
    cases (if m.optional then none else m.starts) with
    | none => rw [freshBytes] at ih; simpa using ih
    | some v =>
      simp only [BinarySpec.encodeFields]
      rw [ih, freshBytes]
      simp

variable {S : Schema}

/-- One member. -/
theorem fresh_member (fuel : Nat) (m : Member) (h : m.PlainDefault S) :
    match (if m.optional then none else m.starts) with
    | some v => m.written S (m.initial S) = true ∧ flatVal true S (fuel + 1) m.ty (m.initial S) = some v ∧ v.WF
    | none => m.written S (m.initial S) = false := by
  have h120 : m.isSet S (m.initial S) = false := by
    refine C120_partial S m ?_
    rcases h with h | ⟨d, h1, h2, h3, h4, h5, _⟩
    · exact .inl h
    · exact .inr ⟨d, h1, h2, h3, h4, h5⟩
  rcases hm : m with ⟨name, id, ty, opt, dflt, check, ed⟩
  rw [hm] at h h120
  cases opt with
  | true => simp [Member.written, h120]
  | false =>
    rcases h with ⟨rfl, -⟩ | ⟨d, rfl, ht, hn, he, -, hs⟩
    · simp only [Bool.false_eq_true, if_false]
      cases ty <;>
        simp [Member.starts, Member.written, Member.initial, Ty.zero, Ty.canBeNil, Ty.isEnum, flatVal, Val.WF, Dyn.isNil, Member.isSet]
    · simp only at ht hn he hs
      cases ht <;> simp [Ty.canBeNil, Ty.isEnum] at hn he <;>
        simp [Member.starts, Member.written, Member.initial, Ty.canBeNil, Ty.isEnum, flatVal, Val.WF, hs]

theorem fresh_members (fuel : Nat) (attrs : List (Int × Dyn)) : ∀ ms : List Member, (∀ m ∈ ms, m.PlainDefault S) →
    (∀ m ∈ ms, attributeOf attrs m.id.toInt = m.initial S) →
    flatMembers S (flatVal true S (fuel + 1)) attrs ms = some (freshFields ms) ∧ (freshFields ms).WF
  | [], _, _ => ⟨rfl, trivial⟩
  | m :: ms, h, ha => by
    obtain ⟨h1, h2⟩ := fresh_members fuel attrs ms (fun x hx => h x (List.mem_cons_of_mem _ hx)) fun x hx => ha x (List.mem_cons_of_mem _ hx)
    have hm := fresh_member (S := S) fuel m (h m List.mem_cons_self)
    rw [flatMembers, ha m List.mem_cons_self, freshFields]
    generalize (if m.optional then none else m.starts) = o at *
    cases o with
    | none =>
      simp only at hm
      simp only [hm, Bool.false_eq_true, if_false]
      exact ⟨h1, h2⟩
    | some v =>
      simp only at hm
      simp only [hm.1, if_true, hm.2.1, h1]
      exact ⟨trivial, hm.2.2, h2⟩

theorem insertMember_perm (m : Member) : ∀ ms : List Member, (insertMember m ms).Perm (m :: ms)
  | [] => .refl _
  | n :: ns => by
    rw [insertMember]
    split
    · exact .refl _
    · exact ((insertMember_perm m ns).cons n).trans (.swap m n ns)

theorem sorted_perm (sd : StructDef) : sd.sorted.Perm sd.members := by
  unfold StructDef.sorted
  induction sd.members with
  | nil => exact .refl _
  | cons m ms ih => exact (insertMember_perm m _).trans (ih.cons m)

/-- C161.  A new object of a struct, written over the binary protocol: the members in the
order of their ids, those that are required numbers, truth values and texts with
their default, or zero, false and empty if they have none; nothing for the rest. -/
theorem C161_fresh (sd : StructDef) (hsd : sd.Ok) (h : ∀ m ∈ sd.members, m.PlainDefault S) (fuel : Nat) (sw : Bin) :
    ∃ order : List Member, order.Perm sd.members ∧ order.Pairwise (fun a b => a.id.toInt < b.id.toInt) ∧ ∀ before,
      (genWrite binary S (fuel + 1) sd (sd.fresh S)).run memory sw before = (.ok (none, sw), before ++ (freshBytes order ++ [0])) := by
  refine ⟨sd.sorted, sorted_perm sd, sorted_increasing hsd.ids, fun before => ?_⟩
  obtain ⟨h1, h2⟩ := fresh_members (S := S) fuel (sd.fresh S) sd.sorted (fun m hm => h m (mem_sorted.1 hm))
    fun m hm => attributeOf_fresh hsd (mem_sorted.1 hm)
  have := (binary_writes sw h1 h2).memory before
  rwa [BinarySpec.encode, freshFields_encode] at this

/-- A struct with a required byte, a list and a number with a default. -/
def freshSample : StructDef :=
  ⟨ascii "S", [⟨ascii "n", 3, .i32, false, some (.int32 7), 0, true⟩, ⟨ascii "b", 1, .byte, false, none, 0, true⟩,
    ⟨ascii "l", 2, .list .i32, false, none, 0, true⟩, ⟨ascii "o", 4, .i64, true, none, 0, true⟩]⟩

theorem freshSample_ok : freshSample.Ok := ⟨by decide, by decide, by decide, by decide⟩

example := C161_fresh (S := plainSchema) freshSample freshSample_ok (by
  intro m hm
  simp only [freshSample, List.mem_cons, List.not_mem_nil, or_false] at hm
  rcases hm with rfl | rfl | rfl | rfl
  · exact .inr ⟨.int32 7, rfl, .i32 _, rfl, rfl, nofun, nofun⟩
  all_goals exact .inl ⟨rfl, rfl⟩) 3 Bin.default
example : ((genWrite binary plainSchema 3 freshSample (freshSample.fresh plainSchema)).run memory Bin.default []).2 =
    [3, 0, 1, 0, 8, 0, 3, 0, 0, 0, 7, 0] := by decide +kernel

end Thrift
