import Verif.Lemmas.GenWire
import Verif.Props.Generated
import Verif.Props.Service
/-!
# C92, C93: what generated writers put on the wire
-/

namespace Thrift

/-! ## C92: the struct that is sent is the struct that is held -/

/-- C92.  `Write` of a generated struct sends, in the format of the protocol, the
value that the struct stands for. -/
def C92_statement : Prop :=
  ∀ (S : Schema) (k ptr : Nat) (attrs : Attrs) (f : Nat), S.Ok → Typed S (.struct k) ((S.structs k).object ptr attrs) →
    ∃ v N, Means S (.struct k) ((S.structs k).object ptr attrs) v ∧ ∀ fuel, N ≤ fuel →
      (∀ (s : Bin) before, (genWrite binary S fuel (S.structs k) attrs).run memory s before =
        (.ok (none, s), before ++ BinarySpec.encode v)) ∧
      ∀ (s : Cmp) before, s.booleanField = none → (genWrite (compact f) S fuel (S.structs k) attrs).run memory s before =
        (.ok (none, s), before ++ CompactSpec.encode v)

theorem Typed.struct_inv {S : Schema} {k ptr : Nat} {attrs : Attrs} (h : Typed S (.struct k) ((S.structs k).object ptr attrs)) :
    ∀ m ∈ (S.structs k).members, ¬ m.Unset S (attributeOf attrs m.id.toInt) → Typed S m.ty (attributeOf attrs m.id.toInt) := by
  generalize hd : (S.structs k).object ptr attrs = d at h
  cases h with
  | struct k' ptr' attrs' ids ht =>
    simp only [StructDef.object, Dyn.struct.injEq] at hd
    obtain ⟨rfl, -, -, -, -, rfl⟩ := hd
    exact ht

theorem mapKey_typed : Typed mapKeySchema (.struct 1) ((mapKeySchema.structs 1).object 0 mapKeyResult) := by
  refine Typed.struct 1 0 _ rfl fun m hm _ => ?_
  obtain rfl := List.mem_singleton.1 hm
  refine Typed.map (.map .i32 .i32) .i32 1 _ _ [(.map 2 8 8 0 [] [] [], .int32 1)] (by decide) ?_ ?_
  · intro d hd
    obtain rfl := List.mem_singleton.1 hd
    exact Typed.map .i32 .i32 2 [] [] [] (by decide) (by simp) (by simp)
  · intro d hd
    obtain rfl := List.mem_singleton.1 hd
    exact Typed.i32 _

/-- C92 does not hold: a map with maps for keys cannot be written. -/
theorem C92_violated : ¬ C92_statement := by
  intro h
  obtain ⟨v, N, _, h⟩ := h mapKeySchema 1 0 mapKeyResult 0 mapKeySchema_ok mapKey_typed
  have h1 := (h (N + 10) (by omega)).1 Bin.default []
  have h2 : (genWrite binary mapKeySchema (N + 10) (mapKeySchema.structs 1) mapKeyResult).run memory Bin.default [] =
    (.panic, [13, 0, 0, 13, 8, 0, 0, 0, 1]) := rfl
  rw [h2] at h1
  exact nomatch h1

/-- A struct with one `binary` field. -/
def blobSchema : Schema where
  structs _ := ⟨ascii "B", [⟨ascii "b", 1, .binary, true, none, 0, true⟩]⟩
  enumText _ _ := []

theorem blobSchema_ok : blobSchema.Ok := fun _ => singleton_ok rfl (by decide) (by decide)

/-- It does not hold for `binary` fields under the compact protocol either. -/
theorem C92_binary_violated : ¬ C92_statement := by
  intro h
  obtain ⟨v, N, _, h⟩ := h blobSchema 0 0 [(1, .bytes [7])] 0 blobSchema_ok <| by
    refine Typed.struct 0 0 _ rfl fun m hm _ => ?_
    obtain rfl := List.mem_singleton.1 hm
    exact Typed.binary [7] (by decide)
  have h1 := (h (N + 10) (by omega)).2 Cmp.new [] rfl
  have h2 : ((genWrite (compact 0) blobSchema (N + 10) (blobSchema.structs 0) [(1, .bytes [7])]).run memory Cmp.new []).1 =
    .panic := rfl
  rw [h1] at h2
  exact nomatch h2

/-- C92 for structs whose maps do not have maps for keys; under the compact
protocol also without `binary`. -/
theorem C92_partial (S : Schema) (k ptr : Nat) (attrs : Attrs) (f : Nat) (hS : S.Ok)
    (ht : Typed S (.struct k) ((S.structs k).object ptr attrs)) (hk : ∀ k, ∀ m ∈ (S.structs k).members, m.ty.MapKeyFree) :
    ∃ v N, Means S (.struct k) ((S.structs k).object ptr attrs) v ∧ ∀ fuel, N ≤ fuel →
      (∀ (s : Bin) before, (genWrite binary S fuel (S.structs k) attrs).run memory s before =
        (.ok (none, s), before ++ BinarySpec.encode v)) ∧
      ((∀ k, ∀ m ∈ (S.structs k).members, m.ty.BinaryFree) → ∀ (s : Cmp) before, s.booleanField = none →
        (genWrite (compact f) S fuel (S.structs k) attrs).run memory s before = (.ok (none, s), before ++ CompactSpec.encode v)) := by
  have hw : ∀ k, ∀ m ∈ (S.structs k).members, Writable true m.ty := fun k m hm => ⟨hk k m hm, .inl rfl⟩
  by_cases hb : ∀ k, ∀ m ∈ (S.structs k).members, m.ty.BinaryFree
  · have hw' : ∀ k, ∀ m ∈ (S.structs k).members, Writable false m.ty := fun k m hm => ⟨hk k m hm, .inr (hb k m hm)⟩
    obtain ⟨fs, N, h1, h2, h3⟩ := flat_struct (bin := false) (ptr := ptr) (hS k).ids ht.struct_inv
      fun m hm hu => (ht.struct_inv m hm hu).flat hS hw' (hw' k m hm)
    obtain ⟨M, h4⟩ : ∃ M, ∀ fuel, M ≤ fuel → flatMembers S (flatVal true S fuel) attrs (S.structs k).sorted = some fs := by
      exact ⟨N, fun fuel hf => flatMembers_mono (flatVal_any fuel) _ _ _ (h1 fuel hf)⟩
    refine ⟨.struct fs, max N M, h3, fun fuel hf => ⟨fun s => (binary_writes s (h4 fuel (by omega)) h2).memory, fun _ s before hs => ?_⟩⟩
    exact ((Cmp.emits_val f (.struct fs) s hs h2).sim (sim_struct (blind_compact f) fuel _ attrs fs (h1 fuel (by omega)))).memory before
  · obtain ⟨fs, N, h1, h2, h3⟩ := flat_struct (bin := true) (ptr := ptr) (hS k).ids ht.struct_inv
      fun m hm hu => (ht.struct_inv m hm hu).flat hS hw (hw k m hm)
    exact ⟨.struct fs, N, h3, fun fuel hf => ⟨fun s => (binary_writes s (h1 fuel hf) h2).memory, fun hb' => absurd hb' hb⟩⟩

/-- A struct of all kinds of fields: those that are unset or hold their default
are left out. -/
def mixedSchema : Schema where
  structs
    | 0 => ⟨ascii "M", [⟨ascii "z", 9, .i32, false, none, 0, true⟩, ⟨ascii "b", 2, .binary, false, none, 0, true⟩,
        ⟨ascii "l", 3, .list .string, true, none, 0, true⟩, ⟨ascii "e", 4, .enum 0, false, none, 0, true⟩,
        ⟨ascii "o", 5, .i32, true, some (.int32 7), 0, true⟩, ⟨ascii "s", 6, .struct 1, true, none, 0, true⟩]⟩
    | _ => ⟨ascii "N", []⟩
  enumText _ _ := ascii "X"

theorem mixedSchema_ok : mixedSchema.Ok := by
  intro k
  match k with
  | 0 => exact ⟨by simp [mixedSchema], by simp [mixedSchema]; decide, by simp [mixedSchema], by simp [mixedSchema]; decide⟩
  | _ + 1 => exact ⟨.nil, .nil, fun _ h => (nomatch h), fun _ h => (nomatch h)⟩

def mixedAttrs : Attrs :=
  [(9, .int32 1), (2, .nil), (3, .list 0 11 []), (4, .enumer 0 3 (ascii "X")), (5, .int32 7), (6, (mixedSchema.structs 1).object 5 [])]

theorem mixed_typed : Typed mixedSchema (.struct 0) ((mixedSchema.structs 0).object 0 mixedAttrs) := by
  refine Typed.struct 0 0 _ rfl fun m hm hu => ?_
  simp only [mixedSchema, List.mem_cons, List.not_mem_nil, or_false] at hm
  rcases hm with rfl | rfl | rfl | rfl | rfl | rfl
  · exact Typed.i32 1
  · exact absurd ⟨rfl, .inl ⟨trivial, rfl⟩⟩ hu
  · exact Typed.list .string 0 [] (by decide) (fun _ h => nomatch h)
  · exact Typed.enum (S := mixedSchema) 0 3 (by decide)
  · exact Typed.i32 7
  · exact Typed.struct (S := mixedSchema) 1 5 [] rfl (fun _ h => nomatch h)

theorem mixed_keys (k : Nat) (m : Member) (hm : m ∈ (mixedSchema.structs k).members) : m.ty.MapKeyFree := by
  match k with
  | 0 =>
    simp only [mixedSchema, List.mem_cons, List.not_mem_nil, or_false] at hm
    rcases hm with rfl | rfl | rfl | rfl | rfl | rfl <;> trivial
  | _ + 1 => cases hm

example : ∃ v N, Means mixedSchema (.struct 0) ((mixedSchema.structs 0).object 0 mixedAttrs) v ∧ ∀ fuel, N ≤ fuel →
    ∀ (s : Bin) before, (genWrite binary mixedSchema fuel (mixedSchema.structs 0) mixedAttrs).run memory s before =
      (.ok (none, s), before ++ BinarySpec.encode v) := by
  obtain ⟨v, N, h1, h2⟩ := C92_partial mixedSchema 0 0 mixedAttrs 0 mixedSchema_ok mixed_typed mixed_keys
  exact ⟨v, N, h1, fun fuel hf => (h2 fuel hf).1⟩

example : (genWrite binary mixedSchema 10 (mixedSchema.structs 0) mixedAttrs).run memory Bin.default [] =
    (.ok (none, Bin.default), [8, 0, 4, 0, 0, 0, 3, 12, 0, 6, 0, 8, 0, 9, 0, 0, 0, 1, 0]) := by kernel_rfl

/-! ## C93: required fields -/

/-- C93.  A struct is written with all its required fields. -/
def C93_statement : Prop :=
  ∀ (S : Schema) (k ptr : Nat) (attrs : Attrs), S.Ok → Typed S (.struct k) ((S.structs k).object ptr attrs) →
    (∀ k, ∀ m ∈ (S.structs k).members, m.ty.MapKeyFree) →
    ∃ fs N, (∀ fuel, N ≤ fuel → ∀ (s : Bin) before, (genWrite binary S fuel (S.structs k) attrs).run memory s before =
        (.ok (none, s), before ++ BinarySpec.encode (.struct fs))) ∧
      ∀ m ∈ (S.structs k).members, m.optional = false → m.id ∈ fs.ids

/-- C93 does not hold: a required list that is nil is left out without an error. -/
theorem C93_violated : ¬ C93_statement := by
  intro h
  have ht : Typed enumListSchema (.struct 0) ((enumListSchema.structs 0).object 0 [(1, .nil)]) := by
    refine Typed.struct 0 0 _ rfl fun m hm hu => ?_
    obtain rfl := List.mem_singleton.1 hm
    exact absurd ⟨rfl, .inl ⟨trivial, rfl⟩⟩ hu
  obtain ⟨fs, N, h1, h2⟩ := h enumListSchema 0 0 [(1, .nil)] enumListSchema_ok ht fun _ m hm => by
    obtain rfl := List.mem_singleton.1 hm
    trivial
  have h3 := h1 (N + 10) (by omega) Bin.default []
  have h4 : (genWrite binary enumListSchema (N + 10) (enumListSchema.structs 0) [(1, .nil)]).run memory Bin.default [] =
    (.ok (none, Bin.default), [0]) := rfl
  rw [h4] at h3
  have h5 := h2 _ (List.mem_singleton.2 rfl) rfl
  cases fs with
  | nil => cases h5
  | cons id v r =>
    injection h3 with _ h3
    have h6 := congrArg List.length h3
    simp [BinarySpec.encode, BinarySpec.encodeFields] at h6

theorem ofList_ids : ∀ l : List (I16 × Val), (Fields.ofList l).ids = l.map (·.1)
  | [] => rfl
  | x :: l => by rw [Fields.ofList, Fields.ids, ofList_ids l, List.map_cons]

/-- C93 for required fields that are not nil and, if they are enums, assigned. -/
theorem C93_partial (S : Schema) (k ptr : Nat) (attrs : Attrs) (hS : S.Ok) (ht : Typed S (.struct k) ((S.structs k).object ptr attrs))
    (hk : ∀ k, ∀ m ∈ (S.structs k).members, m.ty.MapKeyFree) :
    ∃ fs N, (∀ fuel, N ≤ fuel → ∀ (s : Bin) before, (genWrite binary S fuel (S.structs k) attrs).run memory s before =
        (.ok (none, s), before ++ BinarySpec.encode (.struct fs))) ∧
      ∀ m ∈ (S.structs k).members, m.optional = false →
        (m.id ∈ fs.ids ↔ attributeOf attrs m.id.toInt ≠ .nil ∧
          ∀ j i s, m.ty = .enum j → attributeOf attrs m.id.toInt ≠ .enumer i (BitVec.ofInt 64 (-2147483649)) s) := by
  obtain ⟨v, N, h1, h2⟩ := C92_partial S k ptr attrs 0 hS ht hk
  generalize hd : (S.structs k).object ptr attrs = d at h1
  cases h1 with
  | struct k' ptr' attrs' sent order which h =>
    simp only [StructDef.object, Dyn.struct.injEq] at hd
    obtain ⟨rfl, -, -, -, -, rfl⟩ := hd
    refine ⟨_, N, fun fuel hf => (h2 fuel hf).1, fun m hm ho => ?_⟩
    have hin : m.id ∈ (Fields.ofList (sent.map fun x => (x.1.id, x.2))).ids ↔ m.Sent S (attributeOf attrs m.id.toInt) := by
      rw [ofList_ids, List.map_map]
      constructor
      · intro hi
        obtain ⟨x, hx, he⟩ := List.mem_map.1 hi
        have hx' := (which x.1).1 (List.mem_map_of_mem hx)
        have := member_unique (hS k) hx'.1 hm he
        exact this ▸ hx'.2
      · intro hs
        obtain ⟨x, hx, rfl⟩ := List.mem_map.1 ((which m).2 ⟨hm, hs⟩)
        exact List.mem_map.2 ⟨x, hx, rfl⟩
    rw [hin, Member.Sent, ho]
    refine and_congr_right fun hn => ?_
    cases hty : m.ty with
    | enum j =>
      have hu : enumUnset = BitVec.ofInt 64 (-2147483649) := rfl
      constructor
      · intro hh j' i s _ he
        have := hh (.inr ⟨_, rfl⟩)
        rw [Member.Assigned, hty] at this
        exact this _ _ _ he (by decide)
      · intro hh _
        rw [Member.Assigned, hty]
        intro i v s he hv
        have hv : v = enumUnset := by
          apply Decidable.byContradiction
          exact fun hc => (enumUnset_toInt v).1 hc hv
        exact hh j i s rfl (hu ▸ hv ▸ he)
    | _ => simp

example := C93_partial mixedSchema 0 0 mixedAttrs mixedSchema_ok mixed_typed mixed_keys

end Thrift
