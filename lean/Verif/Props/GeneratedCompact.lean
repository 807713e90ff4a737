import Verif.Lemmas.GenTagged
import Verif.Props.GeneratedJson
/-!
# C108: generated code over the compact protocol
-/

namespace Thrift

/-- `Write` sends the bytes, and `Read` makes an equal struct from them, whatever
follows, and leaves exactly what follows. -/
def ComesBack (p : Proto π) (s : π) (S : Schema) (L : FloatLib) (mem : List Nat → Nat) (msd : Int) (path : List Nat) (k ptr : Nat)
    (attrs : Attrs) (fuel : Nat) : Prop :=
  ∃ bs as', (∀ before, (genWrite p S fuel (S.structs k) attrs).run memory s before = (.ok (none, s), before ++ bs)) ∧
    (∃ s', ∀ after, (genRead p S L mem msd fuel path (S.structs k)).run memory s (bs ++ after) = (.ok ((as', none), s'), after)) ∧
    Same ((S.structs k).object ptr attrs) ((S.structs k).object (mem path) as')

/-- C108.  A generated struct written over the compact protocol is read back as an
equal struct. -/
def C108_statement : Prop :=
  ∀ (S : Schema) (L : FloatLib) (mem : List Nat → Nat) (msd : Int) (k ptr : Nat) (attrs : Attrs) (path : List Nat) (f : Nat),
    S.Ok → Fine S (.struct k) ((S.structs k).object ptr attrs) → Typed S (.struct k) ((S.structs k).object ptr attrs) → 10 ≤ f →
    ∃ N, ∀ fuel, N ≤ fuel → ComesBack (compact f) Cmp.new S L mem msd path k ptr attrs fuel

/-- A struct with one boolean. -/
def flagSchema : Schema where
  structs _ := ⟨ascii "F", [⟨ascii "b", 1, .bool, false, none, 0, true⟩]⟩
  enumText _ _ := []

theorem flagSchema_ok : flagSchema.Ok := fun _ => singleton_ok rfl (by decide) (by decide)

theorem flag_fine (b : Bool) : Fine flagSchema (.struct 0) ((flagSchema.structs 0).object 0 [(1, .bool b)]) := by
  refine Fine.struct 0 0 _ rfl ?_ ?_ ?_ <;> intro m hm <;> obtain rfl := List.mem_singleton.1 hm
  · exact nofun
  · exact nofun
  · exact fun _ => Fine.bool b

theorem flag_typed (b : Bool) : Typed flagSchema (.struct 0) ((flagSchema.structs 0).object 0 [(1, .bool b)]) := by
  refine Typed.struct 0 0 _ rfl fun m hm _ => ?_
  obtain rfl := List.mem_singleton.1 hm
  exact Typed.bool b

/-- The reader reports an error. -/
def refuses (r : Res ((α × GoErr) × π) × σ) : Bool :=
  match r.1 with
  | .ok ((_, e), _) => e.isSome
  | _ => false

/-- The attributes that the reader delivers. -/
def attributesRead (r : Res ((Attrs × GoErr) × π) × σ) : Attrs :=
  match r.1 with
  | .ok ((as, _), _) => as
  | _ => []

/-- C108 does not hold: a struct whose boolean field is false is refused. -/
theorem C108_violated : ¬ C108_statement := by
  intro h
  obtain ⟨N, h⟩ := h flagSchema noFloats (fun _ => 0) 64 0 0 [(1, .bool false)] [] 10 flagSchema_ok (flag_fine false) (flag_typed false)
    (by decide)
  obtain ⟨bs, as', h1, ⟨s', h2⟩, h3⟩ := h (N + 10) (by omega)
  have e1 : (genWrite (compact 10) flagSchema (N + 10) (flagSchema.structs 0) [(1, .bool false)]).run memory Cmp.new [] =
    (.ok (none, Cmp.new), [0x12, 0]) := rfl
  obtain rfl : bs = [0x12, 0] := congrArg Prod.snd ((h1 []).symm.trans e1)
  have e2 : refuses ((genRead (compact 10) flagSchema noFloats (fun _ => 0) 64 (N + 10) [] (flagSchema.structs 0)).run memory Cmp.new
    ([0x12, 0] ++ [])) = true := by kernel_rfl
  rw [h2 []] at e2
  exact nomatch e2

/-- A struct in a struct in a struct, and a field after it. -/
def nestSchema : Schema where
  structs
    | 0 => ⟨ascii "A", [⟨ascii "b", 3, .struct 1, false, none, 0, true⟩, ⟨ascii "x", 4, .i32, false, none, 0, true⟩]⟩
    | 1 => ⟨ascii "B", [⟨ascii "c", 1, .struct 2, false, none, 0, true⟩]⟩
    | _ => ⟨ascii "C", [⟨ascii "i", 1, .i32, false, none, 0, true⟩]⟩
  enumText _ _ := []

theorem nestSchema_ok : nestSchema.Ok := by
  intro k
  match k with
  | 0 => exact ⟨by simp [nestSchema], by simp [nestSchema]; decide, by simp [nestSchema], by simp [nestSchema]; decide⟩
  | 1 => exact singleton_ok rfl (by decide) (by decide)
  | _ + 2 => exact singleton_ok rfl (by decide) (by decide)

def nestAttrs : Attrs := [(3, (nestSchema.structs 1).object 1 [(1, (nestSchema.structs 2).object 2 [(1, .int32 7)])]), (4, .int32 9)]

theorem nest_fine : Fine nestSchema (.struct 0) ((nestSchema.structs 0).object 0 nestAttrs) := by
  refine Fine.struct 0 0 _ rfl ?_ ?_ ?_ <;> intro m hm <;> simp only [nestSchema, List.mem_cons, List.not_mem_nil, or_false] at hm
  · rcases hm with rfl | rfl <;> exact nofun
  · rcases hm with rfl | rfl <;> exact nofun
  · rcases hm with rfl | rfl <;> intro _
    · refine Fine.struct (S := nestSchema) 1 1 _ rfl ?_ ?_ ?_ <;> intro m hm <;> obtain rfl := List.mem_singleton.1 hm
      · exact nofun
      · exact nofun
      · intro _
        refine Fine.struct (S := nestSchema) 2 2 _ rfl ?_ ?_ ?_ <;> intro m hm <;> obtain rfl := List.mem_singleton.1 hm
        · exact nofun
        · exact nofun
        · exact fun _ => Fine.i32 7
    · exact Fine.i32 9

theorem nest_typed : Typed nestSchema (.struct 0) ((nestSchema.structs 0).object 0 nestAttrs) := by
  refine Typed.struct 0 0 _ rfl fun m hm _ => ?_
  simp only [nestSchema, List.mem_cons, List.not_mem_nil, or_false] at hm
  rcases hm with rfl | rfl
  · refine Typed.struct (S := nestSchema) 1 1 _ rfl fun m hm _ => ?_
    obtain rfl := List.mem_singleton.1 hm
    refine Typed.struct (S := nestSchema) 2 2 _ rfl fun m hm _ => ?_
    obtain rfl := List.mem_singleton.1 hm
    exact Typed.i32 7
  · exact Typed.i32 9

/-- It does not hold for a field after a struct that contains a struct either: the
field is lost without an error. -/
theorem C108_nested_violated : ¬ C108_statement := by
  intro h
  obtain ⟨N, h⟩ := h nestSchema noFloats (fun _ => 0) 64 0 0 nestAttrs [] 10 nestSchema_ok nest_fine nest_typed (by decide)
  obtain ⟨bs, as', h1, ⟨s', h2⟩, h3⟩ := h (N + 10) (by omega)
  have e1 : (genWrite (compact 10) nestSchema (N + 10) (nestSchema.structs 0) nestAttrs).run memory Cmp.new [] =
    (.ok (none, Cmp.new), [0x3c, 0x1c, 0x15, 14, 0, 0, 0x15, 18, 0]) := by kernel_rfl
  obtain rfl : bs = [0x3c, 0x1c, 0x15, 14, 0, 0, 0x15, 18, 0] := congrArg Prod.snd ((h1 []).symm.trans e1)
  have e2 : attributesRead ((genRead (compact 10) nestSchema noFloats (fun _ => 0) 64 (N + 10) [] (nestSchema.structs 0)).run memory Cmp.new
    ([0x3c, 0x1c, 0x15, 14, 0, 0, 0x15, 18, 0] ++ [])) =
      [(3, (nestSchema.structs 1).object 0 [(1, (nestSchema.structs 2).object 0 [(1, .int32 7)])]), (4, .int32 0)] := by kernel_rfl
  rw [h2 []] at e2
  simp only [attributesRead] at e2
  subst e2
  have h4 : Same (.int32 9) (.int32 0) := by simpa [attributeOf, nestAttrs] using h3.attr 4
  cases h4

/-- What holds: a struct without `binary` comes back if the value that it stands for is
one that the compact protocol can carry (C19) and has no empty maps.  `Tame` excludes
false boolean fields, and fields in short form after structs within structs. -/
theorem C108_partial (S : Schema) (L : FloatLib) (mem : List Nat → Nat) (msd : Int) (k ptr : Nat) (attrs : Attrs) (path : List Nat) (f : Nat)
    (hS : S.Ok) (hf : Fine S (.struct k) ((S.structs k).object ptr attrs)) (ht : Typed S (.struct k) ((S.structs k).object ptr attrs))
    (h10 : 10 ≤ f) (hk : ∀ k, ∀ m ∈ (S.structs k).members, m.ty.MapKeyFree ∧ m.ty.BinaryFree)
    (hv : ∀ v, Means S (.struct k) ((S.structs k).object ptr attrs) v → v.Tame ∧ v.norm = v) :
    ∃ N, ∀ fuel, N ≤ fuel → ComesBack (compact f) Cmp.new S L mem msd path k ptr attrs fuel := by
  have hw : ∀ k, ∀ m ∈ (S.structs k).members, Writable false m.ty := fun k m hm => ⟨(hk k m hm).1, .inr (hk k m hm).2⟩
  obtain ⟨gs, M, g1, g2, g3⟩ := flat_struct (bin := false) (ptr := ptr) (hS k).ids ht.struct_inv
    fun m hm hu => (ht.struct_inv m hm hu).flat hS hw (hw k m hm)
  obtain ⟨htame, hnorm⟩ := hv _ g3
  generalize hd : (S.structs k).object ptr attrs = d at hf
  cases hf with
  | struct k' ptr' attrs' ids check nonempty hfine =>
    simp only [StructDef.object, Dyn.struct.injEq] at hd
    obtain ⟨rfl, -, -, -, -, rfl⟩ := hd
    obtain ⟨fs, N, h1, h2, h3, h4⟩ := good_struct (L := L) (mem := mem) (ptr := ptr) (hS k) ids check nonempty hfine
      fun m hm hu => (hfine m hm hu).good hS
    have e : fs = gs := by
      have a := h1 (max N M) (by omega)
      rw [← flatMembers_free attrs _ fun m hm d => flatVal_free (fun k m hm => (hk k m hm).2) (max N M) m.ty d (hk k m (mem_sorted.mp hm)).2,
        g1 (max N M) (by omega)] at a
      exact (Option.some.inj a).symm
    subst e
    refine ⟨max M fs.size, fun fuel hfu => ?_⟩
    obtain ⟨as', hb', hs⟩ := h4 path
    obtain ⟨s', hdec, _⟩ := Cmp.dec_val f h10 (.struct fs) Cmp.new rfl h2 htame
    rw [hnorm] at hdec
    have ho := Dec.genInto hS L mem msd fs fuel path (S.structs k) ((S.structs k).fresh S) (by omega) (hS k) h3 hdec
    rw [hb'] at ho
    exact ⟨_, as', ((Cmp.emits_val f (.struct fs) Cmp.new rfl h2).sim
      (sim_struct (blind_compact f) fuel _ attrs fs (g1 fuel (by omega)))).memory, ⟨s', Runs.memory ho⟩, hs⟩

/-- What a struct with a true boolean stands for. -/
theorem flag_means (v : Val) (h : Means flagSchema (.struct 0) ((flagSchema.structs 0).object 0 [(1, .bool true)]) v) :
    v = .struct (.cons 1 (.bool true) .nil) := by
  generalize hd : (flagSchema.structs 0).object 0 [(1, .bool true)] = d at h
  cases h with
  | struct k ptr attrs sent order which h =>
    simp only [StructDef.object, Dyn.struct.injEq] at hd
    obtain ⟨rfl, -, -, -, -, rfl⟩ := hd
    have one : ∀ x ∈ sent, x.1 = ⟨ascii "b", 1, .bool, false, none, 0, true⟩ := fun x hx =>
      List.mem_singleton.1 ((which x.1).1 (List.mem_map_of_mem hx)).1
    match sent, order, which, h, one with
    | [], _, which, _, _ =>
      have := (which ⟨ascii "b", 1, .bool, false, none, 0, true⟩).2 ⟨List.mem_singleton.2 rfl, by simp [attributeOf], by simp⟩
      exact nomatch this
    | [(m, v)], _, _, h, one =>
      obtain rfl : m = _ := one _ (List.mem_singleton.2 rfl)
      have hv : Means flagSchema .bool (.bool true) v := by simpa [attributeOf] using h _ (List.mem_singleton.2 rfl)
      cases hv
      rfl
    | x :: y :: r, order, _, _, one =>
      have := (List.pairwise_cons.1 order).1 y (by simp)
      rw [one x (by simp), one y (by simp)] at this
      exact absurd this (by decide)

example := C108_partial flagSchema noFloats (fun _ => 0) 64 0 0 [(1, .bool true)] [] 10 flagSchema_ok (flag_fine true) (flag_typed true)
  (by decide) (fun _ m hm => by obtain rfl := List.mem_singleton.1 hm; exact ⟨trivial, trivial⟩)
  (fun v hv => by
    rw [flag_means v hv]
    exact ⟨⟨by simp, trivial, by simp [Val.structDepth], trivial⟩, rfl⟩)

/-- Types without booleans, structs and maps. -/
def Ty.Simple : Ty → Prop
  | .bool | .struct _ | .map .. => False
  | .list e | .set e => e.Simple
  | _ => True

theorem ofList_simple : ∀ vs : List Val, (∀ v ∈ vs, v.Tame ∧ v.norm = v ∧ v.structDepth = 0) →
    (Vals.ofList vs).Tame ∧ (Vals.ofList vs).norm = Vals.ofList vs ∧ (Vals.ofList vs).structDepth = 0
  | [], _ => ⟨trivial, rfl, rfl⟩
  | v :: r, h => by
    obtain ⟨a, b, c⟩ := h v (by simp)
    obtain ⟨d, e, f⟩ := ofList_simple r fun x hx => h x (by simp [hx])
    exact ⟨⟨a, d⟩, by simp [Vals.ofList, Vals.norm, b, e], by simp [Vals.ofList, Vals.structDepth, c, f]⟩

theorem Means.simple {S : Schema} {ty : Ty} {d : Dyn} {v : Val} (h : Means S ty d v) : ty.Simple →
    v.Tame ∧ v.norm = v ∧ v.structDepth = 0 ∧ v ≠ .bool false := by
  induction h with
  | bool => exact fun h => h.elim
  | struct => exact fun h => h.elim
  | map => exact fun h => h.elim
  | list e ptr t xs _ ih =>
    intro hs
    obtain ⟨a, b, c⟩ := ofList_simple (xs.map (·.2)) fun v hv => by
      obtain ⟨x, hx, rfl⟩ := List.mem_map.1 hv
      obtain ⟨a, b, c, _⟩ := ih x hx hs
      exact ⟨a, b, c⟩
    exact ⟨a, by simp [Val.norm, b], c, nofun⟩
  | set e ptr t xs _ ih =>
    intro hs
    obtain ⟨a, b, c⟩ := ofList_simple (xs.map (·.2)) fun v hv => by
      obtain ⟨x, hx, rfl⟩ := List.mem_map.1 hv
      obtain ⟨a, b, c, _⟩ := ih x hx hs
      exact ⟨a, b, c⟩
    exact ⟨a, by simp [Val.norm, b], c, nofun⟩
  | _ => exact fun _ => ⟨trivial, rfl, rfl, nofun⟩

theorem ofList_fields : ∀ l : List (I16 × Val), (∀ x ∈ l, x.2.Tame ∧ x.2.norm = x.2 ∧ x.2.structDepth = 0 ∧ x.2 ≠ .bool false) →
    (Fields.ofList l).Tame ∧ (Fields.ofList l).norm = Fields.ofList l
  | [], _ => ⟨trivial, rfl⟩
  | (i, v) :: r, h => by
    obtain ⟨a, b, c, d⟩ := h (i, v) (by simp)
    obtain ⟨e, f⟩ := ofList_fields r fun x hx => h x (by simp [hx])
    exact ⟨⟨d, a, fun h => by simp only at c; omega, e⟩, by simp [Fields.ofList, Fields.norm, f]; exact b⟩

/-- C108 for structs whose fields are numbers, strings and enums, and lists and sets of
them. -/
theorem C108_simple_partial (S : Schema) (L : FloatLib) (mem : List Nat → Nat) (msd : Int) (k ptr : Nat) (attrs : Attrs) (path : List Nat)
    (f : Nat) (hS : S.Ok) (hf : Fine S (.struct k) ((S.structs k).object ptr attrs))
    (ht : Typed S (.struct k) ((S.structs k).object ptr attrs)) (h10 : 10 ≤ f)
    (hk : ∀ k, ∀ m ∈ (S.structs k).members, m.ty.Simple ∧ m.ty.BinaryFree) :
    ∃ N, ∀ fuel, N ≤ fuel → ComesBack (compact f) Cmp.new S L mem msd path k ptr attrs fuel := by
  refine C108_partial S L mem msd k ptr attrs path f hS hf ht h10 (fun k m hm => ⟨?_, (hk k m hm).2⟩) fun v hv => ?_
  · have free : ∀ t : Ty, t.Simple → t.MapKeyFree := by
      intro t
      induction t with
      | list e ih => exact ih
      | set e ih => exact ih
      | map => exact fun h => h.elim
      | _ => exact fun _ => trivial
    exact free _ (hk k m hm).1
  · generalize hd : (S.structs k).object ptr attrs = d at hv
    cases hv with
    | struct k' ptr' attrs' sent order which h =>
      simp only [StructDef.object, Dyn.struct.injEq] at hd
      obtain ⟨rfl, -, -, -, -, rfl⟩ := hd
      obtain ⟨a, b⟩ := ofList_fields (sent.map fun x => (x.1.id, x.2)) fun y hy => by
        obtain ⟨x, hx, rfl⟩ := List.mem_map.1 hy
        exact (h x hx).simple (hk _ x.1 ((which x.1).1 (List.mem_map_of_mem hx)).1).1
      exact ⟨a, by simp [Val.norm, b]⟩

example := C108_simple_partial shortSchema noFloats (fun _ => 0) 64 0 0 [(1, .int16 5)] [] 10 shortSchema_ok
  (by
    refine Fine.struct 0 0 _ rfl ?_ ?_ ?_ <;> intro m hm <;> obtain rfl := List.mem_singleton.1 hm
    · exact nofun
    · exact fun _ => rfl
    · exact fun _ => Fine.i16 5)
  (by
    refine Typed.struct 0 0 _ rfl fun m hm _ => ?_
    obtain rfl := List.mem_singleton.1 hm
    exact Typed.i16 5)
  (by decide) (fun _ m hm => by obtain rfl := List.mem_singleton.1 hm; exact ⟨trivial, trivial⟩)

end Thrift
