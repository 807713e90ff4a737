import Verif.Lemmas.Versions
import Verif.Props.Generated
import Verif.Props.GeneratedCompact
/-!
# C210: two versions of a program
-/

namespace Thrift

/-- C210 for some pairs of versions.  What a program writes, a program made from another
version of the declarations reads: the fields that both versions have, at any depth,
carry the same data; other fields are as in a new object. -/
def C210_for (lax : Prop) (which : Schema → Schema → Prop) : Prop :=
  ∀ (S S' : Schema) (L : FloatLib) (mem : List Nat → Nat) (msd : Int) (k ptr : Nat) (attrs : Attrs) (path : List Nat) (sw sr : Bin),
    S.Ok → S'.Ok → Versions S S' → which S S' → sr.checkReadLength = false → Fine S (.struct k) ((S.structs k).object ptr attrs) →
    ∃ N, ∀ fuel, N ≤ fuel → ∃ as',
      RoundTrips (genWrite binary S fuel (S.structs k) attrs) sw (genRead binary S' L mem msd fuel path (S'.structs k)) sr as' ∧
      Received S S' lax (.struct k) ((S.structs k).object ptr attrs) ((S'.structs k).object (mem path) as')

def C210_statement : Prop := C210_for False fun _ _ => True

theorem binary_versions {S S' : Schema} {L : FloatLib} {mem : List Nat → Nat} (hS' : S'.Ok) (msd : Int) (sw sr : Bin)
    (hr : sr.checkReadLength = false) {fw fr : Nat} {sd sd' : StructDef} {path : List Nat} (hsd' : sd'.Ok)
    {attrs as' : Attrs} {fs : Fields} (hf : fs.size ≤ fr) (h : flatMembers S (flatVal true S fw) attrs sd.sorted = some fs)
    (hw : fs.WF) (hc : fs.Conforms S' sd') (hb : buildFields S' L mem fs path sd' (sd'.fresh S') = .ok as') :
    RoundTrips (genWrite binary S fw sd attrs) sw (genRead binary S' L mem msd fr path sd') sr as' := by
  have ho := Dec.genInto hS' L mem msd fs fr path sd' (sd'.fresh S') hf hsd' hc (Bin.dec_val (.struct fs) sr hr hw)
  rw [hb] at ho
  exact ⟨_, (binary_writes sw h hw).memory, Runs.memory ho⟩

/-- An optional number with some default value. -/
def optSchema (d : Option Dyn) : Schema where
  structs _ := ⟨ascii "S", [⟨ascii "a", 1, .i32, true, d, 0, true⟩]⟩
  enumText _ _ := []

theorem optSchema_ok (d : Option Dyn) : (optSchema d).Ok := fun _ => singleton_ok rfl (show ascii "a" ≠ [] by decide) (show -1 ≤ (1 : I16).toInt by decide)

theorem opt_versions (d d' : Option Dyn) : Versions (optSchema d) (optSchema d') where
  types k m hm m' hm' _ := by rw [List.mem_singleton.1 hm, List.mem_singleton.1 hm']
  texts k _ v := by simp [optSchema]; rfl

theorem opt_fine (d : Option Dyn) (n : I32) : Fine (optSchema d) (.struct 0) (((optSchema d).structs 0).object 0 [(1, .int32 n)]) := by
  refine Fine.struct 0 0 _ rfl ?_ ?_ ?_ <;> intro m hm <;> obtain rfl := List.mem_singleton.1 hm
  · exact nofun
  · exact fun _ => rfl
  · exact fun _ => Fine.i32 n

theorem opt_violated (d d' : Option Dyn) (n : I32)
    (hw : ∀ fuel, flatMembers (optSchema d) (flatVal true (optSchema d) fuel) [(1, .int32 n)] ((optSchema d).structs 0).sorted = some .nil)
    (hd : ¬ Same (.int32 n) ((Member.mk (ascii "a") 1 .i32 true d' 0 true).initial (optSchema d'))) : ¬ C210_statement := by
  intro h
  obtain ⟨N, h⟩ := h (optSchema d) (optSchema d') noFloats (fun _ => 0) 64 0 0 [(1, .int32 n)] [] Bin.default Bin.default
    (optSchema_ok d) (optSchema_ok d') (opt_versions d d') trivial rfl (opt_fine d n)
  obtain ⟨as', h1, h2⟩ := h (N + 10) (by omega)
  have h3 : RoundTrips (genWrite binary (optSchema d) (N + 10) ((optSchema d).structs 0) [(1, .int32 n)]) Bin.default
      (genRead binary (optSchema d') noFloats (fun _ => 0) 64 (N + 10) [] ((optSchema d').structs 0)) Bin.default
      (((optSchema d').structs 0).fresh (optSchema d')) :=
    binary_versions (fs := .nil) (optSchema_ok d') 64 _ _ rfl (optSchema_ok d' 0) (by simp [Fields.size]) (hw _) trivial trivial rfl
  have e := h1.unique h3
  subst e
  generalize hx : ((optSchema d).structs 0).object 0 [(1, .int32 n)] = x at h2
  generalize hy : ((optSchema d').structs 0).object 0 (((optSchema d').structs 0).fresh (optSchema d')) = y at h2
  cases h2 with
  | leaf ht => exact ht
  | struct ids new unset set =>
    simp only [StructDef.object, Dyn.struct.injEq] at hx hy
    obtain ⟨-, -, -, -, -, rfl⟩ := hx
    obtain ⟨-, -, -, -, -, rfl⟩ := hy
    have h5 := set _ (List.mem_singleton.2 rfl) _ (List.mem_singleton.2 rfl) rfl
      (by rintro ⟨-, ⟨h, -⟩ | ⟨k, h, -⟩⟩ <;> cases h) (fun h => h.1)
    generalize hu : attributeOf [(1, Dyn.int32 n)] _ = u at h5
    replace hu : Dyn.int32 n = u := hu
    subst hu
    cases h5 with
    | leaf _ hs => exact hd hs

/-- A field that is set to the default value of its version is not sent: to a version
with another default it comes as that. -/
theorem C210_changed_violated : ¬ C210_statement :=
  opt_violated (some (.int32 5)) (some (.int32 7)) 5 (fun _ => rfl) (by intro h; cases h)

/-- Nor is a field that is set to zero, if there is no default. -/
theorem C210_added_violated : ¬ C210_statement :=
  opt_violated none (some (.int32 7)) 0 (fun _ => rfl) (by intro h; cases h)

/-- And a default that the newer version has given up comes as zero. -/
theorem C210_removed_violated : ¬ C210_statement :=
  opt_violated (some (.int32 5)) none 5 (fun _ => rfl) (by intro h; cases h)

theorem C210_violated : ¬ C210_statement := C210_changed_violated

theorem versions_uniform (lax : Prop) (S S' : Schema) (L : FloatLib) (mem : List Nat → Nat) (msd : Int) (k ptr : Nat) (attrs : Attrs)
    (path : List Nat) (sw sr : Bin) (hS : S.Ok) (hS' : S'.Ok) (hv : Versions S S') (hlax : lax ∨ SameDefaults S S') (hr : sr.checkReadLength = false)
    (hf : Fine S (.struct k) ((S.structs k).object ptr attrs)) :
    ∃ as', Received S S' lax (.struct k) ((S.structs k).object ptr attrs) ((S'.structs k).object (mem path) as') ∧ ∃ N, ∀ fuel, N ≤ fuel →
      RoundTrips (genWrite binary S fuel (S.structs k) attrs) sw (genRead binary S' L mem msd fuel path (S'.structs k)) sr as' := by
  generalize hd : (S.structs k).object ptr attrs = d at hf
  cases hf with
  | struct k' ptr' attrs' ids check nonempty hfine =>
    simp only [StructDef.object, Dyn.struct.injEq] at hd
    obtain ⟨rfl, -, -, -, -, rfl⟩ := hd
    obtain ⟨fs, N, h1, h2, h3, h4⟩ := passes_struct (L := L) (mem := mem) (ptr := ptr) (hS k) (hS' k) (hv.types k)
      (hlax.imp id fun h => h k) check nonempty hfine fun m hm hu => (hfine m hm hu).passes hS hS' hv hlax
    obtain ⟨as', hb, hs⟩ := h4 path
    exact ⟨as', hs, max N fs.size, fun fuel hfu => binary_versions hS' msd sw sr hr (hS' k) (by omega) (h1 fuel (by omega)) h2 h3 hb⟩

theorem versions_roundtrip (lax : Prop) : C210_for lax fun S S' => lax ∨ SameDefaults S S' := by
  intro S S' L mem msd k ptr attrs path sw sr hS hS' hv hlax hr hf
  obtain ⟨as', hs, N, h⟩ := versions_uniform lax S S' L mem msd k ptr attrs path sw sr hS hS' hv hlax hr hf
  exact ⟨N, fun fuel hfu => ⟨as', h fuel hfu, hs⟩⟩

/-- C210 for versions that agree about the default values of optional fields. -/
theorem C210_partial : C210_for False SameDefaults := fun S S' L mem msd k ptr attrs path sw sr hS hS' hv hd =>
  versions_roundtrip False S S' L mem msd k ptr attrs path sw sr hS hS' hv (.inr hd)

/-- C210 for all versions, except that optional fields with their default value may be
as in a new object. -/
theorem C210_lax_partial : C210_for True fun _ _ => True := fun S S' L mem msd k ptr attrs path sw sr hS hS' hv _ =>
  versions_roundtrip True S S' L mem msd k ptr attrs path sw sr hS hS' hv (.inl trivial)

/-- The same over the compact protocol, for structs without `binary` whose values that
protocol can carry (C108). -/
theorem C210_compact_partial (lax : Prop) (S S' : Schema) (L : FloatLib) (mem : List Nat → Nat) (msd : Int) (k ptr : Nat) (attrs : Attrs)
    (path : List Nat) (f : Nat) (hS : S.Ok) (hS' : S'.Ok) (hv : Versions S S') (hlax : lax ∨ SameDefaults S S')
    (hf : Fine S (.struct k) ((S.structs k).object ptr attrs)) (ht : Typed S (.struct k) ((S.structs k).object ptr attrs))
    (h10 : 10 ≤ f) (hk : ∀ k, ∀ m ∈ (S.structs k).members, m.ty.MapKeyFree ∧ m.ty.BinaryFree)
    (hm : ∀ v, Means S (.struct k) ((S.structs k).object ptr attrs) v → v.Tame ∧ v.norm = v) :
    ∃ N, ∀ fuel, N ≤ fuel → ∃ bs as',
      (∀ before, (genWrite (compact f) S fuel (S.structs k) attrs).run memory Cmp.new before = (.ok (none, Cmp.new), before ++ bs)) ∧
      (∃ s', ∀ after, (genRead (compact f) S' L mem msd fuel path (S'.structs k)).run memory Cmp.new (bs ++ after) =
        (.ok ((as', none), s'), after)) ∧
      Received S S' lax (.struct k) ((S.structs k).object ptr attrs) ((S'.structs k).object (mem path) as') := by
  have hw : ∀ k, ∀ m ∈ (S.structs k).members, Writable false m.ty := fun k m hm => ⟨(hk k m hm).1, .inr (hk k m hm).2⟩
  obtain ⟨gs, M, g1, g2, g3⟩ := flat_struct (bin := false) (ptr := ptr) (hS k).ids ht.struct_inv
    fun m hm hu => (ht.struct_inv m hm hu).flat hS hw (hw k m hm)
  obtain ⟨htame, hnorm⟩ := hm _ g3
  generalize hd : (S.structs k).object ptr attrs = d at hf
  cases hf with
  | struct k' ptr' attrs' ids check nonempty hfine =>
    simp only [StructDef.object, Dyn.struct.injEq] at hd
    obtain ⟨rfl, -, -, -, -, rfl⟩ := hd
    obtain ⟨fs, N, h1, h2, h3, h4⟩ := passes_struct (L := L) (mem := mem) (ptr := ptr) (hS k) (hS' k) (hv.types k)
      (hlax.imp id fun h => h k) check nonempty hfine fun m hm hu => (hfine m hm hu).passes hS hS' hv hlax
    have e : fs = gs := by
      have a := h1 (max N M) (by omega)
      rw [← flatMembers_free attrs _ fun m hm d => flatVal_free (fun k m hm => (hk k m hm).2) (max N M) m.ty d (hk k m (mem_sorted.mp hm)).2,
        g1 (max N M) (by omega)] at a
      exact (Option.some.inj a).symm
    subst e
    refine ⟨max M fs.size, fun fuel hfu => ?_⟩
    obtain ⟨as', hb', hs⟩ := h4 path
    obtain ⟨s', hdec, _⟩ := Cmp.dec_val f h10 (.struct fs) Cmp.new rfl h2 htame
    rw [hnorm] at hdec
    have ho := Dec.genInto hS' L mem msd fs fuel path (S'.structs k) ((S'.structs k).fresh S') (by omega) (hS' k) h3 hdec
    rw [hb'] at ho
    exact ⟨_, as', ((Cmp.emits_val f (.struct fs) Cmp.new rfl h2).sim
      (sim_struct (blind_compact f) fuel _ attrs fs (g1 fuel (by omega)))).memory, ⟨s', Runs.memory ho⟩, hs⟩

/-! ## The hypotheses are met -/

/-- A list of structs, and a number. -/
def oldSchema : Schema where
  structs
    | 0 => ⟨ascii "S", [⟨ascii "items", 1, .list (.struct 1), false, none, 0, true⟩, ⟨ascii "gone", 2, .i32, false, none, 0, true⟩]⟩
    | _ => ⟨ascii "T", [⟨ascii "name", 1, .string, true, none, 0, true⟩]⟩
  enumText _ _ := []

/-- The number is gone and another one has come; the structs in the list have more
fields, and one has another name. -/
def newSchema : Schema where
  structs
    | 0 => ⟨ascii "S", [⟨ascii "items", 1, .list (.struct 1), false, none, 0, true⟩, ⟨ascii "added", 3, .i32, false, some (.int32 9), 0, true⟩]⟩
    | _ => ⟨ascii "T", [⟨ascii "count", 2, .i64, true, none, 0, true⟩, ⟨ascii "title", 1, .string, true, none, 0, true⟩]⟩
  enumText _ _ := []

theorem oldSchema_ok : oldSchema.Ok := by
  intro k
  match k with
  | 0 => exact ⟨by simp [oldSchema], by simp [oldSchema]; decide, by simp [oldSchema], by simp [oldSchema]; decide⟩
  | _ + 1 => exact singleton_ok rfl (by decide) (by decide)

theorem newSchema_ok : newSchema.Ok := by
  intro k
  match k with
  | 0 => exact ⟨by simp [newSchema], by simp [newSchema]; decide, by simp [newSchema], by simp [newSchema]; decide⟩
  | _ + 1 => exact ⟨by simp [newSchema], by simp [newSchema]; decide, by simp [newSchema], by simp [newSchema]; decide⟩

theorem old_new : Versions oldSchema newSchema ∧ SameDefaults oldSchema newSchema := by
  refine ⟨⟨fun k m hm m' hm' he => ?_, fun k h v => h v⟩, fun k m hm m' hm' he _ => ?_⟩
  all_goals
    match k with
    | 0 =>
      simp only [oldSchema, newSchema, List.mem_cons, List.not_mem_nil, or_false] at hm hm'
      rcases hm with rfl | rfl <;> rcases hm' with rfl | rfl <;> first | rfl | exact absurd he (by decide)
    | _ + 1 =>
      simp only [oldSchema, newSchema, List.mem_cons, List.not_mem_nil, or_false] at hm hm'
      obtain rfl := hm
      rcases hm' with rfl | rfl <;> first | rfl | exact absurd he (by decide)

def oldAttrs (name : Bytes) (n : I32) : Attrs :=
  [(1, .list 1 TT.STRUCT [(oldSchema.structs 1).object 2 [(1, .string name)]]), (2, .int32 n)]

theorem old_fine (name : Bytes) (n : I32) (h : name.length < 2 ^ 31) :
    Fine oldSchema (.struct 0) ((oldSchema.structs 0).object 0 (oldAttrs name n)) := by
  refine Fine.struct 0 0 _ rfl ?_ ?_ ?_ <;> intro m hm <;> simp only [oldSchema, List.mem_cons, List.not_mem_nil, or_false] at hm
  · rcases hm with rfl | rfl <;> exact nofun
  · rcases hm with rfl | rfl <;> exact nofun
  · rcases hm with rfl | rfl <;> intro _
    · refine Fine.list (.struct 1) 1 TT.STRUCT [(oldSchema.structs 1).object 2 [(1, .string name)]] trivial (by simp) fun d hd => ?_
      obtain rfl := List.mem_singleton.1 hd
      refine Fine.struct (S := oldSchema) 1 2 _ rfl ?_ ?_ ?_ <;> intro m hm <;> obtain rfl := List.mem_singleton.1 hm
      · exact nofun
      · exact fun _ => rfl
      · exact fun _ => Fine.string name h
    · exact Fine.i32 n

example (name : Bytes) (n : I32) (h : name.length < 2 ^ 31) :=
  C210_partial oldSchema newSchema noFloats (fun _ => 0) 64 0 0 (oldAttrs name n) [] Bin.default Bin.default oldSchema_ok newSchema_ok old_new.1 old_new.2
    rfl (old_fine name n h)

example := C210_lax_partial (optSchema (some (.int32 5))) (optSchema (some (.int32 7))) noFloats (fun _ => 0) 64 0 0 [(1, .int32 5)] []
  Bin.default Bin.default (optSchema_ok _) (optSchema_ok _) (opt_versions _ _) trivial rfl (opt_fine _ 5)

/-- The flag has another name, and there is a number beside it. -/
def flag2Schema : Schema where
  structs _ := ⟨ascii "F", [⟨ascii "flag", 1, .bool, false, none, 0, true⟩, ⟨ascii "n", 2, .i32, true, some (.int32 3), 0, true⟩]⟩
  enumText _ _ := []

theorem flag2Schema_ok : flag2Schema.Ok := fun _ =>
  ⟨by simp [flag2Schema], by simp [flag2Schema]; decide, by simp [flag2Schema], by simp [flag2Schema]; decide⟩

theorem flag_versions : Versions flagSchema flag2Schema ∧ SameDefaults flagSchema flag2Schema := by
  refine ⟨⟨fun k m hm m' hm' he => ?_, fun k h v => h v⟩, fun k m hm m' hm' he _ => ?_⟩
  all_goals
    simp only [flagSchema, flag2Schema, List.mem_cons, List.not_mem_nil, or_false] at hm hm'
    obtain rfl := hm
    rcases hm' with rfl | rfl <;> first | rfl | exact absurd he (by decide)

example := C210_compact_partial False flagSchema flag2Schema noFloats (fun _ => 0) 64 0 0 [(1, .bool true)] [] 10 flagSchema_ok flag2Schema_ok
  flag_versions.1 (.inr flag_versions.2) (flag_fine true) (flag_typed true)
  (by decide) (fun _ m hm => by obtain rfl := List.mem_singleton.1 hm; exact ⟨trivial, trivial⟩)
  (fun v hv => by
    rw [flag_means v hv]
    exact ⟨⟨by simp, trivial, by simp [Val.structDepth], trivial⟩, rfl⟩)

end Thrift
