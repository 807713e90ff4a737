import Verif.Lemmas.Forward
import Verif.Props.Versions
import Verif.Lemmas.KernelRfl
/-!
# C212: passing on what was received
-/

namespace Thrift

/-- Writing the one object is writing the other, over any protocol and transport. -/
def WrittenAlike (S : Schema) (fuel : Nat) (sd : StructDef) (as bs : Attrs) : Prop :=
  ∀ {π σ : Type} (p : Proto π) (T : Transport σ) (s : π) (t : σ),
    (genWrite p S fuel sd bs).run T s t = (genWrite p S fuel sd as).run T s t

/-- C212 for some objects.  A program that reads an object and writes it again, over
whatever protocol and transport, does what the program that sent it would have done. -/
def C212_for (which : Schema → Ty → Dyn → Prop) : Prop :=
  ∀ (S : Schema) (L : FloatLib) (mem : List Nat → Nat) (msd : Int) (k ptr : Nat) (attrs : Attrs) (path : List Nat) (sw sr : Bin),
    S.Ok → S.NonNegative → sr.checkReadLength = false → which S (.struct k) ((S.structs k).object ptr attrs) →
    ∃ N, ∀ fuel, N ≤ fuel → ∃ as',
      RoundTrips (genWrite binary S fuel (S.structs k) attrs) sw (genRead binary S L mem msd fuel path (S.structs k)) sr as' ∧
      WrittenAlike S fuel (S.structs k) attrs as'

def C212_statement : Prop := C212_for Typed

/-- A list of binaries. -/
def blobsSchema : Schema where
  structs _ := ⟨ascii "S", [⟨ascii "a", 1, .list .binary, false, none, 0, true⟩]⟩
  enumText _ _ := []

theorem blobsSchema_ok : blobsSchema.Ok := fun _ => singleton_ok rfl (by decide) (by decide)

/-- To refute C212, show an object that is sent but cannot be sent again. -/
theorem forward_refute {S : Schema} {attrs as' : Attrs} {fs : Fields} (hS : S.Ok) (hn : S.NonNegative)
    (ht : Typed S (.struct 0) ((S.structs 0).object 0 attrs))
    (h1 : ∀ fuel, flatMembers S (flatVal true S (fuel + 10)) attrs (S.structs 0).sorted = some fs) (hsz : fs.size ≤ 10)
    (hw : fs.WF) (hc : fs.Conforms S (S.structs 0)) (hb : buildFields S noFloats (fun _ => 0) fs [] (S.structs 0) ((S.structs 0).fresh S) = .ok as')
    (hp : ∀ fuel, ((genWrite binary S (fuel + 10) (S.structs 0) as').run memory Bin.default []).1 = .panic) : ¬ C212_statement := by
  intro h
  obtain ⟨N, h⟩ := h S noFloats (fun _ => 0) 64 0 0 attrs [] Bin.default Bin.default hS hn rfl ht
  obtain ⟨bs, r, hr⟩ := h (N + 10) (by omega)
  have e := r.unique (binary_roundtrips (L := noFloats) (mem := fun _ => 0) (path := []) hS 64 Bin.default Bin.default rfl (hS 0) (by omega) (h1 N) hw hc hb)
  subst e
  have h2 := hr binary memory Bin.default []
  obtain ⟨out, ho, -⟩ := r
  rw [ho] at h2
  have h3 := hp N
  rw [h2] at h3
  cases h3

/-- A list of enumerators is read as a list of numbers; writing it panics. -/
theorem C212_enum_violated : ¬ C212_statement := by
  refine forward_refute (S := enumListSchema) (attrs := [(1, .list 0 8 [.enumer 0 1 (ascii "X")])]) (as' := [(1, .list 0 8 [.int32 0])])
    (fs := .cons 1 (.list 8 (.cons (.i32 1) .nil)) .nil) enumListSchema_ok
    (fun _ m hm => by rw [List.mem_singleton.1 hm]; decide) ?_ (fun _ => rfl) (by simp [Fields.size, Val.size, Vals.size])
    ⟨⟨by decide, by decide, rfl, trivial, trivial⟩, trivial⟩
    ⟨fun m hm _ => by rw [List.mem_singleton.1 hm]; exact ⟨trivial, trivial⟩, fun h => absurd h (by decide), trivial⟩ rfl (fun _ => by kernel_rfl)
  refine Typed.struct 0 0 _ rfl ?_
  intro m hm _
  rw [List.mem_singleton.1 hm]
  refine Typed.list (.enum 0) 0 [.enumer 0 1 (ascii "X")] (by decide) ?_
  intro d hd
  rw [List.mem_singleton.1 hd]
  exact Typed.enum (S := enumListSchema) 0 1 (by decide)

/-- A list of binaries is read as a list of strings; writing it panics. -/
theorem C212_binary_violated : ¬ C212_statement := by
  refine forward_refute (S := blobsSchema) (attrs := [(1, .list 0 18 [.bytes [7]])]) (as' := [(1, .list 0 11 [.string [7]])])
    (fs := .cons 1 (.list 11 (.cons (.str [7]) .nil)) .nil) blobsSchema_ok
    (fun _ m hm => by rw [List.mem_singleton.1 hm]; decide) ?_ (fun _ => rfl) (by simp [Fields.size, Val.size, Vals.size])
    ⟨⟨by decide, by decide, rfl, by simp [Val.WF], trivial⟩, trivial⟩
    ⟨fun m hm _ => by rw [List.mem_singleton.1 hm]; exact ⟨trivial, trivial⟩, fun h => absurd h (by decide), trivial⟩ rfl (fun _ => by kernel_rfl)
  refine Typed.struct 0 0 _ rfl ?_
  intro m hm _
  rw [List.mem_singleton.1 hm]
  refine Typed.list .binary 0 [.bytes [7]] (by decide) ?_
  intro d hd
  rw [List.mem_singleton.1 hd]
  exact Typed.binary [7] (by decide)

theorem C212_violated : ¬ C212_statement := C212_enum_violated

theorem Versions.refl (S : Schema) (hS : S.Ok) : Versions S S :=
  ⟨fun k _ hm _ hm' he => by rw [member_unique (hS k) hm hm' he], fun _ h => h⟩

/-- C212 for values that generated code can carry (C51). -/
theorem C212_partial : C212_for Fine := by
  intro S L mem msd k ptr attrs path sw sr hS _ hr hf
  obtain ⟨N, h⟩ := versions_roundtrip True S S L mem msd k ptr attrs path sw sr hS hS (.refl S hS) (.inl trivial) hr hf
  refine ⟨N, fun fuel hfu => ?_⟩
  obtain ⟨as', h1, h2⟩ := h fuel hfu
  exact ⟨as', h1, fun p T s t => by rw [h2.forward_struct p fuel hf]⟩

/-- The same when the object came over the compact protocol, for structs without `binary`
whose values that protocol can carry (C108). -/
theorem C212_compact_partial (S : Schema) (L : FloatLib) (mem : List Nat → Nat) (msd : Int) (k ptr : Nat) (attrs : Attrs)
    (path : List Nat) (f : Nat) (hS : S.Ok) (hf : Fine S (.struct k) ((S.structs k).object ptr attrs))
    (ht : Typed S (.struct k) ((S.structs k).object ptr attrs))
    (h10 : 10 ≤ f) (hk : ∀ k, ∀ m ∈ (S.structs k).members, m.ty.MapKeyFree ∧ m.ty.BinaryFree)
    (hm : ∀ v, Means S (.struct k) ((S.structs k).object ptr attrs) v → v.Tame ∧ v.norm = v) :
    ∃ N, ∀ fuel, N ≤ fuel → ∃ bs as',
      (∀ before, (genWrite (compact f) S fuel (S.structs k) attrs).run memory Cmp.new before = (.ok (none, Cmp.new), before ++ bs)) ∧
      (∃ s', ∀ after, (genRead (compact f) S L mem msd fuel path (S.structs k)).run memory Cmp.new (bs ++ after) =
        (.ok ((as', none), s'), after)) ∧
      WrittenAlike S fuel (S.structs k) attrs as' := by
  obtain ⟨N, h⟩ := C210_compact_partial True S S L mem msd k ptr attrs path f hS hS (.refl S hS) (.inl trivial) hf ht h10 hk hm
  refine ⟨N, fun fuel hfu => ?_⟩
  obtain ⟨bs, as', h1, h2, h3⟩ := h fuel hfu
  exact ⟨bs, as', h1, h2, fun p T s t => by rw [h3.forward_struct p fuel hf]⟩

/-! ## The hypotheses are met -/

example := C212_partial sampleSchema noFloats (fun _ => 0) 64 0 9 sampleAttrs [] Bin.default Bin.default sampleSchema_ok
  (fun _ m hm => by
    simp only [sampleSchema, List.mem_cons, List.not_mem_nil, or_false] at hm
    rcases hm with rfl | rfl | rfl <;> simp) rfl sample_fine

example := C212_compact_partial flagSchema noFloats (fun _ => 0) 64 0 0 [(1, .bool true)] [] 10 flagSchema_ok (flag_fine true) (flag_typed true)
  (by decide) (fun _ m hm => by obtain rfl := List.mem_singleton.1 hm; exact ⟨trivial, trivial⟩)
  (fun v hv => by
    rw [flag_means v hv]
    exact ⟨⟨by simp, trivial, by simp [Val.structDepth], trivial⟩, rfl⟩)

end Thrift
