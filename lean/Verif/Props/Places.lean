import Verif.Lemmas.Places
import Verif.Lemmas.KernelRfl
import Verif.Props.Failures
/-!
# Where an error occurred

C214: what the errors of generated `Read` and `Write` tell.
-/

namespace Thrift

/-- C214.  Whatever protocol and transport are used, an error of the `Write` of a
generated struct tells that the struct or which of its fields could not be written,
and an error of `Read` tells that the struct or which field of it could not be read. -/
def C214_statement : Prop :=
  ∀ {π : Type} (p : Proto π) (S : Schema) (L : FloatLib) (mem : List Nat → Nat) (msd : Int) (fuel : Nat) (path : List Nat) (sd : StructDef)
    (attrs : List (Int × Dyn)), Errs (genWrite p S fuel sd attrs) id (·.TellsWritten sd) ∧
      Errs (genWriteResult p S fuel sd attrs) id (·.TellsWritten sd) ∧
      Errs (genReadInto p S L mem msd fuel path sd attrs) (·.2) (·.TellsRead sd)

/-- A struct with a list, a struct that holds the first, and a plain one. -/
def placeSchema : Schema where
  structs k := if k = 0 then ⟨ascii "S", [⟨ascii "xs", 1, .list .i32, false, none, 0, true⟩]⟩
    else if k = 1 then ⟨ascii "U", [⟨ascii "s", 1, .struct 0, false, none, 0, true⟩]⟩
    else ⟨ascii "V", [⟨ascii "n", 1, .i32, false, none, 0, true⟩]⟩
  enumText _ _ := ascii "X"

/-- The third write fails, the first one of the list: the error names neither struct
nor field. -/
theorem places_list : ((genWrite binary placeSchema 10 (placeSchema.structs 0) [(1, .list 0 TT.I32 [.int32 7])]).run (failing none) Bin.default 2).1 =
    .ok (some ⟨.protocol, 1, ascii "Unable to write field () in list due to: no"⟩, Bin.default) := by kernel_rfl

/-- The same for a struct in a struct: the error names the inner one only. -/
theorem places_struct : ((genWrite binary placeSchema 10 (placeSchema.structs 1)
    [(1, (placeSchema.structs 0).object 0 [(1, .list 0 TT.I32 [.int32 7])])]).run (failing none) Bin.default 2).1 =
    .ok (some ⟨.protocol, 1, ascii "Unable to write struct S due to: Unable to write field (xs) in S due to: no"⟩, Bin.default) := by kernel_rfl

/-- A plain field is named. -/
example : ((genWrite binary placeSchema 10 (placeSchema.structs 2) [(1, .int32 7)]).run (failing none) Bin.default 2).1 =
    .ok (some ⟨.protocol, 1, ascii "Unable to write field (n) in V due to: no"⟩, Bin.default) := by kernel_rfl

/-- And so it is in reading. -/
example (L : FloatLib) : ((genReadInto binary placeSchema L (fun _ => 0) 64 10 [] (placeSchema.structs 2) []).run (failing none) Bin.default 2).1 =
    .ok (([], some ⟨.protocol, 1, ascii "Unable to read field () in V due to: Cannot read. Remote side has closed."⟩), Bin.default) := by kernel_rfl

/-- Texts that begin alike are alike as far as the shorter goes. -/
theorem place_prefix {e : Err} {place : Bytes} (h : e.At place) : place.isPrefixOf e.msg = true := by
  obtain ⟨c, h⟩ := h
  rw [h, List.isPrefixOf_iff_prefix]
  exact ⟨ascii " due to: " ++ c, by simp⟩

/-- C214 is violated by a list in a struct. -/
theorem C214_list_violated : ∃ (fuel : Nat) (attrs : List (Int × Dyn)),
    ¬ Errs (genWrite binary placeSchema fuel (placeSchema.structs 0) attrs) id (·.TellsWritten (placeSchema.structs 0)) := by
  refine ⟨10, [(1, .list 0 TT.I32 [.int32 7])], fun h => ?_⟩
  have := h Nat (failing none) Bin.default 2 _ _ _ _ (Prod.ext places_list rfl) rfl
  rcases this with h | h | ⟨m, hm, h⟩
  · exact absurd (place_prefix h) (by decide +kernel)
  · exact absurd (place_prefix h) (by decide +kernel)
  · have hm' : m = ⟨ascii "xs", 1, .list .i32, false, none, 0, true⟩ := List.mem_singleton.1 hm
    subst hm'
    exact absurd (place_prefix h) (by decide +kernel)

/-- C214 is violated by a struct in a struct. -/
theorem C214_struct_violated : ∃ (fuel : Nat) (attrs : List (Int × Dyn)),
    ¬ Errs (genWrite binary placeSchema fuel (placeSchema.structs 1) attrs) id (·.TellsWritten (placeSchema.structs 1)) := by
  refine ⟨10, [(1, (placeSchema.structs 0).object 0 [(1, .list 0 TT.I32 [.int32 7])])], fun h => ?_⟩
  have := h Nat (failing none) Bin.default 2 _ _ _ _ (Prod.ext places_struct rfl) rfl
  rcases this with h | h | ⟨m, hm, h⟩
  · exact absurd (place_prefix h) (by decide +kernel)
  · exact absurd (place_prefix h) (by decide +kernel)
  · have hm' : m = ⟨ascii "s", 1, .struct 0, false, none, 0, true⟩ := List.mem_singleton.1 hm
    subst hm'
    exact absurd (place_prefix h) (by decide +kernel)

theorem C214_violated (L : FloatLib) : ¬ C214_statement := by
  intro h
  obtain ⟨fuel, attrs, hv⟩ := C214_list_violated
  exact hv (h binary placeSchema L (fun _ => 0) 64 fuel [] _ attrs).1

/-- C214 for reading, whatever the types are. -/
theorem C214_read_partial (p : Proto π) (S : Schema) (L : FloatLib) (mem : List Nat → Nat) (msd : Int) (fuel : Nat) (path : List Nat)
    (sd : StructDef) (attrs : List (Int × Dyn)) : Errs (genReadInto p S L mem msd fuel path sd attrs) (·.2) (·.TellsRead sd) :=
  places_read p S L mem msd fuel path sd attrs

/-- C214 for writing: the error tells the place in this struct, or it tells which part
of the value of a field that is a struct or a container could not be written.  What is
missing is the name of that field. -/
theorem C214_write_partial (p : Proto π) (S : Schema) (fuel : Nat) (sd : StructDef) (attrs : List (Int × Dyn)) :
    Errs (genWrite p S fuel sd attrs) id (fun e => e.TellsWritten sd ∨ ∃ m ∈ sd.members, ¬ m.ty.Single ∧ e.TellsPart S m.ty) ∧
    Errs (genWriteResult p S fuel sd attrs) id (fun e => e.TellsWritten sd ∨ ∃ m ∈ sd.members, ¬ m.ty.Single ∧ e.TellsPart S m.ty) := by
  refine ⟨places_body p (places_members p S fuel attrs _ fun m hm => mem_sorted.mp hm), places_body p ?_⟩
  have := pickResult_spec attrs sd.sorted.reverse
  split
  · rename_i m hm
    refine places_member p S fuel attrs ?_
    rw [hm] at this
    exact mem_sorted.mp (List.mem_reverse.mp this.1)
  · exact Errs.pure fun _ he => nomatch he

/-- C214 in full for structs whose fields are neither structs nor containers. -/
theorem C214_single_partial (p : Proto π) (S : Schema) (fuel : Nat) (sd : StructDef) (hs : ∀ m ∈ sd.members, m.ty.Single) (attrs : List (Int × Dyn)) :
    Errs (genWrite p S fuel sd attrs) id (·.TellsWritten sd) ∧ Errs (genWriteResult p S fuel sd attrs) id (·.TellsWritten sd) := by
  have h := C214_write_partial p S fuel sd attrs
  exact ⟨h.1.mono fun e he => he.elim id fun ⟨m, hm, hn, _⟩ => absurd (hs m hm) hn,
    h.2.mono fun e he => he.elim id fun ⟨m, hm, hn, _⟩ => absurd (hs m hm) hn⟩

/-- There are such structs. -/
example : ∀ m ∈ (placeSchema.structs 2).members, m.ty.Single := by
  intro m hm
  have : m = ⟨ascii "n", 1, .i32, false, none, 0, true⟩ := List.mem_singleton.1 hm
  subst this
  trivial

end Thrift
