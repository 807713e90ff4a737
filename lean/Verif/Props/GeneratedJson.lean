import Verif.Lemmas.GenTagged
import Verif.Lemmas.JsonNamedGrammar
import Verif.Props.GeneratedWire
import Verif.Props.Json
/-!
# C103 to C105: generated code over the JSON protocols
-/

namespace Thrift
open JsonSpec

/-- The names of all fields are text. -/
def NamesAreText (S : Schema) : Prop := ∀ k, ∀ m ∈ (S.structs k).members, Utf8 m.name

theorem utf8_ascii : ∀ {s : Bytes}, (∀ b ∈ s, b.toNat < 128) → Utf8 s
  | [], _ => .nil
  | b :: r, h => .one b r (h b (by simp)) (utf8_ascii fun x hx => h x (by simp [hx]))

/-! ## C103: the document of a generated struct -/

/-- C103.  `Write` of a generated struct over the simple JSON protocol gives the
document, with the names of the fields, of the value that the struct stands for; it
is a JSON value if all strings are text. -/
def C103_statement : Prop :=
  ∀ (S : Schema) (k ptr : Nat) (attrs : Attrs), S.Ok → NamesAreText S → Typed S (.struct k) ((S.structs k).object ptr attrs) →
    ∃ v N, Means S (.struct k) ((S.structs k).object ptr attrs) v ∧
      ∀ (τ : Type) (E : JsonEnv τ) (t : τ) fuel before, N ≤ fuel → Lawful E.L →
        (genWrite (simpleJson E) S fuel (S.structs k) attrs).run memory (Json.newSimple t) before =
          (.ok (none, Json.newSimple t), before ++ ntext E.L S v (.struct k)) ∧
        (Legible ((S.structs k).object ptr attrs) → IsValue (ntext E.L S v (.struct k)))

/-- C103 does not hold: a map with maps for keys cannot be written. -/
theorem C103_violated : ¬ C103_statement := by
  intro h
  obtain ⟨v, N, _, h⟩ := h mapKeySchema 1 0 mapKeyResult mapKeySchema_ok
    (fun k m hm => by
      match k with
      | 0 => exact nomatch hm
      | _ + 1 => obtain rfl := List.mem_singleton.1 hm; exact utf8_ascii (by decide)) mapKey_typed
  have h1 := (h Bytes (JsonPlain.env 9) [] (N + 10) [] (by omega) JsonPlain.lawful).1
  have h2 : ((genWrite (simpleJson (JsonPlain.env 9)) mapKeySchema (N + 10) (mapKeySchema.structs 1) mapKeyResult).run memory
    (Json.newSimple []) []).1 = .panic := rfl
  rw [h1] at h2
  exact nomatch h2

/-- C103 for structs whose maps do not have maps for keys and whose containers do
not have binary elements. -/
theorem C103_partial (S : Schema) (k ptr : Nat) (attrs : Attrs) (hS : S.Ok) (hN : NamesAreText S)
    (ht : Typed S (.struct k) ((S.structs k).object ptr attrs)) (hk : ∀ k, ∀ m ∈ (S.structs k).members, m.ty.MapKeyFree)
    (hb : ∀ k, ∀ m ∈ (S.structs k).members, NoBinaryElements m.ty) :
    ∃ v N, Means S (.struct k) ((S.structs k).object ptr attrs) v ∧
      ∀ (τ : Type) (E : JsonEnv τ) (t : τ) fuel before, N ≤ fuel → Lawful E.L →
        (genWrite (simpleJson E) S fuel (S.structs k) attrs).run memory (Json.newSimple t) before =
          (.ok (none, Json.newSimple t), before ++ ntext E.L S v (.struct k)) ∧
        (Legible ((S.structs k).object ptr attrs) → IsValue (ntext E.L S v (.struct k))) := by
  have hN' : Nameable S := fun k m hm => ⟨hN k m hm, hb k m hm⟩
  have hw : ∀ k, ∀ m ∈ (S.structs k).members, Writable true m.ty := fun k m hm => ⟨hk k m hm, .inl rfl⟩
  obtain ⟨fs, N, h1, h2, h3⟩ := flat_struct (bin := true) (ptr := ptr) (hS k).ids ht.struct_inv
    fun m hm hu => (ht.struct_inv m hm hu).flat hS hw (hw k m hm)
  refine ⟨.struct fs, N, h3, fun τ E t fuel before hf hL => ⟨?_, fun hl => ?_⟩⟩
  · exact (JsonN.emits_nstruct hS hN' fuel k attrs fs (Json.newSimple t) .toplevel [] (h1 fuel hf) h2).memory before
  · refine JsonN.ntext_value hS hN' hL _ _ ?_
    cases hl with
    | struct _ _ _ _ _ _ hl =>
      exact JsonN.readable_members (JsonN.readable_val N) attrs hl (fun m hm => mem_sorted.mp hm) (h1 N (Nat.le_refl _))

theorem mixed_names : NamesAreText mixedSchema := by
  intro k m hm
  match k with
  | 0 =>
    simp only [mixedSchema, List.mem_cons, List.not_mem_nil, or_false] at hm
    rcases hm with rfl | rfl | rfl | rfl | rfl | rfl <;> exact utf8_ascii (by decide)
  | _ + 1 => cases hm

theorem mixed_elements (k : Nat) (m : Member) (hm : m ∈ (mixedSchema.structs k).members) : NoBinaryElements m.ty := by
  match k with
  | 0 =>
    simp only [mixedSchema, List.mem_cons, List.not_mem_nil, or_false] at hm
    rcases hm with rfl | rfl | rfl | rfl | rfl | rfl <;> first | trivial | exact ⟨nofun, trivial⟩
  | _ + 1 => cases hm

example := C103_partial mixedSchema 0 0 mixedAttrs mixedSchema_ok mixed_names mixed_typed mixed_keys mixed_elements

/-- What it writes for the sample struct. -/
example : (genWrite (simpleJson (JsonPlain.env 9)) mixedSchema 10 (mixedSchema.structs 0) mixedAttrs).run memory (Json.newSimple []) [] =
    (.ok (none, Json.newSimple []), ascii "{\"e\":3,\"s\":{},\"z\":1}") := by kernel_rfl

/-! ## C105: generated structs come back over the simple JSON protocol -/

/-- `Write` gives the document. -/
def WritesDocument (p : Proto (Json τ)) (new : τ → Json τ) (S : Schema) (k : Nat) (attrs : Attrs) (N : Nat) (doc : Bytes) : Prop :=
  ∀ fuel, N ≤ fuel → ∀ t before, (genWrite p S fuel (S.structs k) attrs).run memory (new t) before = (.ok (none, new t), before ++ doc)

/-- `Read` makes an equal struct from the document and leaves no text behind. -/
def ReadsSame (p : Proto (Json Bytes)) (new : Bytes → Json Bytes) (S : Schema) (L : FloatLib) (mem : List Nat → Nat) (msd : Int)
    (path : List Nat) (k ptr : Nat) (attrs : Attrs) (N : Nat) (doc : Bytes) : Prop :=
  ∀ fuel, N ≤ fuel → ∃ as' s', (genRead p S L mem msd fuel path (S.structs k)).run memory (new doc) [] = (.ok ((as', none), s'), []) ∧
    s'.buf = [] ∧ Same ((S.structs k).object ptr attrs) ((S.structs k).object (mem path) as')

/-- C105.  A generated struct written over the simple JSON protocol is read back as
an equal struct. -/
def C105_statement : Prop :=
  ∀ (S : Schema) (L : FloatLib) (mem : List Nat → Nat) (msd : Int) (k ptr : Nat) (attrs : Attrs) (path : List Nat) (E : JsonEnv Bytes),
    S.Ok → NamesAreText S → Fine S (.struct k) ((S.structs k).object ptr attrs) → Legible ((S.structs k).object ptr attrs) →
    E.T = memory → Lawful E.L →
    ∃ N doc, WritesDocument (simpleJson E) Json.newSimple S k attrs N doc ∧
      (doc.length + 8 < E.fuel → ReadsSame (simpleJson E) Json.newSimple S L mem msd path k ptr attrs N doc)

/-- What holds: structs whose containers have no binary elements come back if the
document fits into the reader's buffer of 4096 bytes. -/
theorem C105_partial (S : Schema) (L : FloatLib) (mem : List Nat → Nat) (msd : Int) (k ptr : Nat) (attrs : Attrs) (path : List Nat)
    (E : JsonEnv Bytes) (hS : S.Ok) (hN : NamesAreText S) (hb : ∀ k, ∀ m ∈ (S.structs k).members, NoBinaryElements m.ty)
    (hf : Fine S (.struct k) ((S.structs k).object ptr attrs)) (hl : Legible ((S.structs k).object ptr attrs))
    (hT : E.T = memory) (hL : Lawful E.L) :
    ∃ N doc, WritesDocument (simpleJson E) Json.newSimple S k attrs N doc ∧
      (doc.length + 8 < E.fuel → doc.length ≤ 4096 → ReadsSame (simpleJson E) Json.newSimple S L mem msd path k ptr attrs N doc) := by
  have hN' : Nameable S := fun k m hm => ⟨hN k m hm, hb k m hm⟩
  generalize hd : (S.structs k).object ptr attrs = d at hf
  cases hf with
  | struct k' ptr' attrs' ids check nonempty hfine =>
    simp only [StructDef.object, Dyn.struct.injEq] at hd
    obtain ⟨rfl, -, -, -, -, rfl⟩ := hd
    obtain ⟨fs, N, h1, h2, h3, h4⟩ := good_struct (L := L) (mem := mem) (ptr := ptr) (hS k) ids check nonempty hfine
      fun m hm hu => (hfine m hm hu).good hS
    have hr : JsonN.NReadableF S (S.structs k) fs := by
      cases hl with
      | struct _ _ _ _ _ _ hl =>
        exact JsonN.readable_members (JsonN.readable_val N) attrs hl (fun m hm => mem_sorted.mp hm) (h1 N (Nat.le_refl _))
    refine ⟨max N fs.size, ntext E.L S (.struct fs) (.struct k), fun fuel hfu t before => ?_, fun hfl hlen fuel hfu => ?_⟩
    · exact (JsonN.emits_nstruct hS hN' fuel k attrs fs (Json.newSimple t) .toplevel [] (h1 fuel (by omega)) h2).memory before
    · have ha := JsonR.memory_arrives E hT (ntext E.L S (.struct fs) (.struct k)) (by simp [ntext]) hlen
      obtain ⟨s', hs', hd⟩ := JsonN.tdec_document hS hN' hL fs k h2 hr (ws := []) (by simp) hfl (by simpa using ha)
        (JsonR.memory_dry E hT)
      obtain ⟨as', hb', hs⟩ := h4 path
      have ho := TDec.genInto hS L mem msd fs fuel path k ((S.structs k).fresh S) (by omega) hd
      rw [hb'] at ho
      exact ⟨as', s', Runs.memory ho [], hs'.buf, hs⟩

theorem sample_names : NamesAreText sampleSchema := by
  intro k m hm
  simp only [sampleSchema, List.mem_cons, List.not_mem_nil, or_false] at hm
  rcases hm with rfl | rfl | rfl <;> exact utf8_ascii (by decide)

theorem sample_elements (k : Nat) (m : Member) (hm : m ∈ (sampleSchema.structs k).members) : NoBinaryElements m.ty := by
  simp only [sampleSchema, List.mem_cons, List.not_mem_nil, or_false] at hm
  rcases hm with rfl | rfl | rfl <;> first | trivial | exact ⟨nofun, trivial⟩ | exact ⟨nofun, nofun, trivial, trivial⟩

theorem legible_attrs {attrs : Attrs} (h : ∀ x ∈ attrs, Legible x.2) (i : Int) : Legible (attributeOf attrs i) := by
  unfold attributeOf
  split
  · rename_i x hx
    exact h _ (List.mem_of_find?_eq_some hx)
  · exact .nil

theorem sample_legible : Legible ((sampleSchema.structs 0).object 9 sampleAttrs) := by
  refine .struct _ _ _ _ _ _ (legible_attrs fun x hx => ?_)
  simp only [sampleAttrs, List.mem_cons, List.not_mem_nil, or_false] at hx
  rcases hx with rfl | rfl | rfl
  · exact .enumer ..
  · refine .list _ _ _ fun d hd => ?_
    obtain rfl := List.mem_singleton.1 hd
    exact .string _ (utf8_ascii (by decide))
  · refine .map _ _ _ _ _ _ _ (fun d hd => ?_) fun d hd => ?_ <;> obtain rfl := List.mem_singleton.1 hd
    · exact .int32 _
    · exact .enumer ..

example := C105_partial sampleSchema noFloats (fun _ => 0) 64 0 9 sampleAttrs [] (JsonPlain.env 200) sampleSchema_ok sample_names
  sample_elements sample_fine sample_legible rfl JsonPlain.lawful

/-- The document of the sample struct. -/
example : (genWrite (simpleJson (JsonPlain.env 9)) sampleSchema 10 (sampleSchema.structs 0) sampleAttrs).run memory (Json.newSimple []) [] =
    (.ok (none, Json.newSimple []), ascii "{\"b\":[11,1,\"hi\"],\"a\":5,\"c\":[8,8,1,3,4]}") := by kernel_rfl

/-- A string and a boolean. -/
def longSchema : Schema where
  structs _ := ⟨ascii "L", [⟨ascii "a", 1, .string, false, none, 0, true⟩, ⟨ascii "b", 2, .bool, false, none, 0, true⟩]⟩
  enumText _ _ := []

theorem longSchema_ok : longSchema.Ok := fun _ =>
  ⟨by simp [longSchema], by simp [longSchema]; decide, by simp [longSchema], by simp [longSchema]; decide⟩

/-- The first member ends where the reader's buffer ends. -/
def longAttrs : Attrs := [(1, .string (List.replicate 4089 97)), (2, .bool true)]

theorem long_fine : Fine longSchema (.struct 0) ((longSchema.structs 0).object 0 longAttrs) := by
  refine Fine.struct 0 0 _ rfl ?_ ?_ ?_
  · intro m hm
    simp only [longSchema, List.mem_cons, List.not_mem_nil, or_false] at hm
    rcases hm with rfl | rfl <;> simp
  · intro m hm
    simp only [longSchema, List.mem_cons, List.not_mem_nil, or_false] at hm
    rcases hm with rfl | rfl <;> intro h <;> cases h
  · intro m hm _
    simp only [longSchema, List.mem_cons, List.not_mem_nil, or_false] at hm
    rcases hm with rfl | rfl
    · exact Fine.string (List.replicate 4089 97) (by rw [List.length_replicate]; decide)
    · exact Fine.bool true

theorem long_legible : Legible ((longSchema.structs 0).object 0 longAttrs) := by
  refine .struct _ _ _ _ _ _ (legible_attrs fun x hx => ?_)
  simp only [longAttrs, List.mem_cons, List.not_mem_nil, or_false] at hx
  rcases hx with rfl | rfl
  · exact .string _ (longField_ascii 4089)
  · exact .bool _

theorem long_names : NamesAreText longSchema := by
  intro k m hm
  simp only [longSchema, List.mem_cons, List.not_mem_nil, or_false] at hm
  rcases hm with rfl | rfl <;> exact utf8_ascii (by decide)

def longDocument : Bytes := ascii "{\"a\":\"" ++ (List.replicate 4089 97 ++ ascii "\",\"b\":true}")

set_option maxRecDepth 100000 in
/-- C105 does not hold: a document longer than the reader's buffer is refused. -/
theorem C105_violated : ¬ C105_statement := by
  intro h
  obtain ⟨N, doc, hw, hr⟩ := h longSchema noFloats (fun _ => 0) 64 0 0 longAttrs [] (JsonPlain.env 5000) longSchema_ok long_names
    long_fine long_legible rfl JsonPlain.lawful
  have h1 := hw (N + 10) (by omega) [] []
  have h2 : (genWrite (simpleJson (JsonPlain.env 5000)) longSchema (N + 10) (longSchema.structs 0) longAttrs).run memory
    (Json.newSimple []) [] = (.ok (none, Json.newSimple []), longDocument) := by kernel_rfl
  have e : [] ++ doc = longDocument := congrArg Prod.snd (h1.symm.trans h2)
  have e : doc = longDocument := e
  subst e
  have hl : longDocument.length = 4106 := by
    simp only [longDocument, List.length_append, List.length_replicate]; decide
  obtain ⟨as', s', h3, _⟩ := hr (by rw [hl]; decide) (N + 10) (by omega)
  have h4 := congrArg errorOf h3
  have h5 : (errorOf ((genRead (simpleJson (JsonPlain.env 5000)) longSchema noFloats (fun _ => 0) 64 (N + 10) []
    (longSchema.structs 0)).run memory (Json.newSimple longDocument) [])).isSome = true := by kernel_rfl
  rw [h4] at h5
  exact nomatch h5

/-! ## C104: generated structs come back over the tagged JSON protocol -/

/-- C104.  A generated struct written over the tagged JSON protocol is read back as
an equal struct. -/
def C104_statement : Prop :=
  ∀ (S : Schema) (L : FloatLib) (mem : List Nat → Nat) (msd : Int) (k ptr : Nat) (attrs : Attrs) (path : List Nat) (E : JsonEnv Bytes),
    S.Ok → Fine S (.struct k) ((S.structs k).object ptr attrs) → Legible ((S.structs k).object ptr attrs) →
    E.T = memory → Lawful E.L →
    ∃ N doc, WritesDocument (tjson E) Json.new S k attrs N doc ∧
      (doc.length + 8 < E.fuel → ReadsSame (tjson E) Json.new S L mem msd path k ptr attrs N doc)

/-- A struct with one field of type i16. -/
def shortSchema : Schema where
  structs _ := ⟨ascii "B", [⟨ascii "b", 1, .i16, true, none, 0, true⟩]⟩
  enumText _ _ := []

theorem shortSchema_ok : shortSchema.Ok := fun _ => singleton_ok rfl (by decide) (by decide)

/-- C104 does not hold: a struct with a field of type i16 is refused. -/
theorem C104_violated : ¬ C104_statement := by
  intro h
  obtain ⟨N, doc, hw, hr⟩ := h shortSchema noFloats (fun _ => 0) 64 0 0 [(1, .int16 5)] [] (JsonPlain.env 100) shortSchema_ok
    (by
      refine Fine.struct 0 0 _ rfl ?_ ?_ ?_ <;> intro m hm <;> obtain rfl := List.mem_singleton.1 hm
      · exact nofun
      · exact fun _ => rfl
      · exact fun _ => Fine.i16 5)
    (.struct _ _ _ _ _ _ (legible_attrs fun x hx => by obtain rfl := List.mem_singleton.1 hx; exact .int16 5)) rfl JsonPlain.lawful
  have h1 := hw (N + 10) (by omega) [] []
  have h2 : (genWrite (tjson (JsonPlain.env 100)) shortSchema (N + 10) (shortSchema.structs 0) [(1, .int16 5)]).run memory
    (Json.new []) [] = (.ok (none, Json.new []), ascii "{\"1\":{\"i16\":5}}") := by kernel_rfl
  obtain rfl : doc = ascii "{\"1\":{\"i16\":5}}" := congrArg Prod.snd (h1.symm.trans h2)
  obtain ⟨as', s', h3, _⟩ := hr (by decide) (N + 10) (by omega)
  have h4 := congrArg errorOf h3
  have h5 : (errorOf ((genRead (tjson (JsonPlain.env 100)) shortSchema noFloats (fun _ => 0) 64 (N + 10) []
    (shortSchema.structs 0)).run memory (Json.new (ascii "{\"1\":{\"i16\":5}}")) [])).isSome = true := by kernel_rfl
  rw [h4] at h5
  exact nomatch h5

/-- A struct with a field of type binary is refused too. -/
theorem C104_binary_violated : ¬ C104_statement := by
  intro h
  obtain ⟨N, doc, hw, hr⟩ := h blobSchema noFloats (fun _ => 0) 64 0 0 [(1, .bytes [7])] [] (JsonPlain.env 100) blobSchema_ok
    (by
      refine Fine.struct 0 0 _ rfl ?_ ?_ ?_ <;> intro m hm <;> obtain rfl := List.mem_singleton.1 hm
      · exact nofun
      · exact fun _ => rfl
      · exact fun _ => Fine.binary [7] (by decide))
    (.struct _ _ _ _ _ _ (legible_attrs fun x hx => by obtain rfl := List.mem_singleton.1 hx; exact .bytes [7])) rfl JsonPlain.lawful
  have h1 := hw (N + 10) (by omega) [] []
  have h2 : (genWrite (tjson (JsonPlain.env 100)) blobSchema (N + 10) (blobSchema.structs 0) [(1, .bytes [7])]).run memory
    (Json.new []) [] = (.ok (none, Json.new []), ascii "{\"1\":{\"\":\"Bw==\"}}") := by kernel_rfl
  obtain rfl : doc = ascii "{\"1\":{\"\":\"Bw==\"}}" := congrArg Prod.snd (h1.symm.trans h2)
  obtain ⟨as', s', h3, _⟩ := hr (by decide) (N + 10) (by omega)
  have h4 := congrArg errorOf h3
  have h5 : (errorOf ((genRead (tjson (JsonPlain.env 100)) blobSchema noFloats (fun _ => 0) 64 (N + 10) []
    (blobSchema.structs 0)).run memory (Json.new (ascii "{\"1\":{\"\":\"Bw==\"}}")) [])).isSome = true := by kernel_rfl
  rw [h4] at h5
  exact nomatch h5

/-- What holds: structs without `binary` and without fields, map keys or map values of
type i16 come back if the document fits into the reader's buffer of 4096 bytes. -/
theorem C104_partial (S : Schema) (L : FloatLib) (mem : List Nat → Nat) (msd : Int) (k ptr : Nat) (attrs : Attrs) (path : List Nat)
    (E : JsonEnv Bytes) (hS : S.Ok) (hb : ∀ k, ∀ m ∈ (S.structs k).members, m.ty ≠ .i16 ∧ NoShortEntries m.ty ∧ m.ty.BinaryFree)
    (hf : Fine S (.struct k) ((S.structs k).object ptr attrs)) (hl : Legible ((S.structs k).object ptr attrs))
    (hT : E.T = memory) (hL : Lawful E.L) :
    ∃ N doc, WritesDocument (tjson E) Json.new S k attrs N doc ∧
      (doc.length + 8 < E.fuel → doc.length ≤ 4096 → ReadsSame (tjson E) Json.new S L mem msd path k ptr attrs N doc) := by
  have hB : ∀ k, ∀ m ∈ (S.structs k).members, m.ty.BinaryFree := fun k m hm => (hb k m hm).2.2
  generalize hd : (S.structs k).object ptr attrs = d at hf
  cases hf with
  | struct k' ptr' attrs' ids check nonempty hfine =>
    simp only [StructDef.object, Dyn.struct.injEq] at hd
    obtain ⟨rfl, -, -, -, -, rfl⟩ := hd
    obtain ⟨fs, N, h1, h2, h3, h4⟩ := good_struct (L := L) (mem := mem) (ptr := ptr) (hS k) ids check nonempty hfine
      fun m hm hu => (hfine m hm hu).good hS
    have hr : ReadableF fs := by
      cases hl with
      | struct _ _ _ _ _ _ hl => exact JsonT.readable_struct hb N k attrs hl fs (h1 N (Nat.le_refl _))
    refine ⟨max N fs.size, text E.L (.struct fs), fun fuel hfu t before => ?_, fun hfl hlen fuel hfu => ?_⟩
    · have hfree : flatMembers S (flatVal false S fuel) attrs (S.structs k).sorted = some fs := by
        rw [flatMembers_free attrs _ fun m hm d => flatVal_free hB fuel m.ty d (hB k m (mem_sorted.mp hm))]
        exact h1 fuel (by omega)
      exact ((JsonW.emits_val E hL (.struct fs) (Json.new t) .toplevel [.toplevel] h2 rfl).sim
        (sim_struct (blind_tjson E) fuel _ attrs fs hfree)).memory before
    · have ha := JsonR.memory_arrives E hT (text E.L (.struct fs)) (by simp [text]) hlen
      obtain ⟨s', hs', hd⟩ := JsonR.dec_document (E := E) hL fs h2 hr (ws := []) (by simp) hfl (by simpa using ha) (JsonR.memory_dry E hT)
      obtain ⟨as', hb', hs⟩ := h4 path
      have ho := Dec.genInto hS L mem msd fs fuel path (S.structs k) ((S.structs k).fresh S) (by omega) (hS k) h3 hd
      rw [hb', JsonR.genRead_textual S L mem msd hB] at ho
      exact ⟨as', s', Runs.memory ho [], hs'.buf, hs⟩

theorem sample_tags (k : Nat) (m : Member) (hm : m ∈ (sampleSchema.structs k).members) :
    m.ty ≠ .i16 ∧ NoShortEntries m.ty ∧ m.ty.BinaryFree := by
  simp only [sampleSchema, List.mem_cons, List.not_mem_nil, or_false] at hm
  rcases hm with rfl | rfl | rfl
  · exact ⟨nofun, trivial, trivial⟩
  · exact ⟨nofun, trivial, trivial⟩
  · exact ⟨nofun, ⟨nofun, nofun, trivial, trivial⟩, trivial, trivial⟩

example := C104_partial sampleSchema noFloats (fun _ => 0) 64 0 9 sampleAttrs [] (JsonPlain.env 200) sampleSchema_ok sample_tags
  sample_fine sample_legible rfl JsonPlain.lawful

/-- The document of the sample struct. -/
example : (genWrite (tjson (JsonPlain.env 9)) sampleSchema 10 (sampleSchema.structs 0) sampleAttrs).run memory (Json.new []) [] =
    (.ok (none, Json.new []),
      ascii "{\"1\":{\"lst\":[11,1,\"hi\"]},\"2\":{\"i32\":5},\"7\":{\"map\":[\"i32\",\"i32\",1,3,4]}}") := by kernel_rfl

/-- C104.  The document is that of the value which the struct stands for. -/
theorem C104_document_partial (S : Schema) (k ptr : Nat) (attrs : Attrs) (hS : S.Ok)
    (ht : Typed S (.struct k) ((S.structs k).object ptr attrs)) (hk : ∀ k, ∀ m ∈ (S.structs k).members, m.ty.MapKeyFree)
    (hb : ∀ k, ∀ m ∈ (S.structs k).members, m.ty.BinaryFree) :
    ∃ v N, Means S (.struct k) ((S.structs k).object ptr attrs) v ∧ ∀ (τ : Type) (E : JsonEnv τ), Lawful E.L →
      WritesDocument (tjson E) Json.new S k attrs N (text E.L v) := by
  have hw : ∀ k, ∀ m ∈ (S.structs k).members, Writable false m.ty := fun k m hm => ⟨hk k m hm, .inr (hb k m hm)⟩
  obtain ⟨fs, N, h1, h2, h3⟩ := flat_struct (bin := false) (ptr := ptr) (hS k).ids ht.struct_inv
    fun m hm hu => (ht.struct_inv m hm hu).flat hS hw (hw k m hm)
  refine ⟨.struct fs, N, h3, fun τ E hL fuel hf t before => ?_⟩
  exact ((JsonW.emits_val E hL (.struct fs) (Json.new t) .toplevel [.toplevel] h2 rfl).sim
    (sim_struct (blind_tjson E) fuel _ attrs fs (h1 fuel hf))).memory before

example : ∃ (S : Schema) (k ptr : Nat) (attrs : Attrs), S.Ok ∧ Typed S (.struct k) ((S.structs k).object ptr attrs) ∧
    (∀ k, ∀ m ∈ (S.structs k).members, m.ty.MapKeyFree) ∧ ∀ k, ∀ m ∈ (S.structs k).members, m.ty.BinaryFree := by
  refine ⟨enumListSchema, 0, 0, [(1, .list 0 8 [.enumer 0 1 (ascii "X")])], enumListSchema_ok, ?_, ?_, ?_⟩
  · refine Typed.struct 0 0 _ rfl fun m hm _ => ?_
    obtain rfl := List.mem_singleton.1 hm
    refine Typed.list (.enum 0) 0 _ (by decide) fun d hd => ?_
    obtain rfl := List.mem_singleton.1 hd
    exact Typed.enum (S := enumListSchema) 0 1 (by decide)
  · intro k m hm; obtain rfl := List.mem_singleton.1 hm; trivial
  · intro k m hm; obtain rfl := List.mem_singleton.1 hm; trivial

end Thrift
