import Verif.Lemmas.GenStrip
import Verif.Lemmas.JsonNamedUnknown
import Verif.Props.GeneratedJson
/-!
# C106 and C107: undeclared fields over the JSON protocols
-/

namespace Thrift
open JsonSpec

/-! ## What is left after removing undeclared fields can still be told from its text -/

mutual
theorem JsonT.strip_readable {S : Schema} : ∀ (v : Val) (ty : Ty), Readable v → Readable (v.strip S ty)
  | .struct fs, ty, h => by
    cases ty <;> first | exact h | exact JsonT.strip_readableF fs _ h
  | .map _ _ ps, ty, h => by
    cases ty <;> first | exact h | exact ⟨h.1, h.2.1, JsonT.strip_readableP ps _ _ h.2.2⟩
  | .set _ vs, ty, h => by
    cases ty <;> first | exact h | exact JsonT.strip_readableV vs _ h
  | .list _ vs, ty, h => by
    cases ty <;> first | exact h | exact JsonT.strip_readableV vs _ h
  | .bool _, ty, h | .byte _, ty, h | .i16 _, ty, h | .i32 _, ty, h | .i64 _, ty, h | .double _, ty, h | .str _, ty, h => by
    cases ty <;> exact h
theorem JsonT.strip_readableF {S : Schema} : ∀ (fs : Fields) (sd : StructDef), ReadableF fs → ReadableF (fs.strip S sd)
  | .nil, _, _ => trivial
  | .cons id v r, sd, h => by
    simp only [Fields.strip]
    split
    · exact ⟨by rw [Val.strip_type]; exact h.1, JsonT.strip_readable v _ h.2.1, JsonT.strip_readableF r sd h.2.2⟩
    · exact JsonT.strip_readableF r sd h.2.2
theorem JsonT.strip_readableV {S : Schema} : ∀ (vs : Vals) (e : Ty), ReadableV vs → ReadableV (vs.strip S e)
  | .nil, _, _ => trivial
  | .cons v r, e, h => ⟨JsonT.strip_readable v e h.1, JsonT.strip_readableV r e h.2⟩
theorem JsonT.strip_readableP {S : Schema} : ∀ (ps : Pairs) (k v : Ty), ReadableP ps → ReadableP (ps.strip S k v)
  | .nil, _, _, _ => trivial
  | .cons a b r, k, v, h => ⟨JsonT.strip_readable a k h.1, JsonT.strip_readable b v h.2.1, JsonT.strip_readableP r k v h.2.2⟩
end

/-! ## C106: tagged JSON -/

/-- C106.  Reading a struct over the tagged JSON protocol gives the same with and
without the fields, at every depth, that the reader's schema does not declare. -/
def C106_statement : Prop :=
  ∀ (S : Schema) (L : FloatLib) (mem : List Nat → Nat) (msd : Int) (fuel : Nat) (path : List Nat) (k : Nat) (attrs : Attrs) (fs : Fields)
    (E : JsonEnv Bytes) (inp out : Bytes), S.Ok → fs.WF → fs.Conforms S (S.structs k) → fs.size ≤ fuel → E.T = memory → Lawful E.L →
    (text E.L (.struct fs)).length + 8 < E.fuel → (text E.L (.struct (fs.strip S (S.structs k)))).length + 8 < E.fuel →
    SameOutcome
      ((genReadInto (tjson E) S L mem msd fuel path (S.structs k) attrs).run duplex (Json.new (text E.L (.struct fs))) (inp, out))
      ((genReadInto (tjson E) S L mem msd fuel path (S.structs k) attrs).run duplex
        (Json.new (text E.L (.struct (fs.strip S (S.structs k))))) (inp, out)) (inp, out)

theorem SameOutcome.noError {x y : Res ((α × GoErr) × π) × τ} {l : τ} (h : SameOutcome x y l) (z : α × GoErr) (s : π)
    (hx : x.1 = .ok (z, s)) : z.2 = none := by
  obtain ⟨x1, x2⟩ := x
  obtain ⟨y1, y2⟩ := y
  simp only at hx
  subst hx
  cases y1 with
  | ok b => exact h.2.1
  | panic => exact h.elim
  | stuck => exact h.elim

/-- The reader ends and reports an error. -/
def reports (x : Res ((α × GoErr) × π) × τ) : Bool :=
  match x.1 with
  | .ok ((_, e), _) => e.isSome
  | _ => false

theorem SameOutcome.quiet {x y : Res ((α × GoErr) × π) × τ} {l : τ} (h : SameOutcome x y l) : reports x = false := by
  obtain ⟨x1, x2⟩ := x
  cases x1 with
  | ok a =>
    obtain ⟨z, s⟩ := a
    have := h.noError z s rfl
    simp [reports, this]
  | panic => rfl
  | stuck => rfl

/-- C106 does not hold: an undeclared field of type i16 makes the reader fail. -/
theorem C106_violated : ¬ C106_statement := by
  intro h
  have h := h longSchema noFloats (fun _ => 0) 64 20 [] 0 [] (.cons 9 (.i16 5) .nil) (JsonPlain.env 100) [] [] longSchema_ok
    (by simp [Fields.WF, Val.WF]) (by simp [Fields.Conforms, longSchema]) (by decide) rfl JsonPlain.lawful (by decide +kernel) (by decide +kernel)
  have h5 : reports ((genReadInto (tjson (JsonPlain.env 100)) longSchema noFloats (fun _ => 0) 64 20 [] (longSchema.structs 0) []).run
    duplex (Json.new (text JsonPlain.lib (.struct (.cons 9 (.i16 5) .nil)))) ([], [])) = true := by kernel_rfl
  have h6 := h.quiet
  rw [show (JsonPlain.env 100).L = JsonPlain.lib from rfl, h5] at h6
  cases h6

/-- What holds: undeclared fields of every type but i16, and containing no i16 fields,
map keys or map values, are ignored if the schema does without `binary` and the
documents fit into the reader's buffer of 4096 bytes. -/
theorem C106_partial (S : Schema) (L : FloatLib) (mem : List Nat → Nat) (msd : Int) (fuel : Nat) (path : List Nat) (k : Nat) (attrs : Attrs)
    (fs : Fields) (E : JsonEnv Bytes) (inp out : Bytes) (hS : S.Ok) (hB : ∀ k, ∀ m ∈ (S.structs k).members, m.ty.BinaryFree) (hw : fs.WF)
    (hc : fs.Conforms S (S.structs k)) (hr : ReadableF fs) (hfu : fs.size ≤ fuel) (hT : E.T = memory) (hL : Lawful E.L)
    (hf : (text E.L (.struct fs)).length + 8 < E.fuel) (hf' : (text E.L (.struct (fs.strip S (S.structs k)))).length + 8 < E.fuel)
    (hl : (text E.L (.struct fs)).length ≤ 4096) (hl' : (text E.L (.struct (fs.strip S (S.structs k)))).length ≤ 4096) :
    SameOutcome
      ((genReadInto (tjson E) S L mem msd fuel path (S.structs k) attrs).run duplex (Json.new (text E.L (.struct fs))) (inp, out))
      ((genReadInto (tjson E) S L mem msd fuel path (S.structs k) attrs).run duplex
        (Json.new (text E.L (.struct (fs.strip S (S.structs k))))) (inp, out)) (inp, out) := by
  have d (gs : Fields) (hw : gs.WF) (hr : ReadableF gs) (hc : gs.Conforms S (S.structs k)) (hfu : gs.size ≤ fuel)
      (hf : (text E.L (.struct gs)).length + 8 < E.fuel) (hl : (text E.L (.struct gs)).length ≤ 4096) :
      ∃ s', Outcome (genReadInto (tjson E) S L mem msd fuel path (S.structs k) attrs) (Json.new (text E.L (.struct gs))) s' []
        (buildFields S L mem gs path (S.structs k) attrs) := by
    have ha := JsonR.memory_arrives E hT (text E.L (.struct gs)) (by simp [text]) hl
    obtain ⟨s', hs', hd⟩ := JsonR.dec_document (E := E) hL gs hw hr (ws := []) (by simp) hf (by simpa using ha) (JsonR.memory_dry E hT)
    have ho := Dec.genInto hS L mem msd gs fuel path (S.structs k) attrs hfu (hS k) hc hd
    rw [JsonR.genRead_textual S L mem msd hB] at ho
    exact ⟨s', ho⟩
  obtain ⟨s₁, h1⟩ := d fs hw hr hc hfu hf hl
  obtain ⟨s₂, h2⟩ := d (fs.strip S (S.structs k)) (fs.strip_wf _ hw) (JsonT.strip_readableF fs _ hr) (fs.strip_conforms hS _ (hS k) hc)
    (Nat.le_trans (fs.strip_size _) hfu) hf' hl'
  rw [fs.strip_build] at h2
  have h1 := h1 inp out
  have h2 := h2 inp out
  unfold SameOutcome
  cases hb : buildFields S L mem fs path (S.structs k) attrs with
  | ok x => rw [hb] at h1 h2; simp only [List.nil_append] at h1 h2; rw [h1, h2]; exact ⟨rfl, rfl, rfl, rfl, rfl⟩
  | panic => rw [hb] at h1 h2; simp only [List.nil_append] at h1 h2; rw [h1, h2]; trivial
  | stuck => rw [hb] at h1 h2; simp only [List.nil_append] at h1 h2; rw [h1, h2]; trivial

example : (Fields.cons 9 (.struct (.cons 1 (.i64 3) .nil)) (.cons 1 (.list 11 .nil) .nil)).Conforms sampleSchema (sampleSchema.structs 0) ∧
    ReadableF (Fields.cons 9 (.struct (.cons 1 (.i64 3) .nil)) (.cons 1 (.list 11 .nil) .nil)) ∧
    (∀ k, ∀ m ∈ (sampleSchema.structs k).members, m.ty.BinaryFree) ∧
    text JsonPlain.lib (.struct (.cons 9 (.struct (.cons 1 (.i64 3) .nil)) (.cons 1 (.list 11 .nil) .nil))) =
      ascii "{\"9\":{\"rec\":{\"1\":{\"i64\":3}}},\"1\":{\"lst\":[11,0]}}" := by
  refine ⟨⟨?_, fun h => absurd h (by decide), ?_, fun h => absurd h (by decide), trivial⟩, by simp [ReadableF, Readable, ReadableV, Val.type],
    fun k m hm => (sample_tags k m hm).2.2, by kernel_rfl⟩
  · intro m hm he
    simp only [sampleSchema, List.mem_cons, List.not_mem_nil, or_false] at hm
    rcases hm with rfl | rfl | rfl <;> exact absurd he (by decide)
  · intro m hm he
    simp only [sampleSchema, List.mem_cons, List.not_mem_nil, or_false] at hm
    rcases hm with rfl | rfl | rfl <;> first | exact absurd he (by decide) | exact trivial

/-! ## C107: simple JSON -/

/-- The document of a struct with one more member, called `name`, after the others;
`tail` is what follows the colon. -/
def documentWith (L : JsonLib) (S : Schema) (sd : StructDef) (fs : Fields) (name tail : Bytes) : Bytes :=
  123 :: (nmembers L S sd fs ++ ((match fs with | .nil => [] | .cons .. => [44]) ++ (L.quote name ++ 58 :: tail)))

/-- C107.  Reading a struct over the simple JSON protocol gives the same with and
without a member that the reader's schema does not declare. -/
def C107_statement : Prop :=
  ∀ (S : Schema) (L : FloatLib) (mem : List Nat → Nat) (msd : Int) (fuel : Nat) (path : List Nat) (k : Nat) (attrs : Attrs) (fs : Fields)
    (E : JsonEnv Bytes) (name x inp out : Bytes), S.Ok → NamesAreText S → fs.WF → JsonN.NReadableF S (S.structs k) fs → fs.size ≤ fuel →
    E.T = memory → Lawful E.L → Utf8 name → (∀ m ∈ (S.structs k).members, m.name ≠ name) → IsValue x →
    (documentWith E.L S (S.structs k) fs name (x ++ [125])).length + 8 < E.fuel →
    SameOutcome
      ((genReadInto (simpleJson E) S L mem msd fuel path (S.structs k) attrs).run duplex
        (Json.newSimple (documentWith E.L S (S.structs k) fs name (x ++ [125]))) (inp, out))
      ((genReadInto (simpleJson E) S L mem msd fuel path (S.structs k) attrs).run duplex
        (Json.newSimple (ntext E.L S (.struct fs) (.struct k))) (inp, out)) (inp, out)

/-- C107 does not hold: a member that is not declared makes the reader fail. -/
theorem C107_violated : ¬ C107_statement := by
  intro h
  have h := h longSchema noFloats (fun _ => 0) 64 20 [] 0 [] (.cons 2 (.bool true) .nil) (JsonPlain.env 100) (ascii "z") (ascii "null") [] []
    longSchema_ok long_names ⟨trivial, trivial⟩
    ⟨⟨⟨ascii "b", 2, .bool, false, none, 0, true⟩, by simp [longSchema], rfl, trivial⟩, trivial⟩ (by decide) rfl JsonPlain.lawful
    (utf8_ascii (by decide)) (by simp [longSchema]; decide) .null (by decide +kernel)
  have h5 : reports ((genReadInto (simpleJson (JsonPlain.env 100)) longSchema noFloats (fun _ => 0) 64 20 [] (longSchema.structs 0) []).run
    duplex (Json.newSimple (ascii "{\"b\":true,\"z\":null}")) ([], [])) = true := by kernel_rfl
  have h6 := h.quiet
  rw [show documentWith (JsonPlain.env 100).L longSchema (longSchema.structs 0) (.cons 2 (.bool true) .nil) (ascii "z") (ascii "null" ++ [125]) =
    ascii "{\"b\":true,\"z\":null}" by kernel_rfl, h5] at h6
  cases h6

/-- What holds: after any members that are declared and can be told from their text, a
member that is not declared is not passed over in silence.  If the reader ends, it
reports an error, whatever follows the name.  (No member has the id -1, which is the
id of a member that is not declared, and containers have no binary elements.) -/
theorem C107_partial (S : Schema) (L : FloatLib) (mem : List Nat → Nat) (msd : Int) (fuel : Nat) (path : List Nat) (k : Nat) (attrs : Attrs)
    (fs : Fields) (E : JsonEnv Bytes) (name tail inp out : Bytes) (hS : S.Ok) (hN : NamesAreText S)
    (hb : ∀ k, ∀ m ∈ (S.structs k).members, NoBinaryElements m.ty) (hw : fs.WF) (hr : JsonN.NReadableF S (S.structs k) fs)
    (hfu : fs.size ≤ fuel) (hT : E.T = memory) (hL : Lawful E.L) (hn : Utf8 name)
    (hu : ∀ m ∈ (S.structs k).members, m.name ≠ name ∧ m.id ≠ -1)
    (hf : (documentWith E.L S (S.structs k) fs name tail).length + 8 < E.fuel)
    (hl : (documentWith E.L S (S.structs k) fs name tail).length ≤ 4096) (as' : Attrs) (e : GoErr) (s' : Json Bytes) (y : Bytes × Bytes)
    (hrun : (genReadInto (simpleJson E) S L mem msd fuel path (S.structs k) attrs).run duplex
      (Json.newSimple (documentWith E.L S (S.structs k) fs name tail)) (inp, out) = (.ok ((as', e), s'), y)) : e ≠ none := by
  have hN' : Nameable S := fun k m hm => ⟨hN k m hm, hb k m hm⟩
  have ha := JsonR.memory_arrives E hT (documentWith E.L S (S.structs k) fs name tail) (by simp [documentWith]) hl
  refine JsonN.unknown_refused hS hN' hL hn (fun m hm => (hu m hm).1) (fun m hm => (hu m hm).2) (rest := tail) fs hw hr ?_ hf ha
    (JsonR.memory_dry E hT) L mem msd fuel path attrs hfu inp out hrun
  rw [documentWith.eq_def, (JsonN.nmembersIn_first S E.L _ fs).1]
  cases fs with
  | nil => rfl
  | cons id v r => rw [JsonW.afterFields, JsonN.afterFields_next]; rfl

example := C107_partial longSchema noFloats (fun _ => 0) 64 20 [] 0 [] (.cons 2 (.bool true) .nil) (JsonPlain.env 100) (ascii "z")
  (ascii "[1,2]}") [] [] longSchema_ok long_names
  (by intro k m hm; simp only [longSchema, List.mem_cons, List.not_mem_nil, or_false] at hm; rcases hm with rfl | rfl <;> trivial) ⟨trivial, trivial⟩
  ⟨⟨⟨ascii "b", 2, .bool, false, none, 0, true⟩, by simp [longSchema], rfl, trivial⟩, trivial⟩ (by decide) rfl JsonPlain.lawful
  (utf8_ascii (by decide)) (by intro m hm; simp only [longSchema, List.mem_cons, List.not_mem_nil, or_false] at hm;
                               rcases hm with rfl | rfl <;> decide) (by decide +kernel) (by decide +kernel)

end Thrift
