import Verif.Lemmas.BinaryService
import Verif.Props.Generated
import Verif.Lemmas.KernelRfl
/-!
# Clients and processors
-/

namespace Thrift

/-! ## C55: processors answer -/

/-- C55.  A request with a known method that has a reply, in any well formed
encoding of the arguments, is answered with exactly one message with the name and
the sequence id of the request, and the answer is flushed. -/
def C55_statement : Prop :=
  ∀ {σ η : Type} (T : Transport σ) (inn out buf : σ → Bytes) (S : Schema) (L : FloatLib) (mem : List Nat → Nat) (msd : Int)
    (sv : Service η) (m : Method) (i o : Bin) (h : η) (strict : Bool) (ty q : I32) (fs : Fields),
    Endpoint T inn out buf → S.Ok → S.NonNegative → sv.find m.name = some m → m.oneway = false → m.name.length < 2 ^ 31 →
    i.checkReadLength = false → (strict = true ∨ i.strictRead = false) → ty.toNat < 256 →
    fs.WF → fs.Conforms S (S.structs m.args) →
    (∀ h as r h', sv.handle m h as = ((r, none), h') → Typed S (.struct m.result) ((S.structs m.result).object 0 r)) →
    (∀ h as r e h', sv.handle m h as = ((r, some e), h') → m.name.length + e.msg.length + 28 < 2 ^ 31) →
    ∃ N, ∀ fuel, N ≤ fuel → ∀ t rest,
      inn t = BinarySpec.message strict m.name ty q ++ BinarySpec.encode (.struct fs) ++ rest →
      ∃ as res s' t' rs, (process binary binary S L mem msd fuel sv).run T ⟨i, o, h⟩ t = (.ok (res, s'), t') ∧
        inn t' = rest ∧ buf t' = [] ∧ out t' = out t ++ buf t ++
          (BinarySpec.message o.strictWrite m.name (if (sv.handle m h as).1.2 = none then REPLY else EXCEPTION) q ++
            BinarySpec.encode (.struct rs))

/-- A method without arguments whose result is a map with maps as keys. -/
def mapKeySchema : Schema where
  structs k := if k = 0 then ⟨ascii "args", []⟩
    else ⟨ascii "result", [⟨ascii "success", 0, .map (.map .i32 .i32) .i32, false, none, 0, true⟩]⟩
  enumText _ _ := ascii "X"

theorem mapKeySchema_ok : mapKeySchema.Ok := by
  intro k
  simp only [mapKeySchema]
  split
  · exact ⟨by simp, by simp, by simp, by simp⟩
  · exact ⟨by simp, by simp, by simp, by simp; decide⟩

def mapKeyResult : Attrs :=
  [(0, .map 1 13 8 1 [.map 2 13 8 0 [] [] []] [.int32 1] [(.map 2 8 8 0 [] [] [], .int32 1)])]

def getMethod : Method := ⟨ascii "get", 0, 1, false⟩

def mapKeyService : Service Unit := ⟨[getMethod], fun _ h _ => ((mapKeyResult, none), h)⟩

/-- The map cannot be iterated, and the processor panics in the middle of the reply. -/
theorem C55_violated : ¬ C55_statement := by
  intro h
  have hty : Typed mapKeySchema (.struct 1) ((mapKeySchema.structs 1).object 0 mapKeyResult) := by
    refine Typed.struct 1 0 _ rfl fun m hm _ => ?_
    simp only [mapKeySchema, Nat.one_ne_zero, if_false, List.mem_singleton] at hm
    subst hm
    refine Typed.map (.map .i32 .i32) .i32 1 _ _ [(.map 2 8 8 0 [] [] [], .int32 1)] (by decide) ?_ ?_
    · intro d hd
      rw [List.mem_singleton.1 hd]
      exact Typed.map .i32 .i32 2 [] [] [] (by decide) (by simp) (by simp)
    · intro d hd
      rw [List.mem_singleton.1 hd]
      exact Typed.i32 _
  obtain ⟨N, h⟩ := h pipeServer (fun s => s.1) (fun s => s.2) (fun _ => []) mapKeySchema noFloats (fun _ => 0) 64 mapKeyService
    getMethod Bin.default Bin.default () true CALL 7 .nil pipe_server mapKeySchema_ok
    (by
      intro k m hm
      simp only [mapKeySchema] at hm
      split at hm
      · cases hm
      · rw [List.mem_singleton.1 hm]; decide)
    rfl rfl (by decide) rfl (.inl rfl) (by decide) trivial trivial
    (by
      intro _ _ r _ hh
      simp only [mapKeyService, Prod.mk.injEq, and_true] at hh
      obtain ⟨rfl, -⟩ := hh
      exact hty)
    (by
      intro _ _ r e _ hh
      simp [mapKeyService] at hh)
  obtain ⟨as, res, s', t', rs, h1, -⟩ := h (N + 10) (by omega) (_, []) [] (List.append_nil _).symm
  have h2 : ((process binary binary mapKeySchema noFloats (fun _ => 0) 64 (N + 10) mapKeyService).run pipeServer
      ⟨Bin.default, Bin.default, ()⟩
      (BinarySpec.message true getMethod.name CALL 7 ++ BinarySpec.encode (.struct .nil), [])).1 = .panic := rfl
  rw [h1] at h2
  cases h2

section
variable {σ η : Type} {T : Transport σ} {inn out buf : σ → Bytes} {S : Schema} {L : FloatLib} {mem : List Nat → Nat} {msd : Int}
  {sv : Service η} {m : Method} {i o : Bin}

/-- C55 when the arguments can be read and the handler succeeds, for results that
generated code can carry (`Fine`, one outcome).  Any bytes from which the reader of
the arguments delivers `as` are a request body. -/
theorem C55_reply_partial (E : Endpoint T inn out buf) (hS : S.Ok) (hm : sv.find m.name = some m) (hone : m.oneway = false)
    (hn : m.name.length < 2 ^ 31) (hi : i.checkReadLength = false) (strict : Bool) (hs : strict = true ∨ i.strictRead = false)
    (ty q : I32) (hty : ty.toNat < 256) (h h' : η) (as r : Attrs) (hh : sv.handle m h as = ((r, none), h'))
    (hf : Fine S (.struct m.result) ((S.structs m.result).object 0 r)) (hd : ResultDef (S.structs m.result))
    (ho : OneOutcome S (S.structs m.result) r) :
    ∃ rs N, rs.WF ∧ ∀ fuel, N ≤ fuel → ∀ body,
      (∀ rest x, (genRead binary S L mem msd fuel [] (S.structs m.args)).run duplex i (body ++ rest, x) =
        (.ok ((as, none), i), (rest, x))) →
      ∀ t rest, inn t = BinarySpec.message strict m.name ty q ++ body ++ rest →
      ∃ t', (process binary binary S L mem msd fuel sv).run T ⟨i, o, h⟩ t = (.ok ((true, none), ⟨i, o, h'⟩), t') ∧
        inn t' = rest ∧
        out t' = out t ++ buf t ++ (BinarySpec.message o.strictWrite m.name REPLY q ++ BinarySpec.encode (.struct rs)) ∧
        buf t' = [] := by
  obtain ⟨gs, N, r', g1, g2, -⟩ := result_tree (L := L) (mem := mem) hS hf hd ho
  refine ⟨gs, N, g2, fun fuel hfu body hb => ?_⟩
  exact E.serves_known (op := binary) (Bin.reads_header strict m.name ty q hn hty i hi hs) hm
    (E.serves_reply (fun rest x => hb rest x) (Bin.runs_end i) hh
      (by rw [hone]; exact E.binary_reply hn q o (g1 fuel hfu) g2))

/-- C55 when the handler fails. -/
theorem C55_exception_partial (E : Endpoint T inn out buf) (hm : sv.find m.name = some m)
    (hn : m.name.length < 2 ^ 31) (hi : i.checkReadLength = false) (strict : Bool) (hs : strict = true ∨ i.strictRead = false)
    (ty q : I32) (hty : ty.toNat < 256) (h h' : η) (as r : Attrs) (e : Err) (hh : sv.handle m h as = ((r, some e), h'))
    (he : m.name.length + e.msg.length + 28 < 2 ^ 31) (fuel : Nat) (body : Bytes)
    (hb : ∀ rest x, (genRead binary S L mem msd fuel [] (S.structs m.args)).run duplex i (body ++ rest, x) =
        (.ok ((as, none), i), (rest, x)))
    (t : σ) (rest : Bytes) (ht : inn t = BinarySpec.message strict m.name ty q ++ body ++ rest) :
    ∃ t', (process binary binary S L mem msd fuel sv).run T ⟨i, o, h⟩ t = (.ok ((false, some e), ⟨i, o, h'⟩), t') ∧
      inn t' = rest ∧
      out t' = out t ++ buf t ++ (BinarySpec.message o.strictWrite m.name EXCEPTION q ++ BinarySpec.encode (.struct
        (.cons 1 (.str (ascii "Internal error processing " ++ m.name ++ ascii ": " ++ e.msg)) (.cons 2 (.i32 6) .nil)))) ∧
      buf t' = [] := by
  have := E.serves_known (op := binary) (Bin.reads_header strict m.name ty q hn hty i hi hs) hm
    (E.serves_failure (fun rest x => hb rest x) (Bin.runs_end i) hh
      (E.binary_exception m.name hn (internalError m.name e) (internal_length he) q o)) t rest ht
  have hx : (internalError m.name e).tree =
      .cons 1 (.str (ascii "Internal error processing " ++ m.name ++ ascii ": " ++ e.msg)) (.cons 2 (.i32 6) .nil) := by
    unfold AppExc.tree
    have hl : (ascii "Internal error processing ").length = 26 := by decide
    rw [if_pos (by simp only [internalError, newTApplicationException, List.length_append, hl]; omega)]
    rfl
  rwa [hx] at this

/-- C55 when the arguments cannot be read: what has arrived after the header makes
the reader return an error. -/
theorem C55_malformed_partial (E : Endpoint T inn out buf) (hm : sv.find m.name = some m)
    (hn : m.name.length < 2 ^ 31) (hi : i.checkReadLength = false) (strict : Bool) (hs : strict = true ∨ i.strictRead = false)
    (ty q : I32) (hty : ty.toNat < 256) (h : η) (as : Attrs) (e : Err)
    (he : 0 < e.msg.length ∧ e.msg.length < 2 ^ 31) (fuel : Nat) (body rest : Bytes)
    (hb : ∀ x, (genRead binary S L mem msd fuel [] (S.structs m.args)).run duplex i (body, x) =
        (.ok ((as, some e), i), (rest, x)))
    (t : σ) (ht : inn t = BinarySpec.message strict m.name ty q ++ body) :
    ∃ t', (process binary binary S L mem msd fuel sv).run T ⟨i, o, h⟩ t = (.ok ((false, some e), ⟨i, o, h⟩), t') ∧
      inn t' = rest ∧
      out t' = out t ++ buf t ++ (BinarySpec.message o.strictWrite m.name EXCEPTION q ++ BinarySpec.encode (.struct
        (.cons 1 (.str e.msg) (.cons 2 (.i32 7) .nil)))) ∧
      buf t' = [] := by
  obtain ⟨t1, e1, i1, o1⟩ := E.takes (Bin.reads_header strict m.name ty q hn hty i hi hs) t body ht
  obtain ⟨t2, e2, h2⟩ := E.faithful.simulateP (genRead binary S L mem msd fuel [] (S.structs m.args)) i t1
  rw [i1, hb] at e2 h2
  simp only [Prod.mk.injEq] at h2
  obtain ⟨t3, e3, i3, o3, b3⟩ := E.binary_exception m.name hn (newTApplicationException PROTOCOL_ERROR e.msg) he.2 q o t2
  have hx : (newTApplicationException PROTOCOL_ERROR e.msg).tree = .cons 1 (.str e.msg) (.cons 2 (.i32 7) .nil) := by
    unfold AppExc.tree
    rw [if_pos (by simpa only [newTApplicationException] using he.1)]
    rfl
  refine ⟨t3, ?_, i3.trans h2.1.symm, ?_, b3⟩
  · unfold process
    rw [P.run_bind, P.run_input, e1]
    simp only [putBack_ok, andThen_ok, Option.isSome_none, Bool.false_eq_true, if_false, hm]
    unfold processMethod
    rw [P.run_bind, P.run_input, e2]
    simp only [putBack_ok, andThen_ok]
    rw [P.run_bind, P.run_input]
    have hend : binary.readMessageEnd.run T i t2 = (.ok (none, i), t2) := rfl
    simp only [hend, putBack_ok, andThen_ok]
    rw [P.run_bind, P.run_output, e3]
    rfl
  · rw [o3, hx]
    have := h2.2
    rw [← this, o1]

/-! ## C56: unknown methods -/

/-- C56, binary protocol, over any working connection. -/
theorem C56_unknown_method (E : Endpoint T inn out buf) (name : Bytes) (hm : ∀ m ∈ sv.methods, m.name ≠ name)
    (hn : name.length + 17 < 2 ^ 31) (hi : i.checkReadLength = false) (strict : Bool) (hs : strict = true ∨ i.strictRead = false)
    (ty q : I32) (hty : ty.toNat < 256) (fs : Fields) (hw : fs.WF) (h : η) (fuel : Nat) (hf : (Val.struct fs).size ≤ fuel)
    (t : σ) (rest : Bytes) (ht : inn t = BinarySpec.message strict name ty q ++ BinarySpec.encode (.struct fs) ++ rest) :
    ∃ t', (process binary binary S L mem msd fuel sv).run T ⟨i, o, h⟩ t =
        (.ok ((false, some (newTApplicationException UNKNOWN_METHOD (ascii "Unknown function " ++ name)).err), ⟨i, o, h⟩), t') ∧
      inn t' = rest ∧
      out t' = out t ++ buf t ++ (BinarySpec.message o.strictWrite name EXCEPTION q ++ BinarySpec.encode (.struct
        (.cons 1 (.str (ascii "Unknown function " ++ name)) (.cons 2 (.i32 1) .nil)))) ∧
      buf t' = [] := by
  have hf' : sv.find name = none := by
    rw [Service.find, List.find?_eq_none]
    intro m hmem
    simpa using fun h => hm m hmem h.symm
  have hl : (newTApplicationException UNKNOWN_METHOD (ascii "Unknown function " ++ name)).message.length < 2 ^ 31 := by
    have : (ascii "Unknown function ").length = 17 := by decide
    simp only [newTApplicationException, List.length_append, this]; omega
  have := E.serves_other (ip := binary) (op := binary) (h := h) (S := S) (L := L) (mem := mem) (msd := msd)
    (Bin.reads_header strict name ty q (by omega) hty i hi hs) hf'
    (E.serves_unknown (Dec.skip msd (.struct fs) fuel msd hf (Bin.dec_val (.struct fs) i hi hw)) (Bin.runs_end i)
      (E.binary_exception name (by omega) _ hl q o)) t rest ht
  have hx : (newTApplicationException UNKNOWN_METHOD (ascii "Unknown function " ++ name)).tree =
      .cons 1 (.str (ascii "Unknown function " ++ name)) (.cons 2 (.i32 1) .nil) := by
    unfold AppExc.tree
    have hl : (ascii "Unknown function ").length = 17 := by decide
    rw [if_pos (by simp only [newTApplicationException, List.length_append, hl]; omega)]
    rfl
  rwa [hx] at this


/-! ## A service -/

end

/-- Arguments with one number, results with one number, and the empty result of a
oneway method. -/
def sumSchema : Schema where
  structs k := if k = 0 then ⟨ascii "args", [⟨ascii "x", 1, .i32, false, none, 0, true⟩]⟩
    else if k = 1 then ⟨ascii "result", [⟨ascii "success", 0, .i32, false, none, 0, true⟩]⟩
    else ⟨ascii "none", []⟩
  enumText _ _ := ascii "X"

theorem sumSchema_ok : sumSchema.Ok := by
  intro k
  simp only [sumSchema]
  split
  · exact ⟨by simp, by simp, by simp, by simp; decide⟩
  · split
    · exact ⟨by simp, by simp, by simp, by simp; decide⟩
    · exact ⟨by simp, by simp, by simp, by simp⟩

def addMethod : Method := ⟨ascii "add", 0, 1, false⟩
def noteMethod : Method := ⟨ascii "note", 0, 2, true⟩

/-- The handler adds up the numbers it gets; `add` returns the sum. -/
def sumService : Service I32 where
  methods := [addMethod, noteMethod]
  handle m h as :=
    let h' := match attributeOf as 1 with
      | .int32 x => h + x
      | _ => h
    ((if m.oneway then [] else [(0, .int32 h')], none), h')

theorem sum_args (x : I32) : Fine sumSchema (.struct 0) ((sumSchema.structs 0).object 0 [(1, .int32 x)]) := by
  refine Fine.struct 0 0 _ rfl ?_ ?_ ?_
  · intro m hm; rw [List.mem_singleton.1 hm]; simp
  · intro m hm; rw [List.mem_singleton.1 hm]; simp
  · intro m hm _; rw [List.mem_singleton.1 hm]; exact Fine.i32 _

theorem sum_result (x : I32) : Fine sumSchema (.struct 1) ((sumSchema.structs 1).object 0 [(0, .int32 x)]) := by
  refine Fine.struct 1 0 _ rfl ?_ ?_ ?_
  · intro m hm; rw [List.mem_singleton.1 hm]; simp
  · intro m hm; rw [List.mem_singleton.1 hm]; simp
  · intro m hm _; rw [List.mem_singleton.1 hm]; exact Fine.i32 _

theorem sum_resultDef : ResultDef (sumSchema.structs 1) where
  plain m hm := by rw [List.mem_singleton.1 hm]
  exceptions m hm h := by rw [List.mem_singleton.1 hm] at h; exact absurd rfl h

theorem sum_one (r : Attrs) : OneOutcome sumSchema (sumSchema.structs 1) r := by
  intro a ha b hb h
  rw [List.mem_singleton.1 ha, List.mem_singleton.1 hb] at h
  exact absurd rfl h

theorem add_sound (x : I32) : Sound sumSchema sumService addMethod [(1, .int32 x)] where
  known := rfl
  name := by decide
  args := sum_args x
  result := sum_resultDef
  fine h as r h' hh := by
    simp only [sumService, addMethod, Bool.false_eq_true, if_false, Prod.mk.injEq, and_true] at hh
    rw [← hh.1]
    exact ⟨sum_result _, sum_one _⟩
  message h as r e h' hh := by simp [sumService] at hh

theorem note_sound (x : I32) : Sound sumSchema sumService noteMethod [(1, .int32 x)] where
  known := rfl
  name := by decide
  args := sum_args x
  result := ⟨fun _ hm => absurd hm List.not_mem_nil, fun _ hm => absurd hm List.not_mem_nil⟩
  fine h as r h' hh := by
    simp only [sumService, noteMethod, if_true, Prod.mk.injEq, and_true] at hh
    rw [← hh.1]
    refine ⟨Fine.struct 2 0 _ rfl ?_ ?_ ?_, ?_⟩
    · intro m hm; exact absurd hm List.not_mem_nil
    · intro m hm; exact absurd hm List.not_mem_nil
    · intro m hm; exact absurd hm List.not_mem_nil
    · intro m hm; exact absurd hm List.not_mem_nil
  message h as r e h' hh := by simp [sumService] at hh

/-- The hypotheses of `C55_reply_partial` are met. -/
example : ∃ rs N, rs.WF ∧ ∀ fuel, N ≤ fuel → ∀ body,
      (∀ rest x, (genRead binary sumSchema noFloats (fun _ => 0) 64 fuel [] (sumSchema.structs 0)).run duplex Bin.default
        (body ++ rest, x) = (.ok (([(1, .int32 5)], none), Bin.default), (rest, x))) →
      ∀ t rest, Prod.fst t = BinarySpec.message true (ascii "add") CALL 7 ++ body ++ rest →
      ∃ t', (process binary binary sumSchema noFloats (fun _ => 0) 64 fuel sumService).run pipeServer
          ⟨Bin.default, Bin.default, 3⟩ t = (.ok ((true, none), ⟨Bin.default, Bin.default, 8⟩), t') ∧ Prod.fst t' = rest ∧
        Prod.snd t' = t.2 ++ [] ++
          (BinarySpec.message Bin.default.strictWrite (ascii "add") REPLY 7 ++ BinarySpec.encode (.struct rs)) ∧ ([] : Bytes) = [] :=
  C55_reply_partial (m := addMethod) (sv := sumService) pipe_server sumSchema_ok rfl rfl (by decide) rfl true (.inl rfl) CALL 7 (by decide)
    3 8 [(1, .int32 5)] [(0, .int32 8)] rfl (sum_result 8) sum_resultDef (sum_one _)

example (N : Nat) : ∀ rest x, (genRead binary sumSchema noFloats (fun _ => 0) 64 (N + 10) [] (sumSchema.structs 0)).run duplex
    Bin.default (BinarySpec.encode (.struct (.cons 1 (.i32 5) .nil)) ++ rest, x) =
    (.ok (([(1, .int32 5)], none), Bin.default), (rest, x)) := fun _ _ => rfl

/-- A method whose handler always fails. -/
def failService : Service Unit := ⟨[addMethod], fun _ h _ => (([], some ⟨.other, 0, ascii "no"⟩), h)⟩

/-- The hypotheses of `C55_exception_partial` are met. -/
example (fuel : Nat) (rest : Bytes) := C55_exception_partial (L := noFloats) (mem := fun _ => 0) (msd := 64) (S := sumSchema)
  (m := addMethod) (sv := failService) (i := Bin.default) (o := Bin.default) pipe_server rfl (by decide) rfl true (.inl rfl) CALL 7
  (by decide) () () [(1, .int32 5)] [] _ rfl (by decide) (fuel + 10) (BinarySpec.encode (.struct (.cons 1 (.i32 5) .nil)))
  (fun _ _ => rfl) (_, []) rest rfl

/-- The hypotheses of `C55_malformed_partial` are met: the arguments break off. -/
example (fuel : Nat) := C55_malformed_partial (L := noFloats) (mem := fun _ => 0) (msd := 64) (S := sumSchema)
  (m := addMethod) (sv := failService) (i := Bin.default) (o := Bin.default) pipe_server rfl (by decide) rfl true (.inl rfl) CALL 7
  (by decide) () [(1, .int32 0)] ⟨.protocol, 1, ascii
    "Unable to read field (x) in args due to: Unable to read field (x) in args due to: Cannot read. Remote side has closed."⟩ (by decide +kernel) (fuel + 10) [8, 0, 1, 0] [] (fun _ => by kernel_rfl) (_, []) rfl

/-- The hypotheses of `C56_unknown_method` are met. -/
example (rest : Bytes) := C56_unknown_method (L := noFloats) (mem := fun _ => 0) (msd := 64) (S := sumSchema)
  (sv := sumService) (i := Bin.default) (o := Bin.default) pipe_server (ascii "sub") (by decide) (by decide) rfl true (.inl rfl) CALL 7
  (by decide) (.cons 1 (.i32 5) .nil) ⟨trivial, trivial⟩ 0 100 (by decide) (_, []) rest rfl

/-! ## C57: oneway methods -/

/-- C57.  A request for a oneway method, in any well formed encoding of its
arguments, is consumed and nothing is written. -/
def C57_statement : Prop :=
  ∀ {σ η : Type} (T : Transport σ) (inn out buf : σ → Bytes) (S : Schema) (L : FloatLib) (mem : List Nat → Nat) (msd : Int)
    (sv : Service η) (m : Method) (i o : Bin) (h : η) (strict : Bool) (ty q : I32) (fs : Fields),
    Endpoint T inn out buf → S.Ok → S.NonNegative → sv.find m.name = some m → m.oneway = true →
    (S.structs m.result).members = [] → (∀ h as, (sv.handle m h as).1.2 = none) → m.name.length < 2 ^ 31 →
    i.checkReadLength = false → (strict = true ∨ i.strictRead = false) → ty.toNat < 256 →
    fs.WF → fs.Conforms S (S.structs m.args) →
    ∃ N, ∀ fuel, N ≤ fuel → ∀ t rest,
      inn t = BinarySpec.message strict m.name ty q ++ BinarySpec.encode (.struct fs) ++ rest →
      ∃ res s' t', (process binary binary S L mem msd fuel sv).run T ⟨i, o, h⟩ t = (.ok (res, s'), t') ∧
        inn t' = rest ∧ out t' ++ buf t' = out t ++ buf t

/-- Every oneway request is answered with an empty reply. -/
theorem C57_violated : ¬ C57_statement := by
  intro h
  obtain ⟨N, h⟩ := h pipeServer (fun s => s.1) (fun s => s.2) (fun _ => []) sumSchema noFloats (fun _ => 0) 64 sumService
    noteMethod Bin.default Bin.default 0 true CALL 7 (.cons 1 (.i32 5) .nil) pipe_server sumSchema_ok
    (by
      intro k m hm
      simp only [sumSchema] at hm
      split at hm
      · rw [List.mem_singleton.1 hm]; decide
      · split at hm
        · rw [List.mem_singleton.1 hm]; decide
        · cases hm)
    rfl rfl rfl (fun _ _ => rfl) (by decide) rfl (.inl rfl) (by decide) ⟨trivial, trivial⟩ ⟨by intro m hm _; rw [List.mem_singleton.1 hm]; trivial, by decide, trivial⟩
  obtain ⟨res, s', t', h1, -, h3⟩ := h (N + 10) (by omega) (_, []) [] (List.append_nil _).symm
  have h2 : ((process binary binary sumSchema noFloats (fun _ => 0) 64 (N + 10) sumService).run pipeServer
      ⟨Bin.default, Bin.default, 0⟩
      (BinarySpec.message true noteMethod.name CALL 7 ++ BinarySpec.encode (.struct (.cons 1 (.i32 5) .nil)), [])).2.2 =
      BinarySpec.message true noteMethod.name REPLY 7 ++ [0] := rfl
  rw [h1] at h2
  simp only at h2 h3
  rw [h2] at h3
  cases h3

/-- What a oneway request gets instead: exactly one message with an empty struct,
whatever the handler delivered. -/
theorem C57_partial {σ η : Type} {T : Transport σ} {inn out buf : σ → Bytes} {S : Schema} {L : FloatLib} {mem : List Nat → Nat}
    {msd : Int} {sv : Service η} {m : Method} {i o : Bin} (E : Endpoint T inn out buf) (hm : sv.find m.name = some m)
    (hone : m.oneway = true) (hr : (S.structs m.result).members = [])
    (hn : m.name.length < 2 ^ 31) (hi : i.checkReadLength = false) (strict : Bool) (hs : strict = true ∨ i.strictRead = false)
    (ty q : I32) (hty : ty.toNat < 256) (h h' : η) (as r : Attrs) (hh : sv.handle m h as = ((r, none), h')) (fuel : Nat) (body : Bytes)
    (hb : ∀ rest x, (genRead binary S L mem msd fuel [] (S.structs m.args)).run duplex i (body ++ rest, x) =
        (.ok ((as, none), i), (rest, x)))
    (t : σ) (rest : Bytes) (ht : inn t = BinarySpec.message strict m.name ty q ++ body ++ rest) :
    ∃ t', (process binary binary S L mem msd fuel sv).run T ⟨i, o, h⟩ t = (.ok ((true, none), ⟨i, o, h'⟩), t') ∧
      inn t' = rest ∧ out t' = out t ++ buf t ++ (BinarySpec.message o.strictWrite m.name REPLY q ++ [0]) ∧ buf t' = [] := by
  refine E.serves_known (op := binary) (Bin.reads_header strict m.name ty q hn hty i hi hs) hm
    (E.serves_reply (fun rest x => hb rest x) (Bin.runs_end i) hh ?_) t rest ht
  rw [hone]
  refine E.binary_reply (fs := .nil) hn q o ?_ trivial
  simp only [StructDef.sorted, StructDef.fresh, hr]
  rfl

example (fuel : Nat) (rest : Bytes) := C57_partial (L := noFloats) (mem := fun _ => 0) (msd := 64) (S := sumSchema)
  (m := noteMethod) (sv := sumService) (i := Bin.default) (o := Bin.default) pipe_server rfl rfl rfl (by decide) rfl true (.inl rfl) CALL 7
  (by decide) 1 6 [(1, .int32 5)] [] rfl (fuel + 10) (BinarySpec.encode (.struct (.cons 1 (.i32 5) .nil)))
  (fun _ _ => rfl) (_, []) rest rfl

/-! ## C58: calls -/

/-- C58 for calls of some methods and handlers with some errors.  A client and a
server that understand each other's headers, connected by transports that work: any
sequence of calls returns what the handler returned. -/
def C58_for (methods : Method → Prop) (errors : GoErr → Prop) : Prop :=
  ∀ {σ η : Type} {C V : Transport σ} {up down cbuf vbuf : σ → Bytes} {S : Schema} (L : FloatLib) (mem : List Nat → Nat) (msd : Int)
    {sv : Service η} {f i o : Bin}, Link C V up down cbuf vbuf → S.Ok → Compatible f i o → ∀ (cs : List (Method × Attrs)) (h : η),
    (∀ c ∈ cs, Sound S sv c.1 c.2) → (∀ c ∈ cs, methods c.1) → (∀ m h as, errors (sv.handle m h as).1.2) →
    ∃ rs N, Answered S sv h cs rs ∧ ∀ fuel, N ≤ fuel → ∀ t, Settled up down cbuf vbuf t → ∃ c' x,
      (callAll (Client.call binary S L mem msd fuel) cs).run (served C V (process binary binary S L mem msd fuel sv))
        (Client.ofFactory f) (some ⟨i, o, h⟩, t) = (.ok (rs, c'), x)

def C58_statement : Prop := C58_for (fun _ => True) (fun _ => True)

/-- The results of the calls. -/
def callResults {α β γ : Type} : Res (α × β) × γ → Option α
  | (.ok (a, _), _) => some a
  | _ => none

/-- After a oneway call the client takes the answer to it for the answer to the
next call. -/
theorem C58_oneway_violated : ¬ C58_for (fun _ => True) (· = none) := by
  intro h
  obtain ⟨rs, N, h1, h2⟩ := h (sv := sumService) noFloats (fun _ => 0) 64 pipe_link sumSchema_ok
    (f := Bin.default) (i := Bin.default) (o := Bin.default) ⟨rfl, rfl, .inl rfl, .inl rfl⟩
    [(noteMethod, [(1, .int32 5)]), (addMethod, [(1, .int32 2)])] 0
    (by
      intro c hc
      simp only [List.mem_cons, List.not_mem_nil, or_false] at hc
      rcases hc with rfl | rfl
      · exact note_sound 5
      · exact add_sound 2)
    (fun _ _ => trivial) (fun _ _ _ => rfl)
  obtain ⟨c', x, h3⟩ := h2 (N + 10) (by omega) ([], []) ⟨rfl, rfl, rfl, rfl⟩
  have h4 : callResults ((callAll (Client.call binary sumSchema noFloats (fun _ => 0) 64 (N + 10))
      [(noteMethod, [(1, .int32 5)]), (addMethod, [(1, .int32 2)])]).run
      (served pipeClient pipeServer (process binary binary sumSchema noFloats (fun _ => 0) 64 (N + 10) sumService))
      (Client.ofFactory Bin.default) (some ⟨Bin.default, Bin.default, 0⟩, ([], []))) =
      some [(none, none), (none, some outOfSequence)] := by kernel_rfl
  rw [h3] at h4
  cases h4
  cases h1 with
  | cons a r ret rest =>
    cases rest with
    | cons a2 r2 ret2 rest2 =>
      simp only [sumService, Prod.mk.injEq] at r2
      obtain ⟨⟨-, rfl⟩, -⟩ := r2
      obtain ⟨r', h5, -⟩ := ret2
      cases h5

/-- After an error of the handler the server is gone. -/
theorem C58_error_violated : ¬ C58_for (·.oneway = false) (fun _ => True) := by
  intro h
  have hs : Sound sumSchema failService addMethod [(1, .int32 5)] :=
    ⟨rfl, by decide, sum_args 5, sum_resultDef, fun h as r h' hh => by simp [failService] at hh, fun h as r e h' hh => by
      simp only [failService, Prod.mk.injEq, Option.some.injEq] at hh
      rw [← hh.1.2]; decide⟩
  obtain ⟨rs, N, h1, h2⟩ := h (sv := failService) noFloats (fun _ => 0) 64 pipe_link sumSchema_ok
    (f := Bin.default) (i := Bin.default) (o := Bin.default) ⟨rfl, rfl, .inl rfl, .inl rfl⟩
    [(addMethod, [(1, .int32 5)]), (addMethod, [(1, .int32 5)])] ()
    (by
      intro c hc
      simp only [List.mem_cons, List.not_mem_nil, or_false] at hc
      rcases hc with rfl | rfl <;> exact hs)
    (by
      intro c hc
      simp only [List.mem_cons, List.not_mem_nil, or_false] at hc
      rcases hc with rfl | rfl <;> rfl) (fun _ _ _ => trivial)
  obtain ⟨c', x, h3⟩ := h2 (N + 10) (by omega) ([], []) ⟨rfl, rfl, rfl, rfl⟩
  have h4 : callResults ((callAll (Client.call binary sumSchema noFloats (fun _ => 0) 64 (N + 10))
      [(addMethod, [(1, .int32 5)]), (addMethod, [(1, .int32 5)])]).run
      (served pipeClient pipeServer (process binary binary sumSchema noFloats (fun _ => 0) 64 (N + 10) failService))
      (Client.ofFactory Bin.default) (some ⟨Bin.default, Bin.default, ()⟩, ([], []))) =
      some [(none, some ⟨.application, 6, ascii "Internal error processing add: no"⟩),
        (none, some ⟨.transport, 0, ascii "Cannot read. Remote side has closed."⟩)] := by kernel_rfl
  rw [h3] at h4
  cases h4
  cases h1 with
  | cons a r ret rest =>
    cases rest with
    | cons a2 r2 ret2 rest2 =>
      simp only [failService, Prod.mk.injEq] at r2
      obtain ⟨⟨-, rfl⟩, -⟩ := r2
      simp [Returned, addMethod] at ret2

theorem C58_violated : ¬ C58_statement := fun h =>
  C58_error_violated fun {_ _ _ _ _ _ _ _ _} L mem msd {_ _ _ _} K hS hc cs x h1 _ _ => h L mem msd K hS hc cs x h1 (fun _ _ => trivial) (fun _ _ _ => trivial)

/-- C58 for methods with a reply and handlers without errors, from any sequence
id on. -/
theorem C58_partial : C58_for (·.oneway = false) (· = none) := by
  intro σ η C V up down cbuf vbuf S L mem msd sv f i o K hS hc cs h h1 h2 h3
  obtain ⟨rs, N, h4, h5⟩ := binary_calls (L := L) (mem := mem) (msd := msd) K hS hc cs h fun c hc => ⟨h1 c hc, h2 c hc⟩
  refine ⟨rs, N, ?_, fun fuel hf t ht => h5 fuel hf 0 t ht⟩
  clear h1 h2 h5
  induction h4 with
  | nil => exact .nil _
  | cons a r ret _ ih => exact .cons a r ret ih
  | stop a r _ _ _ =>
    have h6 := congrArg (fun x => x.1.2) r
    rw [show _ = none from h3 _ _ _] at h6
    cases h6

/-- C58 for methods with a reply and any handler, up to and including its first
error, from any sequence id on. -/
theorem C58_error_partial {σ η : Type} {C V : Transport σ} {up down cbuf vbuf : σ → Bytes} {S : Schema} (L : FloatLib)
    (mem : List Nat → Nat) (msd : Int) {sv : Service η} {f i o : Bin} (K : Link C V up down cbuf vbuf) (hS : S.Ok)
    (hc : Compatible f i o) (cs : List (Method × Attrs)) (h : η) (h1 : ∀ c ∈ cs, Sound S sv c.1 c.2 ∧ c.1.oneway = false) :
    ∃ rs N, AnsweredUntilError S sv h cs rs ∧ ∀ fuel, N ≤ fuel → ∀ (n : I32) t, Settled up down cbuf vbuf t → ∃ c' x,
      (callAll (Client.call binary S L mem msd fuel) cs).run (served C V (process binary binary S L mem msd fuel sv))
        { Client.ofFactory f with seqId := n } (some ⟨i, o, h⟩, t) = (.ok (rs, c'), x) :=
  binary_calls K hS hc cs h h1

example (x y : I32) := C58_error_partial noFloats (fun _ => 0) 64 pipe_link sumSchema_ok (sv := sumService)
  (f := Bin.default) (i := Bin.default) (o := Bin.default) ⟨rfl, rfl, .inl rfl, .inl rfl⟩
  [(addMethod, [(1, .int32 x)]), (addMethod, [(1, .int32 y)])] 0
  (by
    intro c hc
    simp only [List.mem_cons, List.not_mem_nil, or_false] at hc
    rcases hc with rfl | rfl <;> exact ⟨add_sound _, rfl⟩)

/-! ## C59: sequence ids of replies -/

/-- C59.  Whatever follows the header of a message with another sequence id does
not matter to the caller: the call ends with an error that depends on the header
only. -/
def C59_statement : Prop :=
  ∀ {σ : Type} (T : Transport σ) (inn out buf : σ → Bytes) (S : Schema) (L : FloatLib) (mem : List Nat → Nat) (msd : Int) (m : Method)
    (c : Client Bin) (i : Bin) (strict : Bool) (name : Bytes) (ty q : I32),
    Endpoint T inn out buf → c.input = some i → name.length < 2 ^ 31 → ty.toNat < 256 →
    i.checkReadLength = false → (strict = true ∨ i.strictRead = false) → q ≠ c.seqId →
    ∃ e N, ∀ fuel, N ≤ fuel → ∀ t rest, inn t = BinarySpec.message strict name ty q ++ rest →
      ∃ c' t', (Client.recv binary S L mem msd fuel m).run T c t = (.ok ((none, some e), c'), t')

/-- An exception with another sequence id is handed to the caller. -/
theorem C59_violated : ¬ C59_statement := by
  intro h
  obtain ⟨e, N, h⟩ := h pipeClient (fun s => s.2) (fun s => s.1) (fun _ => []) sumSchema noFloats (fun _ => 0) 64 addMethod
    { Client.ofFactory Bin.default with seqId := 1 } Bin.default true (ascii "add") EXCEPTION 7 pipe_client rfl (by decide) (by decide) rfl
    (.inl rfl) (by decide)
  obtain ⟨c1, t1, h1⟩ := h (N + 10) (by omega) ([], _) (BinarySpec.encode (.struct (.cons 2 (.i32 1) .nil))) rfl
  obtain ⟨c2, t2, h2⟩ := h (N + 10) (by omega) ([], _) (BinarySpec.encode (.struct (.cons 2 (.i32 3) .nil))) rfl
  have h3 : ∃ c' t', (Client.recv binary sumSchema noFloats (fun _ => 0) 64 (N + 10) addMethod).run pipeClient
      { Client.ofFactory Bin.default with seqId := 1 }
      ([], BinarySpec.message true (ascii "add") EXCEPTION 7 ++ BinarySpec.encode (.struct (.cons 2 (.i32 1) .nil))) =
      (.ok ((none, some ⟨.application, 1, []⟩), c'), t') := ⟨_, _, rfl⟩
  have h4 : ∃ c' t', (Client.recv binary sumSchema noFloats (fun _ => 0) 64 (N + 10) addMethod).run pipeClient
      { Client.ofFactory Bin.default with seqId := 1 }
      ([], BinarySpec.message true (ascii "add") EXCEPTION 7 ++ BinarySpec.encode (.struct (.cons 2 (.i32 3) .nil))) =
      (.ok ((none, some ⟨.application, 3, []⟩), c'), t') := ⟨_, _, rfl⟩
  obtain ⟨_, _, h3⟩ := h3
  obtain ⟨_, _, h4⟩ := h4
  rw [h1] at h3
  rw [h2] at h4
  simp only [Prod.mk.injEq, Res.ok.injEq, Option.some.injEq, true_and] at h3 h4
  have := h3.1.1.symm.trans h4.1.1
  simp at this

/-- C59 for messages of all types but EXCEPTION; nothing after the header is
consumed. -/
theorem C59_partial {σ : Type} {T : Transport σ} {inn out buf : σ → Bytes} (S : Schema) (L : FloatLib) (mem : List Nat → Nat)
    (msd : Int) (fuel : Nat) (m : Method) (c : Client Bin) (i : Bin) (strict : Bool) (name : Bytes) (ty q : I32)
    (E : Endpoint T inn out buf) (hc : c.input = some i) (hn : name.length < 2 ^ 31) (hty : ty.toNat < 256)
    (hi : i.checkReadLength = false) (hs : strict = true ∨ i.strictRead = false) (hq : q ≠ c.seqId) (hx : ty ≠ EXCEPTION)
    (t : σ) (rest : Bytes) (ht : inn t = BinarySpec.message strict name ty q ++ rest) :
    ∃ t', (Client.recv binary S L mem msd fuel m).run T c t =
        (.ok ((none, some ⟨.application, 4, ascii "ping failed: out of sequence response"⟩), c), t') ∧ inn t' = rest := by
  obtain ⟨t1, e1, i1, -⟩ := E.takes (Bin.reads_header strict name ty q hn hty i hi hs) t rest ht
  refine ⟨t1, ?_, i1⟩
  have r0 : (Client.ensureInput : P (Client Bin) Unit).run T c t = (.ok ((), c), t) := by
    show (Client.ensureInput c : Prog _).run T t = _
    simp only [Client.ensureInput, hc]; rfl
  unfold Client.recv
  rw [P.run_bind, r0, andThen_ok, P.run_bind, Client.run_inp _ _ i hc, e1]
  have hc' : { c with input := some i } = c := by rw [← hc]
  simp only [putBack_ok, andThen_ok, Option.isSome_none, Bool.false_eq_true, if_false, if_neg hx, P.run_bind, P.run_get, hc',
    if_pos (Ne.symm hq), P.run_pure]
  rfl

example (rest : Bytes) := C59_partial sumSchema noFloats (fun _ => 0) 64 100 addMethod
  { Client.ofFactory Bin.default with seqId := 1 } Bin.default true (ascii "add") REPLY 7 pipe_client rfl (by decide) (by decide) rfl
    (.inl rfl) (by decide) (by decide) ([], _) rest rfl

/-! ## C60: clients made from protocols -/

/-- C60. -/
def C60_statement : Prop :=
  ∀ {σ : Type} (T : Transport σ) (inn out buf : σ → Bytes) (S : Schema) (m : Method) (a : Attrs) (i o : Bin),
    Endpoint T inn out buf → S.Ok → m.name.length < 2 ^ 31 → Fine S (.struct m.args) ((S.structs m.args).object 0 a) →
    ∃ N, ∀ fuel, N ≤ fuel → ∀ t, ∃ c' t', (Client.send binary S fuel m a).run T (Client.ofProtocols i o) t = (.ok (none, c'), t')

/-- Whatever the protocols, the transport and the call, the client panics. -/
theorem C60_always_violated {σ π : Type} (p : Proto π) (T : Transport σ) (S : Schema) (fuel : Nat) (m : Method) (a : Attrs) (i o : π)
    (t : σ) : (Client.send p S fuel m a).run T (Client.ofProtocols i o) t = (.panic, t) := rfl

theorem C60_violated : ¬ C60_statement := by
  intro h
  obtain ⟨N, h⟩ := h pipeClient (fun s => s.2) (fun s => s.1) (fun _ => []) sumSchema addMethod [(1, .int32 5)] Bin.default Bin.default
    pipe_client sumSchema_ok (by decide) (sum_args 5)
  obtain ⟨c', t', h⟩ := h N (Nat.le_refl _) ([], [])
  rw [C60_always_violated] at h
  cases h

/-- A client made from a factory sends its calls: header with the next sequence
id, the arguments, and nothing held back. -/
theorem C60_partial {σ : Type} {T : Transport σ} {inn out buf : σ → Bytes} {S : Schema} {m : Method} {a : Attrs}
    (E : Endpoint T inn out buf) (hS : S.Ok) (hn : m.name.length < 2 ^ 31)
    (ha : Fine S (.struct m.args) ((S.structs m.args).object 0 a)) (f : Bin) :
    ∃ fs N, fs.WF ∧ fs.Conforms S (S.structs m.args) ∧ ∀ fuel, N ≤ fuel → ∀ (n : I32) t, ∃ t',
      (Client.send binary S fuel m a).run T { Client.ofFactory f with seqId := n } t =
        (.ok (none, { Client.ofFactory f with seqId := n + 1 }), t') ∧ inn t' = inn t ∧
      out t' = out t ++ buf t ++ (BinarySpec.message f.strictWrite m.name CALL (n + 1) ++ BinarySpec.encode (.struct fs)) ∧
      buf t' = [] := by
  obtain ⟨fs, N, as', h1, h2, h3, -⟩ := args_tree (L := noFloats) (mem := fun _ => 0) hS ha
  refine ⟨fs, N, h2, h3, fun fuel hf n t => ?_⟩
  obtain ⟨t1, e1, i1, o1⟩ := E.puts (Bin.emits_header m.name CALL (n + 1) hn (by decide) f) t
  obtain ⟨t2, e2, i2, o2⟩ := E.puts (binary_writes f (h1 fuel hf) h2) t1
  obtain ⟨t3, e3, i3, o3, b3⟩ := E.flush t2
  refine ⟨t3, ?_, by rw [i3, i2, i1], by rw [o3, o2, o1]; simp, b3⟩
  have r0 : (Client.renewOutput : P (Client Bin) Unit).run T { Client.ofFactory f with seqId := n } t =
      (.ok ((), { Client.ofFactory f with seqId := n }), t) := rfl
  unfold Client.send
  rw [P.run_bind, r0, andThen_ok, P.run_bind, P.run_modify, andThen_ok, P.run_bind, P.run_get, andThen_ok, P.run_bind]
  rw [Client.run_out _ _ f rfl, e1]
  simp only [putBack_ok, andThen_ok]
  rw [P.run_bind, Client.run_out _ _ f rfl, e2]
  simp only [putBack_ok, andThen_ok]
  have hend : binary.writeMessageEnd.run T f t2 = (.ok (none, f), t2) := rfl
  rw [P.run_bind, Client.run_out _ _ f rfl, hend]
  simp only [putBack_ok, andThen_ok]
  rw [P.run_bind, P.run_tflush, e3]
  rfl

example (x : I32) (f : Bin) := C60_partial pipe_client sumSchema_ok (m := addMethod) (by decide) (sum_args x) f

end Thrift
