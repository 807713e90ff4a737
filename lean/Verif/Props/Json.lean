import Verif.Lemmas.JsonBase64
import Verif.Lemmas.JsonDry
import Verif.Lemmas.JsonPlain
import Verif.Lemmas.JsonTells
import Verif.Lemmas.KernelRfl
import Verif.Props.Binary
import Verif.Props.Failures
/-!
# Properties C66 to C78: the JSON protocols
-/

namespace Thrift
open JsonSpec JsonProtocol

variable {τ : Type}

/-! ## C66 the document -/

/-- C66.  For every value the tagged JSON protocol writes the document of the
format, reports no error and is ready for the next one; the document is a JSON value
if all strings are text. -/
theorem C66_tjson_document (E : JsonEnv τ) (hL : Lawful E.L) (v : Val) (hv : v.WF) (t : τ) (before : Bytes) :
    (writeVal (tjson E) v).run memory (Json.new t) before = (.ok (none, Json.new t), before ++ text E.L v) ∧
    (TextOnly v → IsValue (text E.L v)) :=
  ⟨(JsonW.emits_val E hL v (Json.new t) .toplevel [.toplevel] hv rfl).memory before, text_value hL v⟩

/-- The calls that write a message with a value. -/
def writeMessage (p : Proto π) (name : Bytes) (ty : TMessageType) (q : I32) (v : Val) : P π GoErr := do
  let e ← p.writeMessageBegin name ty q
  if e.isSome then return e
  let e ← writeVal p v
  if e.isSome then return e
  p.writeMessageEnd

/-- C66.  The same for messages. -/
theorem C66_tjson_message (E : JsonEnv τ) (hL : Lawful E.L) (name : Bytes) (ty : TMessageType) (q : I32) (v : Val) (hv : v.WF) (t : τ)
    (before : Bytes) :
    (writeMessage (tjson E) name ty q v).run memory (Json.new t) before =
      (.ok (none, Json.new t), before ++ message E.L name (ty.setWidth 8) q v) := by
  have h := Emits.seq (JsonR.emits_message (E := E) name ty q (Json.new t) .toplevel [.toplevel])
    (Emits.seq (JsonW.emits_val E hL v (Json.new t) .list [.toplevel, .toplevel] hv rfl)
      (JsonW.emits_end RBRACKET (Json.new t) .list .toplevel [.toplevel]))
  have := h.memory before
  refine Eq.trans this ?_
  simp [message, JsonW.sepOf, RBRACKET]
  rfl

example : Lawful JsonPlain.lib := JsonPlain.lawful

/-- The sample value of the binary protocol as a document. -/
theorem sample_text : text JsonPlain.lib sampleVal =
    ascii "{\"1\":{\"map\":[\"str\",\"lst\",1,\"hi\",[6,2,-2,7]]},\"300\":{\"tf\":true}}" := by
  have h := (C66_tjson_document (JsonPlain.env 9) JsonPlain.lawful sampleVal sampleVal_wf [] []).1
  have h' : (writeVal (tjson (JsonPlain.env 9)) sampleVal).run memory (Json.new []) [] = (.ok (none, Json.new []),
    ascii "{\"1\":{\"map\":[\"str\",\"lst\",1,\"hi\",[6,2,-2,7]]},\"300\":{\"tf\":true}}") := by kernel_rfl
  exact (congrArg Prod.snd (h.symm.trans h'))

/-! ## C70 type names -/

/-- C70.  Every type has its name, and the name stands for the type. -/
def C70_statement : Prop := ∀ t, IsWireType t → TJsonProtocol.stringToTypeId (TJsonProtocol.typeIdToString t) = t

/-- The name written for I16 is `i16`, the name recognised is `16`. -/
theorem C70_violated : ¬ C70_statement := fun h => absurd (h TT.I16 (by decide)) (by decide)

/-- What holds: every other type comes back. -/
theorem C70_partial : ∀ t, IsWireType t → t ≠ TT.I16 →
    TJsonProtocol.typeIdToString t = typeName t ∧ TJsonProtocol.stringToTypeId (TJsonProtocol.typeIdToString t) = t := by
  intro t ht h
  refine ⟨JsonW.typeIdToString_eq ht, ?_⟩
  rw [JsonW.typeIdToString_eq ht]
  exact JsonR.stringToTypeId_name ht h

example : IsWireType TT.I32 ∧ TT.I32 ≠ TT.I16 := by decide

/-! ## C67 round trip -/

/-- Reading the struct at the start of what the transport holds gives `v`, no
error, and leaves no text behind. -/
def ReadsBack (E : JsonEnv τ) (t : τ) (v : Val) : Prop :=
  ∀ n, v.size ≤ n → ∃ s', (readVal (tjson E) n v.type).run memory (Json.new t) [] = (.ok ((v, none), s'), []) ∧ s'.buf = []

/-- C67.  Every struct of text written by the tagged JSON protocol is read back. -/
def C67_statement : Prop :=
  ∀ (E : JsonEnv Bytes), E.T = memory → Lawful E.L → ∀ fs : Fields, fs.WF → TextOnlyF fs → OneNaNF fs →
    (text E.L (.struct fs)).length + 8 < E.fuel → ReadsBack E (text E.L (.struct fs)) (.struct fs)

/-- The error of a result. -/
def errorOf (r : Res ((α × GoErr) × π) × σ) : Option Err :=
  match r.1 with
  | .ok ((_, e), _) => e
  | _ => none

/-- The document that the writer gives. -/
theorem text_of_run (v : Val) (hv : v.WF) (doc : Bytes)
    (h : (writeVal (tjson (JsonPlain.env 9)) v).run memory (Json.new []) [] = (.ok (none, Json.new []), doc)) :
    text JsonPlain.lib v = doc := by
  have h' := (C66_tjson_document (JsonPlain.env 9) JsonPlain.lawful v hv [] []).1
  exact (congrArg Prod.snd (h'.symm.trans h))

/-- A struct with one field of type I16. -/
def shortField : Fields := .cons 1 (.i16 5) .nil

theorem shortField_text : text JsonPlain.lib (.struct shortField) = ascii "{\"1\":{\"i16\":5}}" :=
  text_of_run _ (by simp [shortField, Val.WF, Fields.WF]) _ (by kernel_rfl)

/-- A struct with a field of type I16 cannot be read back. -/
theorem C67_violated : ¬ C67_statement := by
  intro h
  obtain ⟨s', h1, _⟩ := h (JsonPlain.env 100) rfl JsonPlain.lawful shortField (by simp [shortField, Fields.WF, Val.WF])
    (by simp [shortField, TextOnlyF, TextOnly]) (by simp [shortField, OneNaNF, OneNaN])
    (by show (text JsonPlain.lib _).length + 8 < 100; rw [shortField_text]; decide) 10 (by decide)
  have h2 := congrArg errorOf h1
  have h3 : text (JsonPlain.env 100).L (.struct shortField) = ascii "{\"1\":{\"i16\":5}}" := shortField_text
  rw [h3] at h2
  have h4 : errorOf ((readVal (tjson (JsonPlain.env 100)) 10 TT.STRUCT).run memory (Json.new (ascii "{\"1\":{\"i16\":5}}")) []) =
    some invalid := by kernel_rfl
  exact nomatch h4.symm.trans h2

/-- What holds: structs without fields, keys or map values of type I16 are read
back if the document fits into the reader's buffer of 4096 bytes. -/
theorem C67_partial (E : JsonEnv Bytes) (hT : E.T = memory) (hL : Lawful E.L) (fs : Fields) (hw : fs.WF) (hr : ReadableF fs)
    (hlen : (text E.L (.struct fs)).length ≤ 4096) (hf : (text E.L (.struct fs)).length + 8 < E.fuel) :
    ReadsBack E (text E.L (.struct fs)) (.struct fs) := by
  have ha := JsonR.memory_arrives E hT (text E.L (.struct fs)) (by rw [text]; simp) hlen
  obtain ⟨s', hs', hd⟩ := JsonR.dec_document (E := E) hL fs hw hr (ws := []) (by simp) hf (by simpa using ha) (JsonR.memory_dry E hT)
  intro n hn
  have := (hd.readVal _ n hn).memory []
  rw [JsonR.readVal_textual] at this
  exact ⟨s', by simpa using this, hs'.buf⟩

theorem sample_readable : Readable sampleVal :=
  ⟨by decide, ⟨by decide, by decide, .one _ _ (by decide) (.one _ _ (by decide) .nil), ⟨trivial, trivial, trivial⟩, trivial⟩,
    by decide, trivial, trivial⟩

/-- The sample value is read back from its document. -/
example : ∃ s', (readVal (tjson (JsonPlain.env 100)) 30 TT.STRUCT).run memory
    (Json.new (ascii "{\"1\":{\"map\":[\"str\",\"lst\",1,\"hi\",[6,2,-2,7]]},\"300\":{\"tf\":true}}")) [] =
      (.ok ((sampleVal, none), s'), []) ∧ s'.buf = [] := by
  rw [← sample_text]
  exact C67_partial (JsonPlain.env 100) rfl JsonPlain.lawful _ sampleVal_wf sample_readable
    (by show (text JsonPlain.lib sampleVal).length ≤ 4096; rw [sample_text]; decide +kernel)
    (by show (text JsonPlain.lib sampleVal).length + 8 < 100; rw [sample_text]; decide +kernel) 30 (by decide)

/-- A struct whose first member ends where the reader's buffer ends. -/
def longField : Fields := .cons 1 (.str (List.replicate 4081 97)) (.cons 2 (.bool true) .nil)

theorem longField_wf : longField.WF := by
  refine ⟨?_, trivial, trivial⟩
  show (List.replicate 4081 97).length < _
  rw [List.length_replicate]; decide

set_option maxRecDepth 100000 in
theorem longField_text : text JsonPlain.lib (.struct longField) =
    ascii "{\"1\":{\"str\":\"" ++ (List.replicate 4081 97 ++ ascii "\"},\"2\":{\"tf\":true}}") :=
  text_of_run (.struct longField) longField_wf _ (by kernel_rfl)

theorem longField_ascii : ∀ n : Nat, Utf8 (List.replicate n 97)
  | 0 => .nil
  | n + 1 => .one _ _ (by decide) (longField_ascii n)

set_option maxRecDepth 100000 in
/-- A struct without I16 whose document is longer than the buffer, and is not
read back. -/
theorem C67_long_violated : ∃ fs : Fields, fs.WF ∧ ReadableF fs ∧
    ¬ ReadsBack (JsonPlain.env 5000) (text JsonPlain.lib (.struct fs)) (.struct fs) := by
  refine ⟨longField, longField_wf, ⟨by decide, longField_ascii 4081, by decide, trivial, trivial⟩, fun h => ?_⟩
  obtain ⟨s', h1, _⟩ := h 10 (by decide)
  have h2 := congrArg errorOf h1
  rw [longField_text] at h2
  have h4 : errorOf ((readVal (tjson (JsonPlain.env 5000)) 10 TT.STRUCT).run memory
      (Json.new (ascii "{\"1\":{\"str\":\"" ++ (List.replicate 4081 97 ++ ascii "\"},\"2\":{\"tf\":true}}"))) []) = some invalid := by
    kernel_rfl
  exact nomatch h4.symm.trans h2

/-! ## C68 messages -/

/-- The calls that read a message with a struct. -/
def readMessage (p : Proto π) (n : Nat) : P π ((Bytes × TMessageType × I32) × Val × GoErr) := do
  let (h, e) ← p.readMessageBegin
  if e.isSome then return (h, .bool false, e)
  let (v, e) ← readVal p n TT.STRUCT
  if e.isSome then return (h, v, e)
  return (h, v, ← p.readMessageEnd)

/-- Reading the message at the start of what the transport holds gives what was
written, no error, and leaves no text behind. -/
def MessageBack (E : JsonEnv τ) (t : τ) (name : Bytes) (ty : TMessageType) (q : I32) (v : Val) : Prop :=
  ∀ n, v.size ≤ n → ∃ s', (readMessage (tjson E) n).run memory (Json.new t) [] = (.ok (((name, ty, q), v, none), s'), []) ∧ s'.buf = []

/-- C68.  Every message with a struct of text is read back. -/
def C68_statement : Prop :=
  ∀ (E : JsonEnv Bytes), E.T = memory → Lawful E.L → ∀ (name : Bytes) (ty : Byte) (q : I32) (fs : Fields), Utf8 name → fs.WF →
    TextOnlyF fs → OneNaNF fs → (message E.L name ty q (.struct fs)).length + 8 < E.fuel →
    MessageBack E (message E.L name ty q (.struct fs)) name (ty.setWidth 32) q (.struct fs)

/-- The error of a message read. -/
def messageError (r : Res ((α × β × GoErr) × π) × σ) : Option Err :=
  match r.1 with
  | .ok ((_, _, e), _) => e
  | _ => none

theorem message_of_run (name : Bytes) (ty : Byte) (q : I32) (v : Val) (hv : v.WF) (doc : Bytes)
    (h : (writeMessage (tjson (JsonPlain.env 9)) name (ty.setWidth 32) q v).run memory (Json.new []) [] = (.ok (none, Json.new []), doc)) :
    message JsonPlain.lib name ty q v = doc := by
  have h' := C66_tjson_message (JsonPlain.env 9) JsonPlain.lawful name (ty.setWidth 32) q v hv [] []
  have e : (ty.setWidth 32).setWidth 8 = ty := by simp
  rw [e] at h'
  exact (congrArg Prod.snd (h'.symm.trans h))

theorem shortMessage : message JsonPlain.lib (ascii "f") 1 0 (.struct shortField) = ascii "[1,\"f\",1,0,{\"1\":{\"i16\":5}}]" :=
  message_of_run _ _ _ _ (by simp [shortField, Val.WF, Fields.WF]) _ (by kernel_rfl)

/-- A message with a field of type I16 cannot be read back. -/
theorem C68_violated : ¬ C68_statement := by
  intro h
  obtain ⟨s', h1, _⟩ := h (JsonPlain.env 100) rfl JsonPlain.lawful (ascii "f") 1 0 shortField (.one _ _ (by decide) .nil)
    (by simp [shortField, Fields.WF, Val.WF]) (by simp [shortField, TextOnlyF, TextOnly]) (by simp [shortField, OneNaNF, OneNaN])
    (by show (message JsonPlain.lib _ _ _ _).length + 8 < 100; rw [shortMessage]; decide) 10 (by decide)
  have h2 := congrArg messageError h1
  have h3 : message (JsonPlain.env 100).L (ascii "f") 1 0 (.struct shortField) = _ := shortMessage
  rw [h3] at h2
  have h4 : messageError ((readMessage (tjson (JsonPlain.env 100)) 10).run memory
    (Json.new (ascii "[1,\"f\",1,0,{\"1\":{\"i16\":5}}]")) []) = some invalid := by kernel_rfl
  exact nomatch h4.symm.trans h2

theorem message_back (E : JsonEnv τ) (hL : Lawful E.L) (t t' : τ) (name : Bytes) (hn : Utf8 name) (ty : Byte) (q : I32) (fs : Fields)
    (hw : fs.WF) (hr : ReadableF fs) (hf : (message E.L name ty q (.struct fs)).length + 8 < E.fuel)
    (h : JsonR.Arrives E t (message E.L name ty q (.struct fs)) t') (hd : fs ≠ .nil ∨ JsonR.Dry E t') :
    MessageBack E t name (ty.setWidth 32) q (.struct fs) := by
  obtain ⟨s₁, s₂, s₃, r₁, r₂, r₃, hs⟩ := JsonR.dec_message (E := E) hL hn ty q fs hw hr hf h hd
  intro n hs'
  have r₂' := Dec.readVal _ n hs' r₂
  rw [JsonR.readVal_textual] at r₂'
  have e₁ := r₁.memory []
  have e₂ := r₂'.memory []
  have e₃ := r₃.memory []
  simp only [List.append_nil] at e₁ e₂ e₃
  refine ⟨s₃, ?_, hs.buf⟩
  rw [readMessage, P.run_bind, e₁]
  simp only [andThen_ok, Option.isSome_none, Bool.false_eq_true, if_false, P.run_bind]
  rw [show (Val.struct fs).type = TT.STRUCT from rfl] at e₂
  rw [e₂]
  simp only [andThen_ok, Option.isSome_none, Bool.false_eq_true, if_false, P.run_bind]
  rw [e₃]
  simp

/-- What holds: messages without fields, keys or map values of type I16 are read
back if they fit into the reader's buffer of 4096 bytes. -/
theorem C68_partial (E : JsonEnv Bytes) (hT : E.T = memory) (hL : Lawful E.L) (name : Bytes) (ty : Byte) (q : I32) (fs : Fields)
    (hn : Utf8 name) (hw : fs.WF) (hr : ReadableF fs) (hlen : (message E.L name ty q (.struct fs)).length ≤ 4096)
    (hf : (message E.L name ty q (.struct fs)).length + 8 < E.fuel) :
    MessageBack E (message E.L name ty q (.struct fs)) name (ty.setWidth 32) q (.struct fs) :=
  message_back E hL _ _ name hn ty q fs hw hr hf (JsonR.memory_arrives E hT _ (by simp [message]) hlen) (Or.inr (JsonR.memory_dry E hT))

theorem sampleMessage : message JsonPlain.lib (ascii "f") 1 7 sampleVal =
    ascii "[1,\"f\",1,7,{\"1\":{\"map\":[\"str\",\"lst\",1,\"hi\",[6,2,-2,7]]},\"300\":{\"tf\":true}}]" :=
  message_of_run _ _ _ _ sampleVal_wf _ (by kernel_rfl)

/-- The sample value in a call is read back. -/
example : MessageBack (JsonPlain.env 200) (message JsonPlain.lib (ascii "f") 1 7 sampleVal) (ascii "f") 1 7 sampleVal :=
  C68_partial (JsonPlain.env 200) rfl JsonPlain.lawful (ascii "f") 1 7 _ (.one _ _ (by decide) .nil) sampleVal_wf sample_readable
    (by show (message JsonPlain.lib _ 1 7 sampleVal).length ≤ 4096; rw [sampleMessage]; decide +kernel)
    (by show (message JsonPlain.lib _ 1 7 sampleVal).length + 8 < 200; rw [sampleMessage]; decide +kernel)

/-! ## C69 chunks -/

/-- A transport that delivers the given pieces, one per read, then end of file. -/
def pieces : Transport (List Bytes) where
  read n s := match s with
    | [] => (.ok ([], some ioEOF), [])
    | c :: r => if c.length ≤ n then (.ok (c, none), r) else (.ok (c.take n, none), c.drop n :: r)
  write bs s := (.ok (bs.length, none), s)
  flush s := (.ok none, s)

/-- C69.  How the bytes of a document are cut into reads does not matter. -/
def C69_statement : Prop :=
  ∀ (E : JsonEnv (List Bytes)), E.T = pieces → Lawful E.L → ∀ fs : Fields, fs.WF → ReadableF fs →
    (text E.L (.struct fs)).length ≤ 4096 → (text E.L (.struct fs)).length + 8 < E.fuel →
    ∀ cs : List Bytes, [] ∉ cs → cs.flatten = text E.L (.struct fs) → ReadsBack E cs (.struct fs)

/-- A struct with one integer. -/
def oneInt : Fields := .cons 1 (.i32 5) .nil

theorem oneInt_text : text JsonPlain.lib (.struct oneInt) = ascii "{\"1\":{\"i32\":5}}" :=
  text_of_run _ (by simp [oneInt, Val.WF, Fields.WF]) _ (by kernel_rfl)

/-- An environment over pieces. -/
def piecesEnv : JsonEnv (List Bytes) := ⟨pieces, JsonPlain.lib, fun _ => List.replicate 8 0, 100⟩

/-- A document that comes byte by byte is not read. -/
theorem C69_violated : ¬ C69_statement := by
  intro h
  obtain ⟨s', h1, _⟩ := h piecesEnv rfl JsonPlain.lawful oneInt (by simp [oneInt, Fields.WF, Val.WF])
    (by simp [oneInt, ReadableF, Readable, Val.type])
    (by show (text JsonPlain.lib _).length ≤ 4096; rw [oneInt_text]; decide)
    (by show (text JsonPlain.lib _).length + 8 < 100; rw [oneInt_text]; decide)
    ((ascii "{\"1\":{\"i32\":5}}").map fun b => [b]) (by decide) (by
      show _ = text JsonPlain.lib _
      rw [oneInt_text]; decide) 10 (by decide)
  have h2 := congrArg errorOf h1
  have h4 : (errorOf ((readVal (tjson piecesEnv) 10 TT.STRUCT).run memory
    (Json.new ((ascii "{\"1\":{\"i32\":5}}").map fun b => [b])) [])).isSome = true := by kernel_rfl
  exact nomatch h4.symm.trans (congrArg Option.isSome h2)

/-- What holds: over any transport that delivers the whole document with the first
read. -/
theorem C69_partial (E : JsonEnv τ) (hL : Lawful E.L) (fs : Fields) (hw : fs.WF) (hr : ReadableF fs)
    (hf : (text E.L (.struct fs)).length + 8 < E.fuel) (t t' : τ)
    (hfirst : E.T.read 4096 t = (.ok (text E.L (.struct fs), none), t'))
    (hnext : ∀ n, 0 < n → E.T.read n t' = (.ok ([], some ioEOF), t')) : ReadsBack E t (.struct fs) := by
  obtain ⟨s', hs', hd⟩ := JsonR.dec_document (E := E) hL fs hw hr (ws := []) (by simp) hf
    (by rw [List.append_nil]; exact ⟨hfirst, Or.inr hnext⟩) hnext
  intro n hn
  have := (Dec.readVal _ n hn hd).memory []
  rw [JsonR.readVal_textual] at this
  exact ⟨s', by simpa using this, hs'.buf⟩

example : ReadsBack piecesEnv [ascii "{\"1\":{\"i32\":5}}"] (.struct oneInt) :=
  C69_partial piecesEnv JsonPlain.lawful oneInt (by simp [oneInt, Fields.WF, Val.WF]) (by simp [oneInt, ReadableF, Readable, Val.type])
    (by show (text JsonPlain.lib _).length + 8 < 100; rw [oneInt_text]; decide) _ []
    (by show _ = (Res.ok (text JsonPlain.lib _, none), []); rw [oneInt_text]; rfl) (fun n h => rfl)

/-! ## C71 white space -/

/-- C71.  White space around the document does not matter. -/
def C71_statement : Prop :=
  ∀ (E : JsonEnv Bytes), E.T = memory → Lawful E.L → ∀ fs : Fields, fs.WF → ReadableF fs →
    ∀ a b : Bytes, (∀ x ∈ a ++ b, x = 32 ∨ x = 9 ∨ x = 10 ∨ x = 13) → (a ++ text E.L (.struct fs) ++ b).length ≤ 4096 →
    (text E.L (.struct fs)).length + 8 < E.fuel → ReadsBack E (a ++ text E.L (.struct fs) ++ b) (.struct fs)

/-- A document with white space before it is not read. -/
theorem C71_violated : ¬ C71_statement := by
  intro h
  obtain ⟨s', h1, _⟩ := h (JsonPlain.env 100) rfl JsonPlain.lawful oneInt (by simp [oneInt, Fields.WF, Val.WF])
    (by simp [oneInt, ReadableF, Readable, Val.type]) [32] [] (by simp)
    (by show ([32] ++ text JsonPlain.lib _ ++ []).length ≤ 4096; rw [oneInt_text]; decide)
    (by show (text JsonPlain.lib _).length + 8 < 100; rw [oneInt_text]; decide) 10 (by decide)
  have h2 := congrArg errorOf h1
  have h3 : text (JsonPlain.env 100).L (.struct oneInt) = _ := oneInt_text
  rw [h3] at h2
  have h4 : errorOf ((readVal (tjson (JsonPlain.env 100)) 10 TT.STRUCT).run memory
    (Json.new ([32] ++ ascii "{\"1\":{\"i32\":5}}" ++ [])) []) = some invalid := by kernel_rfl
  exact nomatch h4.symm.trans h2

/-- What holds: white space after the document is taken with it. -/
theorem C71_partial (E : JsonEnv Bytes) (hT : E.T = memory) (hL : Lawful E.L) (fs : Fields) (hw : fs.WF) (hr : ReadableF fs)
    (b : Bytes) (hb : ∀ x ∈ b, x = 32 ∨ x = 9 ∨ x = 10 ∨ x = 13) (hlen : (text E.L (.struct fs) ++ b).length ≤ 4096)
    (hf : (text E.L (.struct fs)).length + 8 < E.fuel) : ReadsBack E (text E.L (.struct fs) ++ b) (.struct fs) := by
  have ha := JsonR.memory_arrives E hT (text E.L (.struct fs) ++ b) (by rw [text]; simp) hlen
  obtain ⟨s', hs', hd⟩ := JsonR.dec_document (E := E) hL fs hw hr (ws := b)
    (fun x hx => by rcases hb x hx with rfl | rfl | rfl | rfl <;> rfl) hf ha (JsonR.memory_dry E hT)
  intro n hn
  have := (Dec.readVal _ n hn hd).memory []
  rw [JsonR.readVal_textual] at this
  exact ⟨s', by simpa using this, hs'.buf⟩

example : ReadsBack (JsonPlain.env 100) (text JsonPlain.lib (.struct oneInt) ++ [32, 10]) (.struct oneInt) :=
  C71_partial (JsonPlain.env 100) rfl JsonPlain.lawful oneInt (by simp [oneInt, Fields.WF, Val.WF])
    (by simp [oneInt, ReadableF, Readable, Val.type]) _ (by simp)
    (by show (text JsonPlain.lib _ ++ _).length ≤ 4096; rw [oneInt_text]; decide)
    (by show (text JsonPlain.lib _).length + 8 < 100; rw [oneInt_text]; decide)

/-! ## C72 skipping -/

/-- Skipping the struct at the start of what the transport holds gives no error and
leaves no text behind. -/
def Skips (E : JsonEnv τ) (t : τ) (v : Val) : Prop :=
  ∀ (msd d : Int) (n : Nat), v.size ≤ n → ∃ s', (skip (tjson E) msd n v.type d).run memory (Json.new t) [] = (.ok (none, s'), []) ∧ s'.buf = []

/-- C72.  Every struct of text can be skipped. -/
def C72_statement : Prop :=
  ∀ (E : JsonEnv Bytes), E.T = memory → Lawful E.L → ∀ fs : Fields, fs.WF → TextOnlyF fs → OneNaNF fs →
    (text E.L (.struct fs)).length + 8 < E.fuel → Skips E (text E.L (.struct fs)) (.struct fs)

/-- The error that is the only result. -/
def skipError (r : Res (GoErr × π) × σ) : Option Err :=
  match r.1 with
  | .ok (e, _) => e
  | _ => none

/-- A struct with a field of type I16 cannot be skipped. -/
theorem C72_violated : ¬ C72_statement := by
  intro h
  obtain ⟨s', h1, _⟩ := h (JsonPlain.env 100) rfl JsonPlain.lawful shortField (by simp [shortField, Fields.WF, Val.WF])
    (by simp [shortField, TextOnlyF, TextOnly]) (by simp [shortField, OneNaNF, OneNaN])
    (by show (text JsonPlain.lib _).length + 8 < 100; rw [shortField_text]; decide) 64 64 10 (by decide)
  have h2 := congrArg skipError h1
  have h3 : text (JsonPlain.env 100).L (.struct shortField) = _ := shortField_text
  rw [h3] at h2
  have h4 : skipError ((skip (tjson (JsonPlain.env 100)) 64 10 TT.STRUCT 64).run memory
    (Json.new (ascii "{\"1\":{\"i16\":5}}")) []) = some invalid := by kernel_rfl
  exact nomatch h4.symm.trans h2

/-- What holds: structs as in `C67_partial`. -/
theorem C72_partial (E : JsonEnv Bytes) (hT : E.T = memory) (hL : Lawful E.L) (fs : Fields) (hw : fs.WF) (hr : ReadableF fs)
    (hlen : (text E.L (.struct fs)).length ≤ 4096) (hf : (text E.L (.struct fs)).length + 8 < E.fuel) :
    Skips E (text E.L (.struct fs)) (.struct fs) := by
  have ha := JsonR.memory_arrives E hT (text E.L (.struct fs)) (by rw [text]; simp) hlen
  obtain ⟨s', hs', hd⟩ := JsonR.dec_document (E := E) hL fs hw hr (ws := []) (by simp) hf (by simpa using ha) (JsonR.memory_dry E hT)
  intro msd d n hn
  have := (Dec.skip msd _ n d hn hd).memory []
  rw [JsonR.skip_textual] at this
  exact ⟨s', by simpa using this, hs'.buf⟩

example : Skips (JsonPlain.env 100) (text JsonPlain.lib sampleVal) sampleVal :=
  C72_partial (JsonPlain.env 100) rfl JsonPlain.lawful _ sampleVal_wf sample_readable
    (by show (text JsonPlain.lib sampleVal).length ≤ 4096; rw [sample_text]; decide +kernel)
    (by show (text JsonPlain.lib sampleVal).length + 8 < 100; rw [sample_text]; decide +kernel)

/-! ## C73 the end of the data -/

/-- C73.  A read call that finds no more data reports an error. -/
def C73_statement : Prop :=
  ∀ (E : JsonEnv Bytes), E.T = memory → 2 ≤ E.fuel → ∀ call : FetchCall,
    ∃ e s', ((tjson E).fetch call).run memory (Json.new []) [] = (.ok (some e, s'), [])

/-- `ReadBool` gives `false` and `ReadFieldBegin` the end of the struct. -/
theorem C73_violated : ¬ C73_statement ∧
    (∃ s', ((tjson (JsonPlain.env 9)).readBool).run memory (Json.new []) [] = (.ok ((false, none), s'), [])) ∧
    ∃ s', ((tjson (JsonPlain.env 9)).readFieldBegin).run memory (Json.new []) [] = (.ok ((([], TT.STOP, -1), none), s'), []) := by
  refine ⟨fun h => ?_, ⟨Json.new [], by kernel_rfl⟩, ⟨Json.new [], by kernel_rfl⟩⟩
  obtain ⟨e, s', h⟩ := h (JsonPlain.env 9) rfl (by decide) .bool
  have h' : skipError (((tjson (JsonPlain.env 9)).fetch .bool).run memory (Json.new []) []) = none := by kernel_rfl
  rw [h] at h'
  exact nomatch h'

/-- What holds: every other call reports an error, over any transport at its end and
in any context. -/
theorem C73_partial (E : JsonEnv τ) (t : τ) (hend : ∀ n, 0 < n → E.T.read n t = (.ok ([], some ioEOF), t)) (hf : 2 ≤ E.fuel)
    (s : Json τ) (hs : s.t = t) (hb : s.buf = []) (he : s.err = none) (hp : s.parse ≠ []) (call : FetchCall) (h1 : call ≠ .bool)
    (h2 : call ≠ .fieldBegin) (T : Transport σ) (x : σ) : ∃ e, ((tjson E).fetch call).run T s x = (.ok (some e, s), x) := by
  obtain ⟨p, d, b, er, tt⟩ := s
  simp only at hs hb he hp
  subst hs hb he
  cases p with
  | nil => exact absurd rfl hp
  | cons c pc =>
    obtain ⟨e, h⟩ := JsonR.fetch_dry (E := E) hend hf c pc d call h1 h2
    refine ⟨e, ?_⟩
    have h' : (tjson E).fetch call ⟨c :: pc, d, [], none, tt⟩ = _ := h
    simp only [P.run, h', Prog.run]
    rfl

example : ∃ e, ((tjson (JsonPlain.env 9)).fetch .string).run memory (Json.new []) [] = (.ok (some e, Json.new []), []) :=
  C73_partial (JsonPlain.env 9) [] (JsonR.memory_dry _ rfl) (by decide) _ rfl rfl rfl (by simp [Json.new]) _ (by decide) (by decide) _ _

/-! ## C75 nothing beyond the message -/

/-- A connection on which one message arrives and then nothing, so that a further
read waits. -/
def oneMessage : Transport (Option Bytes) where
  read n s := match s with
    | none => (.stuck, none)
    | some d => (.ok (d.take n, none), none)
  write bs s := (.ok (bs.length, none), s)
  flush s := (.ok none, s)

/-- C75.  A message is read without waiting for anything after it. -/
def C75_statement : Prop :=
  ∀ (E : JsonEnv (Option Bytes)), E.T = oneMessage → Lawful E.L → ∀ (name : Bytes) (ty : Byte) (q : I32) (fs : Fields), Utf8 name → fs.WF →
    ReadableF fs → (message E.L name ty q (.struct fs)).length ≤ 4096 → (message E.L name ty q (.struct fs)).length + 8 < E.fuel →
    MessageBack E (some (message E.L name ty q (.struct fs))) name (ty.setWidth 32) q (.struct fs)

def oneMessageEnv : JsonEnv (Option Bytes) := ⟨oneMessage, JsonPlain.lib, fun _ => List.replicate 8 0, 100⟩

theorem emptyMessage : message JsonPlain.lib (ascii "f") 1 0 (.struct .nil) = ascii "[1,\"f\",1,0,{}]" :=
  message_of_run _ _ _ (.struct .nil) trivial _ (by kernel_rfl)

/-- Whether the run waits. -/
def waits (r : Res α × σ) : Bool :=
  match r.1 with
  | .stuck => true
  | _ => false

/-- A call without arguments waits for more. -/
theorem C75_violated : ¬ C75_statement := by
  intro h
  obtain ⟨s', h1, _⟩ := h oneMessageEnv rfl JsonPlain.lawful (ascii "f") 1 0 .nil (.one _ _ (by decide) .nil) trivial trivial
    (by show (message JsonPlain.lib _ _ _ _).length ≤ 4096; rw [emptyMessage]; decide)
    (by show (message JsonPlain.lib _ _ _ _).length + 8 < 100; rw [emptyMessage]; decide) 10 (by decide)
  have h2 := congrArg waits h1
  have h3 : message oneMessageEnv.L (ascii "f") 1 0 (.struct .nil) = _ := emptyMessage
  rw [h3] at h2
  have h4 : waits ((readMessage (tjson oneMessageEnv) 10).run memory (Json.new (some (ascii "[1,\"f\",1,0,{}]"))) []) = true := by
    kernel_rfl
  exact nomatch h4.symm.trans h2

/-- What holds: messages whose struct has a field. -/
theorem C75_partial (E : JsonEnv (Option Bytes)) (hT : E.T = oneMessage) (hL : Lawful E.L) (name : Bytes) (ty : Byte) (q : I32)
    (fs : Fields) (hn : Utf8 name) (hw : fs.WF) (hr : ReadableF fs) (hlen : (message E.L name ty q (.struct fs)).length ≤ 4096)
    (hf : (message E.L name ty q (.struct fs)).length + 8 < E.fuel) (hne : fs ≠ .nil) :
    MessageBack E (some (message E.L name ty q (.struct fs))) name (ty.setWidth 32) q (.struct fs) := by
  refine message_back E hL _ none name hn ty q fs hw hr hf ⟨?_, Or.inl ?_⟩ (Or.inl hne)
  · rw [hT]
    simp only [oneMessage, bufSize]
    rw [List.take_of_length_le hlen]
  · simp [message]; omega

example : MessageBack oneMessageEnv (some (message JsonPlain.lib (ascii "f") 1 7 sampleVal)) (ascii "f") 1 7 sampleVal :=
  C75_partial oneMessageEnv rfl JsonPlain.lawful (ascii "f") 1 7 _ (.one _ _ (by decide) .nil) sampleVal_wf sample_readable
    (by show (message JsonPlain.lib _ 1 7 sampleVal).length ≤ 4096; rw [sampleMessage]; decide +kernel)
    (by show (message JsonPlain.lib _ 1 7 sampleVal).length + 8 < 100; rw [sampleMessage]; decide +kernel) (by simp)

/-! ## C76 write failures -/

/-- C76.  No failed write on the transport goes unreported. -/
def C76_statement : Prop :=
  ∀ (E : JsonEnv Bytes) (call : WriteCall), Reported id ((simpleJson E).perform call) ∧ Reported id ((tjson E).perform call)

/-- Writes fail. -/
def noWrites : Transport Unit where
  read _ s := (.ok ([], some ioEOF), s)
  write _ s := (.ok (0, some ⟨.other, 0, ascii "no"⟩), s)
  flush s := (.ok none, s)

/-- `WriteBinary` of the tagged protocol drops errors. -/
theorem C76_violated : ¬ C76_statement := by
  intro h
  have := (h (JsonPlain.env 9) (.binary [])).2 noWrites (Json.new []) (Json.new []) () () none true (by kernel_rfl) rfl
  exact absurd this (by decide)

/-- What holds: all calls of the simple protocol and all but `WriteBinary` of the
tagged one. -/
theorem C76_partial (E : JsonEnv τ) (call : WriteCall) : Reported id ((simpleJson E).perform call) ∧
    ((∀ v, call ≠ .binary v) → Reported id ((tjson E).perform call)) := by
  have ht (h : ∀ v, call ≠ .binary v) : P.Tells id ((tjson E).perform call) := by
    have := (JsonT.tagged_tells E).perform call
    cases call
    case binary v => exact absurd rfl (h v)
    all_goals exact this
  exact ⟨((JsonT.simple_tells E).perform call).reported, fun h => (ht h).reported⟩

/-- A failed write is met and reported. -/
example : (callResults (((tjson (JsonPlain.env 9)).perform (.bool true)).run (watched noWrites) (Json.new []) ((), false))).map
    Option.isSome = some true := by kernel_rfl

/-! ## C77 binary data -/

/-- C77.  Both protocols write binary data as a string in base64, and `ReadBinary`
gives it back, whatever follows after a comma or a closing bracket. -/
theorem C77_binary_roundtrip (E : JsonEnv Bytes) (hT : E.T = memory) (hf : 2 ≤ E.fuel) (v : Bytes) : ∃ doc,
    (∀ t before, ((simpleJson E).writeBinary v).run memory (Json.newSimple t) before = (.ok (none, Json.newSimple t), before ++ doc)) ∧
    (∀ t before, ((tjson E).writeBinary v).run memory (Json.new t) before = (.ok (none, Json.new t), before ++ doc)) ∧
    (IsString doc) ∧
    ∀ d rest, d = 44 ∨ d = 93 ∨ d = 125 → (doc ++ d :: rest).length ≤ 4096 →
      ∃ s', ((tjson E).readBinary).run memory (Json.new (doc ++ d :: rest)) [] = (.ok ((v, none), s'), []) ∧ s'.buf = d :: rest := by
  refine ⟨JsonB.base64Text v, fun t before => ?_, fun t before => ?_, ?_, fun d rest hd hlen => ?_⟩
  · exact (JsonB.emits_binary (E := E) v (Json.newSimple t) .toplevel []).memory before
  · exact (JsonB.emits_tbinary (E := E) v (Json.new t) .toplevel [.toplevel]).memory before
  · refine ⟨b64encode v, rfl, JsonB.clean_chars (JsonB.encode_clean v)⟩
  · have ha := JsonR.memory_arrives E hT (JsonB.base64Text v ++ d :: rest) (by simp) hlen
    have ht : JsonR.Tight (JsonB.base64Text v ++ d :: rest) := JsonR.Tight.cons rfl
    obtain ⟨er, _, h⟩ := JsonB.gets_binary (E := E) (t := ([] : Bytes)) (c := .toplevel) (pc := [.toplevel]) (rest := d :: rest) v (by omega)
      ⟨⟨d, rest, rfl, by rcases hd with h | h | h <;> simp [JsonR.Delim, h]⟩, Or.inr (JsonR.memory_dry E hT)⟩ [.toplevel, .toplevel] none
    refine ⟨⟨[.toplevel, .toplevel], [.toplevel, .toplevel], d :: rest, er, []⟩, ?_, rfl⟩
    have h' : (tjson E).readBinary (Json.new (JsonB.base64Text v ++ d :: rest)) = _ :=
      (JsonR.begin_first (E := E) ha ht [.toplevel] [.toplevel, .toplevel] hf _ _).trans h
    simp only [P.run, h', Prog.run]
    rfl

example : JsonB.base64Text (ascii "hi!") = ascii "\"aGkh\"" := by decide +kernel

/-! ## C74 integers -/

/-- C74.  Text that is not the decimal form of a 32-bit integer is rejected by
`ReadI32`. -/
def C74_statement : Prop :=
  ∀ (E : JsonEnv Bytes), E.T = memory → Lawful E.L → ∀ x : Bytes, x ≠ [] → (∀ b ∈ x, b ∉ ascii " \t\n\r\",:]}\x00") →
    x ≠ ascii "null" → (∀ n : I32, x ≠ decimal n.toInt) → ∀ d, d = 44 ∨ d = 93 ∨ d = 125 →
    x.length + 8 < E.fuel → x.length < 4096 → ∃ e s', ((tjson E).fetch .i32).run memory (Json.new (x ++ [d])) [] = (.ok (some e, s'), [])

/-- Fractions are cut off, numbers that are too large become others: `4294967297`
is read as 1 without an error. -/
theorem C74_violated : ¬ C74_statement ∧
    ((tjson (JsonPlain.env 100)).readI32).run memory (Json.new (ascii "4294967297]")) [] =
      (.ok ((1, none), { Json.new [] with buf := [93] }), []) := by
  have hr : ((tjson (JsonPlain.env 100)).readI32).run memory (Json.new (ascii "4294967297]")) [] =
      (.ok ((1, none), { Json.new [] with buf := [93] }), []) := by kernel_rfl
  refine ⟨fun h => ?_, hr⟩
  obtain ⟨e, s', h⟩ := h (JsonPlain.env 100) rfl JsonPlain.lawful (ascii "4294967297") (by decide) (by decide) (by decide) (fun n hn => by
      have h1 := JsonR.decimalValue_decimal n.toInt
      rw [← hn] at h1
      have h2 : decimalValue (ascii "4294967297") = some 4294967297 := by decide +kernel
      rw [h2, Option.some_inj] at h1
      have := n.toInt_lt
      omega) 93 (by decide) (by decide) (by decide)
  have h' : skipError (((tjson (JsonPlain.env 100)).fetch .i32).run memory (Json.new (ascii "4294967297" ++ [93])) []) = none := by kernel_rfl
  rw [h] at h'
  exact nomatch h'

/-- What holds: text that does not begin like a number, a string, `null`, `NaN` or
`Infinity` is rejected. -/
theorem C74_partial (E : JsonEnv Bytes) (hT : E.T = memory) (hf : 2 ≤ E.fuel) (b : Byte) (x : Bytes)
    (hb : b ∉ ascii "0123456789.eE+-NIn\" \t\n\r") (hlen : x.length < 4096) :
    ∃ s', ((tjson E).fetch .i32).run memory (Json.new (b :: x)) [] = (.ok (some invalid, s'), []) := by
  obtain ⟨s', h⟩ := JsonR.number_refused (E := E) hT hf b x (by revert b; decide +kernel) (by revert b; decide +kernel)
    (by revert b; decide +kernel) hlen
  refine ⟨s', ?_⟩
  have h' : (tjson E).fetch .i32 (Json.new (b :: x)) = .ret (some invalid, s') := by
    show (do return (← readI32 E).2 : P (Json Bytes) GoErr) _ = _
    unfold readI32 readI64
    psimp [h]
  simp only [P.run, h', Prog.run]

example : ∃ s', ((tjson (JsonPlain.env 9)).fetch .i32).run memory (Json.new (ascii "true]")) [] = (.ok (some invalid, s'), []) :=
  C74_partial (JsonPlain.env 9) rfl (by decide) 116 (ascii "rue]") (by decide) (by decide)

/-! ## C78 strings -/

/-- C78.  `ReadString` rejects text in quotes that is not a JSON string. -/
def C78_statement : Prop :=
  ∀ (E : JsonEnv Bytes), E.T = memory → ∀ (x : Bytes) (d : Byte), QUOTE ∉ x → E.L.unquote (inQuotes x) = none → x.length + 2 < 4096 → 2 ≤ E.fuel →
    x.length < E.fuel → (d = 44 ∨ d = 93 ∨ d = 125) →
    ∃ e s', ((tjson E).fetch .string).run memory (Json.new (inQuotes x ++ [d])) [] = (.ok (some e, s'), [])

/-- A string that cannot be unquoted is read as the empty string without an
error. -/
theorem C78_violated : ¬ C78_statement ∧
    ((tjson (JsonPlain.env 100)).readString).run memory (Json.new (ascii "\"\\x\"]")) [] =
      (.ok (([], none), { Json.new [] with buf := [93] }), []) := by
  have hr : ((tjson (JsonPlain.env 100)).readString).run memory (Json.new (ascii "\"\\x\"]")) [] =
      (.ok (([], none), { Json.new [] with buf := [93] }), []) := by kernel_rfl
  refine ⟨fun h => ?_, hr⟩
  obtain ⟨e, s', h⟩ := h (JsonPlain.env 100) rfl (ascii "\\x") 93 (by decide) (by decide +kernel) (by decide) (by decide) (by decide) (by decide)
  have h' : skipError (((tjson (JsonPlain.env 100)).fetch .string).run memory (Json.new (inQuotes (ascii "\\x") ++ [93])) []) = none := by
    kernel_rfl
  rw [h] at h'
  exact nomatch h'

/-- What holds: text in which a quote has been escaped is rejected. -/
theorem C78_partial (E : JsonEnv Bytes) (hT : E.T = memory) (x y : Bytes) (d : Byte) (hx : QUOTE ∉ x) (hy : QUOTE ∉ y)
    (hu : E.L.unquote (inQuotes (x ++ BACKSLASH :: QUOTE :: y)) = none) (hxb : x.getLast? ≠ some BACKSLASH) (hyb : y.getLast? ≠ some BACKSLASH)
    (hf : 2 ≤ E.fuel) (hlen : (inQuotes (x ++ BACKSLASH :: QUOTE :: y) ++ [d]).length ≤ 4096) :
    ∃ s', ((tjson E).fetch .string).run memory (Json.new (inQuotes (x ++ BACKSLASH :: QUOTE :: y) ++ [d])) [] =
      (.ok (some invalid, s'), []) := by
  obtain ⟨s', h⟩ := JsonR.string_refused (E := E) hT x y d hx hy hu hxb hyb hf hlen
  refine ⟨s', ?_⟩
  have h' : (tjson E).fetch .string (Json.new (inQuotes (x ++ BACKSLASH :: QUOTE :: y) ++ [d])) = .ret (some invalid, s') := by
    show (do return (← readString E).2 : P (Json Bytes) GoErr) _ = _
    psimp [h]
  simp only [P.run, h', Prog.run]

example : ∃ s', ((tjson (JsonPlain.env 9)).fetch .string).run memory (Json.new (inQuotes (ascii "\\x\\\"") ++ [93])) [] =
    (.ok (some invalid, s'), []) :=
  C78_partial (JsonPlain.env 9) rfl (ascii "\\x") [] 93 (by decide) (by decide) (by decide +kernel) (by decide) (by decide) (by decide) (by decide)

end Thrift
