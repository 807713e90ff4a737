import Verif.Model.Emit
/-!
# What the generator prints (C129 to C140)

Whether the Go code that `t_go_generator.cc` prints means what the IDL says:
names, enums, constants, defaults, struct declarations.
-/

namespace Thrift.Emit

/-! ## C129: parameters are no Go keywords -/

/-- The keywords of Go, from the language specification. -/
def keywords : List Bytes :=
  [ascii "break", ascii "case", ascii "chan", ascii "const", ascii "continue", ascii "default", ascii "defer",
   ascii "else", ascii "fallthrough", ascii "for", ascii "func", ascii "go", ascii "goto", ascii "if",
   ascii "import", ascii "interface", ascii "map", ascii "package", ascii "range", ascii "return",
   ascii "select", ascii "struct", ascii "switch", ascii "type", ascii "var"]

theorem goName_eq (v : Bytes) : goName v = v ∨ goName v = v.map lower ++ ascii "_a1" := by
  cases v with
  | nil => exact .inl rfl
  | cons c r =>
    by_cases h : (c :: r).map lower ∈ reserved c
    · exact .inr (by rw [goName, if_pos h])
    · exact .inl (by rw [goName, if_neg h])

theorem no_keyword_ends : ∀ k ∈ keywords, k.getLast? ≠ some 49 := by decide +kernel
theorem keywords_renamed : ∀ k ∈ keywords, goName k ∉ keywords := by decide +kernel

/-- C129: no name, whatever the IDL says, becomes a Go variable called like a
keyword; nor one called `error`. -/
theorem C129_keywords (v : Bytes) : goName v ∉ keywords := by
  by_cases hv : v ∈ keywords
  · exact keywords_renamed v hv
  · rcases goName_eq v with h | h
    · rwa [h]
    · intro hk
      refine no_keyword_ends _ hk ?_
      rw [h, List.getLast?_append]
      rfl

theorem C129_error (v : Bytes) : goName v ≠ ascii "error" := by
  rcases goName_eq v with h | h
  · by_cases hv : v = ascii "error"
    · subst hv; decide +kernel
    · rwa [h]
  · intro hk
    have := congrArg List.getLast? hk
    rw [h, List.getLast?_append] at this
    exact absurd (show some (49 : Byte) = some 114 from this) (by decide +kernel)

/-- Names that differ from every reserved word, however written, are kept. -/
theorem C129_kept (v : Bytes) (h : v.map lower ∉ ascii "error" :: keywords) : goName v = v := by
  cases v with
  | nil => rfl
  | cons c r =>
    rw [goName, if_neg]
    intro hr
    refine h ?_
    have key : ∀ c : Byte, ∀ w ∈ reserved c, w ∈ ascii "error" :: keywords := by decide +kernel
    exact key c _ hr

example : goName (ascii "Range") = ascii "range_a1" ∧ goName (ascii "ranges") = ascii "ranges" := by
  decide +kernel

/-! ## C130: distinct members are distinct Go fields -/

/-- An identifier of the IDL: a letter or underscore, then letters, digits,
underscores and dots. -/
def Identifier (v : Bytes) : Prop :=
  ∃ c r, v = c :: r ∧ (isAlpha c ∨ c = 95) ∧
    ∀ d ∈ r, isAlpha d = true ∨ d = 95 ∨ d = 46 ∨ (48 ≤ d.toNat ∧ d.toNat ≤ 57)

instance (v : Bytes) : Decidable (Identifier v) :=
  match v with
  | [] => isFalse fun ⟨_, _, h, _⟩ => nomatch h
  | c :: r =>
    if h : (isAlpha c ∨ c = 95) ∧
        ∀ d ∈ r, isAlpha d = true ∨ d = 95 ∨ d = 46 ∨ (48 ≤ d.toNat ∧ d.toNat ≤ 57)
    then isTrue ⟨c, r, rfl, h.1, h.2⟩
    else isFalse fun ⟨_, _, e, h1, h2⟩ => by cases e; exact h ⟨h1, h2⟩

/-- C130: two members with different names never share a Go field. -/
def C130_statement : Prop :=
  ∀ a b : Bytes, Identifier a → Identifier b → fieldName a = fieldName b → a = b

theorem C130_violated : ¬ C130_statement := fun h =>
  absurd (h (ascii "a_b") (ascii "aB") (by decide +kernel) (by decide +kernel) (by decide +kernel))
    (by decide +kernel)

/-- Names that differ in the case of the first letter share a field. -/
theorem C130_case_violated : ¬ C130_statement := fun h =>
  absurd (h (ascii "id") (ascii "Id") (by decide +kernel) (by decide +kernel) (by decide +kernel))
    (by decide +kernel)

/-- The name invented for a keyword can be taken already. -/
theorem C130_keyword_violated : ¬ C130_statement := fun h =>
  absurd (h (ascii "type") (ascii "typeA1") (by decide +kernel) (by decide +kernel) (by decide +kernel))
    (by decide +kernel)

/-- Names without underscores are only capitalised. -/
theorem camel_plain : ∀ r : Bytes, 95 ∉ r → camel r = r
  | [], _ => rfl
  | [_], _ => rfl
  | c :: d :: r, h => by
    rw [camel, if_neg, camel_plain (d :: r) fun x => h (.tail _ x)]
    rintro ⟨rfl, -⟩
    exact h (.head _)

theorem upper_inj : ∀ c d : Byte, isLower c → isLower d → upper c = upper d → c = d := by
  have key : ∀ c : Byte, isLower c → lower (upper c) = c := by decide +kernel
  intro c d hc hd h
  rw [← key c hc, ← key d hd, h]

/-- Holds for names that begin with a small letter, contain no underscore and are
no reserved words.  Missing: the names of the violations. -/
theorem C130_partial (a b : Bytes) (ha : ∃ c r, a = c :: r ∧ isLower c) (hb : ∃ c r, b = c :: r ∧ isLower c)
    (ua : 95 ∉ a) (ub : 95 ∉ b) (ka : a.map lower ∉ ascii "error" :: keywords)
    (kb : b.map lower ∉ ascii "error" :: keywords) (h : fieldName a = fieldName b) : a = b := by
  obtain ⟨c, r, rfl, hc⟩ := ha
  obtain ⟨d, s, rfl, hd⟩ := hb
  rw [fieldName, fieldName, C129_kept _ ka, C129_kept _ kb, publicize, publicize,
    camel_plain r fun x => ua (.tail _ x), camel_plain s fun x => ub (.tail _ x)] at h
  injection h with h1 h2
  rw [upper_inj c d hc hd h1, h2]

example : fieldName (ascii "colour") ≠ fieldName (ascii "size") := fun h =>
  absurd (C130_partial _ _ ⟨99, ascii "olour", rfl, rfl⟩ ⟨115, ascii "ize", rfl, rfl⟩ (by decide +kernel)
    (by decide +kernel) (by decide +kernel) (by decide +kernel) h) (by decide +kernel)

/-! ## C131: Go fields are exported -/

/-- C131: fields and types can be used from other packages: their names begin
with a capital letter. -/
def C131_statement : Prop := ∀ v : Bytes, Identifier v → ∃ c r, fieldName v = c :: r ∧ isUpper c

theorem C131_violated : ¬ C131_statement := fun h => by
  obtain ⟨c, r, e, hc⟩ := h (ascii "_x") (by decide +kernel)
  have : fieldName (ascii "_x") = [95, 120] := by decide +kernel
  rw [this] at e
  cases e
  exact absurd hc (by decide +kernel)

theorem upper_isUpper : ∀ c : Byte, isAlpha c → isUpper (upper c) := by decide +kernel
theorem upper_lower : ∀ c : Byte, upper (lower c) = upper c := by decide +kernel

/-- Holds for names that begin with a letter.  Missing: a leading underscore. -/
theorem C131_partial (c : Byte) (r : Bytes) (hc : isAlpha c) : ∃ d s, fieldName (c :: r) = d :: s ∧ isUpper d := by
  rcases goName_eq (c :: r) with h | h
  · exact ⟨upper c, camel r, by rw [fieldName, h]; rfl, upper_isUpper c hc⟩
  · refine ⟨upper (lower c), camel (r.map lower ++ ascii "_a1"), by rw [fieldName, h]; rfl, ?_⟩
    rw [upper_lower]
    exact upper_isUpper c hc

/-- A name with a leading underscore is never exported. -/
theorem C131_underscore (r : Bytes) : ∃ s, fieldName (95 :: r) = 95 :: s := by
  rcases goName_eq (95 :: r) with h | h
  · exact ⟨camel r, by rw [fieldName, h]; rfl⟩
  · exact ⟨camel (r.map lower ++ ascii "_a1"), by rw [fieldName, h]; rfl⟩

example : ∃ c r, ascii "go" = c :: r ∧ isAlpha c := ⟨103, [111], rfl, rfl⟩

/-! ## C132: the structs of a method have one name -/

/-- C132: declaration, client and processor call the structs for arguments and
results alike. -/
def C132_statement : Prop :=
  ∀ f : Bytes, Identifier f →
    clientArgs f = declaredArgs f ∧ clientResult f = declaredResult f ∧
    processorArgs f = declaredArgs f ∧ processorResult f = declaredResult f

theorem C132_violated : ¬ C132_statement := fun h =>
  absurd (h (ascii "get_") (by decide +kernel)).1 (by decide +kernel)

theorem C132_double_violated : ¬ C132_statement := fun h =>
  absurd (h (ascii "get__it") (by decide +kernel)).2.1 (by decide +kernel)

/-- A suffix that begins with an underscore is treated on its own. -/
theorem camel_append (s : Bytes) : ∀ r : Bytes, camel (r ++ 95 :: s) = camel r ++ camel (95 :: s)
  | [] => rfl
  | [c] => by
    show camel (c :: 95 :: s) = c :: camel (95 :: s)
    rw [camel, if_neg]
    rintro ⟨-, h⟩
    exact absurd h (by decide +kernel)
  | c :: d :: r => by
    show camel (c :: d :: (r ++ 95 :: s)) = _
    rw [camel, camel]
    split
    · rw [camel_append s r]; rfl
    · have := camel_append s (d :: r)
      rw [List.cons_append] at this
      rw [this]; rfl

/-- No underscore is followed by another or stands at the end. -/
def Tidy : Bytes → Bool
  | [] => true
  | [c] => c ≠ 95
  | c :: d :: r => !(c = 95 && d = 95) && Tidy (d :: r)

theorem upper_ne : ∀ d : Byte, isAlpha d → upper d ≠ 95 := by decide +kernel

theorem camel_head (d : Byte) (r : Bytes) (hd : d ≠ 95) : ∃ s, camel (d :: r) = d :: s := by
  cases r with
  | nil => exact ⟨[], rfl⟩
  | cons e r => exact ⟨camel (e :: r), by rw [camel, if_neg fun h => hd h.1]⟩

/-- Behind a tidy name the loop finds nothing more to do. -/
theorem camel_twice (w : Bytes) (hw : camel w = w) : ∀ r : Bytes, Tidy r → camel (camel r ++ w) = camel r ++ w
  | [], _ => hw
  | [c], h => by
    have hc : c ≠ 95 := by simpa [Tidy] using h
    show camel (c :: w) = c :: w
    cases w with
    | nil => rfl
    | cons d w => rw [camel, if_neg fun x => hc x.1, hw]
  | c :: d :: r, h => by
    rw [Tidy, Bool.and_eq_true] at h
    rw [camel]
    split
    · rename_i hcd
      have hr : Tidy r := by
        cases r with
        | nil => rfl
        | cons e r => have := h.2; rw [Tidy, Bool.and_eq_true] at this; exact this.2
      have ih := camel_twice w hw r hr
      show camel (upper d :: (camel r ++ w)) = upper d :: (camel r ++ w)
      rcases hx : camel r ++ w with _ | ⟨x, y⟩
      · rfl
      · rw [camel, if_neg fun z => upper_ne d hcd.2 z.1, ← hx, ih]
    · rename_i hcd
      have ih := camel_twice w hw (d :: r) h.2
      show camel (c :: (camel (d :: r) ++ w)) = c :: (camel (d :: r) ++ w)
      by_cases hc : c = 95
      · subst hc
        have hd : d ≠ 95 := by
          have := h.1
          simpa using this
        obtain ⟨s, hs⟩ := camel_head d r hd
        rw [hs] at ih ⊢
        show camel (95 :: d :: (s ++ w)) = _
        rw [camel, if_neg hcd]
        exact congrArg _ ih
      · rcases hx : camel (d :: r) ++ w with _ | ⟨x, y⟩
        · rfl
        · rw [camel, if_neg fun z => hc z.1, ← hx, ih]

theorem processor_names (f s : Bytes) (h : f ≠ []) :
    publicize f ++ camel (95 :: s) = publicize (f ++ 95 :: s) := by
  cases f with
  | nil => exact absurd rfl h
  | cons c r =>
    show upper c :: camel r ++ camel (95 :: s) = upper c :: camel (r ++ 95 :: s)
    rw [camel_append]; rfl

/-- The processor always uses the declared structs. -/
theorem C132_processor (f : Bytes) (h : f ≠ []) :
    processorArgs f = declaredArgs f ∧ processorResult f = declaredResult f :=
  ⟨processor_names f (ascii "args") h, processor_names f (ascii "result") h⟩

theorem client_names (c : Byte) (r w s : Bytes) (h : Tidy r) (hw : camel w = w) (hs : camel (95 :: s) = w) :
    publicize (privatize (c :: r) ++ w) = publicize (c :: r ++ 95 :: s) := by
  show upper (lower c) :: camel (camel r ++ w) = upper c :: camel (r ++ 95 :: s)
  rw [camel_twice w hw r h, camel_append, hs, upper_lower]

/-- Holds for methods whose names, from the second character on, have no two
underscores in a row and none at the end.  Missing: other names; the client of
the violations does not compile. -/
theorem C132_partial (c : Byte) (r : Bytes) (h : Tidy r) :
    clientArgs (c :: r) = declaredArgs (c :: r) ∧ clientResult (c :: r) = declaredResult (c :: r) ∧
    processorArgs (c :: r) = declaredArgs (c :: r) ∧ processorResult (c :: r) = declaredResult (c :: r) :=
  ⟨client_names c r (ascii "Args") (ascii "args") h (by decide +kernel) (by decide +kernel),
   client_names c r (ascii "Result") (ascii "result") h (by decide +kernel) (by decide +kernel),
   (C132_processor _ (List.cons_ne_nil _ _)).1, (C132_processor _ (List.cons_ne_nil _ _)).2⟩

example : clientArgs (ascii "get_range_slices") = ascii "GetRangeSlicesArgs" := by
  rw [show ascii "get_range_slices" = 103 :: ascii "et_range_slices" from rfl,
    (C132_partial 103 (ascii "et_range_slices") (by decide +kernel)).1]
  decide +kernel

/-! ## C133: a client type has no two methods of one name -/

/-- C133: if the functions of a service have different public names then so have
all methods of its client type. -/
def C133_statement : Prop :=
  ∀ fs : List Bytes, (∀ f ∈ fs, Identifier f) → (fs.map publicize).Nodup → (clientMethods fs).Nodup

theorem C133_violated : ¬ C133_statement := fun h =>
  absurd (h [ascii "mail", ascii "sendMail"] (by decide +kernel) (by decide +kernel)) (by decide +kernel)

/-- Holds if no public name begins with `Send` or `Recv`.  Missing: the others. -/
theorem C133_partial (fs : List Bytes) (h : (fs.map publicize).Nodup)
    (hs : ∀ f ∈ fs, ∀ g, publicize f ≠ ascii "Send" ++ g ∧ publicize f ≠ ascii "Recv" ++ g) :
    (clientMethods fs).Nodup := by
  induction fs with
  | nil => exact List.nodup_nil
  | cons f fs ih =>
    rw [List.map_cons, List.nodup_cons] at h
    have ih := ih h.2 fun g hg => hs g (.tail _ hg)
    have hf := hs f (.head _)
    have other : ∀ x, x ∈ clientMethods fs → ∃ g ∈ fs,
        x = publicize g ∨ x = ascii "Send" ++ publicize g ∨ x = ascii "Recv" ++ publicize g := by
      intro x hx
      obtain ⟨g, hg, hx⟩ := List.mem_flatMap.1 hx
      refine ⟨g, hg, ?_⟩
      simpa using hx
    have ne : ∀ g ∈ fs, publicize f ≠ publicize g := fun g hg e => h.1 (List.mem_map.2 ⟨g, hg, e.symm⟩)
    have sr : ∀ a b : Bytes, ascii "Send" ++ a ≠ ascii "Recv" ++ b := fun a b e => by
      injection e with e; exact absurd e (by decide +kernel)
    show ([publicize f, ascii "Send" ++ publicize f, ascii "Recv" ++ publicize f] ++ clientMethods fs).Nodup
    rw [List.nodup_append]
    refine ⟨?_, ih, ?_⟩
    · simp only [List.nodup_cons, List.mem_cons, List.not_mem_nil, or_false, not_or, not_false_eq_true,
        List.nodup_nil, and_true]
      exact ⟨⟨(hf _).1, (hf _).2⟩, sr _ _⟩
    · intro a ha b hb e
      subst e
      obtain ⟨g, hg, hx⟩ := other a hb
      have hg' := hs g (.tail _ hg)
      simp only [List.mem_cons, List.not_mem_nil, or_false] at ha
      rcases ha with ha | ha | ha <;> subst ha <;> rcases hx with hx | hx | hx
      · exact ne g hg hx
      · exact (hf _).1 hx
      · exact (hf _).2 hx
      · exact (hg' _).1 hx.symm
      · exact ne g hg (List.append_cancel_left hx)
      · exact sr _ _ hx
      · exact (hg' _).2 hx.symm
      · exact sr _ _ hx.symm
      · exact ne g hg (List.append_cancel_left hx)

example : (clientMethods [ascii "get", ascii "put"]).Nodup :=
  C133_partial _ (by decide +kernel) (by
    intro f hf g
    simp only [List.mem_cons, List.not_mem_nil, or_false] at hf
    rcases hf with rfl | rfl
    · exact ⟨(fun h => nomatch h), (fun h => nomatch h)⟩
    · exact ⟨(fun h => nomatch h), (fun h => nomatch h)⟩)

/-! ## C134: the names in the head of a client method differ -/

/-- C134: if arguments and exceptions have different names then so have the
receiver, the parameters and the results of the client method. -/
def C134_statement : Prop :=
  ∀ (args : List Bytes) (ret : Option Bytes) (excs : List Bytes),
    (∀ a ∈ args ++ excs, Identifier a) → (∀ k, ret = some k → ∀ d ∈ k, 48 ≤ d.toNat ∧ d.toNat ≤ 57) →
    (args ++ excs).Nodup → (signature args ret excs).Nodup

/-- An argument called `p` clashes with the receiver. -/
theorem C134_violated : ¬ C134_statement := fun h =>
  absurd (h [ascii "p"] none [] (by decide +kernel) (fun _ h => nomatch h) (by decide +kernel))
    (by decide +kernel)

/-- An argument called `err` clashes with the error that is returned. -/
theorem C134_err_violated : ¬ C134_statement := fun h =>
  absurd (h [ascii "err"] none [] (by decide +kernel) (fun _ h => nomatch h) (by decide +kernel))
    (by decide +kernel)

/-- Two arguments can become one parameter. -/
theorem C134_keyword_violated : ¬ C134_statement := fun h =>
  absurd (h [ascii "type", ascii "Type"] none [] (by decide +kernel) (fun _ h => nomatch h) (by decide +kernel))
    (by decide +kernel)

/-- Holds if no argument or exception is a reserved word or called `p`, `err` or
`retval` with a number.  Missing: the others. -/
theorem C134_partial (args : List Bytes) (ret : Option Bytes) (excs : List Bytes) (hn : (args ++ excs).Nodup)
    (hk : ∀ a ∈ args ++ excs, a.map lower ∉ ascii "error" :: keywords)
    (ht : ∀ a ∈ args ++ excs, a ≠ ascii "p" ∧ a ≠ ascii "err" ∧ ∀ k, a ≠ ascii "retval" ++ k) :
    (signature args ret excs).Nodup := by
  have ha : args.map goName = args :=
    (List.map_congr_left fun a h => C129_kept a (hk a (List.mem_append_left _ h))).trans (List.map_id _)
  have he : excs.map goName = excs :=
    (List.map_congr_left fun a h => C129_kept a (hk a (List.mem_append_right _ h))).trans (List.map_id _)
  have na := (List.nodup_append.1 hn).1
  have ne := (List.nodup_append.1 hn).2.1
  have nd := (List.nodup_append.1 hn).2.2
  have ta := fun a h => ht a (List.mem_append_left _ h)
  have te := fun a h => ht a (List.mem_append_right _ h)
  unfold signature
  rw [ha, he]
  have r1 : ∀ k, ascii "retval" ++ k ≠ ascii "p" := fun k h => nomatch h
  have r2 : ∀ k, ascii "retval" ++ k ≠ ascii "err" := fun k h => nomatch h
  have pe : ascii "p" ≠ ascii "err" := by decide +kernel
  have inTail : ∀ x, x ∈ ((ret.map (ascii "retval" ++ ·)).toList ++ excs ++ [ascii "err"]) →
      (∃ k, x = ascii "retval" ++ k) ∨ x ∈ excs ∨ x = ascii "err" := by
    intro x h
    rcases List.mem_append.1 h with h | h
    · rcases List.mem_append.1 h with h | h
      · cases ret with
        | none => exact nomatch h
        | some k => exact .inl ⟨k, List.mem_singleton.1 h⟩
      · exact .inr (.inl h)
    · exact .inr (.inr (List.mem_singleton.1 h))
  have tail : ((ret.map (ascii "retval" ++ ·)).toList ++ excs ++ [ascii "err"]).Nodup := by
    rw [List.nodup_append]
    refine ⟨?_, List.nodup_cons.2 ⟨List.not_mem_nil, List.nodup_nil⟩, ?_⟩
    · cases ret with
      | none => exact ne
      | some k => exact List.nodup_cons.2 ⟨fun h => (te _ h).2.2 k rfl, ne⟩
    · intro a h b hb e
      cases List.mem_singleton.1 hb
      subst e
      rcases List.mem_append.1 h with h | h
      · cases ret with
        | none => exact nomatch h
        | some k => exact r2 k (List.mem_singleton.1 h).symm
      · exact (te _ h).2.1 rfl
  show (ascii "p" :: (args ++ _)).Nodup
  rw [List.nodup_cons, List.nodup_append]
  refine ⟨fun h => ?_, na, tail, fun a h b hb e => ?_⟩
  · rcases List.mem_append.1 h with h | h
    · exact (ta _ h).1 rfl
    · rcases inTail _ h with ⟨k, h⟩ | h | h
      · exact r1 k h.symm
      · exact (te _ h).1 rfl
      · exact pe h
  · subst e
    rcases inTail _ hb with ⟨k, h'⟩ | h' | h'
    · exact (ta _ h).2.2 k h'
    · exact nd _ h _ h' rfl
    · exact (ta _ h).2.1 h'

example : (signature [ascii "key", ascii "column"] (some (ascii "7")) [ascii "ire"]).Nodup :=
  C134_partial _ _ _ (by decide +kernel) (by decide +kernel) (by
    intro a ha
    simp only [List.cons_append, List.nil_append, List.mem_cons, List.not_mem_nil, or_false] at ha
    rcases ha with rfl | rfl | rfl <;> exact ⟨by decide +kernel, by decide +kernel, fun k h => nomatch h⟩)

/-! ## C135: enum values and their texts -/

/-- What Go demands of the declaration: no two constants share a name or a
value. -/
def Enum.Distinct (e : Enum) : Prop := (e.values.map (·.1)).Nodup ∧ (e.values.map (·.2)).Nodup

/-- C135: a declared value is found again from its text, any other text gives no
declared value, and any other value has the text that says so. -/
def C135_statement : Prop :=
  ∀ e : Enum, e.Distinct →
    (∀ c ∈ e.values, e.fromString (e.toString c.2) = c.2) ∧
    (∀ s, (∀ c ∈ e.values, s ≠ e.toString c.2) → ∀ c ∈ e.values, e.fromString s ≠ c.2) ∧
    (∀ v, (∀ c ∈ e.values, c.2 ≠ v) ↔ e.toString v = ascii "<UNSET>")

theorem C135_violated : ¬ C135_statement := fun h =>
  (h ⟨ascii "Level", [(ascii "LOW", some (-10000))]⟩ ⟨by decide +kernel, by decide +kernel⟩).2.1 (ascii "HIGH")
    (by decide +kernel) (ascii "LOW", -10000) (by decide +kernel) (by decide +kernel)

theorem find_value {l : List (Bytes × Int)} (h : (l.map (·.2)).Nodup) {c} (hc : c ∈ l) :
    l.find? (fun d => d.2 = c.2) = some c := by
  induction l with
  | nil => exact nomatch hc
  | cons d l ih =>
    rw [List.map_cons, List.nodup_cons] at h
    rcases List.mem_cons.1 hc with rfl | hc
    · exact List.find?_cons_of_pos (by simp)
    · rw [List.find?_cons_of_neg, ih h.2 hc]
      simpa using fun e => h.1 (List.mem_map.2 ⟨c, hc, e.symm⟩)

theorem find_name {l : List (Bytes × Int)} (t : Bytes → Bytes) (ht : ∀ a b, t a = t b → a = b)
    (h : (l.map (·.1)).Nodup) {c} (hc : c ∈ l) : l.find? (fun d => t c.1 = t d.1) = some c := by
  induction l with
  | nil => exact nomatch hc
  | cons d l ih =>
    rw [List.map_cons, List.nodup_cons] at h
    rcases List.mem_cons.1 hc with rfl | hc
    · exact List.find?_cons_of_pos (by simp)
    · rw [List.find?_cons_of_neg, ih h.2 hc]
      simpa using fun e => h.1 (List.mem_map.2 ⟨c, hc, ht _ _ e⟩)

theorem text_inj (e : Enum) (a b : Bytes) (h : e.text a = e.text b) : a = b :=
  List.append_cancel_left h

theorem text_unset (e : Enum) (a : Bytes) : e.text a ≠ ascii "<UNSET>" := fun h => by
  have : (95 : Byte) ∈ e.text a := List.mem_append_left _ (List.mem_append_right _ (.head _))
  rw [h] at this
  exact absurd this (by decide +kernel)

theorem toString_declared (e : Enum) (h : e.Distinct) {c} (hc : c ∈ e.values) : e.toString c.2 = e.text c.1 := by
  rw [Enum.toString, find_value h.2 hc]

/-- The round trip from value to text and back. -/
theorem C135_round_trip (e : Enum) (h : e.Distinct) (c) (hc : c ∈ e.values) :
    e.fromString (e.toString c.2) = c.2 := by
  rw [toString_declared e h hc, Enum.fromString, find_name e.text (text_inj e) h.1 hc]

/-- Values that are not declared, and only they, have the text `<UNSET>`. -/
theorem C135_unset (e : Enum) (v : Int) : (∀ c ∈ e.values, c.2 ≠ v) ↔ e.toString v = ascii "<UNSET>" := by
  rw [Enum.toString]
  cases hf : e.values.find? (fun c => c.2 = v) with
  | none =>
    refine iff_of_true (fun c hc hv => ?_) rfl
    have := List.find?_eq_none.1 hf c hc
    exact this (by simp [hv])
  | some c =>
    refine iff_of_false (fun h => h c (List.mem_of_find?_eq_some hf) ?_) (text_unset e _)
    have := List.find?_some hf
    simpa using this

/-- Holds for enums without the value -10000, which is what unknown texts give.
Missing: enums with it. -/
theorem C135_partial (e : Enum) (h : e.Distinct) (hn : ∀ c ∈ e.values, c.2 ≠ -10000) :
    (∀ c ∈ e.values, e.fromString (e.toString c.2) = c.2) ∧
    (∀ s, (∀ c ∈ e.values, s ≠ e.toString c.2) → ∀ c ∈ e.values, e.fromString s ≠ c.2) ∧
    (∀ v, (∀ c ∈ e.values, c.2 ≠ v) ↔ e.toString v = ascii "<UNSET>") := by
  refine ⟨C135_round_trip e h, fun s hs c hc => ?_, C135_unset e⟩
  have : e.fromString s = -10000 := by
    rw [Enum.fromString]
    cases hf : e.values.find? (fun c => s = e.text c.1) with
    | none => rfl
    | some d =>
      have hd := List.mem_of_find?_eq_some hf
      have := List.find?_some hf
      exact absurd (by simpa using this) (by rw [← toString_declared e h hd]; exact hs d hd)
  rw [this]
  exact fun e => hn c hc e.symm

/-- Without explicit values the constants are numbered from zero. -/
theorem C135_numbers (names : List Bytes) (name : Bytes) :
    (Enum.values ⟨name, names.map fun n => (n, none)⟩) = names.zip ((List.range names.length).map Int.ofNat) := by
  have key : ∀ (ns : List Bytes) (k : Nat) (v : Int), v + 1 = k →
      numbered v (ns.map fun n => (n, none)) = ns.zip ((List.range' k ns.length).map Int.ofNat) := by
    intro ns
    induction ns with
    | nil => exact fun _ _ _ => rfl
    | cons n ns ih =>
      intro k v hv
      rw [List.map_cons, numbered, ih (k + 1) (v + 1) (by omega), hv]
      rfl
  rw [List.range_eq_range']
  exact key names 0 (-1) rfl

/-- A constant with an explicit value has it, and the next one without is one
more. -/
theorem C135_explicit (last v : Int) (n m : Bytes) (r : List (Bytes × Option Int)) :
    numbered last ((n, some v) :: (m, none) :: r) = (n, v) :: (m, v + 1) :: numbered (v + 1) r := rfl

example : Enum.Distinct ⟨ascii "Op", [(ascii "ADD", some 1), (ascii "SUB", none)]⟩ ∧
    Enum.toString ⟨ascii "Op", [(ascii "ADD", some 1), (ascii "SUB", none)]⟩ 2 = ascii "Op_SUB" :=
  ⟨⟨by decide +kernel, by decide +kernel⟩, by decide +kernel⟩

/-! ## C136: constants of type double -/

/-- C136: a double constant in Go is the one of the IDL; for natural numbers that
a double holds exactly. -/
def C136_statement : Prop := ∀ n : Nat, n < 2 ^ 53 → printedDouble n = n

theorem C136_violated : ¬ C136_statement := fun h =>
  absurd (h 1234567 (by decide +kernel)) (by decide +kernel)

/-- Holds for numbers of up to six digits, and for larger ones exactly if they
end in zeros behind the sixth.  Missing: the others, and fractions. -/
theorem C136_partial (n : Nat) :
    (n < 1000000 → printedDouble n = n) ∧
    (1000000 ≤ n → (printedDouble n = n ↔ 10 ^ (digits n - 6) ∣ n)) := by
  refine ⟨fun h => by rw [printedDouble, if_pos h], fun h => ?_⟩
  rw [printedDouble, if_neg (Nat.not_lt.2 h)]
  have hk : 0 < 10 ^ (digits n - 6) := Nat.pow_pos (by decide)
  generalize 10 ^ (digits n - 6) = k at hk ⊢
  refine ⟨fun e => ⟨roundDiv n k, by rw [Nat.mul_comm, e]⟩, ?_⟩
  rintro ⟨q, rfl⟩
  have h1 : k * q / k = q := Nat.mul_div_cancel_left q hk
  have h2 : k * q % k = 0 := Nat.mul_mod_right k q
  rw [roundDiv, h1, h2]
  simp only [Nat.mul_zero]
  rw [if_pos hk, Nat.mul_comm]

example : printedDouble 2500000 = 2500000 ∧ printedDouble 16777217 = 16777200 := by decide +kernel

/-- What is printed is the multiple of the unit — one in the sixth digit — that is
nearest, and of two that are equally near the even one. -/
theorem C136_nearest (n : Nat) (h : 1000000 ≤ n) : ∃ q u, u = 10 ^ (digits n - 6) ∧ printedDouble n = q * u ∧
    2 * ((q * u : Int) - n).natAbs ≤ u ∧ (2 * ((q * u : Int) - n).natAbs = u → q % 2 = 0 ∨ u % 2 = 1) := by
  have hk : 0 < 10 ^ (digits n - 6) := Nat.pow_pos (by decide)
  refine ⟨_, _, rfl, by rw [printedDouble, if_neg (Nat.not_lt.2 h)], ?_⟩
  generalize 10 ^ (digits n - 6) = u at hk ⊢
  have hn : u * (n / u) + n % u = n := Nat.div_add_mod n u
  have hr : n % u < u := Nat.mod_lt _ hk
  unfold roundDiv
  dsimp only
  generalize n / u = q at hn ⊢
  generalize n % u = r at hn hr ⊢
  have e1 : ((q : Int) * u) = ((u * q : Nat) : Int) := by rw [Nat.mul_comm]; rfl
  have e2 : (((q + 1 : Nat) : Int) * u) = ((u * q + u : Nat) : Int) := by
    rw [← Nat.mul_succ, Nat.mul_comm]; rfl
  generalize u * q = x at hn e1 e2
  split
  · rw [e1]; exact ⟨by omega, by omega⟩
  · split
    · rw [e2]; exact ⟨by omega, by omega⟩
    · split
      · rw [e1]; exact ⟨by omega, by omega⟩
      · rw [e2]; exact ⟨by omega, by omega⟩

example : (1000000 : Nat) ≤ 1234565 := by decide

/-! ## C137: default values refer to declared variables -/

/-- The variables known behind a statement. -/
def Stmt.after (env : List Var) : Stmt → List Var
  | .define x => x :: env
  | .use _ => env
  | .block _ => env

mutual
/-- Go's rule of scope for a statement: every variable that is used is declared
before, in this block or one around it. -/
def Stmt.scoped (env : List Var) : Stmt → Bool
  | .define _ => true
  | .use xs => xs.all fun x => env.contains x
  | .block b => scopedAll env b
/-- The same for a sequence. -/
def scopedAll (env : List Var) : List Stmt → Bool
  | [] => true
  | s :: r => Stmt.scoped env s && scopedAll (s.after env) r
end

/-- C137: the constructor of a struct uses no variables that it has not declared,
whatever the defaults of the members. -/
def C137_statement : Prop :=
  ∀ (member : Bytes) (n : Nat) (c : Const), scopedAll [.named (ascii "output")] (defaultInit member n c) = true

theorem C137_violated : ¬ C137_statement := fun h =>
  absurd (h (ascii "sizes") 0 (.list [.scalar])) (by decide +kernel)

theorem scoped_append (env : List Var) (a b : List Stmt) (ha : scopedAll env a = true)
    (hb : ∀ env', (∀ x ∈ env, x ∈ env') → scopedAll env' b = true) : scopedAll env (a ++ b) = true := by
  induction a generalizing env with
  | nil => exact hb env fun _ h => h
  | cons s a ih =>
    rw [scopedAll, Bool.and_eq_true] at ha
    rw [List.cons_append, scopedAll, Bool.and_eq_true]
    refine ⟨ha.1, ih _ ha.2 fun env' h => hb env' fun x hx => h x ?_⟩
    cases s with
    | define y => exact .tail _ hx
    | use _ => exact hx
    | block _ => exact hx

theorem scoped_use (env : List Var) (xs : List Var) (h : ∀ x ∈ xs, x ∈ env) : Stmt.scoped env (.use xs) = true := by
  rw [Stmt.scoped, List.all_eq_true]
  exact fun x hx => List.contains_iff_mem.2 (h x hx)

theorem scoped_field (name : Var) (n : Nat) (env : List Var) (h : name ∈ env) (a : List Stmt) (k : Nat)
    (r : List (Bytes × Const)) (ha : scopedAll (.tmp (n + 1) :: env) a = true)
    (hr : ∀ k env', name ∈ env' → scopedAll env' (renderFields name k r).1 = true) :
    scopedAll env (.define (.tmp (n + 1)) :: a ++ .use [name, .tmp (n + 1)] :: (renderFields name k r).1) = true := by
  rw [List.cons_append, scopedAll, Stmt.scoped, Bool.true_and]
  refine scoped_append _ _ _ ha fun env' h' => ?_
  have hn : name ∈ env' := h' _ (.tail _ h)
  rw [scopedAll, scoped_use, Bool.true_and]
  · exact hr k env' hn
  · intro x hx
    simp only [List.mem_cons, List.not_mem_nil, or_false] at hx
    rcases hx with rfl | rfl
    · exact hn
    · exact h' _ (.head _)

mutual
/-- What is printed for a constant is in order wherever its variable is known. -/
theorem scoped_render (name : Var) (n : Nat) (env : List Var) (h : name ∈ env) :
    ∀ c : Const, scopedAll env (render name n c).1 = true
  | .scalar => by rw [render]; rfl
  | .struct fs => by
    rw [render]
    show (Stmt.scoped env (.block _) && scopedAll env []) = true
    rw [Stmt.scoped, scoped_renderFields name n env h fs]; rfl
  | .list es => by
    rw [render]
    show (Stmt.scoped env (.block _) && scopedAll env []) = true
    rw [Stmt.scoped, scoped_renderElems name n env h es]; rfl
  | .map es => by
    rw [render]
    show (Stmt.scoped env (.block _) && scopedAll env []) = true
    rw [Stmt.scoped, scoped_renderEntries name n env h es]; rfl
theorem scoped_renderFields (name : Var) (n : Nat) (env : List Var) (h : name ∈ env) :
    ∀ fs : List (Bytes × Const), scopedAll env (renderFields name n fs).1 = true
  | [] => by rw [renderFields]; rfl
  | (_, .scalar) :: r => by
    rw [renderFields]
    show (Stmt.scoped env (.use [name]) && scopedAll env (renderFields name n r).1) = true
    rw [scoped_use _ _ fun x hx => by rw [List.mem_singleton.1 hx]; exact h,
      scoped_renderFields name n env h r]; rfl
  | (_, .struct x) :: r => by
    rw [renderFields]
    · exact scoped_field name n env h _ _ _ (scoped_render (.tmp (n + 1)) (n + 2) _ (.head _) (.struct x))
        fun k env' h' => scoped_renderFields name k env' h' r
    · exact fun h => nomatch h
  | (_, .list x) :: r => by
    rw [renderFields]
    · exact scoped_field name n env h _ _ _ (scoped_render (.tmp (n + 1)) (n + 2) _ (.head _) (.list x))
        fun k env' h' => scoped_renderFields name k env' h' r
    · exact fun h => nomatch h
  | (_, .map x) :: r => by
    rw [renderFields]
    · exact scoped_field name n env h _ _ _ (scoped_render (.tmp (n + 1)) (n + 2) _ (.head _) (.map x))
        fun k env' h' => scoped_renderFields name k env' h' r
    · exact fun h => nomatch h
theorem scoped_renderElems (name : Var) (n : Nat) (env : List Var) (h : name ∈ env) :
    ∀ es : List Const, scopedAll env (renderElems name n es).1 = true
  | [] => by rw [renderElems]; rfl
  | c :: r => by
    rw [renderElems]
    show scopedAll env (_ :: _ ++ _) = true
    rw [List.cons_append, scopedAll, Stmt.scoped, Bool.true_and]
    refine scoped_append _ _ _ (scoped_render _ _ _ (.head _) c) fun env' h' => ?_
    have hn : name ∈ env' := h' _ (.tail _ h)
    rw [scopedAll, scoped_use, Bool.true_and]
    · exact scoped_renderElems name _ env' hn r
    · intro x hx
      simp only [List.mem_cons, List.not_mem_nil, or_false] at hx
      rcases hx with rfl | rfl
      · exact hn
      · exact h' _ (.head _)
theorem scoped_renderEntries (name : Var) (n : Nat) (env : List Var) (h : name ∈ env) :
    ∀ es : List (Const × Const), scopedAll env (renderEntries name n es).1 = true
  | [] => by rw [renderEntries]; rfl
  | (k, c) :: r => by
    rw [renderEntries]
    show scopedAll env (_ :: (_ ++ (_ :: _)) ++ _) = true
    rw [List.cons_append, List.append_assoc, scopedAll, Stmt.scoped, Bool.true_and]
    refine scoped_append _ _ _ (scoped_render _ _ _ (.head _) k) fun env1 h1 => ?_
    rw [List.cons_append, scopedAll, Stmt.scoped, Bool.true_and]
    refine scoped_append _ _ _ (scoped_render _ _ _ (.head _) c) fun env2 h2 => ?_
    have hn : name ∈ env2 := h2 _ (.tail _ (h1 _ (.tail _ h)))
    rw [scopedAll, scoped_use, Bool.true_and]
    · exact scoped_renderEntries name _ env2 hn r
    · intro x hx
      simp only [List.mem_cons, List.not_mem_nil, or_false] at hx
      rcases hx with rfl | rfl | rfl
      · exact hn
      · exact h2 _ (.tail _ (h1 _ (.head _)))
      · exact h2 _ (.head _)
end

/-- The initialisation of constants is in order, however deep they are. -/
theorem C137_constants (name : Bytes) (n : Nat) (c : Const) :
    scopedAll [.named name] (constInit name n c) = true := by
  rw [constInit, scopedAll, scoped_use _ _ fun x hx => by rw [List.mem_singleton.1 hx]; exact .head _,
    Bool.true_and]
  exact scoped_render _ n _ (.head _) c

mutual
/-- The variables that a statement declares, in blocks too. -/
def Stmt.declared : Stmt → List Var
  | .define x => [x]
  | .use _ => []
  | .block b => declaredAll b
/-- The same for a sequence. -/
def declaredAll : List Stmt → List Var
  | [] => []
  | s :: r => s.declared ++ declaredAll r
end

theorem declared_append : ∀ a b : List Stmt, declaredAll (a ++ b) = declaredAll a ++ declaredAll b
  | [], _ => rfl
  | s :: a, b => by rw [List.cons_append, declaredAll, declaredAll, declared_append a b, List.append_assoc]

/-- Temporaries with different numbers, from `a` up to but without `b`. -/
def Between (a b : Nat) (l : List Var) : Prop := a ≤ b ∧ l.Nodup ∧ ∀ x ∈ l, ∃ k, x = .tmp k ∧ a ≤ k ∧ k < b

theorem Between.nil (a : Nat) : Between a a [] := ⟨Nat.le_refl _, List.nodup_nil, by simp⟩

theorem Between.append {a b c d : Nat} {l l' : List Var} (h : Between a b l) (h' : Between c d l') (hc : b ≤ c) : Between a d (l ++ l') := by
  refine ⟨by have := h.1; have := h'.1; omega, List.nodup_append.2 ⟨h.2.1, h'.2.1, ?_⟩, fun x hx => ?_⟩
  · intro x hx y hy e
    obtain ⟨k, rfl, h1, h2⟩ := h.2.2 x hx
    obtain ⟨j, rfl, h3, h4⟩ := h'.2.2 y hy
    cases e
    omega
  · have := h.1
    have := h'.1
    rcases List.mem_append.1 hx with hx | hx
    · obtain ⟨k, rfl, h1, h2⟩ := h.2.2 x hx; exact ⟨k, rfl, h1, by omega⟩
    · obtain ⟨k, rfl, h1, h2⟩ := h'.2.2 x hx; exact ⟨k, rfl, by omega, h2⟩

theorem Between.one {a b c k : Nat} {l : List Var} (h : Between a b l) (h1 : c ≤ k) (h2 : k < a) : Between c b (.tmp k :: l) :=
  Between.append (l := [.tmp k]) (a := c) (b := a)
    ⟨by omega, List.nodup_cons.2 ⟨List.not_mem_nil, List.nodup_nil⟩, fun x hx => ⟨k, List.mem_singleton.1 hx, h1, h2⟩⟩ h (Nat.le_refl _)

theorem Between.perm {a b : Nat} {l l' : List Var} (h : Between a b l) (hp : l.Perm l') : Between a b l' :=
  ⟨h.1, hp.nodup_iff.1 h.2.1, fun x hx => h.2.2 x (hp.mem_iff.2 hx)⟩

theorem between_field (name : Var) (n m k : Nat) (a b : List Stmt) (ha : Between (n + 2) m (declaredAll a))
    (hb : Between m k (declaredAll b)) : Between n k (declaredAll (.define (.tmp (n + 1)) :: a ++ .use [name, .tmp (n + 1)] :: b)) := by
  rw [List.cons_append, declaredAll, Stmt.declared, declared_append, declaredAll, Stmt.declared]
  exact (ha.append hb (Nat.le_refl _)).one (by omega) (by omega)

mutual
theorem between_render (name : Var) (n : Nat) : ∀ c : Const, Between n (render name n c).2 (declaredAll (render name n c).1)
  | .scalar => by rw [render]; exact .nil n
  | .struct fs => by
    rw [render]
    show Between n _ (declaredAll (renderFields name n fs).1 ++ [])
    rw [List.append_nil]; exact between_renderFields name n fs
  | .list es => by
    rw [render]
    show Between n _ (declaredAll (renderElems name n es).1 ++ [])
    rw [List.append_nil]; exact between_renderElems name n es
  | .map es => by
    rw [render]
    show Between n _ (declaredAll (renderEntries name n es).1 ++ [])
    rw [List.append_nil]; exact between_renderEntries name n es
theorem between_renderFields (name : Var) (n : Nat) :
    ∀ fs : List (Bytes × Const), Between n (renderFields name n fs).2 (declaredAll (renderFields name n fs).1)
  | [] => by rw [renderFields]; exact .nil n
  | (_, .scalar) :: r => by
    rw [renderFields]
    exact between_renderFields name n r
  | (_, .struct x) :: r => by
    rw [renderFields]
    · exact between_field _ _ _ _ _ _ (between_render _ _ (.struct x)) (between_renderFields _ _ r)
    · exact fun h => nomatch h
  | (_, .list x) :: r => by
    rw [renderFields]
    · exact between_field _ _ _ _ _ _ (between_render _ _ (.list x)) (between_renderFields _ _ r)
    · exact fun h => nomatch h
  | (_, .map x) :: r => by
    rw [renderFields]
    · exact between_field _ _ _ _ _ _ (between_render _ _ (.map x)) (between_renderFields _ _ r)
    · exact fun h => nomatch h
theorem between_renderElems (name : Var) (n : Nat) :
    ∀ es : List Const, Between n (renderElems name n es).2 (declaredAll (renderElems name n es).1)
  | [] => by rw [renderElems]; exact .nil n
  | c :: r => by
    rw [renderElems]
    show Between n _ (declaredAll (_ :: _ ++ _))
    rw [List.cons_append, declaredAll, Stmt.declared, declared_append, declaredAll, Stmt.declared]
    exact ((between_render _ _ c).append (between_renderElems name _ r) (Nat.le_refl _)).one (Nat.le_refl _) (by omega)
theorem between_renderEntries (name : Var) (n : Nat) :
    ∀ es : List (Const × Const), Between n (renderEntries name n es).2 (declaredAll (renderEntries name n es).1)
  | [] => by rw [renderEntries]; exact .nil n
  | (k, c) :: r => by
    rw [renderEntries]
    have h1 := between_render (.tmp n) (n + 2) k
    have h2 := between_render (.tmp (n + 1)) (render (.tmp n) (n + 2) k).2 c
    have h3 := between_renderEntries name (render (.tmp (n + 1)) (render (.tmp n) (n + 2) k).2 c).2 r
    have h := ((h1.append (h2.append h3 (Nat.le_refl _)) (Nat.le_refl _)).one (c := n + 1) (k := n + 1) (Nat.le_refl _) (by omega)).one
      (c := n) (k := n) (Nat.le_refl _) (by omega)
    refine h.perm ?_
    show List.Perm _ (declaredAll (_ :: (_ ++ (_ :: _)) ++ _))
    rw [List.cons_append, List.append_assoc, declaredAll, Stmt.declared, declared_append, declared_append,
      show ∀ (x : Var) (l : List Stmt), declaredAll (.define x :: l) = x :: declaredAll l from fun _ _ => rfl, List.cons_append, List.cons_append,
      List.nil_append,
      show ∀ (x : List Var) (l : List Stmt), declaredAll (.use x :: l) = declaredAll l from fun _ _ => rfl]
    refine List.Perm.cons _ ?_
    exact (List.perm_middle (a := Var.tmp (n + 1)) (l₁ := declaredAll (render (.tmp n) (n + 2) k).1)
      (l₂ := declaredAll (render (.tmp (n + 1)) (render (.tmp n) (n + 2) k).2 c).1 ++ declaredAll (renderEntries name _ r).1)).symm
end

/-- No variable is declared twice in what is printed for a constant, and the ones
declared are temporaries that were not used before: nothing is shadowed. -/
theorem C137_fresh (name : Var) (n : Nat) (c : Const) :
    (declaredAll (render name n c).1).Nodup ∧ ∀ x ∈ declaredAll (render name n c).1, ∃ k, x = .tmp k ∧ n ≤ k ∧ k < (render name n c).2 :=
  (between_render name n c).2

example : declaredAll (render (.named (ascii "X")) 0 (.map [(.scalar, .list [.scalar])])).1 = [.tmp 0, .tmp 1, .tmp 2] := by
  decide +kernel

/-- A base value, or a container or struct without contents. -/
def Const.plain : Const → Bool
  | .scalar => true
  | .struct fs => fs.isEmpty
  | .list es => es.isEmpty
  | .map es => es.isEmpty

theorem unscoped_use (env : List Var) (x : Var) (h : x ∉ env) (xs : List Var) : Stmt.scoped env (.use (x :: xs)) = false := by
  rw [Stmt.scoped, List.all_cons, Bool.and_eq_false_iff]
  left
  cases hc : env.contains x with
  | false => rfl
  | true => exact absurd (List.contains_iff_mem.1 hc) h

theorem unscoped_append (env : List Var) (a : List Stmt) (x : Var) (xs : List Var) (b : List Stmt)
    (h : x ∉ env) (ha : ∀ s ∈ a, ∀ y, s = .define y → y ≠ x) : scopedAll env (a ++ .use (x :: xs) :: b) = false := by
  induction a generalizing env with
  | nil =>
    rw [List.nil_append, scopedAll, unscoped_use env x h, Bool.false_and]
  | cons s a ih =>
    rw [List.cons_append, scopedAll, Bool.and_eq_false_iff]
    right
    refine ih _ ?_ fun s hs => ha s (.tail _ hs)
    cases s with
    | define y =>
      intro hx
      rcases List.mem_cons.1 hx with hx | hx
      · exact ha _ (.head _) y rfl hx.symm
      · exact h hx
    | use _ => exact h
    | block _ => exact h

/-- `render` itself declares nothing at its own level. -/
theorem render_defines (name : Var) (n : Nat) (c : Const) : ∀ s ∈ (render name n c).1, ∀ y, s ≠ .define y := by
  intro s hs y e
  subst e
  cases c <;> rw [render] at hs
  · exact nomatch hs
  all_goals exact absurd (List.mem_singleton.1 hs) fun h => nomatch h

/-- Holds exactly for the defaults without contents, unless the member is itself
called `output`.  Missing: all others, whose constructors do not compile. -/
theorem C137_partial (member : Bytes) (hm : member ≠ ascii "output") (n : Nat) (c : Const) :
    scopedAll [.named (ascii "output")] (defaultInit member n c) = true ↔ c.plain = true := by
  have out : Stmt.scoped [.named (ascii "output")] (.use [.named (ascii "output")]) = true :=
    scoped_use _ _ fun _ h => h
  have no : Var.named member ∉ [Var.named (ascii "output")] := fun h => by
    have := List.mem_singleton.1 h
    injection this with this
    exact hm this
  rw [defaultInit, scopedAll, out, Bool.true_and, Stmt.after]
  have tmp : ∀ (k : Nat) (a : List Stmt), (∀ s ∈ a, ∀ y, s ≠ .define y) →
      ∀ s ∈ Stmt.define (.tmp k) :: a, ∀ y, s = .define y → y ≠ .named member := by
    intro k a ha s hs y e hy
    rcases List.mem_cons.1 hs with h | h
    · subst hy; rw [h] at e; exact nomatch e
    · exact ha s h y e
  have blk : ∀ b : List Stmt, scopedAll [.named (ascii "output")] [.block b] =
      scopedAll [.named (ascii "output")] b := by
    intro b
    show (Stmt.scoped _ (.block b) && scopedAll _ []) = _
    rw [Stmt.scoped]
    exact Bool.and_true _
  cases c with
  | scalar => rw [render]; exact iff_of_true rfl rfl
  | struct fs =>
    rw [render]
    show scopedAll _ [.block _] = true ↔ _
    rw [blk]
    cases fs with
    | nil => exact iff_of_true rfl rfl
    | cons f fs =>
      refine iff_of_false ?_ (by exact fun h => nomatch h)
      rw [Bool.not_eq_true]
      obtain ⟨f, c⟩ := f
      have step : ∀ c k b, scopedAll [.named (ascii "output")] (Stmt.define (.tmp (n + 1)) ::
          (render (.tmp (n + 1)) k c).1 ++ .use [.named member, .tmp (n + 1)] :: b) = false := fun c k b =>
        unscoped_append _ _ _ _ _ no (tmp _ _ (render_defines _ _ c))
      cases c with
      | scalar =>
        rw [renderFields]
        exact unscoped_append _ [] _ _ _ no fun s h => nomatch h
      | struct _ => rw [renderFields]; exact step _ _ _; exact fun h => nomatch h
      | list _ => rw [renderFields]; exact step _ _ _; exact fun h => nomatch h
      | map _ => rw [renderFields]; exact step _ _ _; exact fun h => nomatch h
  | list es =>
    rw [render]
    show scopedAll _ [.block _] = true ↔ _
    rw [blk]
    cases es with
    | nil => exact iff_of_true rfl rfl
    | cons c es =>
      refine iff_of_false ?_ (by exact fun h => nomatch h)
      rw [Bool.not_eq_true, renderElems]
      exact unscoped_append _ _ _ _ _ no (tmp _ _ (render_defines _ _ c))
  | map es =>
    rw [render]
    show scopedAll _ [.block _] = true ↔ _
    rw [blk]
    cases es with
    | nil => exact iff_of_true rfl rfl
    | cons e es =>
      obtain ⟨k, c⟩ := e
      refine iff_of_false ?_ (by exact fun h => nomatch h)
      rw [Bool.not_eq_true, renderEntries]
      refine unscoped_append _ _ _ _ _ no fun s hs y e hy => ?_
      rcases List.mem_append.1 hs with h | h
      · exact tmp _ _ (render_defines _ _ k) s h y e hy
      · exact tmp _ _ (render_defines _ _ c) s h y e hy

example : ascii "sizes" ≠ ascii "output" := by decide +kernel

/-! ## C138: struct fields have Go types -/

/-- C138: every member of a struct becomes a Go field with the type of the
member. -/
def C138_statement : Prop :=
  ∀ (sd : StructDef), ∀ m ∈ sd.members, Line.typed (fieldName m.name) m.ty ∈ structLines sd

/-- A member without an explicit id has a negative one. -/
theorem C138_violated : ¬ C138_statement := fun h =>
  absurd (h ⟨ascii "Pair", [⟨ascii "left", -1, .i32, false, none, 0, true⟩]⟩ _ (.head _)) (by decide +kernel)

theorem mem_insert (m x : Member) (l : List Member) : x ∈ insertMember m l ↔ x = m ∨ x ∈ l := by
  induction l with
  | nil => simp [insertMember]
  | cons n l ih =>
    rw [insertMember]
    split
    · simp
    · rw [List.mem_cons, ih, List.mem_cons]
      exact ⟨fun h => by rcases h with h | h | h <;> simp [h], fun h => by rcases h with h | h | h <;> simp [h]⟩

theorem mem_sort (x : Member) (l : List Member) : x ∈ l.foldr insertMember [] ↔ x ∈ l := by
  induction l with
  | nil => exact Iff.rfl
  | cons m l ih => rw [List.foldr_cons, mem_insert, ih, List.mem_cons]

theorem mem_lines : ∀ (l : List Member) (pos : Int), ∀ m ∈ l, Line.typed (fieldName m.name) m.ty ∈ lines pos l
  | [], _, _, h => nomatch h
  | n :: l, pos, m, h => by
    rw [lines]
    refine List.mem_append_right _ ?_
    rcases List.mem_cons.1 h with rfl | h
    · exact .head _
    · exact .tail _ (mem_lines l _ m h)

/-- Holds for structs without negative ids; with one, no member gets its type.
Missing: nothing else can be said, the Go code does not compile. -/
theorem C138_partial (sd : StructDef) :
    ((∀ m ∈ sd.members, 0 ≤ m.id.toInt) → ∀ m ∈ sd.members, Line.typed (fieldName m.name) m.ty ∈ structLines sd) ∧
    ((∃ m r, sd.sorted = m :: r ∧ m.id.toInt < 0) → ∀ n t, Line.typed n t ∉ structLines sd) := by
  constructor
  · intro h m hm
    have hs : m ∈ sd.sorted := (mem_sort m sd.members).2 hm
    rw [structLines]
    split
    · rename_i e; rw [e] at hs; exact nomatch hs
    · rename_i n r e
      have : n ∈ sd.members := (mem_sort n sd.members).1 (by
        show n ∈ sd.sorted
        rw [e]; exact .head _)
      rw [if_pos (h n this)]
      rw [e] at hs
      exact mem_lines _ 0 m hs
  · rintro ⟨m, r, e, hm⟩ n t h
    rw [structLines, e] at h
    simp only at h
    rw [if_neg (Int.not_le.2 hm)] at h
    obtain ⟨x, -, hx⟩ := List.mem_map.1 h
    exact nomatch hx

example : structLines ⟨ascii "Pair", [⟨ascii "left", 1, .i32, false, none, 0, true⟩]⟩ =
    [.typed (ascii "Left") .i32] := by decide +kernel

/-! ## C139: the size of a Go struct -/

/-- C139: a Go struct has as many fields as the struct has members. -/
def C139_statement : Prop :=
  ∀ sd : StructDef, (sd.members.map (·.id)).Nodup → (structLines sd).length = sd.members.length

theorem C139_violated : ¬ C139_statement := fun h =>
  absurd (h ⟨ascii "Late", [⟨ascii "x", 1000, .bool, false, none, 0, true⟩]⟩ (by decide +kernel)) (by decide +kernel)

/-- One member with a positive id costs as many fields as the id says. -/
theorem C139_single (name n : Bytes) (k : I16) (h : 0 < k.toInt) (t : Ty) :
    (structLines ⟨name, [⟨n, k, t, false, none, 0, true⟩]⟩).length = k.toInt.toNat := by
  rw [structLines]
  show (if 0 ≤ k.toInt then _ else _ : List Line).length = _
  rw [if_pos (Int.le_of_lt h), lines, lines, List.length_append, List.length_replicate]
  simp only [List.length_cons, List.length_nil]
  rw [if_pos ⟨trivial, Int.ne_of_gt h⟩]
  omega

/-- The members in order, with no gap between the ids. -/
def Dense : Int → List Member → Prop
  | _, [] => True
  | k, m :: r => m.id.toInt = k ∧ Dense (k + 1) r

theorem lines_dense : ∀ (l : List Member) (k : Int), 0 < k → Dense k l → (lines k l).length = l.length
  | [], _, _, _ => rfl
  | m :: r, k, h, hd => by
    rw [lines, hd.1, if_neg (fun x => Int.ne_of_gt h x.1), Int.sub_self]
    show (List.replicate 0 _ ++ _).length = _
    rw [List.replicate_zero, List.nil_append, List.length_cons, List.length_cons,
      lines_dense r (k + 1) (by omega) hd.2]

theorem length_insert (m : Member) (l : List Member) : (insertMember m l).length = l.length + 1 := by
  induction l with
  | nil => rfl
  | cons n l ih =>
    rw [insertMember]
    split
    · rfl
    · rw [List.length_cons, ih, List.length_cons]

theorem length_sort (l : List Member) : (l.foldr insertMember []).length = l.length := by
  induction l with
  | nil => rfl
  | cons m l ih => rw [List.foldr_cons, length_insert, ih, List.length_cons]

/-- Holds if the ids, sorted, are 1, 2, 3 and so on.  Missing: gaps. -/
theorem C139_partial (sd : StructDef) (h : Dense 1 sd.sorted) : (structLines sd).length = sd.members.length := by
  have hl : sd.sorted.length = sd.members.length := length_sort sd.members
  rw [structLines]
  split
  · rename_i e; rw [e] at hl; exact hl
  · rename_i m r e
    rw [e] at h hl
    have h1 : m.id.toInt = 1 := h.1
    rw [if_pos (by omega), lines, h1]
    show (List.replicate (1 - if (0 : Int) = 0 ∧ (1 : Int) ≠ 0 then 1 else 0) _ ++ _).length = _
    rw [if_pos ⟨rfl, by decide⟩, Nat.sub_self, List.replicate_zero, List.nil_append, List.length_cons,
      lines_dense r (1 + 1) (by decide) h.2]
    exact hl

example : Dense 1 (StructDef.sorted ⟨ascii "Pair", [⟨ascii "b", 2, .i32, false, none, 0, true⟩,
    ⟨ascii "a", 1, .i32, false, none, 0, true⟩]⟩) := ⟨rfl, rfl, trivial⟩

/-! ## C140: services that extend others -/

theorem enter_find : ∀ (ms : List Method) (d : Dispatch) (x : Bytes), (ms.map (·.name)).Nodup →
    enter ms d x = match ms.find? (fun m => x = m.name) with | some m => some m | none => d x
  | [], _, _, _ => rfl
  | m :: ms, d, x, h => by
    rw [List.map_cons, List.nodup_cons] at h
    rw [enter, enter_find ms _ x h.2]
    by_cases hx : x = m.name
    · have : ms.find? (fun m => x = m.name) = none := by
        rw [List.find?_eq_none]
        intro n hn e
        have e : x = n.name := by simpa using e
        exact h.1 (List.mem_map.2 ⟨n, hn, by rw [← e, hx]⟩)
      rw [this, List.find?_cons_of_pos (by simpa using hx)]
      exact if_pos hx
    · rw [List.find?_cons_of_neg (by simpa using hx), if_neg hx]

theorem processorMap_snoc (chain : List (List Method)) (own : List Method) :
    processorMap (chain ++ [own]) = enter own (processorMap chain) := by
  rw [processorMap, List.foldl_append]; rfl

/-- C140: a service that extends another answers its own methods, and as the
other all those that it does not declare itself. -/
theorem C140_extends (chain : List (List Method)) (own : List Method) (h : (own.map (·.name)).Nodup) :
    (∀ m ∈ own, processorMap (chain ++ [own]) m.name = some m) ∧
    (∀ x, (∀ m ∈ own, x ≠ m.name) → processorMap (chain ++ [own]) x = processorMap chain x) := by
  rw [processorMap_snoc]
  constructor
  · intro m hm
    rw [enter_find own _ _ h]
    have : own.find? (fun n => m.name = n.name) = some m := by
      induction own with
      | nil => exact nomatch hm
      | cons n own ih =>
        rw [List.map_cons, List.nodup_cons] at h
        rcases List.mem_cons.1 hm with rfl | hm
        · exact List.find?_cons_of_pos (by simp)
        · rw [List.find?_cons_of_neg, ih h.2 hm]
          simpa using fun e => h.1 (List.mem_map.2 ⟨m, hm, e⟩)
    rw [this]
  · intro x hx
    rw [enter_find own _ _ h]
    have : own.find? (fun m => x = m.name) = none := by
      rw [List.find?_eq_none]
      intro n hn e
      exact hx n hn (by simpa using e)
    rw [this]

/-- C140: a service without a parent answers its methods and no others; this is
the lookup of the service model. -/
theorem C140_service (sv : Service η) (h : (sv.methods.map (·.name)).Nodup) (x : Bytes) :
    processorMap [sv.methods] x = sv.find x := by
  show enter sv.methods (fun _ => none) x = _
  rw [enter_find _ _ _ h, Service.find]
  cases sv.methods.find? (fun m => x = m.name) <;> rfl

/-- C140: however long the chain, with distinct names over all of it every method
of every ancestor is found. -/
theorem C140_chain : ∀ chain : List (List Method), (chain.flatten.map (·.name)).Nodup →
    ∀ x, processorMap chain x = chain.flatten.find? (fun m => x = m.name) := by
  intro chain
  generalize hd : (fun _ => none : Dispatch) = d
  have key : ∀ (chain : List (List Method)) (d : Dispatch), (chain.flatten.map (·.name)).Nodup → ∀ x,
      (chain.foldl (fun d ms => enter ms d) d) x =
        match chain.flatten.find? (fun m => x = m.name) with | some m => some m | none => d x := by
    intro chain
    induction chain with
    | nil => exact fun _ _ _ => rfl
    | cons ms chain ih =>
      intro d h x
      rw [List.flatten_cons, List.map_append, List.nodup_append] at h
      rw [List.foldl_cons, ih _ h.2.1, enter_find ms d x h.1, List.flatten_cons, List.find?_append]
      cases hf : ms.find? (fun m => x = m.name) with
      | none => rfl
      | some m =>
        have hm := List.mem_of_find?_eq_some hf
        have hx : x = m.name := by simpa using List.find?_some hf
        have : chain.flatten.find? (fun m => x = m.name) = none := by
          rw [List.find?_eq_none]
          intro n hn e
          have e : x = n.name := by simpa using e
          exact h.2.2 _ (List.mem_map.2 ⟨m, hm, rfl⟩) _ (List.mem_map.2 ⟨n, hn, rfl⟩) (by rw [← hx, e])
        rw [this]; rfl
  intro h x
  rw [processorMap, key chain _ h x]
  cases chain.flatten.find? (fun m => x = m.name) <;> rfl

example : processorMap [[⟨ascii "ping", 0, 1, false⟩], [⟨ascii "add", 2, 3, false⟩]] (ascii "ping") =
    some ⟨ascii "ping", 0, 1, false⟩ :=
  (C140_extends [[⟨ascii "ping", 0, 1, false⟩]] [⟨ascii "add", 2, 3, false⟩] (by decide +kernel)).2 _
    (by decide +kernel)

end Thrift.Emit
