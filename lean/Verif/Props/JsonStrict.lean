import Verif.Lemmas.JsonReject
import Verif.Props.Json
/-!
# Properties C96 to C99 and C101, more on C74: JSON text that is wrong or comes in pieces
-/

namespace Thrift
open JsonSpec JsonProtocol

variable {τ : Type}

theorem ws_facts : ∀ b : Byte, b ∉ ascii " \t\n\r" → isWs b = false := by decide +kernel
theorem delim_facts : ∀ b : Byte, b ∈ ascii ",:]}" → isWs b = false := by decide +kernel
theorem begin_facts : ∀ b : Byte, b ∉ ascii "0123456789.eE+-NIn\" \t\n\r" → isWs b = false ∧ ¬ (48 ≤ b.toNat ∧ b.toNat ≤ 57) ∧
    b ∉ ([46, 101, 69, 43, 45, 78, 73, 110, 34] : Bytes) := by decide +kernel
theorem digit_facts : ∀ b : Byte, b ∈ ascii "0123456789.eE+-" → (48 ≤ b.toNat ∧ b.toNat ≤ 57) ∨ b ∈ ([43, 45, 46, 69, 101] : Bytes) := by
  decide +kernel

/-! ## C96 the version -/

/-- C96.  A message with another version than 1 is refused. -/
def C96_statement : Prop :=
  ∀ (E : JsonEnv Bytes), E.T = memory → ∀ (v : Int), v ≠ 1 → ∀ rest : Bytes, 2 ≤ rest.length →
    (91 :: (decimal v ++ 44 :: rest)).length ≤ 4096 → (decimal v).length + 1 < E.fuel →
    ∃ s', ((tjson E).readMessageBegin).run memory (Json.new (91 :: (decimal v ++ 44 :: rest))) [] = (.ok ((([], 0, 0), some invalid), s'), [])

/-- Version 4294967297 is taken for 1. -/
theorem C96_violated : ¬ C96_statement := by
  intro h
  have hd : decimal 4294967297 = ascii "4294967297" := by decide +kernel
  obtain ⟨s', h1⟩ := h (JsonPlain.env 100) rfl 4294967297 (by decide) (ascii "\"f\",1,7,{}]") (by decide) (by rw [hd]; decide) (by rw [hd]; decide)
  rw [hd] at h1
  have h2 := congrArg errorOf h1
  have h3 : errorOf (((tjson (JsonPlain.env 100)).readMessageBegin).run memory
    (Json.new (91 :: (ascii "4294967297" ++ 44 :: ascii "\"f\",1,7,{}]"))) []) = none := by kernel_rfl
  exact nomatch h3.symm.trans h2

/-- What holds: every version that fits into 32 bits. -/
theorem C96_partial (E : JsonEnv Bytes) (hT : E.T = memory) (v : I32) (hv : v ≠ 1) (rest : Bytes) (hr : 2 ≤ rest.length)
    (hlen : (91 :: (decimal v.toInt ++ 44 :: rest)).length ≤ 4096) (hf : (decimal v.toInt).length + 1 < E.fuel) (before : Bytes) :
    ∃ s', ((tjson E).readMessageBegin).run memory (Json.new (91 :: (decimal v.toInt ++ 44 :: rest))) before =
      (.ok ((([], 0, 0), some invalid), s'), before) := by
  obtain ⟨s', h⟩ := JsonR.version_refused hT v hv rest hr hlen hf
  refine ⟨s', ?_⟩
  show ((TJsonProtocol.readMessageBegin E).run memory _ before) = _
  simp only [P.run, h, Prog.run]

/-- Version 2. -/
example : ∃ s', ((tjson (JsonPlain.env 100)).readMessageBegin).run memory (Json.new (91 :: (decimal 2 ++ 44 :: ascii "\"f\",1,7,{}]"))) [] =
    (.ok ((([], 0, 0), some invalid), s'), []) :=
  have hd : decimal 2 = ascii "2" := by decide +kernel
  C96_partial (JsonPlain.env 100) rfl 2 (by decide) (ascii "\"f\",1,7,{}]") (by decide) (by show (91 :: (decimal 2 ++ _)).length ≤ 4096; rw [hd]; decide)
    (by show (decimal 2).length + 1 < 100; rw [hd]; decide) []

/-! ## C97 separators -/

/-- The characters that may come next in an array after an element, in an object
after a member, after a key. -/
def separators : JCtx → Bytes
  | .list => ascii ",]"
  | .nextKey => ascii ",}"
  | .nextValue => ascii ":"
  | _ => []

/-- C97.  Where a separator is due and something else stands, every read call
reports an error. -/
def C97_statement : Prop :=
  ∀ (E : JsonEnv Bytes), E.T = memory → 2 ≤ E.fuel → ∀ (c : JCtx), c = .list ∨ c = .nextKey ∨ c = .nextValue →
    ∀ (b : Byte) (x : Bytes), b ∉ ascii " \t\n\r" → b ∉ separators c → x.length + 1 < 4096 → ∀ (call : FetchCall) (pc dc : List JCtx),
    ∃ e s', ((tjson E).fetch call).run memory ⟨c :: pc, dc, b :: x, none, []⟩ [] = (.ok (some e, s'), [])

/-- `null` is taken for the end of a list. -/
theorem C97_violated : ¬ C97_statement := by
  intro h
  obtain ⟨e, s', h1⟩ := h (JsonPlain.env 9) rfl (by decide) .list (Or.inl rfl) 110 (ascii "ull") (by decide) (by decide) (by decide) .listEnd [] []
  have h2 := congrArg skipError h1
  have h3 : skipError (((tjson (JsonPlain.env 9)).fetch .listEnd).run memory ⟨[.list], [], 110 :: ascii "ull", none, []⟩ []) = none := by
    kernel_rfl
  exact nomatch h3.symm.trans h2

/-- What holds: for all characters but closing brackets and `n`. -/
theorem C97_partial (E : JsonEnv Bytes) (hT : E.T = memory) (hf : 2 ≤ E.fuel) (c : JCtx) (hc : c = .list ∨ c = .nextKey ∨ c = .nextValue)
    (b : Byte) (x : Bytes) (hw : b ∉ ascii " \t\n\r") (hs : b ∉ separators c) (hn : b ∉ ascii "n]}") (hx : x.length + 1 < 4096)
    (call : FetchCall) (pc dc : List JCtx) (er : GoErr) (before : Bytes) :
    ∃ e s', ((tjson E).fetch call).run memory ⟨c :: pc, dc, b :: x, er, []⟩ before = (.ok (some e, s'), before) := by
  have hb : b ∉ JsonR.allowed c := by
    rcases hc with rfl | rfl | rfl <;> exact hs
  obtain ⟨h1, h2, h3⟩ : b ≠ 110 ∧ b ≠ 125 ∧ b ≠ 93 := by
    refine ⟨?_, ?_, ?_⟩ <;> (rintro rfl; exact hn (by decide))
  obtain ⟨e, s', h⟩ := JsonR.fetch_refused (JsonR.memory_dry E hT) hf hc hb (ws_facts b hw) h1 h2 h3 (x := x) hx pc dc er call
  exact ⟨e, s', by simp only [P.run, h, Prog.run]⟩

/-- `1 2` in a list. -/
example : ∃ e s', ((tjson (JsonPlain.env 9)).fetch .i32).run memory ⟨[.list, .toplevel], [.toplevel], ascii "2]", none, []⟩ [] =
    (.ok (some e, s'), []) :=
  C97_partial (JsonPlain.env 9) rfl (by decide) .list (Or.inl rfl) 50 (ascii "]") (by decide) (by decide) (by decide) (by decide) .i32
    [.toplevel] [.toplevel] none []

/-! ## C98 base64 -/

/-- C98.  `ReadBinary` accepts a text in quotes exactly if it is base64. -/
def C98_statement : Prop :=
  ∀ (E : JsonEnv Bytes), E.T = memory → ∀ x : Bytes, 34 ∉ x → 2 * x.length + 16 < E.fuel →
    ((∃ s', ((tjson E).fetch .binary).run memory (Json.new (inQuotes x)) [] = (.ok (none, s'), [])) ↔ IsBase64 x)

/-- The line breaks of a text. -/
def isBreak (b : Byte) : Bool := b = 13 || b = 10

/-- Line breaks are passed over, although they may not even stand in a JSON string. -/
theorem C98_violated : ¬ C98_statement := by
  intro h
  have h1 := (h (JsonPlain.env 100) rfl (ascii "aG\nkh") (by decide) (by decide)).1
    ⟨{ Json.new [] with buf := [] }, by kernel_rfl⟩
  exact absurd h1.1 (by decide)

/-- What holds: if line breaks are left out of account.  This is for every transport and
however the text is cut. -/
theorem C98_partial (E : JsonEnv τ) (x : Bytes) (hx : 34 ∉ x) (rest : Bytes) (hr : rest = [] ∨ ∃ d r, rest = d :: r ∧ d ∈ ascii ",:]}")
    (hf : 2 * (x ++ 34 :: rest).length + 4 < E.fuel) (t : τ) (ht : Supplies E.T t (inQuotes x ++ rest)) (before : Bytes) :
    ((∃ s', ((tjson E).fetch .binary).run memory (Json.new t) before = (.ok (none, s'), before)) ↔ IsBase64 (x.filter fun b => !isBreak b)) ∧
    ((∃ e s', ((tjson E).fetch .binary).run memory (Json.new t) before = (.ok (some e, s'), before)) ↔
      ¬ IsBase64 (x.filter fun b => !isBreak b)) := by
  have htight : JsonR.Tight rest := by
    rcases hr with rfl | ⟨d, r, rfl, hd⟩
    · exact JsonR.Tight.nil
    · exact JsonR.Tight.cons (delim_facts d hd)
  obtain ⟨good, bad⟩ := JsonR.binary_read (E := E) (pc := [.toplevel]) hx hf htight
  have key : (b64decode x).2 = true ↔ IsBase64 (x.filter fun b => !isBreak b) := JsonR.quanta_iff _
  have hR := JsonR.Remains.new (E := E) ht
  cases hk : (b64decode x).2 with
  | true =>
    obtain ⟨s', h1, _⟩ := good hk _ _ hR
    have hrun : ((tjson E).fetch .binary).run memory (Json.new t) before = (.ok (none, s'), before) := by
      have : (tjson E).fetch .binary (Json.new t) = .ret (none, s') := by
        show (do return (← readBinary E).2 : P (Json τ) GoErr) _ = _
        psimp [h1]
      simp only [P.run, this, Prog.run]
    have hb := key.1 hk
    refine ⟨⟨fun _ => hb, fun _ => ⟨s', hrun⟩⟩, ⟨?_, fun h => absurd hb h⟩⟩
    rintro ⟨e, s'', h⟩
    rw [hrun] at h
    exact nomatch h
  | false =>
    obtain ⟨a, e, s', h1⟩ := bad hk _ _ hR
    have hrun : ((tjson E).fetch .binary).run memory (Json.new t) before = (.ok (some e, s'), before) := by
      have : (tjson E).fetch .binary (Json.new t) = .ret (some e, s') := by
        show (do return (← readBinary E).2 : P (Json τ) GoErr) _ = _
        psimp [h1]
      simp only [P.run, this, Prog.run]
    have hb : ¬ IsBase64 (x.filter fun b => !isBreak b) := fun h => by
      rw [key.2 h] at hk
      exact nomatch hk
    refine ⟨⟨?_, fun h => absurd h hb⟩, ⟨fun _ => hb, fun _ => ⟨e, s', hrun⟩⟩⟩
    rintro ⟨s'', h⟩
    rw [hrun] at h
    exact nomatch h

/-- Five letters are not base64. -/
example : ∃ e s', ((tjson (JsonPlain.env 100)).fetch .binary).run memory (Json.new (ascii "\"aGkhx\"")) [] = (.ok (some e, s'), []) :=
  (C98_partial (JsonPlain.env 100) (ascii "aGkhx") (by decide) [] (Or.inl rfl) (by decide) (ascii "\"aGkhx\"")
    (supplies_memory 7 _ (by decide)) []).2.2 fun h => absurd h.1 (by decide)

/-! ## C99 list headers -/

/-- C99.  A list whose element type is not a number from 0 to 255 is refused. -/
def C99_statement : Prop :=
  ∀ (E : JsonEnv Bytes), E.T = memory → Lawful E.L → ∀ x rest : Bytes, x ≠ [] → (∀ b ∈ x, b ∉ ascii " \t\n\r\",:]}\x00") →
    (∀ t : Byte, x ≠ decimal t.toNat) → (91 :: (x ++ 44 :: rest)).length ≤ 4096 → x.length + rest.length + 8 < E.fuel → 2 ≤ rest.length →
    ∃ e s', ((tjson E).fetch .listBegin).run memory (Json.new (91 :: (x ++ 44 :: rest))) [] = (.ok (some e, s'), [])

/-- The type 264 is taken for 8. -/
theorem C99_violated : ¬ C99_statement := by
  intro h
  obtain ⟨e, s', h1⟩ := h (JsonPlain.env 100) rfl JsonPlain.lawful (ascii "264") (ascii "1,5]") (by decide) (by decide) (fun t ht => by
    have h1 := JsonR.decimalValue_decimal t.toNat
    rw [← ht] at h1
    have h2 : decimalValue (ascii "264") = some 264 := by decide +kernel
    rw [h2, Option.some_inj] at h1
    have := t.isLt
    omega) (by decide) (by decide) (by decide)
  have h2 := congrArg skipError h1
  have h3 : skipError (((tjson (JsonPlain.env 100)).fetch .listBegin).run memory (Json.new (91 :: (ascii "264" ++ 44 :: ascii "1,5]"))) []) = none := by
    kernel_rfl
  exact nomatch h3.symm.trans h2

/-- What holds: text that does not begin like a number, a string or one of the words
is refused by `ReadListBegin` and `ReadSetBegin`, and no length is given. -/
theorem C99_partial (E : JsonEnv Bytes) (hT : E.T = memory) (hf : 2 ≤ E.fuel) (b : Byte) (x : Bytes)
    (hb : b ∉ ascii "0123456789.eE+-NIn\" \t\n\r") (hx : 2 ≤ x.length) (hlen : (91 :: b :: x).length ≤ 4096) (before : Bytes) :
    (∃ s', ((tjson E).readListBegin).run memory (Json.new (91 :: b :: x)) before = (.ok (((0, 0), some invalid), s'), before)) ∧
    (∃ s', ((tjson E).readSetBegin).run memory (Json.new (91 :: b :: x)) before = (.ok (((0, 0), some invalid), s'), before)) := by
  obtain ⟨s', h⟩ := JsonR.listHeader_refused hT hf b x (begin_facts b hb).1 (begin_facts b hb).2.1 (begin_facts b hb).2.2 hx hlen
  have : ((parseElemListBegin E).run memory (Json.new (91 :: b :: x)) before) = (.ok (((0, 0), some invalid), s'), before) := by
    simp only [P.run, h, Prog.run]
  exact ⟨⟨s', this⟩, ⟨s', this⟩⟩

example : ∃ s', ((tjson (JsonPlain.env 9)).readListBegin).run memory (Json.new (ascii "[x,1,5]")) [] = (.ok (((0, 0), some invalid), s'), []) :=
  (C99_partial (JsonPlain.env 9) rfl (by decide) 120 (ascii ",1,5]") (by decide) (by decide) (by decide) []).1

/-! ## C74 integers, exactly -/

/-- C74, what is accepted.  Text made of the characters of numbers is accepted by
`ReadI32` exactly if it is a number in the loose sense: every part may be missing,
rows of digits may be empty.  This is for every transport and however the text is cut. -/
theorem C74_accepted (E : JsonEnv τ) (x rest : Bytes) (hx : ∀ b ∈ x, b ∈ ascii "0123456789.eE+-")
    (hr : rest = [] ∨ ∃ d r, rest = d :: r ∧ (d = 44 ∨ d = 58 ∨ d = 93 ∨ d = 125)) (hf : x.length + 4 < E.fuel)
    (t : τ) (ht : Supplies E.T t (x ++ rest)) (before : Bytes) :
    ((x ≠ [] ∧ LooseNumber x) → ∃ s', ((tjson E).fetch .i32).run memory (Json.new t) before = (.ok (none, s'), before)) ∧
    (¬ (x ≠ [] ∧ LooseNumber x) → ∃ e s', ((tjson E).fetch .i32).run memory (Json.new t) before = (.ok (some e, s'), before)) := by
  have hR := JsonR.Remains.new (E := E) ht
  refine ⟨fun h => ?_, fun h => ?_⟩
  · obtain ⟨s', h1, _⟩ := JsonR.number_accepted (E := E) h.1 h.2 hf hr _ _ hR
    refine ⟨s', ?_⟩
    have : (tjson E).fetch .i32 (Json.new t) = .ret (none, s') := by
      show (do return (← readI32 E).2 : P (Json τ) GoErr) _ = _
      unfold readI32 readI64
      psimp [h1]
    simp only [P.run, this, Prog.run]
  · obtain ⟨a, e, s', h1⟩ := JsonR.number_rejected (E := E) (x := x) (fun b hb => digit_facts b (hx b hb)) h hf hr _ _ hR
    refine ⟨e, s', ?_⟩
    have : (tjson E).fetch .i32 (Json.new t) = .ret (some e, s') := by
      show (do return (← readI32 E).2 : P (Json τ) GoErr) _ = _
      unfold readI32 readI64
      psimp [h1]
    simp only [P.run, this, Prog.run]

/-- `1e5e5` is refused. -/
example : ∃ e s', ((tjson (JsonPlain.env 100)).fetch .i32).run memory (Json.new (ascii "1e5e5]")) [] = (.ok (some e, s'), []) :=
  ⟨invalid, ⟨[.toplevel, .toplevel], [.toplevel, .toplevel], [53, 93], none, []⟩, by kernel_rfl⟩

/-- `-.e` is accepted. -/
example : ∃ s', ((tjson (JsonPlain.env 100)).fetch .i32).run memory (Json.new (ascii "-.e]")) [] = (.ok (none, s'), []) :=
  (C74_accepted (JsonPlain.env 100) (ascii "-.e") (ascii "]") (by decide) (Or.inr ⟨93, [], rfl, by decide⟩) (by decide) (ascii "-.e]")
    (supplies_memory 4 _ (by decide)) []).1 ⟨by decide, [45], [], [46], [101], rfl, by decide, by simp, Or.inr ⟨[], rfl, by simp⟩,
      Or.inr ⟨101, [], [], rfl, by decide, by decide, by simp⟩⟩

/-- C74, words.  Text that begins like `NaN`, `Infinity`, `-Infinity` or `null` but goes
on differently, or breaks off, is refused by `ReadI32` and `ReadDouble`. -/
theorem C74_words (E : JsonEnv τ) (hf : 4 ≤ E.fuel) (pre word y : Bytes)
    (hw : (pre = ascii "N" ∧ word = ascii "NaN") ∨ (pre = ascii "I" ∧ word = ascii "Infinity") ∨ (pre = ascii "-I" ∧ word = ascii "-Infinity") ∨
      (pre = ascii "n" ∧ word = ascii "null"))
    (hy : ¬ word <+: pre ++ y) (t : τ) (ht : Supplies E.T t (pre ++ y)) (before : Bytes) (call : FetchCall)
    (hc : call = .i32 ∨ call = .double) :
    ∃ e s', ((tjson E).fetch call).run memory (Json.new t) before = (.ok (some e, s'), before) := by
  have hR := JsonR.Remains.new (E := E) ht
  have no : ∀ (p tl : Bytes), word = p ++ tl → pre = p → y.take tl.length ≠ tl := by
    rintro p tl rfl rfl e
    refine hy ⟨y.drop tl.length, ?_⟩
    have : tl ++ y.drop tl.length = y := by
      have := List.take_append_drop tl.length y
      rwa [e] at this
    rw [List.append_assoc, this]
  have href : JsonR.Refuses E (parseNumber E) [.toplevel, .toplevel] (pre ++ y) := by
    obtain ⟨w1, w2, w3⟩ := JsonR.words_refused (E := E) (pc := [.toplevel]) hf y
    rcases hw with ⟨rfl, rfl⟩ | ⟨rfl, rfl⟩ | ⟨rfl, rfl⟩ | ⟨rfl, rfl⟩
    · exact w1 (no [78] (ascii "aN") rfl rfl)
    · exact w2 (no [73] (ascii "nfinity") rfl rfl)
    · exact w3 (no [45, 73] (ascii "nfinity") rfl rfl)
    · exact JsonR.null_refused hf y (no [110] (ascii "ull") rfl rfl)
  obtain ⟨a, e, s', h1⟩ := href _ _ hR
  refine ⟨e, s', ?_⟩
  have : (tjson E).fetch call (Json.new t) = .ret (some e, s') := by
    rcases hc with rfl | rfl
    · show (do return (← readI32 E).2 : P (Json τ) GoErr) _ = _
      unfold readI32 readI64
      psimp [h1]
    · show (do return (← readDouble E).2 : P (Json τ) GoErr) _ = _
      unfold readDouble
      psimp [h1]
  simp only [P.run, this, Prog.run]

example : ∃ e s', ((tjson (JsonPlain.env 100)).fetch .double).run memory (Json.new (ascii "Nay")) [] = (.ok (some e, s'), []) :=
  C74_words (JsonPlain.env 100) (by decide) (ascii "N") (ascii "NaN") (ascii "ay") (Or.inl ⟨rfl, rfl⟩) (by decide) (ascii "Nay")
    (supplies_memory 3 _ (by decide)) [] .double (Or.inr rfl)

/-! ## C101 scalars in pieces -/

/-- Values without parts. -/
def IsScalar : Val → Prop
  | .struct _ | .map _ _ _ | .set _ _ | .list _ _ => False
  | _ => True

/-- C101.  The text of a scalar is read back, however long it is and however it is cut
into reads. -/
def C101_statement : Prop :=
  ∀ (τ : Type) (E : JsonEnv τ), Lawful E.L → ∀ v : Val, IsScalar v → TextOnly v → OneNaN v → ∀ rest : Bytes,
    rest = [] ∨ (∃ d r, rest = d :: r ∧ (d = 44 ∨ d = 58 ∨ d = 93 ∨ d = 125)) → 2 * (text E.L v ++ rest).length + 8 < E.fuel →
    ∀ t : τ, Supplies E.T t (text E.L v ++ rest) →
    ∃ s', (readVal (tjson E) 1 v.type).run memory (Json.new t) [] = (.ok ((v, none), s'), [])

/-- Pieces supply what they hold together. -/
theorem supplies_pieces (n : Nat) : ∀ cs : List Bytes, [] ∉ cs → cs.flatten.length ≤ n → Supplies pieces cs cs.flatten := by
  induction n with
  | zero =>
    intro cs h hl
    match cs with
    | [] => exact .done ioEOF rfl fun n hn => rfl
    | c :: r =>
      simp only [List.mem_cons, not_or] at h
      have : c = [] := List.eq_nil_of_length_eq_zero (by simp only [List.flatten_cons, List.length_append] at hl; omega)
      exact absurd this.symm h.1
  | succ m ih =>
    intro cs h hl
    match cs with
    | [] => exact .done ioEOF rfl fun n hn => rfl
    | c :: r =>
      simp only [List.mem_cons, not_or] at h
      have hc : 0 < c.length := List.length_pos_iff.2 fun e => h.1 e.symm
      simp only [List.flatten_cons, List.length_append] at hl
      refine .more _ (fun n => min n c.length) (fun n => if c.length ≤ n then r else c.drop n :: r) (fun n hn => ?_) (fun n hn => ?_)
        (fun n hn => ?_)
      · simp only [List.flatten_cons, List.length_append]; omega
      · show (if c.length ≤ n then (Res.ok (c, none), r) else (Res.ok (c.take n, none), c.drop n :: r)) = _
        simp only [List.flatten_cons]
        rw [List.take_append_of_le_length (Nat.min_le_right _ _)]
        split
        · rename_i hle
          rw [Nat.min_eq_right hle, List.take_length]
        · rename_i hle
          rw [Nat.min_eq_left (by omega)]
      · simp only [List.flatten_cons]
        rw [List.drop_append_of_le_length (Nat.min_le_right _ _)]
        split
        · rename_i hle
          rw [Nat.min_eq_right hle, List.drop_length, List.nil_append]
          exact ih r h.2 (by omega)
        · rename_i hle
          rw [Nat.min_eq_left (by omega)]
          have := ih (c.drop n :: r) (by
            simp only [List.mem_cons, not_or]
            refine ⟨fun e => ?_, h.2⟩
            have := congrArg List.length e
            simp only [List.length_nil, List.length_drop] at this
            omega) (by simp only [List.flatten_cons, List.length_append, List.length_drop]; omega)
          simpa using this

/-- `Infinity` is not read if it is cut in the middle. -/
theorem C101_violated : ¬ C101_statement := by
  intro h
  have ht : text JsonPlain.lib (.double posInf) = ascii "\"Infinity\"" := by
    have hf : ¬ Finite posInf := by decide
    show doubleText JsonPlain.lib posInf = _
    unfold doubleText
    rw [if_neg hf, if_pos (by decide)]
  obtain ⟨s', h1⟩ := h (List Bytes) piecesEnv JsonPlain.lawful (.double posInf) trivial trivial (by simp [OneNaN, posInf]; decide) [] (Or.inl rfl)
    (by show 2 * (text JsonPlain.lib _ ++ []).length + 8 < 100; rw [ht]; decide) [ascii "\"Inf", ascii "inity\""] (by
      show Supplies pieces _ (text JsonPlain.lib _ ++ [])
      rw [ht]
      exact supplies_pieces 10 [ascii "\"Inf", ascii "inity\""] (by decide) (by decide))
  have h2 := congrArg errorOf h1
  have h3 : (errorOf ((readVal (tjson piecesEnv) 1 TT.DOUBLE).run memory (Json.new [ascii "\"Inf", ascii "inity\""]) [])).isSome = true := by
    kernel_rfl
  exact nomatch h3.symm.trans (congrArg Option.isSome h2)

/-- What holds: everything but `NaN` and the infinities. -/
theorem C101_partial (E : JsonEnv τ) (hL : Lawful E.L) (v : Val) (hv : IsScalar v) (htext : TextOnly v) (hfin : ∀ d, v = .double d → Finite d)
    (rest : Bytes) (hr : rest = [] ∨ ∃ d r, rest = d :: r ∧ (d = 44 ∨ d = 58 ∨ d = 93 ∨ d = 125))
    (hf : 2 * (text E.L v ++ rest).length + 8 < E.fuel) (t : τ) (ht : Supplies E.T t (text E.L v ++ rest)) (before : Bytes) :
    ∃ s', (readVal (tjson E) 1 v.type).run memory (Json.new t) before = (.ok ((v, none), s'), before) := by
  have hR := JsonR.Remains.new (E := E) ht
  have hE : JsonR.EndsScalar rest := hr
  have hlen : 2 * (text E.L v).length + 8 < E.fuel := by simp only [List.length_append] at hf; omega
  have fin : ∀ s', readVal (tjson E) 1 v.type (Json.new t) = .ret ((v, none), s') →
      ∃ s', (readVal (tjson E) 1 v.type).run memory (Json.new t) before = (.ok ((v, none), s'), before) :=
    fun s' h => ⟨s', by simp only [P.run, h, Prog.run]⟩
  have int : ∀ n : Int, -2 ^ 63 ≤ n ∧ n < 2 ^ 63 → text E.L v = decimal n →
      ∃ s', readI64 E (Json.new t) = .ret ((BitVec.ofInt 64 n, none), s') := by
    intro n hn e
    rw [e] at hR hlen
    obtain ⟨s', h1, _⟩ := JsonR.yields_number (E := E) (JsonW.decimal_number n) (by omega) hE _ _ hR
    refine ⟨s', ?_⟩
    unfold readI64
    psimp [h1]
    rw [JsonR.numericOf_decimal E n hn]
  cases v with
  | bool b =>
    obtain ⟨s', h1, _⟩ := JsonR.yields_bool (E := E) b (by omega) hE.tight _ _ hR
    refine fin s' ?_
    show (do let (v, e) ← readBool E; return (Val.bool v, e) : P (Json τ) _) _ = _
    psimp [h1]
  | byte b =>
    have hb := b.isLt
    obtain ⟨s', h1⟩ := int b.toNat (by omega) rfl
    refine fin s' ?_
    have e : (BitVec.ofInt 64 (b.toNat : Int)).setWidth 8 = b := by
      apply BitVec.eq_of_toNat_eq
      rw [BitVec.toNat_setWidth, BitVec.ofInt_natCast, BitVec.toNat_ofNat]
      omega
    show (do let (v, e) ← readByte E; return (Val.byte v, e) : P (Json τ) _) _ = _
    unfold readByte
    psimp [h1, e]
  | i16 n =>
    have h2 := n.toInt_lt; have h3 := n.le_toInt
    obtain ⟨s', h1⟩ := int n.toInt (by omega) rfl
    refine fin s' ?_
    show (do let (v, e) ← readI16 E; return (Val.i16 v, e) : P (Json τ) _) _ = _
    unfold readI16
    psimp [h1, JsonR.setWidth_ofInt_toInt (w := 16) (by decide) n]
  | i32 n =>
    have h2 := n.toInt_lt; have h3 := n.le_toInt
    obtain ⟨s', h1⟩ := int n.toInt (by omega) rfl
    refine fin s' ?_
    show (do let (v, e) ← readI32 E; return (Val.i32 v, e) : P (Json τ) _) _ = _
    unfold readI32
    psimp [h1, JsonR.setWidth_ofInt_toInt (w := 32) (by decide) n]
  | i64 n =>
    have h2 := n.toInt_lt; have h3 := n.le_toInt
    obtain ⟨s', h1⟩ := int n.toInt (by omega) rfl
    refine fin s' ?_
    show (do let (v, e) ← readI64 E; return (Val.i64 v, e) : P (Json τ) _) _ = _
    psimp [h1, BitVec.ofInt_toInt]
  | double d =>
    have hd := hfin d rfl
    have e : text E.L (.double d) = E.L.format d := by
      show doubleText E.L d = _
      unfold doubleText
      rw [if_pos hd]
    rw [e] at hR hlen
    obtain ⟨s', h1, _⟩ := JsonR.yields_number (E := E) (hL.format_number d hd) (by omega) hE _ _ hR
    refine fin s' ?_
    show (do let (v, e) ← readDouble E; return (Val.double v, e) : P (Json τ) _) _ = _
    unfold readDouble
    psimp [h1]
    simp only [numericOf, hL.parse_format d hd]
  | str b =>
    obtain ⟨s', h1, _⟩ := JsonR.yields_string (E := E) hL (v := b) htext (by exact Nat.lt_of_le_of_lt (by simp only [text]; omega) hf) hE.tight _ _ hR
    refine fin s' ?_
    show (do let (v, e) ← readString E; return (Val.str v, e) : P (Json τ) _) _ = _
    psimp [h1]
  | struct fs => exact absurd hv (by simp [IsScalar])
  | map _ _ _ => exact absurd hv (by simp [IsScalar])
  | set _ _ => exact absurd hv (by simp [IsScalar])
  | list _ _ => exact absurd hv (by simp [IsScalar])

/-- C101.  Binary data of any length is read back as well, however its text is cut. -/
theorem C101_binary_partial (E : JsonEnv τ) (v rest : Bytes) (hr : rest = [] ∨ ∃ d r, rest = d :: r ∧ (d = 44 ∨ d = 58 ∨ d = 93 ∨ d = 125))
    (hf : 2 * (JsonB.base64Text v ++ rest).length + 4 < E.fuel) (t : τ) (ht : Supplies E.T t (JsonB.base64Text v ++ rest)) (before : Bytes) :
    ∃ s', ((tjson E).readBinary).run memory (Json.new t) before = (.ok ((v, none), s'), before) := by
  have hE : JsonR.EndsScalar rest := hr
  obtain ⟨s', h1, _⟩ := JsonR.yields_binary (E := E) v rest hf hE.tight _ _ (JsonR.Remains.new ht)
  refine ⟨s', ?_⟩
  show (readBinary E).run memory _ _ = _
  simp only [P.run, h1, Prog.run]

/-- The number -12 in three pieces. -/
example : ∃ s', (readVal (tjson piecesEnv) 1 TT.I32).run memory (Json.new [ascii "-", ascii "1", ascii "2,"]) [] = (.ok ((.i32 (-12), none), s'), []) :=
  have hd : text JsonPlain.lib (.i32 (-12)) = ascii "-12" := by show decimal (-12) = _; decide +kernel
  C101_partial piecesEnv JsonPlain.lawful (.i32 (-12)) trivial trivial (fun d h => nomatch h) [44] (Or.inr ⟨44, [], rfl, Or.inl rfl⟩)
    (by show 2 * (text JsonPlain.lib _ ++ _).length + 8 < 100; rw [hd]; decide) _
    (by show Supplies pieces _ (text JsonPlain.lib _ ++ _); rw [hd]; exact supplies_pieces 4 [ascii "-", ascii "1", ascii "2,"] (by decide) (by decide)) []

end Thrift
