import Verif.Lemmas.JsonDec
/-!
# Whole documents and messages of the tagged JSON protocol
-/

namespace Thrift
namespace JsonR
open JsonProtocol JsonSpec JsonW

variable {τ : Type} {α β : Type} {E : JsonEnv τ}

/-! ## Readers do not use `ReadBinary` -/

theorem readVal_textual (E : JsonEnv τ) : ∀ (fuel : Nat), readVal (textual E) fuel = readVal (tjson E) fuel
  | 0 => rfl
  | fuel + 1 => by
    have ih := readVal_textual E fuel
    have hf : ∀ rd n, readFields (textual E) rd n = readFields (tjson E) rd n := by
      intro rd n
      induction n with
      | zero => rfl
      | succ n ihn => simp only [readFields, ihn]; rfl
    funext t
    simp only [readVal, ih, hf]
    rfl

theorem skip_textual (E : JsonEnv τ) (msd : Int) : ∀ (fuel : Nat), skip (textual E) msd fuel = skip (tjson E) msd fuel
  | 0 => rfl
  | fuel + 1 => by
    have ih := skip_textual E msd fuel
    have hf : ∀ rd n, skipFields (textual E) rd n = skipFields (tjson E) rd n := by
      intro rd n
      induction n with
      | zero => rfl
      | succ n ihn => simp only [skipFields, ihn]; rfl
    funext t d
    simp only [skip, ih, hf]
    rfl

/-! ## The first bytes -/

/-- The transport delivers the whole document at once, and nothing after it unless
the first look is satisfied. -/
def Arrives (E : JsonEnv τ) (t : τ) (doc : Bytes) (t' : τ) : Prop :=
  E.T.read bufSize t = (.ok (doc, none), t') ∧ (4 ≤ doc.length ∨ Dry E t')

theorem fillTo_dry {t : τ} (n f : Nat) (pc dc : List JCtx) (b : Bytes) (h : b.length < n) (hn : n ≤ bufSize) (hd : Dry E t) :
    fillTo E n (f + 1) ⟨pc, dc, b, none, t⟩ = .ret ((), ⟨pc, dc, b, some ioEOF, t⟩) := by
  have hr := hd (bufSize - b.length) (by omega)
  have hfill : fill E ⟨pc, dc, b, none, t⟩ = .ret ((), ⟨pc, dc, b, some ioEOF, t⟩) := by
    simp only [fill, hr, List.append_nil]
  unfold fillTo
  psimp []
  simp only [h, and_self, if_true, hfill, ret_bind]
  exact fillTo_err E n f _ (by simp)

theorem peek_first {t t' : τ} {doc : Bytes} (h : Arrives E t doc t') (pc dc : List JCtx) (hf : 2 ≤ E.fuel) :
    peek E 4 ⟨pc, dc, [], none, t⟩ = peek E 4 ⟨pc, dc, doc, none, t'⟩ := by
  have hn : 4 ≤ bufSize := by have := bufSize_ge; omega
  obtain ⟨f, hfu⟩ : ∃ f, E.fuel = f + 2 := ⟨E.fuel - 2, by omega⟩
  have hfill : fill E ⟨pc, dc, [], none, t⟩ = .ret ((), ⟨pc, dc, doc, none, t'⟩) := by
    simp only [fill, List.length_nil, Nat.sub_zero, h.1, List.nil_append]
  have step : fillTo E 4 (f + 2) ⟨pc, dc, [], none, t⟩ = fillTo E 4 (f + 1) ⟨pc, dc, doc, none, t'⟩ := by
    rw [fillTo]
    psimp []
    simp only [List.length_nil, Nat.zero_lt_succ, and_self, if_true, hfill, ret_bind]
  have same : fillTo E 4 (f + 1) ⟨pc, dc, doc, none, t'⟩ = fillTo E 4 (f + 2) ⟨pc, dc, doc, none, t'⟩ := by
    by_cases hl : 4 ≤ doc.length
    · rw [fillTo_enough E 4 _ _ hl, fillTo_enough E 4 _ _ hl]
    · have hd := h.2.resolve_left hl
      rw [fillTo_dry 4 f pc dc doc (by omega) hn hd, fillTo_dry 4 (f + 1) pc dc doc (by omega) hn hd]
  unfold peek
  simp only [bind_apply, hfu, step, same]

theorem begin_first {t t' : τ} {doc : Bytes} (h : Arrives E t doc t') (ht : Tight doc) (pc dc : List JCtx) (hf : 2 ≤ E.fuel)
    (g : GoErr → P (Json τ) α) (k : Bytes × GoErr → P (Json τ) α) :
    (parsePreValue >>= fun e => if e.isSome then g e else peek E 4 >>= k) ⟨.toplevel :: pc, dc, [], none, t⟩ =
      (parsePreValue >>= fun e => if e.isSome then g e else peek E 4 >>= k) ⟨.toplevel :: pc, dc, doc, none, t'⟩ := by
  have ht' : doc.dropWhile isWs = doc := ht
  have h1 : (parsePreValue : P (Json τ) GoErr) ⟨.toplevel :: pc, dc, [], none, t⟩ = .ret (none, ⟨.toplevel :: pc, dc, [], none, t⟩) := rfl
  have h2 : (parsePreValue : P (Json τ) GoErr) ⟨.toplevel :: pc, dc, doc, none, t'⟩ = .ret (none, ⟨.toplevel :: pc, dc, doc, none, t'⟩) := by
    unfold parsePreValue
    psimp [dropWs, ht', parseTop]
    cases doc <;> rfl
  simp only [bind_apply, h1, h2, ret_bind, Option.isSome_none, Bool.false_eq_true, if_false, peek_first h (.toplevel :: pc) dc hf]

theorem objectStart_first {t t' : τ} {doc : Bytes} (h : Arrives E t doc t') (ht : Tight doc) (pc dc : List JCtx) (hf : 2 ≤ E.fuel) :
    parseObjectStart E ⟨.toplevel :: pc, dc, [], none, t⟩ = parseObjectStart E ⟨.toplevel :: pc, dc, doc, none, t'⟩ :=
  begin_first h ht pc dc hf _ _

theorem listBegin_first {t t' : τ} {doc : Bytes} (h : Arrives E t doc t') (ht : Tight doc) (pc dc : List JCtx) (hf : 2 ≤ E.fuel) :
    parseListBegin E ⟨.toplevel :: pc, dc, [], none, t⟩ = parseListBegin E ⟨.toplevel :: pc, dc, doc, none, t'⟩ :=
  begin_first h ht pc dc hf _ _

theorem Runs.transfer {m : P π α} {s s₁ s' : π} {bs : Bytes} {a : α} (h : m s = m s₁) (hr : Runs m s₁ s' bs a) : Runs m s s' bs a := by
  intro rest out
  have := hr rest out
  simp only [P.run, h] at this ⊢
  exact this

theorem dropWhile_all {p : Byte → Bool} : ∀ {ws : Bytes}, (∀ b ∈ ws, p b = true) → ws.dropWhile p = []
  | [], _ => rfl
  | b :: r, h => by
    have := h b (by simp)
    rw [List.dropWhile_cons, if_pos this]
    exact dropWhile_all fun x hx => h x (by simp [hx])

/-- A document with one struct and white space after it, read by a new object. -/
theorem dec_document (hL : Lawful E.L) {t t' : τ} (fs : Fields) (hw : fs.WF) (hr : ReadableF fs) {ws : Bytes} (hws : ∀ b ∈ ws, isWs b = true)
    (hf : (text E.L (.struct fs)).length + 8 < E.fuel) (h : Arrives E t (text E.L (.struct fs) ++ ws) t') (hd : Dry E t') :
    ∃ s', St E t' [.toplevel, .toplevel] [.toplevel, .toplevel] [] s' ∧ Dec (textual E) (.struct fs) (Json.new t) s' [] := by
  have ht : Tight (text E.L (.struct fs) ++ ws) := by rw [text]; exact Tight.cons rfl
  obtain ⟨s', hs', s₁, s₂, a, b, c, n, r₁, r₂, r₃, e⟩ := dec_struct (E := E) (t := t') (dc := [.toplevel, .toplevel]) hL fs .toplevel [.toplevel] ws
    ⟨[.toplevel, .toplevel], [.toplevel, .toplevel], text E.L (.struct fs) ++ ws, none, t'⟩ hw hr hf (Or.inr hd) (Or.inr hd)
    ⟨rfl, rfl, by rw [text]; simp [sepOf], rfl, Or.inl rfl⟩
  rw [dropWhile_all hws] at hs'
  refine ⟨s', hs', s₁, s₂, a, b, c, n, Runs.transfer ?_ r₁, r₂, r₃, e⟩
  show readStructBegin E _ = readStructBegin E _
  unfold readStructBegin
  simp only [bind_apply]
  rw [show Json.new t = ⟨[.toplevel, .toplevel], [.toplevel, .toplevel], [], none, t⟩ from rfl,
    objectStart_first h ht [.toplevel] [.toplevel, .toplevel] (by omega)]

/-! ## Messages -/

theorem emits_message (name : Bytes) (ty : TMessageType) (q : I32) (s : Json τ) (c : JCtx) (r : List JCtx) :
    Emits ((tjson E).writeMessageBegin name ty q) (s.at c r) (s.at .list (c :: r))
      (sepOf c ++ 91 :: (decimal 1 ++ 44 :: (E.L.quote name ++ 44 :: (decimal (ty.setWidth 8).toNat ++ 44 :: decimal q.toInt)))) := by
  refine (Emits.seq (emits_begin LBRACKET .listFirst s c r) (Emits.seq (emits_i32 E 1 s .listFirst (c :: r) rfl)
    (Emits.seq (emits_string E name s .list (c :: r)) (Emits.seq (emits_byte E (ty.setWidth 8) s .list (c :: r) rfl)
      (emits_i32 E q s .list (c :: r) rfl))))).congr ?_
  simp [LBRACKET, sepOf]

theorem gets_message (hL : Lawful E.L) {t : τ} {pc} {name : Bytes} (hn : Utf8 name) (ty : Byte) (q : I32) {rest : Bytes} (hr : 2 ≤ rest.length)
    (hf : (E.L.quote name).length + (decimal ty.toNat).length + (decimal q.toInt).length + 8 < E.fuel) :
    Gets E t (TJsonProtocol.readMessageBegin E) (.toplevel :: pc)
      (91 :: (decimal 1 ++ 44 :: (E.L.quote name ++ 44 :: (decimal ty.toNat ++ 44 :: (decimal q.toInt ++ 44 :: rest)))))
      ((name, ty.setWidth 32, q), none) (.list :: .toplevel :: pc) (44 :: rest) := by
  have d1 : decimal 1 = [49] := by decide +kernel
  have p1 : ∀ n : Int, 1 ≤ (decimal n).length := fun n => List.length_pos_iff.2 (number_ne_nil (decimal_number n))
  have p2 := p1 ty.toNat
  have p3 := p1 q.toInt
  unfold TJsonProtocol.readMessageBegin
  refine Gets.bind (gets_listBegin (c := .toplevel) (by simp [d1]; omega)) ?_
  simp only [Option.isSome_none, Bool.false_eq_true, or_self, if_false]
  refine Gets.bind (gets_i32 (c := .listFirst) 1 (by
    show (decimal 1).length < _
    rw [d1]; simp; omega) (rest := 44 :: (E.L.quote name ++ 44 :: (decimal ty.toNat ++ 44 :: (decimal q.toInt ++ 44 :: rest))))
    (Follows.of (Or.inl rfl) (Or.inl (by simp; omega)))) ?_
  simp only [Option.isSome_none, Bool.false_eq_true, if_false, ne_eq, not_true]
  unfold readMessageRest
  refine Gets.bind (gets_string (c := .list) hL hn (by omega) (rest := 44 :: (decimal ty.toNat ++ 44 :: (decimal q.toInt ++ 44 :: rest)))
    ⟨⟨44, _, rfl, Or.inl rfl⟩, Or.inl (by simp; omega)⟩) ?_
  simp only [Option.isSome_none, Bool.false_eq_true, if_false]
  refine Gets.bind (gets_byte (c := .list) ty (by omega) (rest := 44 :: (decimal q.toInt ++ 44 :: rest))
    (Follows.of (Or.inl rfl) (Or.inl (by simp; omega)))) ?_
  simp only [Option.isSome_none, Bool.false_eq_true, if_false]
  exact gets_map (gets_i32 (c := .list) q (by omega) (rest := 44 :: rest) (Follows.of (Or.inl rfl) (Or.inl hr)))
    (fun x : I32 => (name, ty.setWidth 32, x))

/-- A message with a struct, read by a new object. -/
theorem dec_message (hL : Lawful E.L) {t t' : τ} {name : Bytes} (hn : Utf8 name) (ty : Byte) (q : I32) (fs : Fields) (hw : fs.WF)
    (hr : ReadableF fs) (hf : (message E.L name ty q (.struct fs)).length + 8 < E.fuel)
    (h : Arrives E t (message E.L name ty q (.struct fs)) t') (hd : fs ≠ .nil ∨ Dry E t') :
    ∃ s₁ s₂ s₃, Reads (tjson E).readMessageBegin (Json.new t) s₁ [] (name, ty.setWidth 32, q) ∧ Dec (textual E) (.struct fs) s₁ s₂ [] ∧
      Runs (tjson E).readMessageEnd s₂ s₃ [] none ∧ St E t' [.toplevel, .toplevel] [.toplevel, .toplevel] [] s₃ := by
  have ht : Tight (message E.L name ty q (.struct fs)) := by rw [message]; exact Tight.cons rfl
  have hlen : (message E.L name ty q (.struct fs)).length = 1 + ((decimal 1).length + (1 + ((E.L.quote name).length + (1 +
      ((decimal ty.toNat).length + (1 + ((decimal q.toInt).length + (1 + ((text E.L (.struct fs)).length + 1))))))))) := by
    simp [message]; omega
  have hdoc : message E.L name ty q (.struct fs) = 91 :: (decimal 1 ++ 44 :: (E.L.quote name ++ 44 :: (decimal ty.toNat ++ 44 ::
      (decimal q.toInt ++ 44 :: (123 :: (members E.L fs ++ 125 :: [93])))))) := by
    simp [message, text]
  obtain ⟨s₁, hs₁, r₁⟩ := (gets_message (E := E) (t := t') (pc := [.toplevel]) hL hn ty q (rest := 123 :: (members E.L fs ++ 125 :: [93]))
    (by simp) (by omega)).runs (dc := [.toplevel, .toplevel])
    (s := ⟨[.toplevel, .toplevel], [.toplevel, .toplevel], message E.L name ty q (.struct fs), none, t'⟩) ⟨rfl, rfl, hdoc, rfl, Or.inl rfl⟩
  obtain ⟨s₂, hs₂, r₂⟩ := dec_struct (E := E) (t := t') (dc := [.toplevel, .toplevel]) hL fs .list [.toplevel, .toplevel] [93] s₁ hw hr
    (by omega) (Or.inl (by simp)) (hd.imp_left fun hne => by
      cases fs with
      | nil => exact absurd rfl hne
      | cons id v r =>
        rw [← (membersIn_first E.L _).1, membersIn]
        simp [inQuotes]; omega) hs₁
  obtain ⟨s₃, hs₃, r₃⟩ := (gets_listEnd (E := E) (t := t') (by omega)).runs hs₂
  refine ⟨s₁, s₂, s₃, Runs.transfer ?_ r₁, r₂, r₃, hs₃⟩
  show TJsonProtocol.readMessageBegin E _ = TJsonProtocol.readMessageBegin E _
  unfold TJsonProtocol.readMessageBegin
  simp only [bind_apply]
  rw [show Json.new t = ⟨[.toplevel, .toplevel], [.toplevel, .toplevel], [], none, t⟩ from rfl,
    listBegin_first h ht [.toplevel] [.toplevel, .toplevel] (by omega)]

/-- On a connection that goes on after the message, the object is as new. -/
theorem St.new {t' : τ} {s : Json τ} (h : St E t' [.toplevel, .toplevel] [.toplevel, .toplevel] [] s) (hd : ¬ Dry E t') : s = Json.new t' := by
  obtain ⟨p, d, b, er, t⟩ := s
  obtain ⟨rfl, rfl, rfl, rfl, her⟩ := h
  have : er = none := her.resolve_right hd
  subst this
  rfl

/-! ## The memory buffer -/

theorem memory_dry (E : JsonEnv Bytes) (hT : E.T = memory) : Dry E [] := by
  intro n hn
  have : n ≠ 0 := by omega
  simp [hT, memory, bufferRead, this]

theorem memory_arrives (E : JsonEnv Bytes) (hT : E.T = memory) (doc : Bytes) (h0 : doc ≠ []) (h : doc.length ≤ bufSize) : Arrives E doc doc [] := by
  refine ⟨?_, Or.inr (memory_dry E hT)⟩
  simp only [hT, memory, bufferRead, h0, if_false]
  rw [List.take_of_length_le h, List.drop_of_length_le h]

end JsonR
end Thrift
