import Verif.Lemmas.JsonDoc
import Verif.Spec.Failures
/-!
# JSON read calls at the end of the data
-/

namespace Thrift
namespace JsonR
open JsonProtocol JsonSpec JsonW

variable {τ : Type} {α β : Type} {E : JsonEnv τ}

/-- The state with nothing left in the buffer. -/
def Empty (t : τ) (c : JCtx) (pc dc : List JCtx) : Json τ := ⟨c :: pc, dc, [], none, t⟩

section
variable {t : τ} (hd : Dry E t) (hf : 2 ≤ E.fuel) (c : JCtx) (pc dc : List JCtx)
include hd hf

theorem peek_dry (n : Nat) (h : 0 < n) (hn : n ≤ bufSize) : peek E n (Empty t c pc dc) = .ret (([], some ioEOF), Empty t c pc dc) := by
  obtain ⟨f, hfu⟩ : ∃ f, E.fuel = f + 1 := ⟨E.fuel - 1, by omega⟩
  unfold peek Empty
  rw [hfu]
  psimp [fillTo_dry (E := E) (t := t) n f (c :: pc) dc [] h hn hd]
  simp [h]

theorem getByte_dry : getByte E (Empty t c pc dc) = .ret ((0, some ioEOF), Empty t c pc dc) := by
  obtain ⟨f, hfu⟩ : ∃ f, E.fuel = f + 1 := ⟨E.fuel - 1, by omega⟩
  unfold getByte Empty
  rw [hfu]
  psimp [fillTo_dry (E := E) (t := t) 1 f (c :: pc) dc [] (by simp) (by simp [bufSize]) hd]

omit hd hf in
theorem pre_dry : (parsePreValue : P (Json τ) GoErr) (Empty t c pc dc) = .ret (none, Empty t c pc dc) := by
  cases c <;> rfl

theorem number_dry : parseNumber E (Empty t c pc dc) = .ret ((Num.null, some invalid), Empty t c pc dc) := by
  obtain ⟨f, hfu⟩ : ∃ f, E.fuel = f + 1 := ⟨E.fuel - 1, by omega⟩
  have hl : numberLoop E E.fuel {} (Empty t c pc dc) = .ret ((Num.null, some invalid), Empty t c pc dc) := by
    rw [hfu, numberLoop]
    psimp [getByte_dry hd hf c pc dc]
    rfl
  have hn : readIfNull E (Empty t c pc dc) = .ret (false, Empty t c pc dc) := rfl
  unfold parseNumber readNumeric
  psimp [pre_dry c pc dc, peek_dry hd hf c pc dc 4 (by omega) (by simp [bufSize]), hl, hn]
  rfl

theorem list_dry : parseListBegin E (Empty t c pc dc) = .ret ((false, some invalid), Empty t c pc dc) := by
  unfold parseListBegin
  psimp [pre_dry c pc dc, peek_dry hd hf c pc dc 4 (by omega) (by simp [bufSize])]
  rfl

theorem object_dry : parseObjectStart E (Empty t c pc dc) = .ret ((false, some invalid), Empty t c pc dc) := by
  unfold parseObjectStart
  psimp [pre_dry c pc dc, peek_dry hd hf c pc dc 4 (by omega) (by simp [bufSize])]
  rfl

theorem quoted_dry (body : P (Json τ) (Bytes × GoErr)) : readQuoted E body (Empty t c pc dc) = .ret (([], some invalid), Empty t c pc dc) := by
  unfold readQuoted
  psimp [pre_dry c pc dc, peek_dry hd hf c pc dc 4 (by omega) (by simp [bufSize])]
  rfl

theorem until_dry (d : Byte) : readUntil E d E.fuel [] (Empty t c pc dc) = .ret (([], some ioEOF), Empty t c pc dc) := by
  obtain ⟨f, hfu⟩ : ∃ f, E.fuel = f + 2 := ⟨E.fuel - 2, by omega⟩
  have hr := hd bufSize (by simp [bufSize])
  have hfill : fill E (Empty t c pc dc) = .ret ((), ⟨c :: pc, dc, [], some ioEOF, t⟩) := by
    simp only [fill, Empty, List.length_nil, Nat.sub_zero, hr, List.append_nil]
  have step : readUntil E d (f + 2) [] (Empty t c pc dc) = (fill E >>= fun _ => readUntil E d (f + 1) []) (Empty t c pc dc) := rfl
  rw [hfu, step, bind_apply, hfill]
  rfl

theorem close_dry (ch : Byte) : ∃ e, parseClose E ch (Empty t c pc dc) = .ret (some e, Empty t c pc dc) := by
  unfold parseClose
  psimp [until_dry hd hf c pc dc ch]
  exact ⟨_, rfl⟩

theorem objectEnd_dry : ∃ e, parseObjectEnd E (Empty t c pc dc) = .ret (some e, Empty t c pc dc) := by
  have hn : readIfNull E (Empty t c pc dc) = .ret (false, Empty t c pc dc) := rfl
  obtain ⟨e, he⟩ := close_dry hd hf c pc dc RBRACE
  have hp : (parseTop : P (Json τ) JCtx) (Empty t c pc dc) = .ret (c, Empty t c pc dc) := rfl
  unfold parseObjectEnd
  psimp [hn, hp]
  simp only [Bool.false_eq_true, if_false]
  split
  · exact ⟨_, rfl⟩
  · exact ⟨e, he⟩

theorem listEnd_dry : ∃ e, parseListEnd E (Empty t c pc dc) = .ret (some e, Empty t c pc dc) := by
  have hn : readIfNull E (Empty t c pc dc) = .ret (false, Empty t c pc dc) := rfl
  obtain ⟨e, he⟩ := close_dry hd hf c pc dc RBRACKET
  have hp : (parseTop : P (Json τ) JCtx) (Empty t c pc dc) = .ret (c, Empty t c pc dc) := rfl
  unfold parseListEnd
  psimp [hn, hp]
  simp only [Bool.false_eq_true, if_false]
  split
  · exact ⟨_, rfl⟩
  · exact ⟨e, he⟩

/-- All calls but `ReadBool` and `ReadFieldBegin` report the end. -/
theorem fetch_dry (call : FetchCall) (h1 : call ≠ .bool) (h2 : call ≠ .fieldBegin) :
    ∃ e, (tjson E).fetch call (Empty t c pc dc) = .ret (some e, Empty t c pc dc) := by
  cases call
  case bool => exact absurd rfl h1
  case fieldBegin => exact absurd rfl h2
  case messageEnd => exact listEnd_dry hd hf c pc dc
  case mapEnd => exact listEnd_dry hd hf c pc dc
  case listEnd => exact listEnd_dry hd hf c pc dc
  case setEnd => exact listEnd_dry hd hf c pc dc
  case structEnd => exact objectEnd_dry hd hf c pc dc
  case fieldEnd => exact objectEnd_dry hd hf c pc dc
  all_goals simp only [Proto.fetch, tjson, simpleJson]
  case messageBegin => unfold TJsonProtocol.readMessageBegin; psimp [list_dry hd hf c pc dc]; exact ⟨_, rfl⟩
  case structBegin => unfold readStructBegin; psimp [object_dry hd hf c pc dc]; exact ⟨_, rfl⟩
  case mapBegin => unfold TJsonProtocol.readMapBegin; psimp [list_dry hd hf c pc dc]; exact ⟨_, rfl⟩
  case listBegin => unfold parseElemListBegin; psimp [list_dry hd hf c pc dc]; exact ⟨_, rfl⟩
  case setBegin => unfold parseElemListBegin; psimp [list_dry hd hf c pc dc]; exact ⟨_, rfl⟩
  case byte => unfold readByte readI64; psimp [number_dry hd hf c pc dc]; exact ⟨_, rfl⟩
  case i16 => unfold readI16 readI64; psimp [number_dry hd hf c pc dc]; exact ⟨_, rfl⟩
  case i32 => unfold readI32 readI64; psimp [number_dry hd hf c pc dc]; exact ⟨_, rfl⟩
  case i64 => unfold readI64; psimp [number_dry hd hf c pc dc]; exact ⟨_, rfl⟩
  case double => unfold readDouble; psimp [number_dry hd hf c pc dc]; exact ⟨_, rfl⟩
  case string => unfold readString; psimp [quoted_dry hd hf c pc dc]; exact ⟨_, rfl⟩
  case binary => unfold readBinary; psimp [quoted_dry hd hf c pc dc]; exact ⟨_, rfl⟩
end

/-! ## Text that is no number -/

theorem gets_refused {t : τ} (hd : Dry E t) (hf : 2 ≤ E.fuel) {c : JCtx} (hc : c = .toplevel) {pc : List JCtx} (b : Byte) (x : Bytes)
    (hw : isWs b = false) (h1 : ¬ (48 ≤ b.toNat ∧ b.toNat ≤ 57)) (h2 : b ∉ ([46, 101, 69, 43, 45, 78, 73, 110, 34] : Bytes)) :
    ∃ buf, Gets E t (parseNumber E) (c :: pc) (b :: x) (Num.null, some invalid) (c :: pc) buf := by
  simp only [List.mem_cons, List.not_mem_nil, or_false, not_or] at h2
  obtain ⟨f, hfu⟩ : ∃ f, E.fuel = f + 1 := ⟨E.fuel - 1, by omega⟩
  have hl : ∃ buf, Gets E t (numberLoop E E.fuel {}) (c :: pc) (b :: x) (Num.null, some invalid) (c :: pc) buf := by
    refine ⟨if endsNumber b then b :: x else x, fun dc er => ⟨er, Or.inl rfl, ?_⟩⟩
    rw [hfu, numberLoop]
    psimp [getByte_cons]
    simp only [h1, if_false, h2.1, h2.2.1, h2.2.2.1, h2.2.2.2.1, h2.2.2.2.2.1, h2.2.2.2.2.2.1, h2.2.2.2.2.2.2.1,
      h2.2.2.2.2.2.2.2.2, or_self, QUOTE]
    split <;> rfl
  obtain ⟨buf, hl⟩ := hl
  refine ⟨buf, ?_⟩
  subst hc
  unfold parseNumber
  refine Gets.bind (gets_pre (c := .toplevel) (x := b :: x) (Tight.cons hw)) ?_
  simp only [Option.isSome_none, Bool.false_eq_true, if_false]
  refine Gets.peekStep E (by decide) (by omega) (Or.inr hd) fun e => ?_
  have hne : ¬ (b :: x).take 4 = NULL := by
    intro h
    rw [List.take_succ_cons, NULL, List.cons_eq_cons] at h
    exact h2.2.2.2.2.2.2.2.1 h.1
  simp only [hne, if_false]
  unfold readNumeric
  refine Gets.bind (a := (Num.null, some invalid)) (pc' := .toplevel :: pc) (b' := buf)
    (Gets.bind (gets_readIfNull E (Tight.cons hw) (by simpa using h2.2.2.2.2.2.2.2.1)) hl) (Gets.pure _ _ _)

theorem number_refused {E : JsonEnv Bytes} (hT : E.T = memory) (hf : 2 ≤ E.fuel) (b : Byte) (x : Bytes)
    (hw : isWs b = false) (h1 : ¬ (48 ≤ b.toNat ∧ b.toNat ≤ 57)) (h2 : b ∉ ([46, 101, 69, 43, 45, 78, 73, 110, 34] : Bytes))
    (hlen : x.length < 4096) : ∃ s', parseNumber E (Json.new (b :: x)) = .ret ((Num.null, some invalid), s') := by
  have ha := memory_arrives E hT (b :: x) (by simp) (by simp [bufSize]; omega)
  obtain ⟨buf, h⟩ := gets_refused (E := E) (memory_dry E hT) hf rfl (pc := [.toplevel]) b x hw h1 h2
  obtain ⟨er, _, h⟩ := h [.toplevel, .toplevel] none
  exact ⟨_, (begin_first ha (Tight.cons hw) [.toplevel] [.toplevel, .toplevel] hf _ _).trans h⟩

/-! ## Text that is no string -/

theorem cut_free : ∀ {x : Bytes} {d : Byte}, d ∉ x → ∀ r, cutAfter d (x ++ d :: r) = some (x ++ [d], r)
  | [], d, _, r => by simp [cutAfter]
  | b :: x, d, h, r => by
    simp only [List.mem_cons, not_or] at h
    rw [List.cons_append, cutAfter, if_neg (fun e => h.1 e.symm), cut_free h.2 r]
    rfl

theorem trailing_last (s : Bytes) (h : s.getLast? ≠ some BACKSLASH) : trailing s = 0 := by
  rcases List.eq_nil_or_concat s with rfl | ⟨l, b, rfl⟩
  · rfl
  · rw [List.concat_eq_append] at h ⊢
    refine trailing_other l b fun e => h ?_
    simp [e, BACKSLASH]

theorem gets_stringRefused {t : τ} {pc : List JCtx} (hf : 2 ≤ E.fuel) (x y rest : Bytes) (hx : QUOTE ∉ x) (hy : QUOTE ∉ y)
    (hu : E.L.unquote (inQuotes (x ++ BACKSLASH :: QUOTE :: y)) = none) (hxb : x.getLast? ≠ some BACKSLASH)
    (hyb : y.getLast? ≠ some BACKSLASH) :
    Gets E t (parseStringBody E) pc (x ++ BACKSLASH :: QUOTE :: (y ++ QUOTE :: rest)) ([], some invalid) pc rest := by
  have h1 : QUOTE ∉ x ++ [BACKSLASH] := by
    rw [List.mem_append, not_or]; exact ⟨hx, by decide⟩
  have hb1 : backslashes ((x ++ [BACKSLASH]) ++ [QUOTE]) = 1 := by
    rw [backslashes_eq, BACKSLASH, trailing_backslash, trailing_last x hxb]
  have hb2 : backslashes (y ++ [QUOTE]) = 0 := by rw [backslashes_eq, trailing_last y hyb]
  obtain ⟨f, hfu⟩ : ∃ f, E.fuel = f + 1 := ⟨E.fuel - 1, by omega⟩
  have hq : Gets E t (parseQuotedStringBody E E.fuel) pc (y ++ QUOTE :: rest) (y ++ [QUOTE], none) pc rest := by
    rw [hfu, parseQuotedStringBody]
    refine Gets.bind (gets_readUntil E QUOTE (by omega) (cut_free hy rest)) ?_
    simp only [Option.isSome_none, Bool.false_eq_true, if_false, hb2, Nat.zero_mod, if_true]
    exact Gets.pure _ _ _
  unfold parseStringBody
  refine Gets.bind (gets_readUntil E QUOTE (by omega) (line := (x ++ [BACKSLASH]) ++ [QUOTE]) (rest := y ++ QUOTE :: rest) ?_) ?_
  · have := cut_free h1 (y ++ QUOTE :: rest)
    simpa using this
  · simp only [Option.isSome_none, Bool.false_eq_true, if_false, hb1, Nat.one_mod, Nat.one_ne_zero]
    refine Gets.bind hq ?_
    simp only [Option.isSome_none, Bool.false_eq_true, if_false]
    have e : QUOTE :: ((x ++ [BACKSLASH]) ++ [QUOTE]) ++ (y ++ [QUOTE]) = inQuotes (x ++ BACKSLASH :: QUOTE :: y) := by
      simp [inQuotes, QUOTE]
    rw [e, hu]
    exact Gets.pure _ _ _

theorem string_refused {E : JsonEnv Bytes} (hT : E.T = memory) (x y : Bytes) (d : Byte) (hx : QUOTE ∉ x) (hy : QUOTE ∉ y)
    (hu : E.L.unquote (inQuotes (x ++ BACKSLASH :: QUOTE :: y)) = none) (hxb : x.getLast? ≠ some BACKSLASH)
    (hyb : y.getLast? ≠ some BACKSLASH) (hf : 2 ≤ E.fuel) (hlen : (inQuotes (x ++ BACKSLASH :: QUOTE :: y) ++ [d]).length ≤ 4096) :
    ∃ s', readString E (Json.new (inQuotes (x ++ BACKSLASH :: QUOTE :: y) ++ [d])) = .ret (([], some invalid), s') := by
  have ha := memory_arrives E hT (inQuotes (x ++ BACKSLASH :: QUOTE :: y) ++ [d]) (by simp [inQuotes]) hlen
  have ht : Tight (inQuotes (x ++ BACKSLASH :: QUOTE :: y) ++ [d]) := Tight.cons rfl
  have h : Gets E ([] : Bytes) (readString E) [.toplevel, .toplevel] (inQuotes (x ++ BACKSLASH :: QUOTE :: y) ++ [d]) ([], some invalid)
      [.toplevel, .toplevel] [d] := by
    unfold readString readQuoted
    have e' : inQuotes (x ++ BACKSLASH :: QUOTE :: y) ++ [d] = 34 :: (x ++ BACKSLASH :: QUOTE :: (y ++ QUOTE :: [d])) := by
      simp [inQuotes, QUOTE]
    rw [e'] at ht ⊢
    refine Gets.bind (gets_pre (c := .toplevel) ht) ?_
    simp only [Option.isSome_none, Bool.false_eq_true, if_false]
    refine Gets.peekStep E (by decide) (by omega) (Or.inr (memory_dry E hT)) fun e => ?_
    have hh : ((34 :: (x ++ BACKSLASH :: QUOTE :: (y ++ QUOTE :: [d]))).take 4).head? = some QUOTE := rfl
    simp only [hh, if_true]
    refine Gets.bind (gets_getByte E) ?_
    refine Gets.bind (gets_stringRefused hf x y [d] hx hy hu hxb hyb) ?_
    simp only [Option.isSome_some, if_true]
    exact Gets.pure _ _ _
  obtain ⟨er, _, h⟩ := h [.toplevel, .toplevel] none
  exact ⟨_, (begin_first ha ht [.toplevel] [.toplevel, .toplevel] hf _ _).trans h⟩

end JsonR
end Thrift
