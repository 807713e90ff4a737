import Verif.Lemmas.JsonDry
import Verif.Lemmas.JsonBase64
import Verif.Lemmas.Tells
/-!
# Malformed JSON
-/

namespace Thrift
namespace JsonR
open JsonProtocol JsonSpec JsonW

variable {τ : Type} {α β : Type} {E : JsonEnv τ}

/-! ## Separators -/

/-- The characters that may come next in a context. -/
def allowed : JCtx → List Byte
  | .list => [44, 93]
  | .nextKey => [44, 125]
  | .nextValue => [58]
  | _ => []

/-- A context in which a separator is due. -/
def Due (c : JCtx) : Prop := c = .list ∨ c = .nextKey ∨ c = .nextValue

theorem separator_none {stop : Byte → Bool} {sep b : Byte} (h1 : stop b = false) (h2 : b ≠ sep) :
    (separator stop sep b : P (Json τ) GoErr) = pure (some invalid) := by
  unfold separator
  rw [if_neg (by rw [h1]; decide), if_neg h2]

theorem pre_refused {c : JCtx} (hc : Due c) {b : Byte} (hb : b ∉ allowed c) (hw : isWs b = false) (pc dc : List JCtx) (x : Bytes)
    (er : GoErr) (t : τ) : (parsePreValue : P (Json τ) GoErr) ⟨c :: pc, dc, b :: x, er, t⟩ =
      .ret (some invalid, ⟨c :: pc, dc, b :: x, er, t⟩) := by
  have h1 : (b :: x).dropWhile isWs = b :: x := Tight.cons hw
  unfold parsePreValue
  psimp [dropWs, h1, parseTop]
  rcases hc with rfl | rfl | rfl
  all_goals simp only [allowed, List.mem_cons, List.not_mem_nil, or_false, not_or] at hb
  · exact congrFun (separator_none (decide_eq_false hb.2) hb.1) _
  · exact congrFun (separator_none (decide_eq_false hb.2) hb.1) _
  · exact congrFun (separator_none rfl hb) _

/-- `ReadString` of the buffered reader where the transport has nothing to give. -/
theorem until_none {t : τ} (hd : Dry E t) (hf : 2 ≤ E.fuel) (d : Byte) {b : Bytes} (hb : b.length < bufSize) (hc : cutAfter d b = none)
    (pc dc : List JCtx) (er : GoErr) : ∃ e s', readUntil E d E.fuel [] ⟨pc, dc, b, er, t⟩ = .ret ((b, some e), s') := by
  obtain ⟨f, hfu⟩ : ∃ f, E.fuel = f + 2 := ⟨E.fuel - 2, by omega⟩
  have stop : ∀ (n : Nat) (e : Err), readUntil E d (n + 1) [] ⟨pc, dc, b, some e, t⟩ = .ret ((b, some e), ⟨pc, dc, [], none, t⟩) := by
    intro n e
    rw [readUntil]
    psimp []
    simp only [hc]
    rfl
  cases er with
  | some e => exact ⟨e, _, by rw [hfu]; exact stop (f + 1) e⟩
  | none =>
    refine ⟨ioEOF, ⟨pc, dc, [], none, t⟩, ?_⟩
    have hr := hd (bufSize - b.length) (by omega)
    have hfill : fill E ⟨pc, dc, b, none, t⟩ = .ret ((), ⟨pc, dc, b, some ioEOF, t⟩) := by
      simp only [fill, hr, List.append_nil]
    have hnl : ¬ b.length ≥ bufSize := by omega
    rw [hfu, readUntil]
    psimp []
    simp only [hc, Option.isSome_none, Bool.false_eq_true, if_false, hnl, ite_apply', bind_apply, hfill, ret_bind, stop]

theorem cut_cons {d b : Byte} (h : b ≠ d) {x line rest : Bytes} (hc : cutAfter d (b :: x) = some (line, rest)) : ∃ l, line = b :: l := by
  rw [cutAfter_skip h] at hc
  cases hx : cutAfter d x with
  | none => rw [hx] at hc; exact nomatch hc
  | some p =>
    rw [hx] at hc
    simp only [Option.map_some, Option.some.injEq, Prod.mk.injEq] at hc
    exact ⟨p.1, hc.1.symm⟩

theorem close_refused {t : τ} (hd : Dry E t) (hf : 2 ≤ E.fuel) {ch b : Byte} (hne : b ≠ ch) (hw : isWs b = false) {x : Bytes}
    (hx : (b :: x).length < bufSize) (pc dc : List JCtx) (er : GoErr) :
    ∃ e s', parseClose E ch ⟨pc, dc, b :: x, er, t⟩ = .ret (some e, s') := by
  unfold parseClose
  cases hc : cutAfter ch (b :: x) with
  | none =>
    obtain ⟨e, s', h⟩ := until_none hd hf ch hx hc pc dc er
    psimp [h]
    simp only [Option.isSome_some, if_true]
    obtain ⟨e', he'⟩ : ∃ e', protocolFromOsError (some e) = some e' := Option.isSome_iff_exists.1 (fromOs_isSome rfl)
    exact ⟨e', s', by rw [he']⟩
  | some p =>
    obtain ⟨line, rest⟩ := p
    obtain ⟨l, rfl⟩ := cut_cons hne hc
    obtain ⟨er', h⟩ := gets_readUntil E (t := t) (pc := pc) ch (by omega) hc dc er
    psimp [h]
    have : ((b :: l).all fun y => isWs y || decide (y = ch)) = false := by simp [hw, hne]
    simp only [Option.isSome_none, Bool.false_eq_true, if_false, this]
    exact ⟨_, _, rfl⟩

/-- Every read call refuses a missing separator. -/
theorem fetch_refused {t : τ} (hd : Dry E t) (hf : 2 ≤ E.fuel) {c : JCtx} (hc : Due c) {b : Byte} (hb : b ∉ allowed c) (hw : isWs b = false)
    (hn : b ≠ 110) (h1 : b ≠ 125) (h2 : b ≠ 93) {x : Bytes} (hx : (b :: x).length < bufSize) (pc dc : List JCtx) (er : GoErr) (call : FetchCall) :
    ∃ e s', (tjson E).fetch call ⟨c :: pc, dc, b :: x, er, t⟩ = .ret (some e, s') := by
  have pre := fun er => pre_refused hc hb hw pc dc x er t
  have num : parseNumber E ⟨c :: pc, dc, b :: x, er, t⟩ = .ret ((⟨0, 0⟩, some invalid), ⟨c :: pc, dc, b :: x, er, t⟩) := by
    unfold parseNumber; psimp [pre]; rfl
  have lst : parseListBegin E ⟨c :: pc, dc, b :: x, er, t⟩ = .ret ((false, some invalid), ⟨c :: pc, dc, b :: x, er, t⟩) := by
    unfold parseListBegin; psimp [pre]; rfl
  have obj : parseObjectStart E ⟨c :: pc, dc, b :: x, er, t⟩ = .ret ((false, some invalid), ⟨c :: pc, dc, b :: x, er, t⟩) := by
    unfold parseObjectStart; psimp [pre]; rfl
  have quo : ∀ body, readQuoted E body ⟨c :: pc, dc, b :: x, er, t⟩ = .ret (([], some invalid), ⟨c :: pc, dc, b :: x, er, t⟩) := by
    intro body; unfold readQuoted; psimp [pre]; rfl
  obtain ⟨er', nul⟩ := gets_readIfNull E (t := t) (pc := c :: pc) (b := b :: x) (Tight.cons hw) (by simpa using hn) dc er
  have lend : ∃ e s', parseListEnd E ⟨c :: pc, dc, b :: x, er, t⟩ = .ret (some e, s') := by
    unfold parseListEnd
    psimp [nul, parseTop]
    simp only [Bool.false_eq_true, if_false]
    split
    · exact ⟨_, _, rfl⟩
    · exact close_refused hd hf h2 hw hx (c :: pc) dc er'
  have oend : ∃ e s', parseObjectEnd E ⟨c :: pc, dc, b :: x, er, t⟩ = .ret (some e, s') := by
    unfold parseObjectEnd
    psimp [nul, parseTop]
    simp only [Bool.false_eq_true, if_false]
    split
    · exact ⟨_, _, rfl⟩
    · exact close_refused hd hf h1 hw hx (c :: pc) dc er'
  cases call
  case messageEnd => exact lend
  case mapEnd => exact lend
  case listEnd => exact lend
  case setEnd => exact lend
  case structEnd => exact oend
  case fieldEnd => exact oend
  all_goals simp only [Proto.fetch, tjson, simpleJson]
  case messageBegin => unfold TJsonProtocol.readMessageBegin; psimp [lst]; exact ⟨_, _, rfl⟩
  case structBegin => unfold readStructBegin; psimp [obj]; exact ⟨_, _, rfl⟩
  case mapBegin => unfold TJsonProtocol.readMapBegin; psimp [lst]; exact ⟨_, _, rfl⟩
  case listBegin => unfold parseElemListBegin; psimp [lst]; exact ⟨_, _, rfl⟩
  case setBegin => unfold parseElemListBegin; psimp [lst]; exact ⟨_, _, rfl⟩
  case byte => unfold readByte readI64; psimp [num]; exact ⟨_, _, rfl⟩
  case i16 => unfold readI16 readI64; psimp [num]; exact ⟨_, _, rfl⟩
  case i32 => unfold readI32 readI64; psimp [num]; exact ⟨_, _, rfl⟩
  case i64 => unfold readI64; psimp [num]; exact ⟨_, _, rfl⟩
  case double => unfold readDouble; psimp [num]; exact ⟨_, _, rfl⟩
  case string => unfold readString; psimp [quo]; exact ⟨_, _, rfl⟩
  case binary => unfold readBinary; psimp [quo]; exact ⟨_, _, rfl⟩
  case bool => unfold readBool; psimp [pre]; exact ⟨_, _, rfl⟩
  case fieldBegin =>
    have : ¬ (b = RBRACE ∨ b = RBRACKET) := by rw [not_or]; exact ⟨h1, h2⟩
    unfold TJsonProtocol.readFieldBegin readI16 readI64
    psimp [num, this, if_false]
    exact ⟨_, _, rfl⟩

/-! ## The version of a message -/

theorem version_refused {E : JsonEnv Bytes} (hT : E.T = memory) (v : I32) (hv : v ≠ 1) (rest : Bytes) (hr : 2 ≤ rest.length)
    (hlen : (91 :: (decimal v.toInt ++ 44 :: rest)).length ≤ 4096) (hf : (decimal v.toInt).length + 1 < E.fuel) :
    ∃ s', TJsonProtocol.readMessageBegin E (Json.new (91 :: (decimal v.toInt ++ 44 :: rest))) = .ret ((([], 0, 0), some invalid), s') := by
  have ha := memory_arrives E hT (91 :: (decimal v.toInt ++ 44 :: rest)) (by simp) hlen
  have hp : 1 ≤ (decimal v.toInt).length := List.length_pos_iff.2 (number_ne_nil (decimal_number v.toInt))
  have h : Gets E ([] : Bytes) (TJsonProtocol.readMessageBegin E) [.toplevel, .toplevel] (91 :: (decimal v.toInt ++ 44 :: rest))
      (([], 0, 0), some invalid) [.list, .toplevel, .toplevel] (44 :: rest) := by
    unfold TJsonProtocol.readMessageBegin
    refine Gets.bind (gets_listBegin (c := .toplevel) (by simp; omega)) ?_
    simp only [Option.isSome_none, Bool.false_eq_true, or_self, if_false]
    refine Gets.bind (gets_i32 (c := .listFirst) v (by omega) (rest := 44 :: rest) (Follows.of (Or.inl rfl) (Or.inl hr))) ?_
    simp only [Option.isSome_none, Bool.false_eq_true, if_false, ne_eq, hv, not_false_eq_true, if_true]
    exact Gets.pure _ _ _
  obtain ⟨er, _, h⟩ := h [.toplevel, .toplevel] none
  refine ⟨_, Eq.trans ?_ h⟩
  unfold TJsonProtocol.readMessageBegin
  simp only [bind_apply]
  rw [show Json.new (91 :: (decimal v.toInt ++ 44 :: rest)) = ⟨[.toplevel, .toplevel], [.toplevel, .toplevel], [], none, _⟩ from rfl,
    listBegin_first ha (Tight.cons rfl) [.toplevel] [.toplevel, .toplevel] (by omega)]

/-! ## The header of a list -/

theorem numberLoop_refused {t : τ} (hf : 2 ≤ E.fuel) {pc : List JCtx} (b : Byte) (x : Bytes)
    (h1 : ¬ (48 ≤ b.toNat ∧ b.toNat ≤ 57)) (h2 : b ∉ ([46, 101, 69, 43, 45, 78, 73, 110, 34] : Bytes)) :
    ∃ buf, Gets E t (numberLoop E E.fuel {}) pc (b :: x) (Num.null, some invalid) pc buf := by
  simp only [List.mem_cons, List.not_mem_nil, or_false, not_or] at h2
  obtain ⟨f, hfu⟩ : ∃ f, E.fuel = f + 1 := ⟨E.fuel - 1, by omega⟩
  refine ⟨if endsNumber b then b :: x else x, fun dc er => ⟨er, Or.inl rfl, ?_⟩⟩
  rw [hfu, numberLoop]
  psimp [getByte_cons]
  simp only [h1, if_false, h2.1, h2.2.1, h2.2.2.1, h2.2.2.2.1, h2.2.2.2.2.1, h2.2.2.2.2.2.1, h2.2.2.2.2.2.2.1,
    h2.2.2.2.2.2.2.2.2, or_self, QUOTE]
  split <;> rfl

/-- A value that does not begin like a number, in any context. -/
theorem gets_noNumber {t : τ} (hd : Dry E t) (hf : 2 ≤ E.fuel) {c : JCtx} {pc : List JCtx} (b : Byte) (x : Bytes)
    (hw : isWs b = false) (h1 : ¬ (48 ≤ b.toNat ∧ b.toNat ≤ 57)) (h2 : b ∉ ([46, 101, 69, 43, 45, 78, 73, 110, 34] : Bytes)) :
    ∃ buf, Gets E t (parseNumber E) (c :: pc) (sepOf c ++ b :: x) (Num.null, some invalid) (c :: pc) buf := by
  obtain ⟨buf, hl⟩ := numberLoop_refused (E := E) (t := t) (pc := c :: pc) hf b x h1 h2
  simp only [List.mem_cons, List.not_mem_nil, or_false, not_or] at h2
  refine ⟨buf, ?_⟩
  unfold parseNumber
  refine Gets.bind (gets_pre (c := c) (x := b :: x) (Tight.cons hw)) ?_
  simp only [Option.isSome_none, Bool.false_eq_true, if_false]
  refine Gets.peekStep E (by decide) (by omega) (Or.inr hd) fun e => ?_
  have hne : ¬ (b :: x).take 4 = NULL := by
    intro h
    rw [List.take_succ_cons, NULL, List.cons_eq_cons] at h
    exact h2.2.2.2.2.2.2.2.1 h.1
  simp only [hne, if_false]
  unfold readNumeric
  refine Gets.bind (a := (Num.null, some invalid)) (pc' := c :: pc) (b' := buf)
    (Gets.bind (gets_readIfNull E (Tight.cons hw) (by simpa using h2.2.2.2.2.2.2.2.1)) hl) (Gets.pure _ _ _)

theorem gets_error {t : τ} {m : P (Json τ) (α × GoErr)} {pc b a e pc' b'} (h : Gets E t m pc b (a, some e) pc' b') (f : α → β) :
    Gets E t (do let (x, e) ← m; return (f x, e)) pc b (f a, some e) pc' b' := Gets.bind h (Gets.pure _ _ _)

theorem listHeader_refused {E : JsonEnv Bytes} (hT : E.T = memory) (hf : 2 ≤ E.fuel) (b : Byte) (x : Bytes) (hw : isWs b = false)
    (h1 : ¬ (48 ≤ b.toNat ∧ b.toNat ≤ 57)) (h2 : b ∉ ([46, 101, 69, 43, 45, 78, 73, 110, 34] : Bytes)) (hx : 2 ≤ x.length)
    (hlen : (91 :: b :: x).length ≤ 4096) : ∃ s', parseElemListBegin E (Json.new (91 :: b :: x)) = .ret (((0, 0), some invalid), s') := by
  have ha := memory_arrives E hT (91 :: b :: x) (by simp) hlen
  obtain ⟨buf, hb⟩ := gets_noNumber (E := E) (memory_dry E hT) hf (c := .listFirst) (pc := [.toplevel, .toplevel]) b x hw h1 h2
  have h : Gets E ([] : Bytes) (parseElemListBegin E) [.toplevel, .toplevel] (91 :: b :: x) ((0, 0), some invalid)
      [.listFirst, .toplevel, .toplevel] buf := by
    unfold parseElemListBegin
    refine Gets.bind (gets_listBegin (c := .toplevel) (by simp; omega)) ?_
    simp only [Option.isSome_none, Bool.false_eq_true, or_self, if_false]
    refine Gets.bind (gets_error (gets_error hb (fun x : Num => x.i)) (fun x : I64 => x.setWidth 8)) ?_
    simp only [Option.isSome_some, if_true]
    exact Gets.pure _ _ _
  obtain ⟨er, _, h⟩ := h [.toplevel, .toplevel] none
  refine ⟨_, Eq.trans ?_ h⟩
  unfold parseElemListBegin
  simp only [bind_apply]
  rw [show Json.new (91 :: b :: x) = ⟨[.toplevel, .toplevel], [.toplevel, .toplevel], [], none, _⟩ from rfl,
    listBegin_first ha (Tight.cons rfl) [.toplevel] [.toplevel, .toplevel] (by omega)]

end JsonR
end Thrift
