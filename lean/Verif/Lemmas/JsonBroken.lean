import Verif.Lemmas.JsonStrict
/-!
# The JSON reader on a broken connection
-/

namespace Thrift

/-- From a state in `broken` on every `Read` fails without delivering anything. -/
def FailsFrom (T : Transport τ) (broken : τ → Prop) : Prop :=
  ∀ t, broken t → ∀ n, 0 < n → ∃ e t', T.read n t = (.ok ([], some e), t') ∧ broken t'

namespace JsonR
open JsonProtocol

variable {τ : Type} {E : JsonEnv τ} {broken : τ → Prop}

theorem osError_some (e : Err) : ∃ g, protocolFromOsError (some e) = some g := by
  unfold protocolFromOsError
  by_cases h : e.hasTypeId
  · exact ⟨e, if_pos h⟩
  · exact ⟨_, if_neg h⟩

theorem broken_fillTo (hB : FailsFrom E.T broken) (hf : 0 < E.fuel) {n : Nat} {x : Bytes} (hx : x.length < n) (hn : n ≤ bufSize)
    (pc dc : List JCtx) (er : GoErr) {t : τ} (ht : broken t) :
    ∃ e t', fillTo E n E.fuel ⟨pc, dc, x, er, t⟩ = .ret ((), ⟨pc, dc, x, some e, t'⟩) ∧ broken t' := by
  cases er with
  | some e => exact ⟨e, t, fillTo_err E n E.fuel _ (by simp), ht⟩
  | none =>
    obtain ⟨f, hf'⟩ : ∃ f, E.fuel = f + 1 := ⟨E.fuel - 1, by omega⟩
    obtain ⟨e, t', h1, h2⟩ := hB t ht (bufSize - x.length) (by omega)
    refine ⟨e, t', ?_, h2⟩
    have hfill : fill E ⟨pc, dc, x, none, t⟩ = .ret ((), ⟨pc, dc, x, some e, t'⟩) := by
      simp only [fill, h1, List.append_nil]
    rw [hf', fillTo]
    psimp []
    simp only [hx, and_self, if_true, hfill, ret_bind]
    exact fillTo_err E n f _ (by simp)

theorem broken_peek (hB : FailsFrom E.T broken) (hf : 0 < E.fuel) {n : Nat} {x : Bytes} (hx : x.length < n) (hn : n ≤ bufSize)
    (pc dc : List JCtx) (er : GoErr) {t : τ} (ht : broken t) :
    ∃ e t', peek E n ⟨pc, dc, x, er, t⟩ = .ret ((x, some e), ⟨pc, dc, x, none, t'⟩) ∧ broken t' := by
  obtain ⟨e, t', h, hb⟩ := broken_fillTo hB hf hx hn pc dc er ht
  refine ⟨e, t', ?_, hb⟩
  psimp [peek, h]
  rw [if_pos hx]
  rfl

theorem broken_getByte (hB : FailsFrom E.T broken) (hf : 0 < E.fuel) (pc dc : List JCtx) (er : GoErr) {t : τ} (ht : broken t) :
    ∃ e t', getByte E ⟨pc, dc, [], er, t⟩ = .ret ((0, some e), ⟨pc, dc, [], none, t'⟩) ∧ broken t' := by
  obtain ⟨e, t', h, hb⟩ := broken_fillTo (x := []) hB hf (n := 1) (by simp) (by have := bufSize_ge; omega) pc dc er ht
  refine ⟨e, t', ?_, hb⟩
  psimp [getByte, h]

theorem broken_until (hB : FailsFrom E.T broken) (hf : 2 ≤ E.fuel) (d : Byte) (pc dc : List JCtx) (er : GoErr) {t : τ} (ht : broken t) :
    ∃ e t', readUntil E d E.fuel [] ⟨pc, dc, [], er, t⟩ = .ret (([], some e), ⟨pc, dc, [], none, t'⟩) ∧ broken t' := by
  obtain ⟨f, hf'⟩ : ∃ f, E.fuel = f + 2 := ⟨E.fuel - 2, by omega⟩
  have stop : ∀ (n : Nat) (e : Err) (t : τ), readUntil E d (n + 1) [] ⟨pc, dc, [], some e, t⟩ = .ret (([], some e), ⟨pc, dc, [], none, t⟩) := by
    intro n e t
    rw [readUntil]
    psimp []
    simp only [cutAfter]
    rfl
  cases er with
  | some e => exact ⟨e, t, by rw [hf']; exact stop (f + 1) e t, ht⟩
  | none =>
    obtain ⟨e, t', h1, h2⟩ := hB t ht bufSize (by have := bufSize_ge; omega)
    refine ⟨e, t', ?_, h2⟩
    have hnl : ¬ (([] : Bytes).length ≥ bufSize) := by have := bufSize_ge; simp; omega
    have hfill : fill E ⟨pc, dc, [], none, t⟩ = .ret ((), ⟨pc, dc, [], some e, t'⟩) := by
      simp only [fill, List.length_nil, Nat.sub_zero, h1, List.append_nil]
    rw [hf', readUntil]
    psimp []
    simp only [cutAfter, Option.isSome_none, Bool.false_eq_true, if_false, hnl, ite_apply', bind_apply, hfill, ret_bind, stop]

/-- Before a value at most a separator and white space are taken. -/
theorem pre_shape (c : JCtx) (pc dc : List JCtx) (x : Bytes) (er : GoErr) (t : τ) :
    ∃ r x', (parsePreValue : P (Json τ) GoErr) ⟨c :: pc, dc, x, er, t⟩ = .ret (r, ⟨c :: pc, dc, x', er, t⟩) ∧ x'.length ≤ x.length := by
  have hd := (List.dropWhile_suffix (l := x) isWs).length_le
  have hsep (stop : Byte → Bool) (sep b : Byte) (y : Bytes) : ∃ r x', separator stop sep b ⟨c :: pc, dc, y, er, t⟩ =
      .ret (r, ⟨c :: pc, dc, x', er, t⟩) ∧ x'.length ≤ y.length := by
    unfold separator
    split
    · exact ⟨none, y, rfl, Nat.le_refl _⟩
    · split
      · refine ⟨none, y.tail.dropWhile isWs, rfl, ?_⟩
        have := (List.dropWhile_suffix (l := y.tail) isWs).length_le
        simp at this ⊢
        omega
      · exact ⟨some invalid, y, rfl, Nat.le_refl _⟩
  unfold parsePreValue
  psimp [dropWs, parseTop]
  cases hy : x.dropWhile isWs with
  | nil => exact ⟨none, [], rfl, by simp⟩
  | cons b r =>
    rw [hy] at hd
    have done : ∃ (g : GoErr) (x' : Bytes), (pure none : P (Json τ) GoErr) ⟨c :: pc, dc, b :: r, er, t⟩ = .ret (g, ⟨c :: pc, dc, x', er, t⟩) ∧ x'.length ≤ x.length :=
      ⟨none, b :: r, rfl, hd⟩
    have sep (stop : Byte → Bool) (sp : Byte) := hsep stop sp b (b :: r)
    cases c <;> first
      | exact done
      | (simp only []
         first
          | (obtain ⟨g, x', h1, h2⟩ := sep (fun b => b = RBRACKET) COMMA; exact ⟨g, x', h1, Nat.le_trans h2 hd⟩)
          | (obtain ⟨g, x', h1, h2⟩ := sep (fun b => b = RBRACE) COMMA; exact ⟨g, x', h1, Nat.le_trans h2 hd⟩)
          | (obtain ⟨g, x', h1, h2⟩ := sep (fun _ => false) COLON; exact ⟨g, x', h1, Nat.le_trans h2 hd⟩))

/-- A list does not begin with less than four bytes. -/
theorem broken_listBegin (hB : FailsFrom E.T broken) (hf : 0 < E.fuel) (c : JCtx) (pc dc : List JCtx) {x : Bytes} (hx : x.length < 4)
    (er : GoErr) {t : τ} (ht : broken t) :
    ∃ e s', parseListBegin E ⟨c :: pc, dc, x, er, t⟩ = .ret ((false, some e), s') := by
  obtain ⟨r, x', h1, h2⟩ := pre_shape c pc dc x er t
  unfold parseListBegin
  rw [bind_apply, h1, ret_bind]
  cases r with
  | some e => exact ⟨e, _, rfl⟩
  | none =>
    obtain ⟨e, t', h3, _⟩ := broken_peek (x := x') hB hf (n := 4) (by omega) (by have := bufSize_ge; omega) (c :: pc) dc er ht
    refine ⟨invalid, ⟨c :: pc, dc, x', none, t'⟩, ?_⟩
    psimp [h3]
    rfl

/-- A buffer without text stays so before a value. -/
theorem pre_empty (c : JCtx) (pc dc : List JCtx) (er : GoErr) (t : τ) :
    (parsePreValue : P (Json τ) GoErr) ⟨c :: pc, dc, [], er, t⟩ = .ret (none, ⟨c :: pc, dc, [], er, t⟩) := rfl

theorem null_empty (pc dc : List JCtx) (er : GoErr) (t : τ) : readIfNull E ⟨pc, dc, [], er, t⟩ = .ret (false, ⟨pc, dc, [], er, t⟩) := rfl

theorem broken_objectStart (hB : FailsFrom E.T broken) (hf : 0 < E.fuel) (c : JCtx) (pc dc : List JCtx)
    (er : GoErr) {t : τ} (ht : broken t) : ∃ e s', parseObjectStart E ⟨c :: pc, dc, [], er, t⟩ = .ret ((false, some e), s') := by
  obtain ⟨e, t', h3, _⟩ := broken_peek (x := []) hB hf (n := 4) (by simp) (by have := bufSize_ge; omega) (c :: pc) dc er ht
  refine ⟨invalid, ⟨c :: pc, dc, [], none, t'⟩, ?_⟩
  unfold parseObjectStart
  rw [bind_apply, pre_empty, ret_bind]
  psimp [h3]
  rfl

theorem broken_number (hB : FailsFrom E.T broken) (hf : 0 < E.fuel) (c : JCtx) (pc dc : List JCtx)
    (er : GoErr) {t : τ} (ht : broken t) : ∃ n e s', parseNumber E ⟨c :: pc, dc, [], er, t⟩ = .ret ((n, some e), s') := by
  obtain ⟨e, t', h3, hb⟩ := broken_peek (x := []) hB hf (n := 4) (by simp) (by have := bufSize_ge; omega) (c :: pc) dc er ht
  obtain ⟨e', t'', h4, _⟩ := broken_getByte hB hf (c :: pc) dc none hb
  obtain ⟨f, hf'⟩ : ∃ f, E.fuel = f + 1 := ⟨E.fuel - 1, by omega⟩
  have hl : ∃ n e s', numberLoop E E.fuel {} ⟨c :: pc, dc, [], none, t'⟩ = .ret ((n, some e), s') := by
    rw [hf', numberLoop]
    simp only [bind_apply, h4, ret_bind]
    by_cases he : e'.kind = .eof
    · rw [if_pos he]
      exact ⟨_, _, _, rfl⟩
    · rw [if_neg he]
      obtain ⟨g, hg⟩ := osError_some e'
      exact ⟨Num.null, g, ⟨c :: pc, dc, [], none, t''⟩, by rw [hg]; rfl⟩
  obtain ⟨n, e, s', h5⟩ := hl
  refine ⟨n, e, s', ?_⟩
  unfold parseNumber
  rw [bind_apply, pre_empty, ret_bind]
  have hn : ¬ ([] : Bytes) = NULL := by decide
  psimp [h3, hn, readNumeric, null_empty, h5]
  rfl

theorem broken_quoted (hB : FailsFrom E.T broken) (hf : 0 < E.fuel) (body : P (Json τ) (Bytes × GoErr)) (c : JCtx) (pc dc : List JCtx)
    (er : GoErr) {t : τ} (ht : broken t) : ∃ v e s', readQuoted E body ⟨c :: pc, dc, [], er, t⟩ = .ret ((v, some e), s') := by
  obtain ⟨e, t', h3, _⟩ := broken_peek (x := []) hB hf (n := 4) (by simp) (by have := bufSize_ge; omega) (c :: pc) dc er ht
  refine ⟨[], invalid, ⟨c :: pc, dc, [], none, t'⟩, ?_⟩
  unfold readQuoted
  rw [bind_apply, pre_empty, ret_bind]
  have hn : ¬ ([] : Bytes) = NULL := by decide
  psimp [h3, hn]
  rfl

theorem broken_close (hB : FailsFrom E.T broken) (hf : 2 ≤ E.fuel) (ch : Byte) (pc dc : List JCtx) (er : GoErr) {t : τ} (ht : broken t) :
    ∃ e s', parseClose E ch ⟨pc, dc, [], er, t⟩ = .ret (some e, s') := by
  obtain ⟨e, t', h, _⟩ := broken_until hB hf ch pc dc er ht
  unfold parseClose
  rw [bind_apply, h, ret_bind]
  obtain ⟨g, hg⟩ := osError_some e
  exact ⟨g, ⟨pc, dc, [], none, t'⟩, by psimp [hg]; rfl⟩

theorem broken_objectEnd (hB : FailsFrom E.T broken) (hf : 2 ≤ E.fuel) (c : JCtx) (pc dc : List JCtx) (er : GoErr) {t : τ} (ht : broken t) :
    ∃ e s', parseObjectEnd E ⟨c :: pc, dc, [], er, t⟩ = .ret (some e, s') := by
  obtain ⟨e, s', h⟩ := broken_close hB hf RBRACE (c :: pc) dc er ht
  unfold parseObjectEnd
  rw [bind_apply, null_empty, ret_bind]
  psimp [parseTop]
  simp only [Bool.false_eq_true, if_false]
  split
  · exact ⟨_, _, rfl⟩
  · exact ⟨_, _, h⟩

theorem broken_listEnd (hB : FailsFrom E.T broken) (hf : 2 ≤ E.fuel) (c : JCtx) (pc dc : List JCtx) (er : GoErr) {t : τ} (ht : broken t) :
    ∃ e s', parseListEnd E ⟨c :: pc, dc, [], er, t⟩ = .ret (some e, s') := by
  obtain ⟨e, s', h⟩ := broken_close hB hf RBRACKET (c :: pc) dc er ht
  unfold parseListEnd
  rw [bind_apply, null_empty, ret_bind]
  psimp [parseTop]
  simp only [Bool.false_eq_true, if_false]
  split
  · exact ⟨_, _, rfl⟩
  · exact ⟨_, _, h⟩

end JsonR
end Thrift
