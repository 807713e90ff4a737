import Verif.Lemmas.JsonRead
import Verif.Lemmas.Decode
/-!
# Whole values through the tagged JSON protocol
-/

namespace Thrift
namespace JsonR
open JsonProtocol JsonSpec JsonW

variable {τ : Type} {α β : Type} (E : JsonEnv τ)

/-! ## Integers -/

theorem digitsValue_digits : ∀ n : Nat, ∃ k : Nat, ∀ (ys : Bytes) (acc : Option Nat),
    digitsValue (digits n ++ ys) acc = digitsValue ys (some (acc.getD 0 * k + n))
  | n => by
    by_cases h : n < 10
    · refine ⟨10, fun ys acc => ?_⟩
      have hb : (BitVec.ofNat 8 (48 + n)).toNat = 48 + n := by
        rw [BitVec.toNat_ofNat, Nat.mod_eq_of_lt]; omega
      have hd : 48 ≤ (BitVec.ofNat 8 (48 + n)).toNat ∧ (BitVec.ofNat 8 (48 + n)).toNat ≤ 57 := by omega
      rw [digits, if_pos h, List.singleton_append, digitsValue, if_pos hd, hb]
      congr 3; omega
    · obtain ⟨k, hk⟩ := digitsValue_digits (n / 10)
      refine ⟨k * 10, fun ys acc => ?_⟩
      have hb : (BitVec.ofNat 8 (48 + n % 10)).toNat = 48 + n % 10 := by
        rw [BitVec.toNat_ofNat, Nat.mod_eq_of_lt]; omega
      have hd : 48 ≤ (BitVec.ofNat 8 (48 + n % 10)).toNat ∧ (BitVec.ofNat 8 (48 + n % 10)).toNat ≤ 57 := by omega
      rw [digits, if_neg h, List.append_assoc, hk, List.singleton_append, digitsValue, if_pos hd, hb]
      congr 2
      simp only [Option.getD_some]
      rw [Nat.add_mul, Nat.mul_assoc]; omega

theorem digitsValue_eq (n : Nat) : digitsValue (digits n) none = some n := by
  obtain ⟨k, hk⟩ := digitsValue_digits n
  have := hk [] none
  simpa [digitsValue] using this

theorem decimalValue_decimal (n : Int) : decimalValue (decimal n) = some n := by
  unfold decimal
  split
  · simp only [decimalValue, digitsValue_eq]
    simp; omega
  · obtain ⟨c, r, hc⟩ := List.exists_cons_of_ne_nil (digits_ne_nil n.natAbs)
    have hd : IsDigit c := digits_isDigit n.natAbs c (by simp [hc])
    have h43 : c ≠ 43 := by rintro rfl; revert hd; decide
    have h45 : c ≠ 45 := by rintro rfl; revert hd; decide
    rw [hc, decimalValue, if_neg h43, if_neg h45, ← hc, digitsValue_eq]
    simp; omega

theorem numericOf_decimal (n : Int) (h : -2 ^ 63 ≤ n ∧ n < 2 ^ 63) : (numericOf E (decimal n)).i = BitVec.ofInt 64 n := by
  have := parseInt_eq (decimal n)
  rw [decimalValue_decimal] at this
  simp only [h, and_self, if_true] at this
  simp only [numericOf, this]

theorem setWidth_ofInt_toInt {w : Nat} (hw : w ≤ 64) (v : BitVec w) : (BitVec.ofInt 64 v.toInt).setWidth w = v := by
  rw [ofInt_toInt_setWidth w hw]
  have : (BitVec.ofInt 64 v.toInt).toInt = v.toInt := BitVec.toInt_signExtend_of_le hw
  rw [this, BitVec.ofInt_toInt]

/-! ## Numbers as values -/

/-- What may follow: a delimiter, with enough behind it that the reader does not
ask the transport, unless that has nothing to give. -/
structure Follows (t : τ) (k : Nat) (rest : Bytes) : Prop where
  delim : ∃ d r, rest = d :: r ∧ Delim d
  ready : k ≤ rest.length ∨ Dry E t

theorem Follows.tight {t : τ} {k rest} (h : Follows E t k rest) : Tight rest := by
  obtain ⟨d, r, rfl, hd⟩ := h.delim
  exact Tight.cons hd.ws

variable {E}

theorem Follows.peek {t : τ} {rest : Bytes} (h : Follows E t 3 rest) {x : Bytes} (hx : x ≠ []) :
    4 ≤ (x ++ rest).length ∨ Dry E t := by
  rcases h.ready with h | h
  · left
    have : 0 < x.length := List.length_pos_iff.2 hx
    simp only [List.length_append]; omega
  · exact Or.inr h

theorem isWs_digit {c : Byte} (h : IsDigit c ∨ c = 45) : isWs c = false := by
  rcases h with h | rfl
  · have : c ≠ 32 ∧ c ≠ 13 ∧ c ≠ 10 ∧ c ≠ 9 := by
      refine ⟨?_, ?_, ?_, ?_⟩ <;> (rintro rfl; revert h; decide)
    simp [isWs]
    exact ⟨⟨⟨this.1, this.2.1⟩, this.2.2.1⟩, this.2.2.2⟩
  · rfl

theorem bufSize_ge : 5 ≤ bufSize := by decide

/-- `ParseI64` and `ParseF64` where the loop of `readNumeric` ends well. -/
theorem gets_parseNumber {t : τ} {c pc} {x rest : Bytes} {h : Byte} {x' : Bytes} {num : Num} (hx : x = h :: x')
    (hw : isWs h = false) (hn : h ≠ 110) (hf : 0 < E.fuel) (hr : 4 ≤ (x ++ rest).length ∨ Dry E t) (ht : Tight rest)
    (hl : Gets E t (numberLoop E E.fuel {}) (c :: pc) (x ++ rest) (num, none) (c :: pc) rest) :
    Gets E t (parseNumber E) (c :: pc) (sepOf c ++ (x ++ rest)) (num, none) (JCtx.next c :: pc) rest := by
  have htx : Tight (x ++ rest) := by subst hx; exact Tight.cons hw
  unfold parseNumber
  refine Gets.check (gets_pre htx) ?_
  refine Gets.peekStep E (by have := bufSize_ge; omega) hf hr fun e => ?_
  have hnn : (x ++ rest).take 4 ≠ NULL := by
    subst hx
    simp only [List.cons_append, List.take_succ_cons, NULL, ne_eq, List.cons.injEq, not_and]
    intro h'; exact absurd h' hn
  simp only [hnn, if_false]
  have : Gets E t (readNumeric E) (c :: pc) (x ++ rest) (num, none) (c :: pc) rest := by
    unfold readNumeric
    refine Gets.bind (gets_readIfNull E htx (by subst hx; simpa using hn)) ?_
    simpa using hl
  refine Gets.bind this ?_
  simp only [Option.isSome_none, Bool.false_eq_true, if_false]
  exact Gets.bind (gets_post ht) (Gets.pure _ _ _)

theorem gets_number {t : τ} {c pc} {x rest : Bytes} (hx : IsNumber x) (hf : x.length < E.fuel) (h : Follows E t 3 rest) :
    Gets E t (parseNumber E) (c :: pc) (sepOf c ++ (x ++ rest)) (numericOf E x, none) (JCtx.next c :: pc) rest := by
  obtain ⟨d, r, hd, hdd⟩ := h.delim
  obtain ⟨c', r', hc, hcd⟩ := number_head hx
  refine gets_parseNumber hc (isWs_digit hcd) ?_ (by omega) (h.peek (number_ne_nil hx)) h.tight ?_
  · rintro rfl
    rcases hcd with h | h
    · revert h; decide
    · revert h; decide
  · subst hd
    exact gets_loop E x hx d hdd r hf

theorem gets_numberQuoted {t : τ} {c pc} {x rest : Bytes} (hx : IsNumber x) (hf : x.length + 2 < E.fuel) (h : Follows E t 3 rest) :
    Gets E t (parseNumber E) (c :: pc) (sepOf c ++ (inQuotes x ++ rest)) (numericOf E x, none) (JCtx.next c :: pc) rest := by
  obtain ⟨d, r, hd, hdd⟩ := h.delim
  refine gets_parseNumber (x := inQuotes x) (h := 34) rfl rfl (by decide) (by omega) (h.peek (by simp [inQuotes])) h.tight ?_
  subst hd
  exact gets_loopQuoted E x hx d hdd r hf

/-- The special values. -/
theorem gets_word {t : τ} {c pc} {rest : Bytes} (hf : 8 < E.fuel) (h : Follows E t 3 rest) (w : Bytes) (num : Num)
    (hw : (w = ascii "NaN" ∧ num = Num.nan) ∨ (w = ascii "Infinity" ∧ num = Num.inf) ∨ (w = ascii "-Infinity" ∧ num = Num.negInf)) :
    Gets E t (parseNumber E) (c :: pc) (sepOf c ++ (inQuotes w ++ rest)) (num, none) (JCtx.next c :: pc) rest := by
  refine gets_parseNumber (x := inQuotes w) (h := 34) rfl rfl (by decide) (by omega) (h.peek (by simp [inQuotes])) h.tight ?_
  obtain ⟨f, hfu⟩ : ∃ f, E.fuel = f + 1 + 1 + 1 := ⟨E.fuel - 3, by omega⟩
  rw [hfu]
  have quote : ∀ pc, Gets E t readQuoteIfNext pc (34 :: rest) () pc rest := fun pc dc er => ⟨er, Or.inl rfl, rfl⟩
  have step : ∀ (pre x : Bytes) (v : Num), x ≠ [] → Gets E t (readWord E pre (pre ++ x) v true) (c :: pc) (x ++ 34 :: rest) (v, none)
      (c :: pc) rest := by
    intro pre x v hx
    unfold readWord
    rw [show (pre ++ x).length - pre.length = x.length by simp]
    refine Gets.bind (gets_readUpTo E x (34 :: rest) hx) ?_
    simp only [Option.isSome_none, Bool.false_eq_true, if_false, fillBuf_self, ne_eq, not_true, if_true]
    exact Gets.bind (quote _) (Gets.pure _ _ _)
  intro dc er
  rcases hw with ⟨rfl, rfl⟩ | ⟨rfl, rfl⟩ | ⟨rfl, rfl⟩
  · obtain ⟨er', he', h'⟩ := step [78] (ascii "aN") Num.nan (by decide) dc er
    refine ⟨er', he', ?_⟩
    rw [show inQuotes (ascii "NaN") ++ rest = 34 :: 78 :: (ascii "aN" ++ 34 :: rest) from rfl, loop_quote, numberLoop, ← h']
    psimp [getByte_cons]
    rfl
  · obtain ⟨er', he', h'⟩ := step [73] (ascii "nfinity") Num.inf (by decide) dc er
    refine ⟨er', he', ?_⟩
    rw [show inQuotes (ascii "Infinity") ++ rest = 34 :: 73 :: (ascii "nfinity" ++ 34 :: rest) from rfl, loop_quote, numberLoop, ← h']
    psimp [getByte_cons]
    rfl
  · obtain ⟨er', he', h'⟩ := step [45, 73] (ascii "nfinity") Num.negInf (by decide) dc er
    refine ⟨er', he', ?_⟩
    rw [show inQuotes (ascii "-Infinity") ++ rest = 34 :: 45 :: 73 :: (ascii "nfinity" ++ 34 :: rest) from rfl, loop_quote,
      loop_sign _ _ _ _ _ _ _ _ _ (Or.inl rfl) rfl, numberLoop, ← h']
    psimp [getByte_cons]
    rfl

/-! ## Strings -/

/-- Trailing backslashes. -/
def trailing (s : Bytes) : Nat := (s.reverse.takeWhile fun b => b = BACKSLASH).length

theorem backslashes_eq (s : Bytes) (b : Byte) : backslashes (s ++ [b]) = trailing s := by
  simp [backslashes, trailing]

theorem trailing_other (s : Bytes) (b : Byte) (h : b ≠ 92) : trailing (s ++ [b]) = 0 := by
  have : b ≠ BACKSLASH := h
  simp [trailing, this]

theorem trailing_backslash (s : Bytes) : trailing (s ++ [92]) = trailing s + 1 := by
  have : (92 : Byte) = BACKSLASH := rfl
  simp [trailing, this]

theorem cutAfter_here (d : Byte) (r : Bytes) : cutAfter d (d :: r) = some ([d], r) := by simp [cutAfter]
theorem cutAfter_skip {d b : Byte} (h : b ≠ d) (r : Bytes) : cutAfter d (b :: r) = (cutAfter d r).map fun x => (b :: x.1, x.2) := by
  simp [cutAfter, h]

/-- Where a line ends inside a string, and what its backslashes tell. -/
theorem scan {body : Bytes} (h : Chars body) : ∀ (acc rest : Bytes), trailing acc % 2 = 0 → ∃ line rest',
    cutAfter 34 (body ++ 34 :: rest) = some (line ++ [34], rest') ∧
      ((trailing (acc ++ line) % 2 = 0 ∧ line = body ∧ rest' = rest) ∨
        (trailing (acc ++ line) % 2 = 1 ∧ ∃ q, Chars q ∧ body = line ++ 34 :: q ∧ rest' = q ++ 34 :: rest)) := by
  have skip1 : ∀ (b : Byte) (r acc rest : Bytes), b ≠ 34 →
      (∃ line rest', cutAfter 34 (r ++ 34 :: rest) = some (line ++ [34], rest') ∧
        ((trailing (acc ++ [b] ++ line) % 2 = 0 ∧ line = r ∧ rest' = rest) ∨
          (trailing (acc ++ [b] ++ line) % 2 = 1 ∧ ∃ q, Chars q ∧ r = line ++ 34 :: q ∧ rest' = q ++ 34 :: rest))) →
      ∃ line rest', cutAfter 34 ((b :: r) ++ 34 :: rest) = some (line ++ [34], rest') ∧
        ((trailing (acc ++ line) % 2 = 0 ∧ line = b :: r ∧ rest' = rest) ∨
          (trailing (acc ++ line) % 2 = 1 ∧ ∃ q, Chars q ∧ b :: r = line ++ 34 :: q ∧ rest' = q ++ 34 :: rest)) := by
    rintro b r acc rest hb ⟨line, rest', hc, h⟩
    refine ⟨b :: line, rest', by rw [List.cons_append, cutAfter_skip hb, hc]; simp, ?_⟩
    have e : acc ++ [b] ++ line = acc ++ b :: line := by simp
    rw [e] at h
    rcases h with ⟨h1, rfl, rfl⟩ | ⟨h1, q, hq, rfl, rfl⟩
    · exact Or.inl ⟨h1, rfl, rfl⟩
    · exact Or.inr ⟨h1, q, hq, by simp, rfl⟩
  induction h with
  | nil =>
    intro acc rest hacc
    exact ⟨[], rest, by simp [cutAfter_here], Or.inl ⟨by simpa using hacc, rfl, rfl⟩⟩
  | plain b r _ h34 h92 _ ih =>
    intro acc rest hacc
    refine skip1 b r acc rest h34 (ih (acc ++ [b]) rest ?_)
    rw [trailing_other _ _ h92]
  | escape b r hb hr ih =>
    intro acc rest hacc
    refine skip1 92 (b :: r) acc rest (by decide) ?_
    by_cases h34 : b = 34
    · subst h34
      refine ⟨[], r ++ 34 :: rest, by simp [cutAfter_here], Or.inr ⟨?_, r, hr, by simp, rfl⟩⟩
      rw [List.append_nil, trailing_backslash]; omega
    · refine skip1 b r (acc ++ [92]) rest h34 (ih (acc ++ [92] ++ [b]) rest ?_)
      by_cases h92 : b = 92
      · subst h92; rw [trailing_backslash, trailing_backslash]; omega
      · rw [trailing_other _ _ h92]
  | unicode a b c d r ha hb hc hd hr ih =>
    intro acc rest hacc
    have ne : ∀ {x : Byte}, IsHex x → x ≠ 34 ∧ x ≠ 92 := by
      intro x hx
      constructor <;> (rintro rfl; revert hx; simp [IsHex, IsDigit])
    refine skip1 92 _ acc rest (by decide) (skip1 117 _ _ rest (by decide) (skip1 a _ _ rest (ne ha).1 (skip1 b _ _ rest (ne hb).1
      (skip1 c _ _ rest (ne hc).1 (skip1 d _ _ rest (ne hd).1 (ih _ rest ?_))))))
    rw [trailing_other _ _ (ne hd).2]

theorem gets_quotedBody {t : τ} {pc} (hf : 0 < E.fuel) : ∀ (fuel : Nat) {body : Bytes}, Chars body → body.length < fuel → ∀ rest,
    Gets E t (parseQuotedStringBody E fuel) pc (body ++ 34 :: rest) (body ++ [34], none) pc rest
  | 0, _, _, hl, _ => absurd hl (Nat.not_lt_zero _)
  | fuel + 1, body, hc, hl, rest => by
    obtain ⟨line, rest', hcut, h⟩ := scan hc [] rest rfl
    unfold parseQuotedStringBody
    refine Gets.bind (gets_readUntil E QUOTE hf hcut) ?_
    simp only [Option.isSome_none, Bool.false_eq_true, if_false, backslashes_eq]
    rw [List.nil_append] at h
    rcases h with ⟨h0, rfl, rfl⟩ | ⟨h1, q, hq, rfl, rfl⟩
    · simp only [h0, if_true]; exact Gets.pure _ _ _
    · have : ¬ trailing line % 2 = 0 := by omega
      simp only [this, if_false]
      refine Gets.bind (gets_quotedBody hf fuel hq (by simp at hl; omega) rest) ?_
      simp only [Option.isSome_none, Bool.false_eq_true, if_false]
      have e : line ++ [34] ++ (q ++ [34]) = line ++ 34 :: q ++ [34] := by simp
      rw [e]; exact Gets.pure _ _ _

theorem gets_stringBody {t : τ} {pc} {body v : Bytes} (hc : Chars body) (hf : body.length < E.fuel)
    (hu : E.L.unquote (34 :: (body ++ [34])) = some v) (rest : Bytes) :
    Gets E t (parseStringBody E) pc (body ++ 34 :: rest) (v, none) pc rest := by
  obtain ⟨line, rest', hcut, h⟩ := scan hc [] rest rfl
  unfold parseStringBody
  refine Gets.bind (gets_readUntil E QUOTE (by omega) hcut) ?_
  simp only [Option.isSome_none, Bool.false_eq_true, if_false, backslashes_eq]
  rw [List.nil_append] at h
  rcases h with ⟨h0, rfl, rfl⟩ | ⟨h1, q, hq, rfl, rfl⟩
  · simp only [h0, if_true]
    have : E.L.unquote (QUOTE :: (line ++ [34])) = some v := hu
    simp only [this]; exact Gets.pure _ _ _
  · have : ¬ trailing line % 2 = 0 := by omega
    simp only [this, if_false]
    refine Gets.bind (gets_quotedBody (by omega) E.fuel hq (by simp at hf; omega) rest) ?_
    simp only [Option.isSome_none, Bool.false_eq_true, if_false]
    have e : QUOTE :: (line ++ [34]) ++ (q ++ [34]) = 34 :: (line ++ 34 :: q ++ [34]) := by simp [QUOTE]
    rw [e, hu]; exact Gets.pure _ _ _

theorem gets_quoted {t : τ} {c pc} {x rest v : Bytes} {body : P (Json τ) (Bytes × GoErr)} (hf : 0 < E.fuel)
    (h : Follows E t 2 rest) (hb : Gets E t body (c :: pc) (x ++ 34 :: rest) (v, none) (c :: pc) rest) :
    Gets E t (readQuoted E body) (c :: pc) (sepOf c ++ (34 :: (x ++ [34]) ++ rest)) (v, none) (JCtx.next c :: pc) rest := by
  unfold readQuoted
  have e : 34 :: (x ++ [34]) ++ rest = 34 :: (x ++ 34 :: rest) := by simp
  rw [e]
  refine Gets.check (gets_pre (Tight.cons rfl)) ?_
  refine Gets.peekStep E (by have := bufSize_ge; omega) hf ?_ fun e => ?_
  · rcases h.ready with h | h
    · left; simp; omega
    · exact Or.inr h
  have hq : (List.take 4 (34 :: (x ++ 34 :: rest))).head? = some QUOTE := rfl
  simp only [hq, if_true]
  refine Gets.bind (gets_getByte E) (Gets.bind hb ?_)
  simp only [Option.isSome_none, Bool.false_eq_true, if_false]
  exact Gets.bind (gets_post h.tight) (Gets.pure _ _ _)

theorem gets_string (hL : Lawful E.L) {t : τ} {c pc} {s rest : Bytes} (hs : Utf8 s) (hf : (E.L.quote s).length < E.fuel)
    (h : Follows E t 2 rest) :
    Gets E t (readString E) (c :: pc) (sepOf c ++ (E.L.quote s ++ rest)) (s, none) (JCtx.next c :: pc) rest := by
  obtain ⟨body, hq, hc⟩ := hL.quote_string s hs
  have hu := hL.unquote_quote s hs
  rw [hq] at hu hf ⊢
  simp at hf
  exact gets_quoted (by omega) h (gets_stringBody hc (by omega) hu rest)

/-! ## The other calls -/

theorem gets_bool {t : τ} {c pc} {rest : Bytes} (b : Bool) (hf : 0 < E.fuel) (h : Follows E t 1 rest) :
    Gets E t (readBool E) (c :: pc) (sepOf c ++ ((if b then ascii "true" else ascii "false") ++ rest)) (b, none)
      (JCtx.next c :: pc) rest := by
  obtain ⟨d, r, rfl, hd⟩ := h.delim
  have word : ∀ (p w : Bytes) (v : Bool), w ≠ [] → p.take w.length = w →
      Gets E t (readBoolWord E p w v) (c :: pc) (w ++ d :: r) (v, none) (JCtx.next c :: pc) (d :: r) := by
    intro p w v hw hp
    have hlen : w.length ≤ p.length := by
      have := congrArg List.length hp
      simp at this; omega
    unfold readBoolWord
    intro dc er
    have hseen : ∀ z, (p ++ z).take w.length = w := by
      intro z; rw [List.take_append_of_le_length hlen, hp]
    have hk : Gets E t (parsePostValue >>= fun e => (Pure.pure (v, e) : P (Json τ) (Bool × GoErr))) (c :: pc) (d :: r) (v, none)
        (JCtx.next c :: pc) (d :: r) := Gets.bind (gets_post h.tight) (Gets.pure _ _ _)
    obtain ⟨er', he', h'⟩ := Gets.bind (k := fun _ => parsePostValue >>= fun e => Pure.pure (v, e))
      (gets_readUpTo (t := t) (pc := c :: pc) E w (d :: r) hw) hk dc er
    refine ⟨er', he', ?_⟩
    psimp [hseen]
    simp only [Nat.lt_irrefl, if_false, if_true]
    exact h'
  unfold readBool
  refine Gets.check (gets_pre ?_) ?_
  · cases b <;> exact Tight.cons rfl
  · refine Gets.peekStep E bufSize_ge hf (Or.inl ?_) fun e => ?_
    · cases b <;> simp [ascii]
    · cases b
      · exact word _ FALSE false (by decide) rfl
      · exact word _ TRUE true (by decide) rfl

theorem gets_objectStart {t : τ} {c pc} {x : Bytes} (hf : 0 < E.fuel) (hr : 3 ≤ x.length ∨ Dry E t) :
    Gets E t (parseObjectStart E) (c :: pc) (sepOf c ++ 123 :: x) (false, none) (.objectFirst :: c :: pc) x := by
  unfold parseObjectStart
  refine Gets.check (gets_pre (Tight.cons rfl)) ?_
  refine Gets.peekStep E (by have := bufSize_ge; omega) hf ?_ fun e => ?_
  · rcases hr with h | h
    · left; simp; omega
    · exact Or.inr h
  have hq : (List.take 4 (123 :: x)).head? = some LBRACE := rfl
  simp only [hq, if_true]
  exact Gets.bind (gets_getByte E) (Gets.bind (fun dc er => ⟨er, Or.inl rfl, rfl⟩) (Gets.pure _ _ _))

theorem gets_listBegin {t : τ} {c pc} {x : Bytes} (hx : 3 ≤ x.length) :
    Gets E t (parseListBegin E) (c :: pc) (sepOf c ++ 91 :: x) (false, none) (.listFirst :: c :: pc) x := by
  unfold parseListBegin
  refine Gets.check (gets_pre (Tight.cons rfl)) ?_
  refine Gets.bind (gets_peek E 4 (by simp; omega)) ?_
  have hq : (List.take 4 (91 :: x)).head? = some LBRACKET := rfl
  simp only [hq, and_self, if_true]
  exact Gets.bind (pc' := .listFirst :: c :: pc) (b' := 91 :: x) (fun dc er => ⟨er, Or.inl rfl, rfl⟩)
    (Gets.bind (gets_getByte E) (Gets.pure _ _ _))

theorem gets_close {t : τ} {n c pc} {rest : Bytes} (ch : Byte) (hf : 0 < E.fuel) :
    Gets E t (parseClose E ch) (n :: c :: pc) (ch :: rest) none (JCtx.next c :: pc) (rest.dropWhile isWs) := by
  unfold parseClose
  refine Gets.bind (gets_readUntil E ch hf (cutAfter_here ch rest)) ?_
  simp only [Option.isSome_none, Bool.false_eq_true, if_false]
  have : ([ch].all fun b => isWs b || b = ch) = true := by simp
  simp only [this, if_true]
  exact Gets.bind (pc' := c :: pc) (b' := rest) (fun dc er => ⟨er, Or.inl rfl, rfl⟩) gets_post'

theorem gets_objectEnd {t : τ} {n c pc} {rest : Bytes} (hf : 0 < E.fuel) (hn : n = .objectFirst ∨ n = .nextKey) :
    Gets E t (parseObjectEnd E) (n :: c :: pc) (125 :: rest) none (JCtx.next c :: pc) (rest.dropWhile isWs) := by
  unfold parseObjectEnd
  refine Gets.bind (gets_readIfNull E (Tight.cons rfl) (by simp)) ?_
  simp only [Bool.false_eq_true, if_false]
  refine Gets.bind gets_parseTop ?_
  have : ¬ (n ≠ .objectFirst ∧ n ≠ .nextKey) := by
    rcases hn with rfl | rfl <;> simp
  simp only [this, if_false]
  exact gets_close RBRACE hf

theorem gets_listEnd {t : τ} {c pc} {rest : Bytes} (hf : 0 < E.fuel) :
    Gets E t (parseListEnd E) (.list :: c :: pc) (93 :: rest) none (JCtx.next c :: pc) (rest.dropWhile isWs) := by
  unfold parseListEnd
  refine Gets.bind (gets_readIfNull E (Tight.cons rfl) (by simp)) ?_
  simp only [Bool.false_eq_true, if_false]
  refine Gets.bind gets_parseTop ?_
  simp only [ne_eq, not_true, if_false]
  exact gets_close RBRACKET hf

/-! ## Integers of all widths -/

theorem gets_map {t : τ} {m : P (Json τ) (α × GoErr)} {pc b a pc' b'} (h : Gets E t m pc b (a, none) pc' b') (f : α → β) :
    Gets E t (do let (x, e) ← m; return (f x, e)) pc b (f a, none) pc' b' := Gets.bind h (Gets.pure _ _ _)

theorem gets_i64n {t : τ} {c pc} {rest : Bytes} (n : Int) (hn : -2 ^ 63 ≤ n ∧ n < 2 ^ 63) (hf : (decimal n).length < E.fuel)
    (h : Follows E t 3 rest) :
    Gets E t (readI64 E) (c :: pc) (sepOf c ++ (decimal n ++ rest)) (BitVec.ofInt 64 n, none) (JCtx.next c :: pc) rest := by
  have := gets_map (gets_number (c := c) (pc := pc) (decimal_number n) hf h) (fun x : Num => x.i)
  rwa [numericOf_decimal E n hn] at this

theorem toInt_range {w : Nat} (hw : w ≤ 64) (v : BitVec w) : -2 ^ 63 ≤ v.toInt ∧ v.toInt < 2 ^ 63 := by
  have h : (v.signExtend 64).toInt = v.toInt := BitVec.toInt_signExtend_of_le hw
  have h1 := BitVec.le_toInt (v.signExtend 64)
  have h2 := BitVec.toInt_lt (x := v.signExtend 64)
  rw [h] at h1 h2
  exact ⟨by simpa using h1, by simpa using h2⟩

theorem gets_i64 {t : τ} {c pc} {rest : Bytes} (v : I64) (hf : (decimal v.toInt).length < E.fuel) (h : Follows E t 3 rest) :
    Gets E t (readI64 E) (c :: pc) (sepOf c ++ (decimal v.toInt ++ rest)) (v, none) (JCtx.next c :: pc) rest := by
  have := gets_i64n (c := c) (pc := pc) v.toInt (toInt_range (by omega) v) hf h
  rwa [BitVec.ofInt_toInt] at this

theorem gets_i32 {t : τ} {c pc} {rest : Bytes} (v : I32) (hf : (decimal v.toInt).length < E.fuel) (h : Follows E t 3 rest) :
    Gets E t (readI32 E) (c :: pc) (sepOf c ++ (decimal v.toInt ++ rest)) (v, none) (JCtx.next c :: pc) rest := by
  have := gets_map (gets_i64n (c := c) (pc := pc) v.toInt (toInt_range (by omega) v) hf h) (fun x : I64 => x.setWidth 32)
  rwa [setWidth_ofInt_toInt (by omega) v] at this

theorem gets_i16 {t : τ} {c pc} {rest : Bytes} (v : I16) (hf : (decimal v.toInt).length < E.fuel) (h : Follows E t 3 rest) :
    Gets E t (readI16 E) (c :: pc) (sepOf c ++ (decimal v.toInt ++ rest)) (v, none) (JCtx.next c :: pc) rest := by
  have := gets_map (gets_i64n (c := c) (pc := pc) v.toInt (toInt_range (by omega) v) hf h) (fun x : I64 => x.setWidth 16)
  rwa [setWidth_ofInt_toInt (by omega) v] at this

theorem gets_byte {t : τ} {c pc} {rest : Bytes} (v : Byte) (hf : (decimal v.toNat).length < E.fuel) (h : Follows E t 3 rest) :
    Gets E t (readByte E) (c :: pc) (sepOf c ++ (decimal v.toNat ++ rest)) (v, none) (JCtx.next c :: pc) rest := by
  have hv := v.isLt
  have := gets_map (gets_i64n (c := c) (pc := pc) v.toNat (by omega) hf h) (fun x : I64 => x.setWidth 8)
  have e : (BitVec.ofInt 64 (v.toNat : Int)).setWidth 8 = v := by
    apply BitVec.eq_of_toNat_eq
    rw [BitVec.toNat_setWidth, BitVec.ofInt_natCast, BitVec.toNat_ofNat]
    omega
  rwa [e] at this

theorem gets_i16Key {t : τ} {c pc} {rest : Bytes} (v : I16) (hf : (decimal v.toInt).length + 2 < E.fuel) (h : Follows E t 3 rest) :
    Gets E t (readI16 E) (c :: pc) (sepOf c ++ (inQuotes (decimal v.toInt) ++ rest)) (v, none) (JCtx.next c :: pc) rest := by
  have h1 := gets_map (gets_numberQuoted (c := c) (pc := pc) (decimal_number v.toInt) hf h) (fun x : Num => x.i)
  rw [numericOf_decimal E _ (toInt_range (by omega) v)] at h1
  have := gets_map h1 (fun x : I64 => x.setWidth 16)
  rwa [setWidth_ofInt_toInt (by omega) v] at this

theorem gets_size {t : τ} {c pc} {rest : Bytes} (n : Nat) (hn : n < 2 ^ 31) (hf : (decimal n).length < E.fuel) (h : Follows E t 3 rest) :
    Gets E t (do let (x, e) ← readI64 E; return (x.toInt, e)) (c :: pc) (sepOf c ++ (decimal n ++ rest)) ((n : Int), none)
      (JCtx.next c :: pc) rest := by
  have := gets_map (gets_i64n (c := c) (pc := pc) n (by omega) hf h) (fun x : I64 => x.toInt)
  rwa [BitVec.ofInt_natCast, toInt_ofNat64 hn] at this

/-! ## Doubles -/

/-- Canonical NaN. -/
def canonicalNaN : F64 := 0x7ff8000000000001

theorem gets_double (hL : Lawful E.L) {t : τ} {c pc} {rest : Bytes} (v : F64) (hv : F64.isNaN v = true → v = canonicalNaN)
    (hf : (doubleText E.L v).length + 2 < E.fuel) (hf8 : 8 < E.fuel) (h : Follows E t 3 rest) :
    Gets E t (readDouble E) (c :: pc) (sepOf c ++ (doubleText E.L v ++ rest)) (v, none) (JCtx.next c :: pc) rest := by
  unfold doubleText at hf ⊢
  by_cases a : Finite v
  · simp only [a, if_true] at hf ⊢
    have := gets_map (gets_number (c := c) (pc := pc) (hL.format_number v a) (by omega) h) (fun x : Num => x.d)
    simp only [numericOf, hL.parse_format v a] at this
    exact this
  · simp only [a, if_false] at hf ⊢
    split
    · rename_i b
      have := gets_map (gets_word (c := c) (pc := pc) hf8 h (ascii "Infinity") Num.inf (Or.inr (Or.inl ⟨rfl, rfl⟩))) (fun x : Num => x.d)
      subst b; exact this
    · split
      · rename_i b
        have := gets_map (gets_word (c := c) (pc := pc) hf8 h (ascii "-Infinity") Num.negInf (Or.inr (Or.inr ⟨rfl, rfl⟩))) (fun x : Num => x.d)
        subst b; exact this
      · rename_i b1 b2
        have hnan : F64.isNaN v = true := by
          have hlt := v.isLt
          have h2 : ¬ v = posInf := b1
          have h3 : ¬ v = negInf := b2
          rw [eq_posInf] at h2
          rw [eq_negInf] at h3
          rw [isNaN_iff]
          simp only [Finite] at a
          omega
        have := gets_map (gets_word (c := c) (pc := pc) hf8 h (ascii "NaN") Num.nan (Or.inl ⟨rfl, rfl⟩)) (fun x : Num => x.d)
        rw [hv hnan]; exact this

end JsonR
end Thrift
