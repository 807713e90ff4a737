import Verif.Lemmas.JsonGrammar
import Verif.Lemmas.Coerce
/-!
# What the JSON protocols make of a buffered document

Everything here happens in the buffer of the reader; the transport below it is
either not asked at all, or has nothing more to give.
-/

namespace Thrift
namespace JsonR
open JsonProtocol JsonSpec JsonW

variable {τ : Type} {α β : Type}

/-! ## Programs applied to a state -/

theorem bind_apply (m : P π α) (k : α → P π β) (s : π) : (m >>= k) s = (m s).bind fun x => k x.1 x.2 := rfl
theorem ret_bind (a : α) (f : α → Prog β) : (Prog.ret a).bind f = f a := rfl
theorem pure_apply (a : α) (s : π) : (pure a : P π α) s = .ret (a, s) := rfl
theorem get_apply (s : π) : (P.get : P π π) s = .ret (s, s) := rfl
theorem modify_apply (f : π → π) (s : π) : P.modify f s = .ret ((), f s) := rfl
theorem ite_apply' (c : Prop) [Decidable c] (a b : P π α) (s : π) : (if c then a else b) s = if c then a s else b s := by
  split <;> rfl

/-- Unfold programs at a state. -/
macro "psimp" "[" ls:Lean.Parser.Tactic.simpLemma,* "]" : tactic =>
  `(tactic| simp only [bind_apply, ret_bind, pure_apply, get_apply, modify_apply, ite_apply', $ls,*])

variable (E : JsonEnv τ)

/-- The transport has nothing more to give. -/
def Dry (t : τ) : Prop := ∀ n, 0 < n → E.T.read n t = (.ok ([], some ioEOF), t)

/-- The program only changes contexts and buffer of the object over the transport
state `t`, with the given result; the pending error changes only when the transport
has nothing more to give. -/
def Gets (t : τ) (m : P (Json τ) α) (pc : List JCtx) (b : Bytes) (a : α) (pc' : List JCtx) (b' : Bytes) : Prop :=
  ∀ dc er, ∃ er', (er' = er ∨ Dry E t) ∧ m ⟨pc, dc, b, er, t⟩ = .ret (a, ⟨pc', dc, b', er', t⟩)

variable {E}

theorem Gets.bind {t : τ} {m : P (Json τ) α} {k : α → P (Json τ) β} {pc pc' pc'' b b' b'' a c} (hm : Gets E t m pc b a pc' b')
    (hk : Gets E t (k a) pc' b' c pc'' b'') : Gets E t (m >>= k) pc b c pc'' b'' := by
  intro dc er
  obtain ⟨er', he, h⟩ := hm dc er
  obtain ⟨er'', he', h'⟩ := hk dc er'
  refine ⟨er'', ?_, by rw [bind_apply, h]; exact h'⟩
  rcases he with rfl | he
  · exact he'
  · exact Or.inr he

theorem Gets.pure {t : τ} (pc : List JCtx) (b : Bytes) (a : α) : Gets E t (Pure.pure a) pc b a pc b :=
  fun _ er => ⟨er, Or.inl rfl, rfl⟩

/-- `m` with a test of its error. -/
theorem Gets.check {t : τ} {m : P (Json τ) GoErr} {k : P (Json τ) β} {f : GoErr → β} {pc pc' pc'' b b' b'' c}
    (hm : Gets E t m pc b none pc' b') (hk : Gets E t k pc' b' c pc'' b'') :
    Gets E t (m >>= fun e => if e.isSome then Pure.pure (f e) else k) pc b c pc'' b'' :=
  Gets.bind hm (by simpa using hk)

variable (E)

/-! ## The buffered reader -/

theorem fillTo_enough (n fuel : Nat) (s : Json τ) (h : n ≤ s.buf.length) : fillTo E n fuel s = .ret ((), s) := by
  have : ¬ s.buf.length < n := by omega
  cases fuel <;> (psimp [fillTo]; simp [this])

theorem fillTo_err (n fuel : Nat) (s : Json τ) (h : s.err ≠ none) : fillTo E n fuel s = .ret ((), s) := by
  cases fuel <;> (psimp [fillTo]; simp [h])

theorem gets_peek {t : τ} (n : Nat) {pc b} (h : n ≤ b.length) : Gets E t (peek E n) pc b (b.take n, none) pc b := by
  intro dc er
  have h' : ¬ b.length < n := by omega
  refine ⟨er, Or.inl rfl, ?_⟩
  unfold peek
  psimp [fillTo_enough E n E.fuel ⟨pc, dc, b, er, t⟩ h]
  simp only [h', if_false]

/-- A peek whose error is not looked at. -/
theorem Gets.peekStep {t : τ} {n : Nat} {k : Bytes × GoErr → P (Json τ) β} {pc b pc' b' c} (hn : n ≤ bufSize) (hf : 0 < E.fuel)
    (h : n ≤ b.length ∨ Dry E t) (hk : ∀ e, Gets E t (k (b.take n, e)) pc b c pc' b') :
    Gets E t (peek E n >>= k) pc b c pc' b' := by
  by_cases hl : n ≤ b.length
  · exact Gets.bind (gets_peek E n hl) (hk none)
  · have hd : Dry E t := h.resolve_left hl
    have hlt : b.length < n := by omega
    intro dc er
    have key : ∃ e er', peek E n ⟨pc, dc, b, er, t⟩ = .ret ((b, e), ⟨pc, dc, b, er', t⟩) := by
      by_cases her : er = none
      · subst her
        obtain ⟨f, hfu⟩ : ∃ f, E.fuel = f + 1 := ⟨E.fuel - 1, by omega⟩
        have hr := hd (bufSize - b.length) (by omega)
        have hfill : fill E ⟨pc, dc, b, none, t⟩ = .ret ((), ⟨pc, dc, b, some ioEOF, t⟩) := by
          simp only [fill, hr, List.append_nil]
        have : fillTo E n E.fuel ⟨pc, dc, b, none, t⟩ = .ret ((), ⟨pc, dc, b, some ioEOF, t⟩) := by
          rw [hfu]
          unfold fillTo
          psimp []
          simp only [hlt, and_self, if_true, hfill, ret_bind]
          exact fillTo_err E n f _ (by simp)
        refine ⟨some ioEOF, none, ?_⟩
        unfold peek
        psimp [this]
        simp [hlt]
      · refine ⟨some (er.getD bufferFull), none, ?_⟩
        unfold peek
        psimp [fillTo_err E n E.fuel ⟨pc, dc, b, er, t⟩ her]
        simp [hlt]
    obtain ⟨e, er', hp⟩ := key
    have ht : b.take n = b := List.take_of_length_le (by omega)
    rw [ht] at hk
    obtain ⟨er'', _, h'⟩ := hk e dc er'
    exact ⟨er'', Or.inr hd, by rw [bind_apply, hp]; exact h'⟩

theorem getByte_cons (pc dc : List JCtx) (c : Byte) (r : Bytes) (er : GoErr) (t : τ) :
    getByte E ⟨pc, dc, c :: r, er, t⟩ = .ret ((c, none), ⟨pc, dc, r, er, t⟩) := by
  unfold getByte
  psimp [fillTo_enough E 1 E.fuel ⟨pc, dc, c :: r, er, t⟩ (by simp)]

theorem gets_getByte {t : τ} {pc c r} : Gets E t (getByte E) pc (c :: r) (c, none) pc r :=
  fun dc er => ⟨er, Or.inl rfl, getByte_cons E pc dc c r er t⟩

theorem gets_readUpTo {t : τ} {pc} (x r : Bytes) (hx : x ≠ []) : Gets E t (readUpTo E x.length) pc (x ++ r) (x, none) pc r := by
  intro dc er
  refine ⟨er, Or.inl rfl, ?_⟩
  unfold readUpTo
  psimp []
  simp [hx]

variable {E} in
theorem gets_dropWs {t : τ} {pc b} : Gets E t dropWs pc b () pc (b.dropWhile isWs) := fun _ er => ⟨er, Or.inl rfl, rfl⟩

/-- The text does not begin with white space. -/
def Tight (b : Bytes) : Prop := b.dropWhile isWs = b

theorem Tight.nil : Tight [] := rfl
theorem Tight.cons {c : Byte} {r : Bytes} (h : isWs c = false) : Tight (c :: r) := by
  simp [Tight, List.dropWhile, h]

variable {E} in
theorem gets_dropWs' {t : τ} {pc b} (h : Tight b) : Gets E t dropWs pc b () pc b := by
  have := gets_dropWs (E := E) (t := t) (pc := pc) (b := b)
  rwa [h] at this

theorem gets_readUntil {t : τ} {pc} (d : Byte) {b line rest : Bytes} (hf : 0 < E.fuel) (h : cutAfter d b = some (line, rest)) :
    Gets E t (readUntil E d E.fuel []) pc b (line, none) pc rest := by
  intro dc er
  refine ⟨er, Or.inl rfl, ?_⟩
  obtain ⟨f, hfu⟩ : ∃ f, E.fuel = f + 1 := ⟨E.fuel - 1, by omega⟩
  rw [hfu]
  unfold readUntil
  psimp []
  simp only [h]
  rfl

/-! ## Before and after a value -/

variable {E} in
theorem gets_parseTop {t : τ} {c pc b} : Gets E t parseTop (c :: pc) b c (c :: pc) b := fun _ er => ⟨er, Or.inl rfl, rfl⟩

theorem isWs_comma : isWs 44 = false := rfl
theorem isWs_colon : isWs 58 = false := rfl

variable {E} in
theorem gets_pre {t : τ} {c pc x} (hx : Tight x) : Gets E t parsePreValue (c :: pc) (sepOf c ++ x) none (c :: pc) x := by
  intro dc er
  refine ⟨er, Or.inl rfl, ?_⟩
  have h1 : (sepOf c ++ x).dropWhile isWs = sepOf c ++ x := by
    cases c <;> first | exact hx | rfl
  unfold parsePreValue
  psimp [dropWs, h1, parseTop]
  have hx' : x.dropWhile isWs = x := hx
  cases c
  case list => simp [sepOf, separator, COMMA, RBRACKET, dropWs, bind_apply, modify_apply, ret_bind, pure_apply, hx']
  case nextKey => simp [sepOf, separator, COMMA, RBRACE, dropWs, bind_apply, modify_apply, ret_bind, pure_apply, hx']
  case nextValue => simp [sepOf, separator, COLON, dropWs, bind_apply, modify_apply, ret_bind, pure_apply, hx']
  all_goals cases x <;> rfl

variable {E} in
theorem gets_post' {t : τ} {c pc b} : Gets E t parsePostValue (c :: pc) b none (JCtx.next c :: pc) (b.dropWhile isWs) :=
  fun _ er => ⟨er, Or.inl rfl, rfl⟩

variable {E} in
theorem gets_post {t : τ} {c pc b} (h : Tight b) : Gets E t parsePostValue (c :: pc) b none (JCtx.next c :: pc) b := by
  have := gets_post' (E := E) (t := t) (c := c) (pc := pc) (b := b)
  rwa [h] at this

theorem gets_readIfNull {t : τ} {pc b} (h : Tight b) (hb : b.head? ≠ some 110) : Gets E t (readIfNull E) pc b false pc b := by
  intro dc er
  refine ⟨er, Or.inl rfl, ?_⟩
  have h' : b.dropWhile isWs = b := h
  unfold readIfNull
  psimp [dropWs, h']
  cases b with
  | nil => rfl
  | cons c r =>
    have : c ≠ 110 := by simpa using hb
    dsimp only
    rw [ite_apply', if_neg this]
    rfl

/-! ## Numbers -/

/-- A character after which a number ends. -/
def Delim (d : Byte) : Prop := d = 44 ∨ d = 58 ∨ d = 93 ∨ d = 125

theorem Delim.ws {d : Byte} (h : Delim d) : isWs d = false := by
  rcases h with rfl | rfl | rfl | rfl <;> rfl

section
variable (pc dc : List JCtx) (r : Bytes) (er : GoErr) (t : τ)

theorem loop_digit (fuel : Nat) (n : NumState) (c : Byte) (h : IsDigit c) :
    numberLoop E (fuel + 1) n ⟨pc, dc, c :: r, er, t⟩ =
      numberLoop E fuel { n with buf := n.buf ++ [c], nextCanBeSign := false } ⟨pc, dc, r, er, t⟩ := by
  have h' : 48 ≤ c.toNat ∧ c.toNat ≤ 57 := h
  rw [numberLoop]
  psimp [getByte_cons]
  rw [if_pos h']

theorem loop_digits : ∀ (ds : Bytes), (∀ c ∈ ds, IsDigit c) → ∀ (fuel : Nat) (n : NumState), ds ≠ [] →
    numberLoop E (fuel + ds.length) n ⟨pc, dc, ds ++ r, er, t⟩ =
      numberLoop E fuel { n with buf := n.buf ++ ds, nextCanBeSign := false } ⟨pc, dc, r, er, t⟩
  | [], _, _, _, hne => absurd rfl hne
  | [c], h, fuel, n, _ => by
    exact loop_digit E pc dc r er t fuel n c (h c (by simp))
  | c :: c' :: ds, h, fuel, n, _ => by
    have h1 := loop_digit E pc dc ((c' :: ds) ++ r) er t (fuel + (c' :: ds).length) n c (h c (by simp))
    have h2 := loop_digits (c' :: ds) (fun x hx => h x (by simp [hx])) fuel
      { n with buf := n.buf ++ [c], nextCanBeSign := false } (by simp)
    rw [show fuel + (c :: c' :: ds).length = fuel + (c' :: ds).length + 1 by simp; omega]
    rw [show c :: c' :: ds ++ r = c :: (c' :: ds ++ r) from rfl]
    rw [h1, h2]
    simp

theorem loop_sign (fuel : Nat) (n : NumState) (c : Byte) (h : c = 45 ∨ c = 43) (hn : n.nextCanBeSign = true) :
    numberLoop E (fuel + 1) n ⟨pc, dc, c :: r, er, t⟩ =
      numberLoop E fuel { n with buf := n.buf ++ [c], nextCanBeSign := false } ⟨pc, dc, r, er, t⟩ := by
  rw [numberLoop]
  psimp [getByte_cons]
  rcases h with rfl | rfl <;> simp [hn]

theorem loop_point (fuel : Nat) (n : NumState) (hn : n.hasDecimalPoint = false) (he : n.hasE = false) :
    numberLoop E (fuel + 1) n ⟨pc, dc, 46 :: r, er, t⟩ =
      numberLoop E fuel { n with buf := n.buf ++ [46], hasDecimalPoint := true, nextCanBeSign := false } ⟨pc, dc, r, er, t⟩ := by
  rw [numberLoop]
  psimp [getByte_cons]
  simp [hn, he]

theorem loop_exp (fuel : Nat) (n : NumState) (c : Byte) (h : c = 101 ∨ c = 69) (he : n.hasE = false) :
    numberLoop E (fuel + 1) n ⟨pc, dc, c :: r, er, t⟩ =
      numberLoop E fuel { n with buf := n.buf ++ [c], hasE := true, nextCanBeSign := true } ⟨pc, dc, r, er, t⟩ := by
  rw [numberLoop]
  psimp [getByte_cons]
  rcases h with rfl | rfl <;> simp [he]

theorem loop_quote (fuel : Nat) (n : NumState) :
    numberLoop E (fuel + 1) n ⟨pc, dc, 34 :: r, er, t⟩ = numberLoop E fuel { n with inQuotes := true } ⟨pc, dc, r, er, t⟩ := by
  rw [numberLoop]
  psimp [getByte_cons]
  simp [endsNumber, RBRACE, RBRACKET, COMMA, COLON, QUOTE]

theorem loop_end (fuel : Nat) (n : NumState) (d : Byte) (h : Delim d) (hb : n.buf ≠ []) :
    numberLoop E (fuel + 1) n ⟨pc, dc, d :: r, er, t⟩ = .ret ((numericOf E n.buf, none), ⟨pc, dc, d :: r, er, t⟩) := by
  rw [numberLoop]
  psimp [getByte_cons]
  rcases h with rfl | rfl | rfl | rfl <;>
    simp [endsNumber, RBRACE, RBRACKET, COMMA, COLON, finishNumber, hb, unreadByte, modify_apply, ret_bind]

/-- The number's text up to the last digit. -/
theorem loop_number (s : Bytes) (hs : IsNumber s) (q : Bool) : ∃ n : NumState, n.buf = s ∧ ∀ (fuel : Nat),
    numberLoop E (fuel + s.length) { inQuotes := q } ⟨pc, dc, s ++ r, er, t⟩ = numberLoop E fuel n ⟨pc, dc, r, er, t⟩ := by
  obtain ⟨sg, int, frac, ex, rfl, hsg, hint, hfrac, hex⟩ := hs
  have hd : Digits int := by
    rcases hint with rfl | h
    · exact ⟨by simp, by decide⟩
    · exact h.1
  -- the sign
  obtain ⟨n1, b1, d1, e1, h1⟩ : ∃ n : NumState, n.buf = sg ∧ n.hasDecimalPoint = false ∧ n.hasE = false ∧ ∀ fuel r,
      numberLoop E (fuel + sg.length) { inQuotes := q } ⟨pc, dc, sg ++ r, er, t⟩ = numberLoop E fuel n ⟨pc, dc, r, er, t⟩ := by
    rcases hsg with rfl | rfl
    · exact ⟨{ inQuotes := q }, rfl, rfl, rfl, fun _ _ => rfl⟩
    · exact ⟨_, rfl, rfl, rfl, fun fuel r => loop_sign E pc dc r er t fuel _ 45 (Or.inl rfl) rfl⟩
  -- the integer part
  obtain ⟨n2, b2, d2, e2, h2⟩ : ∃ n : NumState, n.buf = sg ++ int ∧ n.hasDecimalPoint = false ∧ n.hasE = false ∧ ∀ fuel r,
      numberLoop E (fuel + int.length) n1 ⟨pc, dc, int ++ r, er, t⟩ = numberLoop E fuel n ⟨pc, dc, r, er, t⟩ :=
    ⟨{ n1 with buf := n1.buf ++ int, nextCanBeSign := false }, by simp [b1], d1, e1,
      fun fuel r => loop_digits E pc dc r er t int hd.2 fuel n1 hd.1⟩
  -- the fraction
  obtain ⟨n3, b3, e3, h3⟩ : ∃ n : NumState, n.buf = sg ++ int ++ frac ∧ n.hasE = false ∧ ∀ fuel r,
      numberLoop E (fuel + frac.length) n2 ⟨pc, dc, frac ++ r, er, t⟩ = numberLoop E fuel n ⟨pc, dc, r, er, t⟩ := by
    rcases hfrac with rfl | ⟨d, rfl, hdd⟩
    · exact ⟨n2, by simp [b2], e2, fun _ _ => rfl⟩
    · refine ⟨{ n2 with buf := n2.buf ++ [46] ++ d, hasDecimalPoint := true, nextCanBeSign := false }, by simp [b2], e2, ?_⟩
      intro fuel r
      rw [show fuel + (46 :: d).length = fuel + d.length + 1 by simp; omega, List.cons_append,
        loop_point E pc dc (d ++ r) er t _ n2 d2 e2, loop_digits E pc dc r er t d hdd.2 fuel _ hdd.1]
  -- the exponent
  obtain ⟨n4, b4, h4⟩ : ∃ n : NumState, n.buf = sg ++ int ++ frac ++ ex ∧ ∀ fuel r,
      numberLoop E (fuel + ex.length) n3 ⟨pc, dc, ex ++ r, er, t⟩ = numberLoop E fuel n ⟨pc, dc, r, er, t⟩ := by
    rcases hex with rfl | ⟨x, sx, d, rfl, hx, hsx, hdd⟩
    · exact ⟨n3, by simp [b3], fun _ _ => rfl⟩
    · rcases hsx with rfl | hsx
      · refine ⟨{ n3 with buf := n3.buf ++ [x] ++ d, hasE := true, nextCanBeSign := false }, by simp [b3], ?_⟩
        intro fuel r
        rw [show fuel + (x :: ([] ++ d)).length = fuel + d.length + 1 by simp; omega, List.cons_append, List.nil_append,
          loop_exp E pc dc (d ++ r) er t _ n3 x hx e3, loop_digits E pc dc r er t d hdd.2 fuel _ hdd.1]
      · obtain ⟨y, rfl, hy⟩ : ∃ y, sx = [y] ∧ (y = 45 ∨ y = 43) := by
          rcases hsx with rfl | rfl
          · exact ⟨43, rfl, Or.inr rfl⟩
          · exact ⟨45, rfl, Or.inl rfl⟩
        refine ⟨{ n3 with buf := n3.buf ++ [x] ++ [y] ++ d, hasE := true, nextCanBeSign := false }, by simp [b3], ?_⟩
        intro fuel r
        rw [show fuel + (x :: ([y] ++ d)).length = fuel + d.length + 1 + 1 by simp; omega,
          show x :: ([y] ++ d) ++ r = x :: y :: (d ++ r) by simp,
          loop_exp E pc dc (y :: (d ++ r)) er t _ n3 x hx e3, loop_sign E pc dc (d ++ r) er t _ _ y hy rfl,
          loop_digits E pc dc r er t d hdd.2 fuel _ hdd.1]
  refine ⟨n4, b4, fun fuel => ?_⟩
  have := h1 (fuel + ex.length + frac.length + int.length) (int ++ (frac ++ (ex ++ r)))
  have e : fuel + (sg ++ int ++ frac ++ ex).length = fuel + ex.length + frac.length + int.length + sg.length := by
    simp only [List.length_append]; omega
  rw [e, show sg ++ int ++ frac ++ ex ++ r = sg ++ (int ++ (frac ++ (ex ++ r))) by simp, this, h2, h3, h4]

end

theorem number_ne_nil {s : Bytes} (h : IsNumber s) : s ≠ [] := by
  obtain ⟨sg, int, frac, ex, rfl, _, hint, _, _⟩ := h
  have : int ≠ [] := by
    rcases hint with rfl | h
    · simp
    · exact h.1.1
  simp [this]

theorem number_head {s : Bytes} (h : IsNumber s) : ∃ c r, s = c :: r ∧ (IsDigit c ∨ c = 45) := by
  obtain ⟨sg, int, frac, ex, rfl, hsg, hint, _, _⟩ := h
  have hd : Digits int := by
    rcases hint with rfl | h
    · exact ⟨by simp, by decide⟩
    · exact h.1
  rcases hsg with rfl | rfl
  · obtain ⟨c, r, rfl⟩ := List.exists_cons_of_ne_nil hd.1
    exact ⟨c, r ++ frac ++ ex, by simp, Or.inl (hd.2 c (by simp))⟩
  · exact ⟨45, int ++ frac ++ ex, by simp, Or.inr rfl⟩

/-- A number, or a quoted one, at the start of the buffer. -/
theorem gets_loop {t : τ} {pc} (s : Bytes) (hs : IsNumber s) (d : Byte) (hd : Delim d) (rest : Bytes)
    (hf : s.length < E.fuel) : Gets E t (numberLoop E E.fuel {}) pc (s ++ d :: rest) (numericOf E s, none) pc (d :: rest) := by
  intro dc er
  obtain ⟨n, hb, hn⟩ := loop_number E pc dc (d :: rest) er t s hs false
  obtain ⟨f, hfu⟩ : ∃ f, E.fuel = f + 1 + s.length := ⟨E.fuel - 1 - s.length, by omega⟩
  refine ⟨er, Or.inl rfl, ?_⟩
  rw [hfu, show ({} : NumState) = { inQuotes := false } from rfl, hn, loop_end E pc dc rest er t f n d hd (hb ▸ number_ne_nil hs), hb]

theorem gets_loopQuoted {t : τ} {pc} (s : Bytes) (hs : IsNumber s) (d : Byte) (hd : Delim d) (rest : Bytes)
    (hf : s.length + 2 < E.fuel) :
    Gets E t (numberLoop E E.fuel {}) pc (inQuotes s ++ d :: rest) (numericOf E s, none) pc (d :: rest) := by
  intro dc er
  obtain ⟨n, hb, hn⟩ := loop_number E pc dc (34 :: d :: rest) er t s hs true
  obtain ⟨f, hfu⟩ : ∃ f, E.fuel = f + 1 + 1 + s.length + 1 := ⟨E.fuel - 3 - s.length, by omega⟩
  refine ⟨er, Or.inl rfl, ?_⟩
  rw [hfu, show inQuotes s ++ d :: rest = 34 :: (s ++ 34 :: d :: rest) by simp [inQuotes], loop_quote,
    show ({ ({} : NumState) with inQuotes := true } : NumState) = { inQuotes := true } from rfl, hn, loop_quote,
    loop_end E pc dc rest er t f { n with inQuotes := true } d hd (by rw [hb]; exact number_ne_nil hs)]
  simp only [hb]

end JsonR
end Thrift
