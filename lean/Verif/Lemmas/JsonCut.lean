import Verif.Lemmas.JsonScan
import Verif.Spec.JsonSupply
/-!
# Scalars that arrive in pieces
-/

namespace Thrift
namespace JsonR
open JsonProtocol JsonSpec JsonW

variable {τ : Type} {α β : Type} {E : JsonEnv τ}

/-- What is still to be read: the buffer, then what the transport delivers. -/
structure Remains (E : JsonEnv τ) (pc dc : List JCtx) (s : Json τ) (y : Bytes) : Prop where
  parse : s.parse = pc
  dump : s.dump = dc
  err : s.err = none
  room : s.buf.length ≤ bufSize
  rest : ∃ r, y = s.buf ++ r ∧ Supplies E.T s.t r

/-- With that left, the program gives `a` and leaves `y'`. -/
def Yields (E : JsonEnv τ) (m : P (Json τ) α) (pc : List JCtx) (y : Bytes) (a : α) (pc' : List JCtx) (y' : Bytes) : Prop :=
  ∀ dc s, Remains E pc dc s y → ∃ s', m s = .ret (a, s') ∧ Remains E pc' dc s' y'

theorem Yields.bind {m : P (Json τ) α} {k : α → P (Json τ) β} {pc pc' pc'' y y' y'' a b} (hm : Yields E m pc y a pc' y')
    (hk : Yields E (k a) pc' y' b pc'' y'') : Yields E (m >>= k) pc y b pc'' y'' := by
  intro dc s hs
  obtain ⟨s', h1, h2⟩ := hm dc s hs
  obtain ⟨s'', h3, h4⟩ := hk dc s' h2
  exact ⟨s'', by rw [bind_apply, h1]; exact h3, h4⟩

theorem Yields.pure (pc : List JCtx) (y : Bytes) (a : α) : Yields E (Pure.pure a) pc y a pc y := fun _ s hs => ⟨s, rfl, hs⟩

theorem Yields.check {m : P (Json τ) GoErr} {k : P (Json τ) β} {f : GoErr → β} {pc pc' pc'' y y' y'' b}
    (hm : Yields E m pc y none pc' y') (hk : Yields E k pc' y' b pc'' y'') :
    Yields E (m >>= fun e => if e.isSome then Pure.pure (f e) else k) pc y b pc'' y'' :=
  Yields.bind hm (by simpa using hk)

/-- One read of the transport. -/
theorem fill_some {pc dc : List JCtx} {s : Json τ} {y : Bytes} (h : Remains E pc dc s y) (hr : s.buf.length < bufSize)
    (hy : s.buf.length < y.length) : ∃ s', fill E s = .ret ((), s') ∧ Remains E pc dc s' y ∧ s.buf.length < s'.buf.length := by
  obtain ⟨r, rfl, hS⟩ := h.rest
  cases hS with
  | done e _ hd => simp at hy
  | more _ k next hk hread hnext =>
    have hn : 0 < bufSize - s.buf.length := by omega
    obtain ⟨h1, h2, h3⟩ := hk _ hn
    refine ⟨{ s with buf := s.buf ++ r.take (k (bufSize - s.buf.length)), err := none, t := next (bufSize - s.buf.length) }, ?_, ?_, ?_⟩
    · simp only [fill, hread _ hn]
    · refine ⟨h.parse, h.dump, rfl, ?_, _, ?_, hnext _ hn⟩
      · simp only [List.length_append, List.length_take]; omega
      · simp
    · simp only [List.length_append, List.length_take]; omega

theorem fill_end {pc dc : List JCtx} {s : Json τ} {y : Bytes} (h : Remains E pc dc s y) (hr : s.buf.length < bufSize)
    (hy : y = s.buf) : ∃ e, e.kind = .eof ∧ fill E s = .ret ((), { s with err := some e }) := by
  obtain ⟨r, e0, hS⟩ := h.rest
  have : r = [] := by
    have := congrArg List.length (hy.symm.trans e0)
    simp only [List.length_append] at this
    exact List.eq_nil_of_length_eq_zero (by omega)
  subst this
  cases hS with
  | done e he hd =>
    refine ⟨e, he, ?_⟩
    have := hd (bufSize - s.buf.length) (by omega)
    simp only [fill, this, List.append_nil]
  | more _ k next hk hread hnext =>
    have := hk 1 (by omega)
    simp at this
    omega

/-- Fill the buffer up to `n` bytes, or as far as possible. -/
theorem fillTo_some {pc dc : List JCtx} {y : Bytes} (n : Nat) (hn : n ≤ bufSize) (hy : n ≤ y.length) : ∀ (f : Nat) (s : Json τ),
    Remains E pc dc s y → n ≤ s.buf.length + f → ∃ s', fillTo E n f s = .ret ((), s') ∧ Remains E pc dc s' y ∧ n ≤ s'.buf.length
  | f, s, hs, hf => by
    by_cases hl : n ≤ s.buf.length
    · exact ⟨s, fillTo_enough E n f s hl, hs, hl⟩
    · cases f with
      | zero => omega
      | succ f =>
        obtain ⟨s1, h1, h2, h3⟩ := fill_some hs (by omega) (by omega)
        obtain ⟨s2, h4, h5, h6⟩ := fillTo_some n hn hy f s1 h2 (by omega)
        refine ⟨s2, ?_, h5, h6⟩
        unfold fillTo
        psimp []
        have : s.buf.length < n ∧ s.err = none := ⟨by omega, hs.err⟩
        simp only [this, and_self, if_true, h1, ret_bind, h4]

theorem fillTo_end {pc dc : List JCtx} {y : Bytes} (n : Nat) (hn : n ≤ bufSize) (hy : y.length < n) : ∀ (f : Nat) (s : Json τ),
    Remains E pc dc s y → n ≤ s.buf.length + f → ∃ s' e, e.kind = .eof ∧ fillTo E n f s = .ret ((), { s' with err := some e }) ∧ Remains E pc dc s' y ∧ s'.buf = y
  | f, s, hs, hf => by
    obtain ⟨r, e0, _⟩ := hs.rest
    have hlen : s.buf.length ≤ y.length := by rw [e0]; simp
    cases f with
    | zero => omega
    | succ f =>
      have hc : s.buf.length < n ∧ s.err = none := ⟨by omega, hs.err⟩
      by_cases hl : s.buf.length < y.length
      · obtain ⟨s1, h1, h2, h3⟩ := fill_some hs (by omega) hl
        obtain ⟨s2, e, he, h4, h5, h6⟩ := fillTo_end n hn hy f s1 h2 (by omega)
        refine ⟨s2, e, he, ?_, h5, h6⟩
        unfold fillTo
        psimp []
        simp only [hc, and_self, if_true, h1, ret_bind, h4]
      · have hy' : y = s.buf := by
          have : r = [] := by
            have := congrArg List.length e0
            simp only [List.length_append] at this
            exact List.eq_nil_of_length_eq_zero (by omega)
          rw [e0, this, List.append_nil]
        obtain ⟨e, he, h1⟩ := fill_end hs (by omega) hy'
        refine ⟨s, e, he, ?_, hs, hy'.symm⟩
        unfold fillTo
        psimp []
        simp only [hc, and_self, if_true, h1, ret_bind]
        exact fillTo_err E n f _ (by simp)

/-- A look at the next bytes; the buffer holds them afterwards. -/
theorem Yields.peekStep {n : Nat} {k : Bytes × GoErr → P (Json τ) β} {pc y pc' y' b} (hn : n ≤ bufSize) (hf : n ≤ E.fuel)
    (hk : ∀ e dc s, Remains E pc dc s y → min n y.length ≤ s.buf.length →
      ∃ s', k (y.take n, e) s = .ret (b, s') ∧ Remains E pc' dc s' y') :
    Yields E (peek E n >>= k) pc y b pc' y' := by
  intro dc s hs
  by_cases hy : n ≤ y.length
  · obtain ⟨s1, h1, h2, h3⟩ := fillTo_some n hn hy E.fuel s hs (by omega)
    obtain ⟨r, e0, _⟩ := h2.rest
    have ht : s1.buf.take n = y.take n := by rw [e0, List.take_append_of_le_length h3]
    obtain ⟨s', h4, h5⟩ := hk none dc s1 h2 (by omega)
    refine ⟨s', ?_, h5⟩
    have hp : peek E n s = .ret ((y.take n, none), s1) := by
      unfold peek
      psimp [h1]
      have : ¬ s1.buf.length < n := by omega
      simp only [this, if_false, ht]
    rw [bind_apply, hp]
    exact h4
  · obtain ⟨s1, e, _, h1, h2, h3⟩ := fillTo_end n hn (by omega) E.fuel s hs (by omega)
    have hlt : s1.buf.length < n := by rw [h3]; omega
    have ht : y.take n = y := List.take_of_length_le (by omega)
    obtain ⟨s', h4, h5⟩ := hk (some e) dc s1 h2 (by rw [h3]; omega)
    refine ⟨s', ?_, h5⟩
    have hp : peek E n s = .ret ((y.take n, some e), s1) := by
      have h6 := h2.err
      obtain ⟨p1, d1, b1, e1, t1⟩ := s1
      simp only at h3 h6 hlt
      subst h3 h6
      unfold peek
      psimp [h1]
      simp only [hlt, if_true, ht]
      rfl
    rw [bind_apply, hp]
    exact h4

theorem getByte_some {pc dc : List JCtx} {c : Byte} {y : Bytes} (hf : 0 < E.fuel) (s : Json τ) (hs : Remains E pc dc s (c :: y)) :
    ∃ s', getByte E s = .ret ((c, none), s') ∧ Remains E pc dc s' y ∧ s'.buf.length < bufSize := by
  obtain ⟨s1, h1, h2, h3⟩ := fillTo_some 1 (by decide) (by simp) E.fuel s hs (by omega)
  obtain ⟨r, e0, hS⟩ := h2.rest
  cases hb : s1.buf with
  | nil => rw [hb] at h3; simp at h3
  | cons b bs =>
    rw [hb, List.cons_append, List.cons.injEq] at e0
    obtain ⟨rfl, e0⟩ := e0
    have hr := h2.room
    rw [hb] at hr
    simp only [List.length_cons] at hr
    refine ⟨{ s1 with buf := bs }, ?_, ⟨h2.parse, h2.dump, h2.err, by simp only; omega, r, e0, hS⟩, by simp only; omega⟩
    unfold getByte
    psimp [h1]
    simp only [hb]
    rfl

theorem yields_getByte {pc : List JCtx} {c : Byte} {y : Bytes} (hf : 0 < E.fuel) : Yields E (getByte E) pc (c :: y) (c, none) pc y := by
  intro dc s hs
  obtain ⟨s', h1, h2, _⟩ := getByte_some hf s hs
  exact ⟨s', h1, h2⟩

/-- The end of what is there. -/
theorem getByte_end {pc dc : List JCtx} {s : Json τ} (hf : 0 < E.fuel) (hs : Remains E pc dc s []) :
    ∃ s' e, e.kind = .eof ∧ getByte E s = .ret ((0, some e), s') ∧ Remains E pc dc s' [] := by
  obtain ⟨s1, e, he, h1, h2, h3⟩ := fillTo_end 1 (by decide) (by simp) E.fuel s hs (by omega)
  refine ⟨s1, e, he, ?_, h2⟩
  have h6 := h2.err
  obtain ⟨p1, d1, b1, e1, t1⟩ := s1
  simp only at h3 h6
  subst h3 h6
  unfold getByte
  psimp [h1]

theorem cut_append {d : Byte} : ∀ {b : Bytes} (r : Bytes) {line rest : Bytes}, cutAfter d b = some (line, rest) →
    cutAfter d (b ++ r) = some (line, rest ++ r)
  | [], _, _, _, h => nomatch h
  | c :: b, r, line, rest, h => by
    rw [List.cons_append]
    by_cases e : c = d
    · subst e
      rw [cutAfter_here] at h ⊢
      simp only [Option.some.injEq, Prod.mk.injEq] at h ⊢
      exact ⟨h.1, by rw [h.2]⟩
    · rw [cutAfter_skip e] at h ⊢
      cases hx : cutAfter d b with
      | none => rw [hx] at h; exact nomatch h
      | some p =>
        rw [hx] at h
        simp only [Option.map_some, Option.some.injEq, Prod.mk.injEq] at h
        rw [cut_append r hx]
        simp only [Option.map_some, Option.some.injEq, Prod.mk.injEq]
        exact ⟨h.1, by rw [h.2]⟩

theorem cut_later {d : Byte} : ∀ {b : Bytes} {r line rest : Bytes}, cutAfter d b = none → cutAfter d (b ++ r) = some (line, rest) →
    ∃ l, line = b ++ l ∧ cutAfter d r = some (l, rest)
  | [], r, line, rest, _, h => ⟨line, rfl, h⟩
  | c :: b, r, line, rest, hn, h => by
    by_cases e : c = d
    · subst e
      rw [cutAfter_here] at hn
      exact nomatch hn
    · rw [List.cons_append, cutAfter_skip e] at h
      rw [cutAfter_skip e] at hn
      cases hx : cutAfter d (b ++ r) with
      | none => rw [hx] at h; exact nomatch h
      | some p =>
        rw [hx] at h
        simp only [Option.map_some, Option.some.injEq, Prod.mk.injEq] at h
        have hn' : cutAfter d b = none := by
          cases hb : cutAfter d b with
          | none => rfl
          | some q => rw [hb] at hn; exact nomatch hn
        obtain ⟨l, h1, h2⟩ := cut_later (line := p.1) (rest := p.2) hn' hx
        exact ⟨l, by rw [← h.1, h1]; rfl, by rw [h2, ← h.2]⟩

theorem cut_parts {d : Byte} : ∀ {b line rest : Bytes}, cutAfter d b = some (line, rest) → b = line ++ rest
  | [], _, _, h => nomatch h
  | c :: b, line, rest, h => by
    by_cases e : c = d
    · subst e
      rw [cutAfter_here] at h
      simp only [Option.some.injEq, Prod.mk.injEq] at h
      rw [← h.1, ← h.2]; rfl
    · rw [cutAfter_skip e] at h
      cases hx : cutAfter d b with
      | none => rw [hx] at h; exact nomatch h
      | some p =>
        rw [hx] at h
        simp only [Option.map_some, Option.some.injEq, Prod.mk.injEq] at h
        rw [← h.1, ← h.2, List.cons_append, ← cut_parts (line := p.1) (rest := p.2) hx]

/-- Up to a character that comes sooner or later. -/
theorem until_later (d : Byte) {pc dc : List JCtx} : ∀ (f : Nat) (s : Json τ) (acc y line rest : Bytes), Remains E pc dc s y →
    cutAfter d y = some (line, rest) → 2 * y.length + (if s.buf = [] then 0 else 1) < f + 2 * s.buf.length →
    ∃ s', readUntil E d f acc s = .ret ((acc ++ line, none), s') ∧ Remains E pc dc s' rest
  | 0, s, acc, y, line, rest, hs, _, hf => by
    obtain ⟨r, e0, _⟩ := hs.rest
    have := congrArg List.length e0
    simp only [List.length_append] at this
    omega
  | f + 1, s, acc, y, line, rest, hs, hc, hf => by
    obtain ⟨r, e0, hS⟩ := hs.rest
    have hlen := congrArg List.length e0
    simp only [List.length_append] at hlen
    have hr := hs.room
    rw [readUntil]
    psimp []
    cases hb : cutAfter d s.buf with
    | some p =>
      obtain ⟨l, q⟩ := p
      have := cut_append r hb
      rw [← e0, hc] at this
      simp only [Option.some.injEq, Prod.mk.injEq] at this
      refine ⟨{ s with buf := q }, ?_, hs.parse, hs.dump, hs.err, ?_, r, this.2, hS⟩
      · simp only [this.1]; rfl
      · have := congrArg List.length (cut_parts hb)
        simp only [List.length_append] at this
        simp only
        omega
    | none =>
      rw [e0] at hc
      obtain ⟨l, h1, h2⟩ := cut_later hb hc
      have hrpos : r ≠ [] := by rintro rfl; exact nomatch h2
      have hrl : 0 < r.length := List.length_pos_iff.2 hrpos
      simp only [hs.err, Option.isSome_none, Bool.false_eq_true, if_false, ite_apply']
      by_cases hfull : s.buf.length ≥ bufSize
      · rw [if_pos hfull]
        have hne : s.buf ≠ [] := by
          intro e; rw [e] at hfull; exact absurd hfull (by decide)
        rw [if_neg hne] at hf
        obtain ⟨s', h3, h4⟩ := until_later d f { s with buf := [] } (acc ++ s.buf) r l rest
          ⟨hs.parse, hs.dump, hs.err, by simp, r, rfl, hS⟩ h2 (by
            simp only [if_true, List.length_nil]
            have : 2 ≤ s.buf.length := Nat.le_trans (by decide) hfull
            omega)
        refine ⟨s', ?_, h4⟩
        rw [bind_apply, modify_apply, ret_bind, h1, ← List.append_assoc]
        exact h3
      · rw [if_neg hfull]
        obtain ⟨s1, h3, h4, h5⟩ := fill_some hs (by omega) (by omega)
        have hs1 : s1.buf ≠ [] := by intro e; rw [e] at h5; simp at h5
        obtain ⟨s', h6, h7⟩ := until_later d f s1 acc y line rest h4 (by rw [e0]; exact hc) (by
          rw [if_neg hs1]
          split at hf <;> omega)
        exact ⟨s', by rw [bind_apply, h3]; exact h6, h7⟩

theorem yields_until (d : Byte) {pc : List JCtx} {y line rest : Bytes} (hc : cutAfter d y = some (line, rest)) (hf : 2 * y.length + 1 < E.fuel) :
    Yields E (readUntil E d E.fuel []) pc y (line, none) pc rest := by
  intro dc s hs
  refine until_later d E.fuel s [] y line rest hs hc ?_
  split <;> omega

/-! ## Contexts -/

theorem remains_tight {pc dc : List JCtx} {s : Json τ} {y : Bytes} (hs : Remains E pc dc s y) (ht : Tight y) :
    s.buf.dropWhile isWs = s.buf := by
  obtain ⟨r, e0, hS⟩ := hs.rest
  cases hb : s.buf with
  | nil => rfl
  | cons b bs =>
    have ht' : y.dropWhile isWs = y := ht
    rw [e0, hb, List.cons_append, List.dropWhile_cons] at ht'
    rw [List.dropWhile_cons]
    split at ht'
    · have h1 := congrArg List.length ht'
      have := (List.dropWhile_sublist isWs (l := bs ++ r)).length_le
      simp only [List.length_cons] at h1
      omega
    · rename_i hw
      rw [if_neg hw]

theorem yields_pre {pc : List JCtx} {y : Bytes} (ht : Tight y) : Yields E parsePreValue (.toplevel :: pc) y none (.toplevel :: pc) y := by
  intro dc s hs
  have hb := remains_tight hs ht
  refine ⟨s, ?_, hs⟩
  have hp := hs.parse
  obtain ⟨p1, d1, b1, e1, t1⟩ := s
  simp only at hp hb
  subst hp
  unfold parsePreValue
  psimp [dropWs, hb, parseTop]
  cases b1 <;> rfl

theorem yields_post {pc : List JCtx} {y : Bytes} (ht : Tight y) : Yields E parsePostValue (.toplevel :: pc) y none (.toplevel :: pc) y := by
  intro dc s hs
  have hb := remains_tight hs ht
  refine ⟨s, ?_, hs⟩
  have hp := hs.parse
  obtain ⟨p1, d1, b1, e1, t1⟩ := s
  simp only at hp hb
  subst hp
  unfold parsePostValue
  psimp [dropWs, hb, parseTop]
  rfl

theorem yields_notNull {pc : List JCtx} {y : Bytes} (ht : Tight y) (hn : y.head? ≠ some 110) : Yields E (readIfNull E) pc y false pc y := by
  intro dc s hs
  have hb := remains_tight hs ht
  obtain ⟨r, e0, hS⟩ := hs.rest
  refine ⟨s, ?_, hs⟩
  obtain ⟨p1, d1, b1, e1, t1⟩ := s
  simp only at hb e0
  unfold readIfNull
  psimp [dropWs, hb]
  cases b1 with
  | nil => rfl
  | cons b bs =>
    have : ¬ b = 110 := by
      rintro rfl
      rw [e0] at hn
      exact hn rfl
    simp only [this, if_false]
    rfl

/-! ## Scalars -/

/-- What may stand after a scalar. -/
def EndsScalar (rest : Bytes) : Prop := rest = [] ∨ ∃ d r, rest = d :: r ∧ Delim d

theorem EndsScalar.tight {rest : Bytes} (h : EndsScalar rest) : Tight rest := by
  rcases h with rfl | ⟨d, r, rfl, hd⟩
  · exact Tight.nil
  · exact Tight.cons hd.ws

theorem loop_supplied {pc dc : List JCtx} (hf : 0 < E.fuel) {rest : Bytes} (hr : EndsScalar rest) : ∀ (x : Bytes) (n n' : NumState) (f : Nat),
    (∀ b ∈ x, b ≠ 78 ∧ b ≠ 73) → scanAll n x = some n' → ∀ s, Remains E pc dc s (x ++ rest) →
    ∃ s', numberLoop E (f + 1 + x.length) n s = .ret (finishNumber E n', s') ∧ Remains E pc dc s' rest
  | [], n, n', f, _, h, s, hs => by
    simp only [scanAll, Option.some.injEq] at h
    subst h
    rcases hr with rfl | ⟨d, r, rfl, hd⟩
    · obtain ⟨s', e, he, h1, h2⟩ := getByte_end hf hs
      refine ⟨s', ?_, h2⟩
      show numberLoop E (f + 1) n s = _
      rw [numberLoop]
      psimp [h1]
      simp only [he, if_true]
    · obtain ⟨s', h1, h2, h3⟩ := getByte_some hf s hs
      obtain ⟨r', e0, hS⟩ := h2.rest
      refine ⟨{ s' with buf := d :: s'.buf }, ?_, h2.parse, h2.dump, h2.err, by simp only [List.length_cons]; omega, r', by simp [e0], hS⟩
      refine (loop_step f n d ?_ ?_ _ _ h1).trans ?_
      · rcases hd with rfl | rfl | rfl | rfl <;> decide
      · rcases hd with rfl | rfl | rfl | rfl <;> decide
      · have : scanStep n d = .stop := by rcases hd with rfl | rfl | rfl | rfl <;> rfl
        rw [this]
  | c :: x, n, n', f, hx, h, s, hs => by
    obtain ⟨s1, h1, h2, _⟩ := getByte_some hf s hs
    rw [scanAll] at h
    cases hsc : scanStep n c with
    | next m =>
      rw [hsc] at h
      obtain ⟨s', h3, h4⟩ := loop_supplied hf hr x m n' f (fun b hb => hx b (by simp [hb])) h s1 h2
      refine ⟨s', ?_, h4⟩
      have := loop_step (f + 1 + x.length) n c (hx c (by simp)).1 (hx c (by simp)).2 _ _ h1
      rw [hsc] at this
      rw [show f + 1 + (c :: x).length = f + 1 + x.length + 1 by simp; omega, this]
      exact h3
    | stop => rw [hsc] at h; exact nomatch h
    | bad => rw [hsc] at h; exact nomatch h

theorem loose_of_number {x : Bytes} (h : IsNumber x) : LooseNumber x := by
  obtain ⟨sg, int, frac, ex, rfl, hsg, hint, hfrac, hex⟩ := h
  refine ⟨sg, int, frac, ex, rfl, ?_, ?_, ?_, ?_⟩
  · rcases hsg with rfl | rfl <;> simp
  · rcases hint with rfl | h
    · intro b hb
      simp only [List.mem_singleton] at hb
      subst hb; decide
    · exact h.1.2
  · rcases hfrac with rfl | ⟨d, rfl, hd⟩
    · exact Or.inl rfl
    · exact Or.inr ⟨d, rfl, hd.2⟩
  · rcases hex with rfl | ⟨e, s, d, rfl, h1, h2, h3⟩
    · exact Or.inl rfl
    · exact Or.inr ⟨e, s, d, rfl, h1, h2, h3.2⟩

theorem loose_chars {x : Bytes} (h : LooseNumber x) : ∀ b ∈ x, IsDigit b ∨ b ∈ ([43, 45, 46, 69, 101] : Bytes) := by
  obtain ⟨sg, int, frac, ex, rfl, hsg, hint, hfrac, hex⟩ := h
  intro b hb
  simp only [List.mem_append] at hb
  have sign : ∀ {s : Bytes}, (s = [] ∨ s = [43] ∨ s = [45]) → b ∈ s → b ∈ ([43, 45, 46, 69, 101] : Bytes) := by
    rintro s (rfl | rfl | rfl) hb
    · simp at hb
    · simp only [List.mem_singleton] at hb; subst hb; decide
    · simp only [List.mem_singleton] at hb; subst hb; decide
  rcases hb with ((hb | hb) | hb) | hb
  · exact Or.inr (sign hsg hb)
  · exact Or.inl (hint b hb)
  · rcases hfrac with rfl | ⟨d, rfl, hd⟩
    · simp at hb
    · rcases List.mem_cons.1 hb with rfl | hb
      · exact Or.inr (by decide)
      · exact Or.inl (hd b hb)
  · rcases hex with rfl | ⟨e, s, d, rfl, h1, h2, h3⟩
    · simp at hb
    · rcases List.mem_cons.1 hb with rfl | hb
      · right; rcases h1 with rfl | rfl <;> decide
      · rcases List.mem_append.1 hb with hb | hb
        · exact Or.inr (sign h2 hb)
        · exact Or.inl (h3 b hb)

theorem loose_char_facts : ∀ b : Byte, (48 ≤ b.toNat ∧ b.toNat ≤ 57) ∨ b ∈ ([43, 45, 46, 69, 101] : Bytes) →
    b ≠ 78 ∧ b ≠ 73 ∧ b ≠ 110 ∧ isWs b = false ∧ b ≠ 34 ∧ endsNumber b = false := by decide +kernel

theorem yields_number {pc : List JCtx} {x rest : Bytes} (hx : IsNumber x) (hf : x.length + 4 < E.fuel) (hr : EndsScalar rest) :
    Yields E (parseNumber E) (.toplevel :: pc) (x ++ rest) (numericOf E x, none) (.toplevel :: pc) rest := by
  obtain ⟨n, hb, hn⟩ := scan_loose (loose_of_number hx)
  have hch := fun b hb => loose_char_facts b (loose_chars (loose_of_number hx) b hb)
  have hne := number_ne_nil hx
  obtain ⟨c, x', hc⟩ := List.exists_cons_of_ne_nil hne
  have h0 := hch c (by simp [hc])
  have htx : Tight (x ++ rest) := by rw [hc]; exact Tight.cons h0.2.2.2.1
  have hnn : (x ++ rest).take 4 ≠ NULL := by
    rw [hc]
    simp only [List.cons_append, List.take_succ_cons, NULL, ne_eq, List.cons.injEq, not_and]
    intro h'; exact absurd h' h0.2.2.1
  unfold parseNumber
  refine Yields.check (yields_pre htx) ?_
  refine Yields.peekStep (by decide) (by omega) fun e dc s hs _ => ?_
  simp only [hnn, if_false]
  have hread : Yields E (readNumeric E) (.toplevel :: pc) (x ++ rest) (numericOf E x, none) (.toplevel :: pc) rest := by
    unfold readNumeric
    refine Yields.bind (yields_notNull htx (by rw [hc]; simpa using h0.2.2.1)) ?_
    simp only [Bool.false_eq_true, if_false]
    intro dc s hs
    obtain ⟨f, hfu⟩ : ∃ f, E.fuel = f + 1 + x.length := ⟨E.fuel - 1 - x.length, by omega⟩
    obtain ⟨s', h1, h2⟩ := loop_supplied (by omega) hr x {} n f (fun b hb => ⟨(hch b hb).1, (hch b hb).2.1⟩) hn s hs
    refine ⟨s', ?_, h2⟩
    rw [hfu, h1]
    simp only [finishNumber, hb, hne, if_false]
  exact Yields.bind (E := E) hread (by
    simp only [Option.isSome_none, Bool.false_eq_true, if_false]
    exact Yields.bind (yields_post hr.tight) (Yields.pure _ _ _)) dc s hs

theorem yields_quotedBody {pc : List JCtx} : ∀ (fuel : Nat) {body : Bytes}, Chars body → body.length < fuel → ∀ rest,
    2 * (body ++ 34 :: rest).length + 1 < E.fuel →
    Yields E (parseQuotedStringBody E fuel) pc (body ++ 34 :: rest) (body ++ [34], none) pc rest
  | 0, _, _, hl, _, _ => absurd hl (Nat.not_lt_zero _)
  | fuel + 1, body, hc, hl, rest, hf => by
    obtain ⟨line, rest', hcut, h⟩ := scan hc [] rest rfl
    unfold parseQuotedStringBody
    refine Yields.bind (yields_until QUOTE hcut hf) ?_
    simp only [Option.isSome_none, Bool.false_eq_true, if_false, backslashes_eq]
    rw [List.nil_append] at h
    rcases h with ⟨h0, rfl, rfl⟩ | ⟨h1, q, hq, rfl, rfl⟩
    · simp only [h0, if_true]; exact Yields.pure _ _ _
    · have : ¬ trailing line % 2 = 0 := by omega
      simp only [this, if_false]
      refine Yields.bind (yields_quotedBody fuel hq (by simp at hl; omega) rest (by simp at hf ⊢; omega)) ?_
      simp only [Option.isSome_none, Bool.false_eq_true, if_false]
      have e : line ++ [34] ++ (q ++ [34]) = line ++ 34 :: q ++ [34] := by simp
      rw [e]; exact Yields.pure _ _ _

theorem yields_stringBody {pc : List JCtx} {body v : Bytes} (hc : Chars body) (rest : Bytes) (hf : 2 * (body ++ 34 :: rest).length + 1 < E.fuel)
    (hu : E.L.unquote (34 :: (body ++ [34])) = some v) :
    Yields E (parseStringBody E) pc (body ++ 34 :: rest) (v, none) pc rest := by
  obtain ⟨line, rest', hcut, h⟩ := scan hc [] rest rfl
  unfold parseStringBody
  refine Yields.bind (yields_until QUOTE hcut hf) ?_
  simp only [Option.isSome_none, Bool.false_eq_true, if_false, backslashes_eq]
  rw [List.nil_append] at h
  rcases h with ⟨h0, rfl, rfl⟩ | ⟨h1, q, hq, rfl, rfl⟩
  · simp only [h0, if_true]
    have : E.L.unquote (QUOTE :: (line ++ [34])) = some v := hu
    simp only [this]; exact Yields.pure _ _ _
  · have : ¬ trailing line % 2 = 0 := by omega
    simp only [this, if_false]
    refine Yields.bind (yields_quotedBody E.fuel hq (by simp at hf; omega) rest (by simp at hf ⊢; omega)) ?_
    simp only [Option.isSome_none, Bool.false_eq_true, if_false]
    have e : QUOTE :: (line ++ [34]) ++ (q ++ [34]) = 34 :: (line ++ 34 :: q ++ [34]) := by simp [QUOTE]
    rw [e, hu]; exact Yields.pure _ _ _

theorem yields_quoted {pc : List JCtx} {x rest v : Bytes} {body : P (Json τ) (Bytes × GoErr)} (hf : 4 ≤ E.fuel) (hr : Tight rest)
    (hb : Yields E body (.toplevel :: pc) (x ++ 34 :: rest) (v, none) (.toplevel :: pc) rest) :
    Yields E (readQuoted E body) (.toplevel :: pc) (34 :: (x ++ [34]) ++ rest) (v, none) (.toplevel :: pc) rest := by
  unfold readQuoted
  have e : 34 :: (x ++ [34]) ++ rest = 34 :: (x ++ 34 :: rest) := by simp
  rw [e]
  refine Yields.check (yields_pre (Tight.cons rfl)) ?_
  refine Yields.peekStep (by decide) hf fun e dc s hs _ => ?_
  have hq : (List.take 4 (34 :: (x ++ 34 :: rest))).head? = some QUOTE := rfl
  simp only [hq, if_true]
  exact Yields.bind (yields_getByte (by omega)) (Yields.bind hb (by
    simp only [Option.isSome_none, Bool.false_eq_true, if_false]
    exact Yields.bind (yields_post hr) (Yields.pure _ _ _))) dc s hs

theorem yields_string (hL : Lawful E.L) {pc : List JCtx} {v rest : Bytes} (hv : Utf8 v) (hf : 2 * (E.L.quote v ++ rest).length + 4 < E.fuel)
    (hr : Tight rest) : Yields E (readString E) (.toplevel :: pc) (E.L.quote v ++ rest) (v, none) (.toplevel :: pc) rest := by
  obtain ⟨body, hq, hc⟩ := hL.quote_string v hv
  have hu := hL.unquote_quote v hv
  rw [hq] at hu hf ⊢
  simp at hf
  exact yields_quoted (by omega) hr (yields_stringBody hc rest (by simp; omega) hu)

theorem yields_binary {pc : List JCtx} (v rest : Bytes) (hf : 2 * (JsonB.base64Text v ++ rest).length + 4 < E.fuel) (hr : Tight rest) :
    Yields E (readBinary E) (.toplevel :: pc) (JsonB.base64Text v ++ rest) (v, none) (.toplevel :: pc) rest := by
  have hlen : 2 * (b64encode v ++ 34 :: rest).length + 1 < E.fuel := by
    simp [JsonB.base64Text, inQuotes] at hf ⊢; omega
  have hb : Yields E (parseBase64EncodedBody E) (.toplevel :: pc) (b64encode v ++ 34 :: rest) (v, none) (.toplevel :: pc) rest := by
    unfold parseBase64EncodedBody
    refine Yields.bind (yields_until QUOTE (JsonB.cut_clean (JsonB.encode_clean v) rest) hlen) ?_
    simp only [Option.isSome_none, Bool.false_eq_true, if_false, List.dropLast_concat, JsonB.decode_encode, if_true]
    exact Yields.pure _ _ _
  exact yields_quoted (by omega) hr hb

theorem yields_bool {pc : List JCtx} (b : Bool) {rest : Bytes} (hf : 5 ≤ E.fuel) (hr : Tight rest) :
    Yields E (readBool E) (.toplevel :: pc) ((if b then ascii "true" else ascii "false") ++ rest) (b, none) (.toplevel :: pc) rest := by
  have word : ∀ (p w : Bytes) (v : Bool) dc (s : Json τ), w ≠ [] → p.take w.length = w → Remains E (.toplevel :: pc) dc s (w ++ rest) →
      w.length ≤ s.buf.length →
      ∃ s', readBoolWord E p w v s = .ret ((v, none), s') ∧ Remains E (.toplevel :: pc) dc s' rest := by
    intro p w v dc s hw hp hs hl
    have hlen : w.length ≤ p.length := by
      have := congrArg List.length hp
      simp at this; omega
    have hseen : ∀ z, (p ++ z).take w.length = w := by
      intro z; rw [List.take_append_of_le_length hlen, hp]
    obtain ⟨r, e0, hS⟩ := hs.rest
    have hpre : s.buf = w ++ s.buf.drop w.length := by
      have := congrArg (List.take w.length) e0
      rw [List.take_left, List.take_append_of_le_length hl] at this
      conv => lhs; rw [← List.take_append_drop w.length s.buf, ← this]
    have hup : readUpTo E w.length s = .ret ((w, none), { s with buf := s.buf.drop w.length }) := by
      have hne : s.buf ≠ [] := by
        intro e; rw [e] at hl; exact hw (List.eq_nil_of_length_eq_zero (Nat.le_zero.1 hl))
      unfold readUpTo
      psimp []
      simp only [hne, false_and, if_false]
      have : s.buf.take w.length = w := by
        conv => lhs; rw [hpre]
        simp
      psimp [this]
    have hs' : Remains E (.toplevel :: pc) dc { s with buf := s.buf.drop w.length } rest := by
      refine ⟨hs.parse, hs.dump, hs.err, ?_, r, ?_, hS⟩
      · have := hs.room
        simp only [List.length_drop]; omega
      · rw [hpre, List.append_assoc] at e0
        exact List.append_cancel_left e0
    obtain ⟨s', h1, h2⟩ := yields_post (E := E) hr dc _ hs'
    refine ⟨s', ?_, h2⟩
    unfold readBoolWord
    psimp [hseen]
    simp only [Nat.lt_irrefl, if_false, if_true]
    psimp [hup, h1]
  unfold readBool
  refine Yields.check (yields_pre ?_) ?_
  · cases b <;> exact Tight.cons rfl
  · refine Yields.peekStep (by decide) hf fun e dc s hs hl => ?_
    cases b
    · exact word _ FALSE false dc s (by decide) rfl hs (Nat.le_trans (by simp [ascii, FALSE]) hl)
    · exact word _ TRUE true dc s (by decide) rfl hs (Nat.le_trans (by simp [ascii, TRUE]; omega) hl)

end JsonR
end Thrift
