import Verif.Lemmas.JsonCut
/-!
# Scalars that are refused, whatever the pieces in which they arrive
-/

namespace Thrift

/-- A memory buffer supplies what it holds. -/
theorem supplies_memory : ∀ (n : Nat) (y : Bytes), y.length ≤ n → Supplies memory y y
  | 0, y, h => by
    have : y = [] := List.eq_nil_of_length_eq_zero (by omega)
    subst this
    refine .done ioEOF rfl fun n hn => ?_
    have : n ≠ 0 := by omega
    simp [memory, bufferRead, this]
  | m + 1, y, h => by
    cases y with
    | nil =>
      refine .done ioEOF rfl fun n hn => ?_
      have : n ≠ 0 := by omega
      simp [memory, bufferRead, this]
    | cons b r =>
      refine .more (b :: r) (fun n => min n (b :: r).length) (fun n => (b :: r).drop n) (fun n hn => ?_) (fun n hn => ?_) (fun n hn => ?_)
      · simp only [List.length_cons]; omega
      · have : (b :: r).take (min n (b :: r).length) = (b :: r).take n := by
          rw [← List.take_take, List.take_length]
        simp only [this]
        simp [memory, bufferRead]
      · have : (b :: r).drop (min n (b :: r).length) = (b :: r).drop n := by
          rcases Nat.le_total n (b :: r).length with h | h
          · rw [Nat.min_eq_left h]
          · rw [Nat.min_eq_right h, List.drop_length, List.drop_of_length_le h]
        rw [this]
        exact supplies_memory m _ (by simp only [List.length_drop, List.length_cons] at h ⊢; omega)

namespace JsonR
open JsonProtocol JsonSpec JsonW

variable {τ : Type} {α β : Type} {E : JsonEnv τ}

theorem Remains.new {t : τ} {y : Bytes} (h : Supplies E.T t y) : Remains E [.toplevel, .toplevel] [.toplevel, .toplevel] (Json.new t) y :=
  ⟨rfl, rfl, rfl, by simp [Json.new], y, rfl, h⟩

/-- With that left, the program reports an error. -/
def Refuses (E : JsonEnv τ) (m : P (Json τ) (α × GoErr)) (pc : List JCtx) (y : Bytes) : Prop :=
  ∀ dc s, Remains E pc dc s y → ∃ a e s', m s = .ret ((a, some e), s')

theorem Refuses.after {m : P (Json τ) α} {k : α → P (Json τ) (β × GoErr)} {pc pc' y y' a} (hm : Yields E m pc y a pc' y')
    (hk : Refuses E (k a) pc' y') : Refuses E (m >>= k) pc y := by
  intro dc s hs
  obtain ⟨s', h1, h2⟩ := hm dc s hs
  obtain ⟨b, e, s'', h3⟩ := hk dc s' h2
  exact ⟨b, e, s'', by rw [bind_apply, h1]; exact h3⟩

theorem Refuses.check {m : P (Json τ) GoErr} {k : P (Json τ) (β × GoErr)} {f : GoErr → β × GoErr} {pc pc' y y'}
    (hm : Yields E m pc y none pc' y') (hk : Refuses E k pc' y') :
    Refuses E (m >>= fun e => if e.isSome then Pure.pure (f e) else k) pc y :=
  Refuses.after hm (by simpa using hk)

theorem Refuses.map {m : P (Json τ) (α × GoErr)} {pc y} (h : Refuses E m pc y) (f : α → β) :
    Refuses E (do let (x, e) ← m; return (f x, e)) pc y := by
  intro dc s hs
  obtain ⟨a, e, s', h1⟩ := h dc s hs
  exact ⟨f a, e, s', by psimp [h1]⟩

theorem Refuses.peekStep {n : Nat} {k : Bytes × GoErr → P (Json τ) (β × GoErr)} {pc y} (hn : n ≤ bufSize) (hf : n ≤ E.fuel)
    (hk : ∀ e, Refuses E (k (y.take n, e)) pc y) : Refuses E (peek E n >>= k) pc y := by
  intro dc s hs
  obtain ⟨e, s1, h1, h2⟩ : ∃ e s1, peek E n s = .ret ((y.take n, e), s1) ∧ Remains E pc dc s1 y := by
    obtain ⟨s1, h1, h2⟩ := Yields.peekStep (E := E) (pc := pc) (y := y) (pc' := pc) (y' := y) (b := y.take n)
      (k := fun r => Pure.pure r.1) hn hf (fun e dc s hs _ => ⟨s, rfl, hs⟩) dc s hs
    rw [bind_apply] at h1
    cases hp : peek E n s with
    | ret r =>
      obtain ⟨⟨a, e⟩, s2⟩ := r
      rw [hp] at h1
      have h1' : (Prog.ret (a, s2) : Prog (Bytes × Json τ)) = .ret (y.take n, s1) := h1
      simp only [Prog.ret.injEq, Prod.mk.injEq] at h1'
      obtain ⟨rfl, rfl⟩ := h1'
      exact ⟨e, s2, rfl, h2⟩
    | _ => rw [hp] at h1; exact nomatch h1
  obtain ⟨b, e', s', h3⟩ := hk e dc s1 h2
  exact ⟨b, e', s', by rw [bind_apply, h1]; exact h3⟩

/-! ## Numbers -/

theorem loop_rejected {pc dc : List JCtx} (hf : 0 < E.fuel) {rest : Bytes} : ∀ (x : Bytes) (n : NumState) (f : Nat),
    (∀ b ∈ x, b ≠ 78 ∧ b ≠ 73) → scanAll n x = none → (∀ b ∈ x, endsNumber b = false) → ∀ s, Remains E pc dc s (x ++ rest) →
    ∃ s', numberLoop E (f + x.length) n s = .ret ((Num.null, some invalid), s')
  | [], n, f, _, h, _, s, hs => nomatch h
  | c :: x, n, f, hx, h, he, s, hs => by
    obtain ⟨s1, h1, h2, _⟩ := getByte_some hf s hs
    rw [scanAll] at h
    have step := loop_step (f + x.length) n c (hx c (by simp)).1 (hx c (by simp)).2 _ _ h1
    rw [show f + (c :: x).length = f + x.length + 1 by simp; omega, step]
    cases hsc : scanStep n c with
    | next m =>
      rw [hsc] at h
      exact loop_rejected hf x m f (fun b hb => hx b (by simp [hb])) h (fun b hb => he b (by simp [hb])) s1 h2
    | stop =>
      exfalso
      unfold scanStep at hsc
      have := he c (by simp)
      simp only [this, Bool.false_eq_true, if_false] at hsc
      repeat' split at hsc
      all_goals exact nomatch hsc
    | bad => exact ⟨_, rfl⟩

/-- Before the loop. -/
theorem parse_loop {pc : List JCtx} {y : Bytes} (ht : Tight y) (hn : y.head? ≠ some 110) (hf : 4 ≤ E.fuel)
    (hl : Refuses E (numberLoop E E.fuel {}) (.toplevel :: pc) y) : Refuses E (parseNumber E) (.toplevel :: pc) y := by
  have hnn : y.take 4 ≠ NULL := by
    cases y with
    | nil => simp [NULL]
    | cons c r =>
      simp only [List.take_succ_cons, NULL, ne_eq, List.cons.injEq, not_and]
      intro h'; subst h'; exact absurd rfl hn
  unfold parseNumber
  refine Refuses.check (yields_pre ht) ?_
  refine Refuses.peekStep (by decide) hf fun e => ?_
  simp only [hnn, if_false]
  have hread : Refuses E (readNumeric E) (.toplevel :: pc) y := by
    unfold readNumeric
    refine Refuses.after (yields_notNull ht hn) ?_
    simpa using hl
  intro dc s hs
  obtain ⟨a, e, s', h1⟩ := hread dc s hs
  exact ⟨a, e, s', by psimp [h1]; rfl⟩

/-- Text that is not a number in the loosest sense. -/
theorem number_rejected {pc : List JCtx} {x rest : Bytes} (hx : ∀ b ∈ x, (48 ≤ b.toNat ∧ b.toNat ≤ 57) ∨ b ∈ ([43, 45, 46, 69, 101] : Bytes))
    (hl : ¬ (x ≠ [] ∧ LooseNumber x)) (hf : x.length + 4 < E.fuel) (hr : EndsScalar rest) :
    Refuses E (parseNumber E) (.toplevel :: pc) (x ++ rest) := by
  have hch := fun b hb => loose_char_facts b (hx b hb)
  have hfirst : Tight (x ++ rest) ∧ (x ++ rest).head? ≠ some 110 := by
    cases x with
    | nil =>
      refine ⟨hr.tight, ?_⟩
      rcases hr with rfl | ⟨d, r, rfl, hd⟩
      · simp
      · rcases hd with rfl | rfl | rfl | rfl <;> simp
    | cons c x' =>
      have h0 := hch c (by simp)
      exact ⟨Tight.cons h0.2.2.2.1, by simpa using h0.2.2.1⟩
  refine parse_loop hfirst.1 hfirst.2 (by omega) fun dc s hs => ?_
  by_cases hne : x = []
  · subst hne
    obtain ⟨f, hfu⟩ : ∃ f, E.fuel = f + 1 := ⟨E.fuel - 1, by omega⟩
    obtain ⟨s', h1, _⟩ := loop_supplied (by omega) hr [] {} {} f (by simp) rfl s hs
    exact ⟨_, _, s', by rw [hfu]; exact h1⟩
  · have hno : ¬ LooseNumber x := fun h => hl ⟨hne, h⟩
    have hnone : scanAll {} x = none := by
      cases hs : scanAll {} x with
      | none => rfl
      | some n =>
        obtain ⟨h1, h2⟩ := Reached.start.scan x (fun h => (hch 34 h).2.2.2.2.1 rfl) hs
        have := h1.isLoose
        rw [h2] at this
        exact absurd this hno
    obtain ⟨f, hfu⟩ : ∃ f, E.fuel = f + x.length := ⟨E.fuel - x.length, by omega⟩
    obtain ⟨s', h1⟩ := loop_rejected (by omega) x {} f (fun b hb => ⟨(hch b hb).1, (hch b hb).2.1⟩) hnone
      (fun b hb => (hch b hb).2.2.2.2.2) s hs
    exact ⟨_, _, s', by rw [hfu]; exact h1⟩

/-- Text that is one. -/
theorem number_accepted {pc : List JCtx} {x rest : Bytes} (hne : x ≠ []) (hx : LooseNumber x) (hf : x.length + 4 < E.fuel) (hr : EndsScalar rest) :
    Yields E (parseNumber E) (.toplevel :: pc) (x ++ rest) (numericOf E x, none) (.toplevel :: pc) rest := by
  obtain ⟨n, hb, hn⟩ := scan_loose hx
  have hch := fun b hb => loose_char_facts b (loose_chars hx b hb)
  obtain ⟨c, x', hc⟩ := List.exists_cons_of_ne_nil hne
  have h0 := hch c (by simp [hc])
  have htx : Tight (x ++ rest) := by rw [hc]; exact Tight.cons h0.2.2.2.1
  have hnn : (x ++ rest).take 4 ≠ NULL := by
    rw [hc]
    simp only [List.cons_append, List.take_succ_cons, NULL, ne_eq, List.cons.injEq, not_and]
    intro h'; exact absurd h' h0.2.2.1
  unfold parseNumber
  refine Yields.check (yields_pre htx) ?_
  refine Yields.peekStep (by decide) (by omega) fun e dc s hs _ => ?_
  simp only [hnn, if_false]
  have hread : Yields E (readNumeric E) (.toplevel :: pc) (x ++ rest) (numericOf E x, none) (.toplevel :: pc) rest := by
    unfold readNumeric
    refine Yields.bind (yields_notNull htx (by rw [hc]; simpa using h0.2.2.1)) ?_
    simp only [Bool.false_eq_true, if_false]
    intro dc s hs
    obtain ⟨f, hfu⟩ : ∃ f, E.fuel = f + 1 + x.length := ⟨E.fuel - 1 - x.length, by omega⟩
    obtain ⟨s', h1, h2⟩ := loop_supplied (by omega) hr x {} n f (fun b hb => ⟨(hch b hb).1, (hch b hb).2.1⟩) hn s hs
    refine ⟨s', ?_, h2⟩
    rw [hfu, h1]
    simp only [finishNumber, hb, hne, if_false]
  exact Yields.bind (E := E) hread (by
    simp only [Option.isSome_none, Bool.false_eq_true, if_false]
    exact Yields.bind (yields_post hr.tight) (Yields.pure _ _ _)) dc s hs

/-! ## Words -/

theorem readUpTo_some {pc dc : List JCtx} {y : Bytes} {n : Nat} (hy : y ≠ []) (s : Json τ) (hs : Remains E pc dc s y) :
    ∃ k s', k ≤ n ∧ readUpTo E n s = .ret ((y.take k, none), s') ∧ k ≤ y.length := by
  have hy' : 0 < y.length := List.length_pos_iff.2 hy
  have main : ∀ s1 : Json τ, Remains E pc dc s1 y → s1.buf ≠ [] → ∃ k, k ≤ n ∧ s1.buf.take n = y.take k ∧ k ≤ y.length := by
    intro s1 h1 h2
    obtain ⟨r, e0, _⟩ := h1.rest
    refine ⟨min n s1.buf.length, Nat.min_le_left _ _, ?_, ?_⟩
    · rw [e0, List.take_append_of_le_length (Nat.min_le_right _ _), ← List.take_take, List.take_length]
    · rw [e0, List.length_append]; omega
  unfold readUpTo
  by_cases hb : s.buf = []
  · obtain ⟨s1, h1, h2, h3⟩ := fill_some hs (by rw [hb]; decide) (by rw [hb]; exact hy')
    have hb1 : s1.buf ≠ [] := by intro e; rw [e] at h3; simp at h3
    obtain ⟨k, hk, he, hl⟩ := main s1 h2 hb1
    refine ⟨k, { s1 with buf := s1.buf.drop n }, hk, ?_, hl⟩
    have hc : s.buf = [] ∧ s.err = none := ⟨hb, hs.err⟩
    psimp []
    simp only [hc, and_self, if_true, h1, ret_bind, hb1, if_false, he]
  · obtain ⟨k, hk, he, hl⟩ := main s hs hb
    refine ⟨k, { s with buf := s.buf.drop n }, hk, ?_, hl⟩
    psimp []
    simp only [hb, false_and, if_false, he]

theorem readUpTo_end {pc dc : List JCtx} {n : Nat} (s : Json τ) (hs : Remains E pc dc s []) :
    ∃ e s', readUpTo E n s = .ret (([], some e), s') := by
  have hb : s.buf = [] := by
    obtain ⟨r, e0, _⟩ := hs.rest
    exact (List.append_eq_nil_iff.1 e0.symm).1
  obtain ⟨e, _, h1⟩ := fill_end hs (by rw [hb]; decide) hb.symm
  refine ⟨e, { s with err := none }, ?_⟩
  have hc : s.buf = [] ∧ s.err = none := ⟨hb, hs.err⟩
  unfold readUpTo
  psimp []
  simp only [hc, and_self, if_true, h1, ret_bind]

/-- The rest of a word is not there. -/
theorem word_refused {pc : List JCtx} (pre tl : Bytes) (v : Num) (q : Bool) (y : Bytes) (htl : ∀ b ∈ tl, b ≠ 0) (hne : tl ≠ [])
    (hy : y.take tl.length ≠ tl) : Refuses E (readWord E pre (pre ++ tl) v q) pc y := by
  intro dc s hs
  have hlen : (pre ++ tl).length - pre.length = tl.length := by simp
  unfold readWord
  rw [hlen]
  by_cases he : y = []
  · subst he
    obtain ⟨e, s', h1⟩ := readUpTo_end (n := tl.length) s hs
    obtain ⟨e', he'⟩ : ∃ e', protocolFromOsError (some e) = some e' := by
      simp only [protocolFromOsError]
      split
      · exact ⟨_, rfl⟩
      · exact ⟨_, rfl⟩
    exact ⟨Num.null, e', s', by psimp [h1, he']; rfl⟩
  · obtain ⟨k, s', hk, h1, hky⟩ := readUpTo_some (n := tl.length) he s hs
    have hw : pre ++ tl ≠ pre ++ fillBuf tl.length (y.take k) := by
      intro e
      have e := List.append_cancel_left e
      have hkl : (y.take k).length = k := by rw [List.length_take]; omega
      rcases Nat.lt_or_eq_of_le hk with hlt | rfl
      · have hmem : (0 : Byte) ∈ tl := by
          rw [e, fillBuf, hkl]
          refine List.mem_append_right _ ?_
          rw [List.mem_replicate]
          exact ⟨by omega, rfl⟩
        exact htl 0 hmem rfl
      · rw [fillBuf, hkl, Nat.sub_self, List.replicate_zero, List.append_nil] at e
        exact hy e.symm
    exact ⟨Num.null, invalid, s', by psimp [h1]; simp only [hw, not_false_eq_true, if_true, ne_eq]; rfl⟩

theorem words_refused {pc : List JCtx} (hf : 4 ≤ E.fuel) (y : Bytes) :
    (y.take 2 ≠ ascii "aN" → Refuses E (parseNumber E) (.toplevel :: pc) (78 :: y)) ∧
    (y.take 7 ≠ ascii "nfinity" → Refuses E (parseNumber E) (.toplevel :: pc) (73 :: y)) ∧
    (y.take 7 ≠ ascii "nfinity" → Refuses E (parseNumber E) (.toplevel :: pc) (45 :: 73 :: y)) := by
  obtain ⟨f, hfu⟩ : ∃ f, E.fuel = f + 1 + 1 := ⟨E.fuel - 2, by omega⟩
  refine ⟨fun h => ?_, fun h => ?_, fun h => ?_⟩
  · refine parse_loop (Tight.cons rfl) (by simp) hf fun dc s hs => ?_
    obtain ⟨s1, h1, h2, _⟩ := getByte_some (by omega) s hs
    obtain ⟨a, e, s2, h3⟩ := word_refused (E := E) [78] (ascii "aN") Num.nan false y (by decide) (by decide) h dc s1 h2
    refine ⟨a, e, s2, ?_⟩
    rw [hfu, numberLoop, ← h3]
    psimp [h1]
    rfl
  · refine parse_loop (Tight.cons rfl) (by simp) hf fun dc s hs => ?_
    obtain ⟨s1, h1, h2, _⟩ := getByte_some (by omega) s hs
    obtain ⟨a, e, s2, h3⟩ := word_refused (E := E) [73] (ascii "nfinity") Num.inf false y (by decide) (by decide) h dc s1 h2
    refine ⟨a, e, s2, ?_⟩
    rw [hfu, numberLoop, ← h3]
    psimp [h1]
    rfl
  · refine parse_loop (Tight.cons rfl) (by simp) hf fun dc s hs => ?_
    obtain ⟨s0, h0, hs0, _⟩ := getByte_some (by omega) s hs
    obtain ⟨s1, h1, h2, _⟩ := getByte_some (by omega) s0 hs0
    obtain ⟨a, e, s2, h3⟩ := word_refused (E := E) [45, 73] (ascii "nfinity") Num.negInf false y (by decide) (by decide) h dc s1 h2
    refine ⟨a, e, s2, ?_⟩
    rw [hfu, loop_step (f + 1) {} 45 (by decide) (by decide) s s0 h0]
    show numberLoop E (f + 1) _ s0 = _
    rw [numberLoop, ← h3]
    psimp [h1]
    rfl

theorem yields_noNull {pc : List JCtx} {y : Bytes} (ht : Tight y) (hn : y.take 4 ≠ NULL) (hf : 4 ≤ E.fuel) :
    Yields E (readIfNull E) pc y false pc y := by
  intro dc s hs
  have hb := remains_tight hs ht
  have hpeek := Yields.peekStep (E := E) (k := fun x => if x.1 = NULL then (do let _ ← readUpTo E 4; return true) else Pure.pure false)
    (pc := pc) (y := y) (pc' := pc) (y' := y) (b := false) (by decide) hf
    (fun e dc s hs _ => ⟨s, by simp only [if_neg hn]; rfl, hs⟩) dc s hs
  obtain ⟨p1, d1, b1, e1, t1⟩ := s
  simp only at hb
  have hunf : readIfNull E ⟨p1, d1, b1, e1, t1⟩ = (match b1 with
      | [] => Prog.ret (false, ⟨p1, d1, b1, e1, t1⟩)
      | b :: _ => if b = 110 then
          (peek E 4 >>= fun x => if x.1 = NULL then (do let _ ← readUpTo E 4; return true) else Pure.pure false) ⟨p1, d1, b1, e1, t1⟩
        else Prog.ret (false, ⟨p1, d1, b1, e1, t1⟩)) := by
    unfold readIfNull
    psimp [dropWs, hb]
    cases b1 with
    | nil => rfl
    | cons b bs =>
      by_cases hc : b = 110
      · simp only [hc, if_true]
        psimp []
      · simp only [hc, if_false]
        rfl
  rw [hunf]
  cases b1 with
  | nil => exact ⟨_, rfl, hs⟩
  | cons b bs =>
    by_cases hc : b = 110
    · simp only [hc, if_true]
      subst hc
      exact hpeek
    · simp only [hc, if_false]
      exact ⟨_, rfl, hs⟩

theorem null_refused {pc : List JCtx} (hf : 4 ≤ E.fuel) (y : Bytes) (h : y.take 3 ≠ ascii "ull") :
    Refuses E (parseNumber E) (.toplevel :: pc) (110 :: y) := by
  have hnn : (110 :: y).take 4 ≠ NULL := by
    intro e
    apply h
    have := List.cons.inj (show 110 :: y.take 3 = 110 :: ascii "ull" from e)
    exact this.2
  have ht : Tight (110 :: y) := Tight.cons rfl
  unfold parseNumber
  refine Refuses.check (yields_pre ht) ?_
  refine Refuses.peekStep (by decide) hf fun e => ?_
  simp only [hnn, if_false]
  have hread : Refuses E (readNumeric E) (.toplevel :: pc) (110 :: y) := by
    unfold readNumeric
    refine Refuses.after (yields_noNull ht hnn hf) ?_
    intro dc s hs
    obtain ⟨s1, h1, h2, _⟩ := getByte_some (by omega) s hs
    obtain ⟨f, hfu⟩ : ∃ f, E.fuel = f + 1 := ⟨E.fuel - 1, by omega⟩
    refine ⟨Num.null, invalid, s1, ?_⟩
    simp only [Bool.false_eq_true, if_false]
    rw [hfu, numberLoop]
    psimp [h1]
    rfl
  intro dc s hs
  obtain ⟨a, e, s', h1⟩ := hread dc s hs
  exact ⟨a, e, s', by psimp [h1]; rfl⟩

/-! ## Base64 -/

theorem letter_iff : ∀ b : Byte, (b64value b).isSome = true ↔
    ((65 ≤ b.toNat ∧ b.toNat ≤ 90) ∨ (97 ≤ b.toNat ∧ b.toNat ≤ 122) ∨ (48 ≤ b.toNat ∧ b.toNat ≤ 57) ∨ b = 43 ∨ b = 47) := by
  decide +kernel

theorem letter_some {b : Byte} (h : IsBase64Letter b) : ∃ n, b64value b = some n := Option.isSome_iff_exists.1 ((letter_iff b).2 h)
theorem letter_of {b : Byte} {n : Nat} (h : b64value b = some n) : IsBase64Letter b := (letter_iff b).1 (by rw [h]; rfl)
theorem letter_pad {b : Byte} (h : IsBase64Letter b) : b ≠ 61 := by
  rintro rfl
  obtain ⟨n, hn⟩ := letter_some h
  exact nomatch hn

theorem base64_head {x y z w : Byte} {r : Bytes} (hr : r ≠ []) : IsBase64 (x :: y :: z :: w :: r) ↔
    IsBase64Letter x ∧ IsBase64Letter y ∧ IsBase64Letter z ∧ IsBase64Letter w ∧ IsBase64 r := by
  constructor
  · rintro ⟨hl, body, pad, e, hb, hp⟩
    simp only [List.length_cons] at hl
    have hr4 : 4 ≤ r.length := by
      have := List.length_pos_iff.2 hr
      omega
    have hpl : pad.length ≤ 2 := by rcases hp with rfl | rfl | rfl <;> simp
    have hlen := congrArg List.length e
    simp only [List.length_cons, List.length_append] at hlen
    match body, hb, e with
    | [], _, _ => simp at hlen; omega
    | [_], _, _ => simp at hlen; omega
    | [_, _], _, _ => simp at hlen; omega
    | [_, _, _], _, _ => simp at hlen; omega
    | a :: b :: c :: d :: body, hb, e =>
      simp only [List.cons_append, List.cons.injEq] at e
      obtain ⟨rfl, rfl, rfl, rfl, rfl⟩ := e
      refine ⟨hb _ (by simp), hb _ (by simp), hb _ (by simp), hb _ (by simp), by omega, body, pad, rfl, fun b h => hb b (by simp [h]), hp⟩
  · rintro ⟨hx, hy, hz, hw, hl, body, pad, rfl, hb, hp⟩
    refine ⟨by simp only [List.length_cons]; omega, x :: y :: z :: w :: body, pad, rfl, ?_, hp⟩
    intro b h
    simp only [List.mem_cons] at h
    rcases h with rfl | rfl | rfl | rfl | h
    · exact hx
    · exact hy
    · exact hz
    · exact hw
    · exact hb b h

theorem base64_last {x y z w : Byte} : IsBase64 [x, y, z, w] ↔ IsBase64Letter x ∧ IsBase64Letter y ∧
    ((IsBase64Letter z ∧ (IsBase64Letter w ∨ w = 61)) ∨ (z = 61 ∧ w = 61)) := by
  constructor
  · rintro ⟨-, body, pad, e, hb, hp⟩
    rcases hp with rfl | rfl | rfl
    · rw [List.append_nil] at e
      subst e
      exact ⟨hb _ (by simp), hb _ (by simp), Or.inl ⟨hb _ (by simp), Or.inl (hb _ (by simp))⟩⟩
    · have e' : [x, y, z] ++ [w] = body ++ [61] := e
      obtain ⟨rfl, h2⟩ := List.append_inj' e' rfl
      simp only [List.cons.injEq, and_true] at h2
      exact ⟨hb _ (by simp), hb _ (by simp), Or.inl ⟨hb _ (by simp), Or.inr h2⟩⟩
    · have e' : [x, y] ++ [z, w] = body ++ [61, 61] := e
      obtain ⟨rfl, h2⟩ := List.append_inj' e' rfl
      simp only [List.cons.injEq, and_true] at h2
      exact ⟨hb _ (by simp), hb _ (by simp), Or.inr h2⟩
  · rintro ⟨hx, hy, ⟨hz, hw | rfl⟩ | ⟨rfl, rfl⟩⟩
    · refine ⟨by simp, [x, y, z, w], [], rfl, ?_, Or.inl rfl⟩
      intro b h
      simp only [List.mem_cons, List.not_mem_nil, or_false] at h
      rcases h with rfl | rfl | rfl | rfl <;> assumption
    · refine ⟨by simp, [x, y, z], [61], rfl, ?_, Or.inr (Or.inl rfl)⟩
      intro b h
      simp only [List.mem_cons, List.not_mem_nil, or_false] at h
      rcases h with rfl | rfl | rfl <;> assumption
    · refine ⟨by simp, [x, y], [61, 61], rfl, ?_, Or.inr (Or.inr rfl)⟩
      intro b h
      simp only [List.mem_cons, List.not_mem_nil, or_false] at h
      rcases h with rfl | rfl <;> assumption

/-- Four letters in front. -/
theorem quanta_four {x y z w : Byte} {r : Bytes} (h : r ≠ [] ∨ w ≠ 61) : (b64quanta (x :: y :: z :: w :: r)).2 = true ↔
    IsBase64Letter x ∧ IsBase64Letter y ∧ IsBase64Letter z ∧ IsBase64Letter w ∧ (b64quanta r).2 = true := by
  rw [b64quanta.eq_4]
  · cases hx : b64value x with
    | none =>
      simp only [Bool.false_eq_true, false_iff]
      rintro ⟨h, _⟩
      obtain ⟨n, hn⟩ := letter_some h
      exact nomatch hx.symm.trans hn
    | some a =>
      cases hy : b64value y with
      | none =>
        simp only [Bool.false_eq_true, false_iff]
        rintro ⟨_, h, _⟩
        obtain ⟨n, hn⟩ := letter_some h
        exact nomatch hy.symm.trans hn
      | some b =>
        cases hz : b64value z with
        | none =>
          simp only [Bool.false_eq_true, false_iff]
          rintro ⟨_, _, h, _⟩
          obtain ⟨n, hn⟩ := letter_some h
          exact nomatch hz.symm.trans hn
        | some c =>
          cases hw : b64value w with
          | none =>
            simp only [Bool.false_eq_true, false_iff]
            rintro ⟨_, _, _, h, _⟩
            obtain ⟨n, hn⟩ := letter_some h
            exact nomatch hw.symm.trans hn
          | some d =>
            simp only [letter_of hx, letter_of hy, letter_of hz, letter_of hw, true_and]
  · intro _ e1 e2
    rcases h with h | h
    · exact h e2
    · exact h e1
  · intro e1 e2
    rcases h with h | h
    · exact h e2
    · exact h e1

theorem quanta_iff : ∀ s : Bytes, (b64quanta s).2 = true ↔ IsBase64 s
  | [] => ⟨fun _ => ⟨rfl, [], [], rfl, by simp, Or.inl rfl⟩, fun _ => rfl⟩
  | [_] => ⟨fun h => (nomatch h), fun h => absurd h.1 (by simp)⟩
  | [_, _] => ⟨fun h => (nomatch h), fun h => absurd h.1 (by simp)⟩
  | [_, _, _] => ⟨fun h => by simp [b64quanta] at h, fun h => absurd h.1 (by simp)⟩
  | x :: y :: z :: w :: r => by
    by_cases hr : r = []
    · subst hr
      rw [base64_last]
      by_cases hw : w = 61
      · subst hw
        have hw' : ¬ IsBase64Letter 61 := fun h => letter_pad h rfl
        by_cases hz : z = 61
        · subst hz
          simp only [hw', and_self, or_true, and_true]
          show (b64quanta [x, y, 61#8, 61#8]).2 = true ↔ _
          rw [b64quanta.eq_2]
          cases hx : b64value x with
          | none =>
            simp only [Bool.false_eq_true, false_iff]
            rintro ⟨h, _⟩
            obtain ⟨n, hn⟩ := letter_some h
            exact nomatch hx.symm.trans hn
          | some a =>
            cases hy : b64value y with
            | none =>
              simp only [Bool.false_eq_true, false_iff]
              rintro ⟨_, h⟩
              obtain ⟨n, hn⟩ := letter_some h
              exact nomatch hy.symm.trans hn
            | some b => simp only [letter_of hx, letter_of hy, and_self]
        · simp only [hw', hz, or_true, and_true, or_false]
          show (b64quanta [x, y, z, 61#8]).2 = true ↔ _
          rw [b64quanta.eq_3]
          · cases hx : b64value x with
            | none =>
              simp only [Bool.false_eq_true, false_iff]
              rintro ⟨h, _⟩
              obtain ⟨n, hn⟩ := letter_some h
              exact nomatch hx.symm.trans hn
            | some a =>
              cases hy : b64value y with
              | none =>
                simp only [Bool.false_eq_true, false_iff]
                rintro ⟨_, h, _⟩
                obtain ⟨n, hn⟩ := letter_some h
                exact nomatch hy.symm.trans hn
              | some b =>
                cases hz' : b64value z with
                | none =>
                  simp only [Bool.false_eq_true, false_iff]
                  rintro ⟨_, _, h⟩
                  obtain ⟨n, hn⟩ := letter_some h
                  exact nomatch hz'.symm.trans hn
                | some c => simp only [letter_of hx, letter_of hy, letter_of hz', and_self]
          · intro e; exact hz e
      · rw [quanta_four (Or.inr hw)]
        simp only [hw, or_false, and_false]
        show _ ∧ _ ∧ _ ∧ _ ∧ true = true ↔ _
        simp only [and_true]
    · rw [quanta_four (Or.inl hr), base64_head hr, quanta_iff r]

theorem cut_quote : ∀ {x : Bytes} (rest : Bytes), 34 ∉ x → cutAfter QUOTE (x ++ 34 :: rest) = some (x ++ [34], rest)
  | [], rest, _ => by simp [cutAfter, QUOTE]
  | b :: r, rest, h => by
    simp only [List.mem_cons, not_or] at h
    have hb : ¬ b = QUOTE := fun e => h.1 e.symm
    rw [List.cons_append, cutAfter, if_neg hb, cut_quote rest h.2]
    rfl

theorem yields_base64 {pc : List JCtx} {x rest : Bytes} (hx : 34 ∉ x) (hf : 2 * (x ++ 34 :: rest).length + 1 < E.fuel) :
    Yields E (parseBase64EncodedBody E) pc (x ++ 34 :: rest) ((b64decode x).1, if (b64decode x).2 then none else some invalid) pc rest := by
  unfold parseBase64EncodedBody
  refine Yields.bind (yields_until QUOTE (cut_quote rest hx) hf) ?_
  simp only [Option.isSome_none, Bool.false_eq_true, if_false, List.dropLast_concat]
  exact Yields.pure _ _ _

/-- `ReadBinary` on text in quotes. -/
theorem binary_read {pc : List JCtx} {x rest : Bytes} (hx : 34 ∉ x) (hf : 2 * (x ++ 34 :: rest).length + 4 < E.fuel) (hr : Tight rest) :
    ((b64decode x).2 = true → Yields E (readBinary E) (.toplevel :: pc) (34 :: (x ++ [34]) ++ rest) ((b64decode x).1, none) (.toplevel :: pc) rest) ∧
    ((b64decode x).2 = false → Refuses E (readBinary E) (.toplevel :: pc) (34 :: (x ++ [34]) ++ rest)) := by
  have hb := yields_base64 (E := E) (pc := .toplevel :: pc) (rest := rest) hx (by omega)
  refine ⟨fun h => ?_, fun h => ?_⟩
  · rw [h] at hb
    exact yields_quoted (by omega) hr hb
  · rw [h] at hb
    unfold readBinary readQuoted
    have e : 34 :: (x ++ [34]) ++ rest = 34 :: (x ++ 34 :: rest) := by simp
    rw [e]
    refine Refuses.check (yields_pre (Tight.cons rfl)) ?_
    refine Refuses.peekStep (by decide) (by omega) fun e => ?_
    have hq : (List.take 4 (34 :: (x ++ 34 :: rest))).head? = some QUOTE := rfl
    simp only [hq, if_true]
    refine Refuses.after (yields_getByte (by omega)) (Refuses.after hb ?_)
    exact fun dc s _ => ⟨_, _, s, rfl⟩

end JsonR
end Thrift
