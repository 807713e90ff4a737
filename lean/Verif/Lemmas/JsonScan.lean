import Verif.Lemmas.JsonStrict
import Verif.Spec.JsonLoose
/-!
# The number scanner of the JSON protocols
-/

namespace Thrift
namespace JsonR
open JsonProtocol JsonSpec JsonW

variable {τ : Type} {E : JsonEnv τ}

/-- What the scanner does with a character. -/
inductive Scan where
  | next (n : NumState) | stop | bad

/-- One character, not `N` or `I`. -/
def scanStep (n : NumState) (c : Byte) : Scan :=
  if 48 ≤ c.toNat ∧ c.toNat ≤ 57 then .next { n with buf := n.buf ++ [c], nextCanBeSign := false }
  else if c = 46 then
    if n.hasDecimalPoint || n.hasE then .bad else .next { n with buf := n.buf ++ [c], hasDecimalPoint := true, nextCanBeSign := false }
  else if c = 101 ∨ c = 69 then
    if n.hasE then .bad else .next { n with buf := n.buf ++ [c], hasE := true, nextCanBeSign := true }
  else if c = 45 ∨ c = 43 then
    if !n.nextCanBeSign then .bad else .next { n with buf := n.buf ++ [c], nextCanBeSign := false }
  else if endsNumber c then .stop
  else if c = QUOTE then .next { n with inQuotes := true }
  else .bad

theorem loop_step (f : Nat) (n : NumState) (c : Byte) (h1 : c ≠ 78) (h2 : c ≠ 73) (s s' : Json τ) (h : getByte E s = .ret ((c, none), s')) :
    numberLoop E (f + 1) n s = match scanStep n c with
      | .next n' => numberLoop E f n' s'
      | .stop => .ret (finishNumber E n, { s' with buf := c :: s'.buf })
      | .bad => .ret ((Num.null, some invalid), s') := by
  rw [numberLoop]
  psimp [h]
  unfold scanStep
  by_cases a1 : 48 ≤ c.toNat ∧ c.toNat ≤ 57
  · simp only [a1, and_self, if_true]
  simp only [a1, if_false]
  by_cases a2 : c = 46
  · simp only [a2, if_true]
    split <;> rfl
  simp only [a2, if_false]
  by_cases a3 : c = 101 ∨ c = 69
  · simp only [a3, if_true]
    cases n.hasE <;> rfl
  simp only [a3, if_false]
  by_cases a4 : c = 45 ∨ c = 43
  · simp only [a4, if_true]
    cases n.nextCanBeSign <;> rfl
  simp only [a4, if_false]
  by_cases a5 : endsNumber c = true
  · simp only [a5, if_true]; rfl
  simp only [a5, if_false, h1, h2]
  by_cases a6 : c = QUOTE
  · simp only [a6, if_true]; rfl
  · simp only [a6, if_false]; rfl

/-- The scanner over text. -/
def scanAll (n : NumState) : Bytes → Option NumState
  | [] => some n
  | c :: r => match scanStep n c with
    | .next n' => scanAll n' r
    | _ => none

/-! ## What it accepts -/

/-- The states that can be reached, with the text read so far. -/
structure Reached (n : NumState) : Prop where
  loose : ∃ sg int frac ex : Bytes, n.buf = sg ++ int ++ frac ++ ex ∧ (sg = [] ∨ sg = [43] ∨ sg = [45]) ∧ (∀ b ∈ int, IsDigit b) ∧
    (frac = [] ∨ ∃ d, frac = 46 :: d ∧ ∀ b ∈ d, IsDigit b) ∧
    (ex = [] ∨ ∃ e s d, ex = e :: (s ++ d) ∧ (e = 101 ∨ e = 69) ∧ (s = [] ∨ s = [43] ∨ s = [45]) ∧ ∀ b ∈ d, IsDigit b) ∧
    (n.hasDecimalPoint = false → frac = []) ∧ (n.hasE = false → ex = []) ∧
    (n.nextCanBeSign = true → (sg = [] ∧ int = [] ∧ frac = [] ∧ ex = []) ∨ ∃ e, ex = [e])

theorem Reached.start : Reached {} :=
  ⟨[], [], [], [], rfl, Or.inl rfl, by simp, Or.inl rfl, Or.inl rfl, fun _ => rfl, fun _ => rfl, fun _ => Or.inl ⟨rfl, rfl, rfl, rfl⟩⟩

theorem digit_snoc {d : Bytes} (h : ∀ b ∈ d, IsDigit b) {c : Byte} (hc : IsDigit c) : ∀ b ∈ d ++ [c], IsDigit b := by
  intro b hb
  simp only [List.mem_append, List.mem_singleton] at hb
  rcases hb with hb | rfl
  · exact h b hb
  · exact hc

theorem Reached.step {n n' : NumState} {c : Byte} (hn : Reached n) (hc : c ≠ 34) (h : scanStep n c = .next n') :
    Reached n' ∧ n'.buf = n.buf ++ [c] := by
  obtain ⟨sg, int, frac, ex, hb, hsg, hint, hfr, hex, hp, he, hs⟩ := hn.loose
  unfold scanStep at h
  split at h
  · rename_i hd
    have hd : IsDigit c := hd
    simp only [Scan.next.injEq] at h
    subst h
    refine ⟨?_, rfl⟩
    rcases hex with rfl | ⟨e, s, d, rfl, h1, h2, h3⟩
    · rcases hfr with rfl | ⟨d, rfl, h3⟩
      · exact ⟨sg, int ++ [c], [], [], by simp [hb], hsg, digit_snoc hint hd, Or.inl rfl, Or.inl rfl, fun _ => rfl, fun _ => rfl,
          fun h => (nomatch h)⟩
      · exact ⟨sg, int, 46 :: (d ++ [c]), [], by simp [hb], hsg, hint, Or.inr ⟨_, rfl, digit_snoc h3 hd⟩, Or.inl rfl,
          fun h => (nomatch hp h), fun _ => rfl, fun h => (nomatch h)⟩
    · exact ⟨sg, int, frac, e :: (s ++ (d ++ [c])), by simp [hb], hsg, hint, hfr, Or.inr ⟨e, s, _, rfl, h1, h2, digit_snoc h3 hd⟩,
        hp, fun h => (nomatch he h), fun h => (nomatch h)⟩
  split at h
  · rename_i hd
    subst hd
    split at h
    · exact nomatch h
    · rename_i hf
      simp only [Bool.or_eq_true, not_or, Bool.not_eq_true] at hf
      simp only [Scan.next.injEq] at h
      subst h
      have e1 := hp hf.1
      have e2 := he hf.2
      subst e1 e2
      exact ⟨⟨sg, int, [46], [], by simp [hb], hsg, hint, Or.inr ⟨[], rfl, by simp⟩, Or.inl rfl, fun h => (nomatch h), fun _ => rfl,
        fun h => (nomatch h)⟩, rfl⟩
  split at h
  · rename_i hd
    split at h
    · exact nomatch h
    · rename_i hf
      simp only [Bool.not_eq_true] at hf
      simp only [Scan.next.injEq] at h
      subst h
      have e2 := he hf
      subst e2
      exact ⟨⟨sg, int, frac, [c], by simp [hb], hsg, hint, hfr, Or.inr ⟨c, [], [], rfl, hd, Or.inl rfl, by simp⟩, hp,
        fun h => (nomatch h), fun _ => Or.inr ⟨c, rfl⟩⟩, rfl⟩
  split at h
  · rename_i hd
    split at h
    · exact nomatch h
    · rename_i hf
      simp only [Bool.not_eq_true', Bool.not_eq_false] at hf
      simp only [Scan.next.injEq] at h
      subst h
      refine ⟨?_, rfl⟩
      rcases hs hf with ⟨rfl, rfl, rfl, rfl⟩ | ⟨e, rfl⟩
      · exact ⟨[c], [], [], [], by simp [hb], by rcases hd with rfl | rfl <;> simp, by simp, Or.inl rfl, Or.inl rfl, fun _ => rfl,
          fun _ => rfl, fun h => (nomatch h)⟩
      · have h1 : e = 101 ∨ e = 69 := by
          rcases hex with h | ⟨e', s, d, h, h', _⟩
          · exact nomatch h
          · simp only [List.cons.injEq] at h
            rw [h.1]; exact h'
        exact ⟨sg, int, frac, [e, c], by simp [hb], hsg, hint, hfr,
          Or.inr ⟨e, [c], [], rfl, h1, by rcases hd with rfl | rfl <;> simp, by simp⟩, hp, fun h => (nomatch he h), fun h => (nomatch h)⟩
  split at h
  · exact nomatch h
  split at h
  · rename_i hq
    exact absurd hq hc
  · exact nomatch h

theorem Reached.scan : ∀ (x : Bytes) {n n' : NumState}, Reached n → 34 ∉ x → scanAll n x = some n' → Reached n' ∧ n'.buf = n.buf ++ x
  | [], n, n', hn, _, h => by
    simp only [scanAll, Option.some.injEq] at h
    subst h
    exact ⟨hn, by simp⟩
  | c :: r, n, n', hn, hq, h => by
    simp only [List.mem_cons, not_or] at hq
    rw [scanAll] at h
    split at h
    · rename_i m hm
      obtain ⟨h1, h2⟩ := hn.step (fun e => hq.1 e.symm) hm
      obtain ⟨h3, h4⟩ := Reached.scan r h1 hq.2 h
      exact ⟨h3, by rw [h4, h2]; simp⟩
    · exact nomatch h

theorem Reached.isLoose {n : NumState} (h : Reached n) : LooseNumber n.buf := by
  obtain ⟨sg, int, frac, ex, hb, hsg, hint, hfr, hex, _⟩ := h.loose
  exact ⟨sg, int, frac, ex, hb, hsg, hint, hfr, hex⟩

/-- Digits are always accepted. -/
theorem scan_digits : ∀ (ds r : Bytes) (n : NumState), (∀ c ∈ ds, IsDigit c) → ∃ n', n'.hasDecimalPoint = n.hasDecimalPoint ∧
    n'.hasE = n.hasE ∧ n'.buf = n.buf ++ ds ∧ scanAll n (ds ++ r) = scanAll n' r
  | [], r, n, _ => ⟨n, rfl, rfl, by simp, rfl⟩
  | c :: ds, r, n, h => by
    have hc : 48 ≤ c.toNat ∧ c.toNat ≤ 57 := h c (by simp)
    obtain ⟨n', h1, h2, hb, h3⟩ := scan_digits ds r { n with buf := n.buf ++ [c], nextCanBeSign := false } fun x hx => h x (by simp [hx])
    refine ⟨n', h1, h2, by rw [hb]; simp, ?_⟩
    rw [← h3, List.cons_append, scanAll, scanStep, if_pos hc]

theorem scan_sign {c : Byte} (h : c = 43 ∨ c = 45) (r : Bytes) (n : NumState) (hn : n.nextCanBeSign = true) :
    scanAll n (c :: r) = scanAll { n with buf := n.buf ++ [c], nextCanBeSign := false } r := by
  rw [scanAll, scanStep]
  rcases h with rfl | rfl <;> simp [hn]

theorem scan_loose {x : Bytes} (h : LooseNumber x) : ∃ n, n.buf = x ∧ scanAll {} x = some n := by
  obtain ⟨sg, int, frac, ex, rfl, hsg, hint, hfr, hex⟩ := h
  obtain ⟨n1, b1, d1, e1, h1⟩ : ∃ n : NumState, n.buf = sg ∧ n.hasDecimalPoint = false ∧ n.hasE = false ∧
      ∀ r, scanAll {} (sg ++ r) = scanAll n r := by
    rcases hsg with rfl | rfl | rfl
    · exact ⟨{}, rfl, rfl, rfl, fun _ => rfl⟩
    · exact ⟨_, rfl, rfl, rfl, fun r => scan_sign (Or.inl rfl) r {} rfl⟩
    · exact ⟨_, rfl, rfl, rfl, fun r => scan_sign (Or.inr rfl) r {} rfl⟩
  obtain ⟨n2, d2, e2, b2, h2⟩ := scan_digits int (frac ++ ex) n1 hint
  obtain ⟨n3, e3, b3, h3⟩ : ∃ n : NumState, n.hasE = false ∧ n.buf = n2.buf ++ frac ∧ scanAll n2 (frac ++ ex) = scanAll n ex := by
    rcases hfr with rfl | ⟨d, rfl, hd⟩
    · exact ⟨n2, by rw [e2, e1], by simp, rfl⟩
    · obtain ⟨n3, d3, e3, b3, h3⟩ := scan_digits d ex { n2 with buf := n2.buf ++ [46], hasDecimalPoint := true, nextCanBeSign := false } hd
      refine ⟨n3, by rw [e3]; exact e2.trans e1, by rw [b3]; simp, ?_⟩
      rw [← h3, List.cons_append, scanAll, scanStep]
      simp [d2, d1, e2, e1]
  obtain ⟨n4, b4, h4⟩ : ∃ n : NumState, n.buf = n3.buf ++ ex ∧ scanAll n3 ex = some n := by
    rcases hex with rfl | ⟨e, s, d, rfl, he, hs, hd⟩
    · exact ⟨n3, by simp, rfl⟩
    · have hstep : ∀ r, scanAll n3 (e :: r) = scanAll { n3 with buf := n3.buf ++ [e], hasE := true, nextCanBeSign := true } r := by
        intro r
        rw [scanAll, scanStep]
        rcases he with rfl | rfl <;> simp [e3]
      rw [hstep]
      rcases hs with rfl | hs
      · obtain ⟨n4, _, _, b4, h4⟩ := scan_digits d [] { n3 with buf := n3.buf ++ [e], hasE := true, nextCanBeSign := true } hd
        rw [List.append_nil] at h4
        exact ⟨n4, by rw [b4]; simp, by rw [List.nil_append, h4]; rfl⟩
      · obtain ⟨c, rfl, hc⟩ : ∃ c, s = [c] ∧ (c = 43 ∨ c = 45) := by
          rcases hs with rfl | rfl
          · exact ⟨43, rfl, Or.inl rfl⟩
          · exact ⟨45, rfl, Or.inr rfl⟩
        rw [List.cons_append, List.nil_append, scan_sign hc d _ rfl]
        obtain ⟨n4, _, _, b4, h4⟩ := scan_digits d [] { n3 with buf := n3.buf ++ [e] ++ [c], hasE := true, nextCanBeSign := false } hd
        rw [List.append_nil] at h4
        exact ⟨n4, by rw [b4]; simp, by rw [h4]; rfl⟩
  refine ⟨n4, by rw [b4, b3, b2, b1], ?_⟩
  rw [List.append_assoc, List.append_assoc, h1, h2, h3, h4]

/-- The loop over buffered text that ends at a delimiter. -/
theorem loop_scan (pc dc : List JCtx) (er : GoErr) (t : τ) (d : Byte) (hd : Delim d) (rest : Bytes) : ∀ (x : Bytes) (n : NumState) (f : Nat),
    (∀ b ∈ x, b ≠ 78 ∧ b ≠ 73 ∧ endsNumber b = false) →
    (∃ s', numberLoop E (f + 1 + x.length) n ⟨pc, dc, x ++ d :: rest, er, t⟩ = match scanAll n x with
      | some n' => .ret (finishNumber E n', ⟨pc, dc, d :: rest, er, t⟩)
      | none => .ret ((Num.null, some invalid), s'))
  | [], n, f, _ => by
    refine ⟨⟨pc, dc, [], er, t⟩, ?_⟩
    rw [scanAll]
    refine (loop_step f n d ?_ ?_ _ _ (getByte_cons E pc dc d rest er t)).trans ?_
    · rcases hd with rfl | rfl | rfl | rfl <;> decide
    · rcases hd with rfl | rfl | rfl | rfl <;> decide
    · have : scanStep n d = .stop := by rcases hd with rfl | rfl | rfl | rfl <;> rfl
      rw [this]
  | c :: r, n, f, h => by
    have hc := h c (by simp)
    have hs := loop_step (f + 1 + r.length) n c hc.1 hc.2.1 _ _ (getByte_cons E pc dc c (r ++ d :: rest) er t)
    rw [show f + 1 + (c :: r).length = f + 1 + r.length + 1 by simp; omega, List.cons_append, hs, scanAll]
    cases hsc : scanStep n c with
    | next n' => exact loop_scan pc dc er t d hd rest r n' f fun b hb => h b (by simp [hb])
    | stop =>
      exfalso
      unfold scanStep at hsc
      have := hc.2.2
      simp only [this, Bool.false_eq_true, if_false] at hsc
      repeat' split at hsc
      all_goals exact nomatch hsc
    | bad => exact ⟨_, rfl⟩

end JsonR
end Thrift
