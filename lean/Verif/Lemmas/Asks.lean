import Verif.Lemmas.Follows
import Verif.Lemmas.Memory
import Verif.Lemmas.BinaryLimit
/-!
# Sizes of buffers
-/

namespace Thrift

/-! ## Traces -/

theorem Prog.asks_bind (T : Transport σ) (p : Prog α) (f : α → Prog β) (s : σ) :
    (p.bind f).asks T s = p.asks T s ++ match p.run T s with
      | (.ok a, s') => (f a).asks T s'
      | _ => [] := by
  induction p generalizing s with
  | ret a => rfl
  | panic => rfl
  | stuck => rfl
  | readAll n k ih =>
    simp only [Prog.bind, Prog.asks, Prog.run, List.cons_append]
    rcases T.readAll n s with ⟨x | _ | _, s'⟩
    · simp only [ih]
    · rfl
    · rfl
  | write bs k ih =>
    simp only [Prog.bind, Prog.asks, Prog.run]
    rcases T.write bs s with ⟨x | _ | _, s'⟩
    · simp only [ih]
    · rfl
    · rfl
  | flush k ih =>
    simp only [Prog.bind, Prog.asks, Prog.run]
    rcases T.flush s with ⟨x | _ | _, s'⟩
    · simp only [ih]
    · rfl
    · rfl

theorem P.asks_bind (T : Transport σ) (m : P π α) (f : α → P π β) (s : π) (t : σ) :
    (m >>= f).asks T s t = m.asks T s t ++ match m.run T s t with
      | (.ok (a, s'), t') => (f a).asks T s' t'
      | _ => [] := by
  show ((m s).bind _).asks T t = _
  rw [Prog.asks_bind]
  congr 1
  unfold P.run
  rcases (m s).run T t with ⟨⟨a, s'⟩ | _ | _, t'⟩ <;> rfl

/-! ## All of them -/

/-- Whatever the transport answers, all sizes satisfy `Q`. -/
def Prog.AllAsks (Q : Nat → Prop) : Prog α → Prop
  | .ret _ => True
  | .panic => True
  | .stuck => True
  | .readAll n k => Q n ∧ ∀ x, (k x).AllAsks Q
  | .write _ k => ∀ x, (k x).AllAsks Q
  | .flush k => ∀ x, (k x).AllAsks Q

theorem Prog.AllAsks.bind {Q : Nat → Prop} {p : Prog α} {f : α → Prog β} (h : p.AllAsks Q) (hf : ∀ a, (f a).AllAsks Q) :
    (p.bind f).AllAsks Q := by
  induction p with
  | ret a => exact hf a
  | panic => trivial
  | stuck => trivial
  | readAll n k ih => exact ⟨h.1, fun x => ih x (h.2 x)⟩
  | write bs k ih => exact fun x => ih x (h x)
  | flush k ih => exact fun x => ih x (h x)

theorem Prog.AllAsks.asks {Q : Nat → Prop} {p : Prog α} (h : p.AllAsks Q) (T : Transport σ) (t : σ) : ∀ n ∈ p.asks T t, Q n := by
  induction p generalizing t with
  | ret a => intro n hn; cases hn
  | panic => intro n hn; cases hn
  | stuck => intro n hn; cases hn
  | readAll m k ih =>
    intro n hn
    rw [Prog.asks] at hn
    rcases List.mem_cons.1 hn with rfl | hn
    · exact h.1
    · revert hn
      rcases T.readAll m t with ⟨x | _ | _, s'⟩
      · exact ih _ (h.2 _) _ n
      · intro h; cases h
      · intro h; cases h
  | write bs k ih =>
    intro n hn
    rw [Prog.asks] at hn
    revert hn
    rcases T.write bs t with ⟨x | _ | _, s'⟩
    · exact ih _ (h _) _ n
    · intro h; cases h
    · intro h; cases h
  | flush k ih =>
    intro n hn
    rw [Prog.asks] at hn
    revert hn
    rcases T.flush t with ⟨x | _ | _, s'⟩
    · exact ih _ (h _) _ n
    · intro h; cases h
    · intro h; cases h

/-- The same for programs with an object. -/
def P.AllAsks (Q : Nat → Prop) (α : Type) (m : P π α) : Prop := ∀ s, (m s).AllAsks Q

theorem allAsks_composes (Q : Nat → Prop) : Composes (π := π) (P.AllAsks Q) where
  pure _ _ := trivial
  bind hm hf s := Prog.AllAsks.bind (hm s) fun x => hf x.1 x.2
  panic _ := trivial
  stuck _ := trivial

theorem P.AllAsks.mono {Q Q' : Nat → Prop} {m : P π α} (h : P.AllAsks Q α m) (hq : ∀ n, Q n → Q' n) : P.AllAsks Q' α m := by
  have aux : ∀ p : Prog (α × π), p.AllAsks Q → p.AllAsks Q' := by
    intro p
    induction p with
    | ret a => exact fun _ => trivial
    | panic => exact fun _ => trivial
    | stuck => exact fun _ => trivial
    | readAll n k ih => exact fun h => ⟨hq _ h.1, fun x => ih x (h.2 x)⟩
    | write bs k ih => exact fun h x => ih x (h x)
    | flush k ih => exact fun h x => ih x (h x)
  exact fun s => aux _ (h s)

/-! ## A small reader -/

/-- At most eight bytes at a time. -/
abbrev P.Small (m : P π α) : Prop := P.AllAsks (· ≤ 8) α m

theorem small_readAll {n : Nat} (h : n ≤ 8) : P.Small (P.readAll n : P π _) := fun _ => ⟨h, fun _ => trivial⟩

/-- Without data it fails. -/
def P.NeedsData (e : α → GoErr) (m : P π α) : Prop :=
  ∀ s a s' left, m.run memory s [] = (.ok (a, s'), left) → (e a).isSome = true

/-! ## At most one large buffer -/

/-- The buffers larger than the data and than a scalar. -/
def large (inp : Bytes) (A : List Nat) : List Nat := A.filter fun n => decide (max inp.length 8 < n)

theorem mem_large {inp : Bytes} {A : List Nat} {n : Nat} : n ∈ large inp A ↔ n ∈ A ∧ max inp.length 8 < n := by
  simp [large]

theorem large_append (inp : Bytes) (A B : List Nat) : large inp (A ++ B) = large inp A ++ large inp B := by
  simp [large]

theorem large_length_le {inp inp' : Bytes} (h : inp'.length ≤ inp.length) (A : List Nat) :
    (large inp A).length ≤ (large inp' A).length := by
  induction A with
  | nil => exact Nat.le_refl _
  | cons n A ih =>
    simp only [large, List.filter_cons, decide_eq_true_eq] at ih ⊢
    by_cases h1 : max inp.length 8 < n
    · have h2 : max inp'.length 8 < n := by omega
      simp only [h1, h2, if_true, List.length_cons]
      omega
    · rw [if_neg h1]
      split
      · simp only [List.length_cons]; omega
      · exact ih

theorem large_eq_nil {inp : Bytes} {A : List Nat} : large inp A = [] ↔ ∀ n ∈ A, n ≤ max inp.length 8 := by
  simp only [large, List.filter_eq_nil_iff, decide_eq_true_eq]
  exact ⟨fun h n hn => by have := h n hn; omega, fun h n hn => by have := h n hn; omega⟩

/-- Asks for at most one large buffer, and when it does it uses up the data. -/
structure P.Weak (m : P π α) (s : π) (inp : Bytes) : Prop where
  one : (large inp (m.asks memory s inp)).length ≤ 1
  less : (m.run memory s inp).2.length ≤ inp.length
  gone : large inp (m.asks memory s inp) ≠ [] → (m.run memory s inp).2 = []

/-- … and without data for none. -/
structure P.Once (α : Type) (m : P π α) : Prop where
  weak : ∀ s inp, m.Weak s inp
  none : ∀ s, ∀ n ∈ m.asks memory s [], n ≤ 8

theorem run_bind_cases (T : Transport σ) (m : P π α) (f : α → P π β) (s : π) (t : σ) :
    (∃ a s' t', m.run T s t = (.ok (a, s'), t') ∧ (m >>= f).run T s t = (f a).run T s' t' ∧
      (m >>= f).asks T s t = m.asks T s t ++ (f a).asks T s' t') ∨
    ((m >>= f).run T s t).2 = (m.run T s t).2 ∧ (m >>= f).asks T s t = m.asks T s t := by
  have h1 := P.asks_bind T m f s t
  have h2 := P.run_bind T s t m f
  rcases hm : m.run T s t with ⟨⟨a, s'⟩ | _ | _, t'⟩
  · rw [hm] at h1 h2
    exact .inl ⟨a, s', t', rfl, h2, h1⟩
  · rw [hm] at h1 h2
    exact .inr ⟨by rw [h2]; rfl, by rw [h1]; simp⟩
  · rw [hm] at h1 h2
    exact .inr ⟨by rw [h2]; rfl, by rw [h1]; simp⟩

theorem P.Weak.bind {m : P π α} {f : α → P π β} {s : π} {inp : Bytes} (hm : m.Weak s inp) (hf : ∀ a, P.Once β (f a)) :
    (m >>= f).Weak s inp := by
  rcases run_bind_cases memory m f s inp with ⟨a, s', i, h1, h2, h3⟩ | ⟨h2, h3⟩
  · have hl : i.length ≤ inp.length := by have := hm.less; rw [h1] at this; exact this
    have hk := (hf a).weak s' i
    have hB := large_length_le hl ((f a).asks memory s' i)
    by_cases hA : large inp (m.asks memory s inp) = []
    · refine ⟨?_, ?_, ?_⟩
      · rw [h3, large_append, hA, List.nil_append]
        exact Nat.le_trans hB hk.one
      · rw [h2]; exact Nat.le_trans hk.less hl
      · rw [h3, large_append, hA, List.nil_append, h2]
        intro h
        refine hk.gone ?_
        intro h0
        rw [h0] at hB
        exact h (List.eq_nil_of_length_eq_zero (by simpa using hB))
    · have hi : i = [] := by have := hm.gone hA; rw [h1] at this; exact this
      subst hi
      have hB0 : large inp ((f a).asks memory s' []) = [] := large_eq_nil.2 fun n hn => by
        have := (hf a).none s' n hn
        omega
      refine ⟨?_, ?_, ?_⟩
      · rw [h3, large_append, hB0, List.append_nil]; exact hm.one
      · rw [h2]; exact Nat.le_trans hk.less hl
      · intro _
        rw [h2]
        have := hk.less
        exact List.eq_nil_of_length_eq_zero (by simpa using this)
  · exact ⟨by rw [h3]; exact hm.one, by rw [h2]; exact hm.less, by rw [h3, h2]; exact hm.gone⟩

theorem asks_silent {A : List Nat} (h : A = []) (n : Nat) : n ∉ A := by rw [h]; simp

theorem once_composes : Composes (π := π) P.Once where
  pure a := ⟨fun s inp => ⟨Nat.zero_le _, Nat.le_refl _, fun h => (h rfl).elim⟩, fun s n hn => by cases hn⟩
  panic := ⟨fun s inp => ⟨Nat.zero_le _, Nat.le_refl _, fun h => (h rfl).elim⟩, fun s n hn => by cases hn⟩
  stuck := ⟨fun s inp => ⟨Nat.zero_le _, Nat.le_refl _, fun h => (h rfl).elim⟩, fun s n hn => by cases hn⟩
  bind {_ _ m f} hm hf := by
    refine ⟨fun s inp => (hm.weak s inp).bind hf, fun s n hn => ?_⟩
    rcases run_bind_cases memory m f s [] with ⟨a, s', i, h1, h2, h3⟩ | ⟨h2, h3⟩
    · rw [h3, List.mem_append] at hn
      rcases hn with hn | hn
      · exact hm.none s n hn
      · have : i = [] := by
          have := (hm.weak s []).less
          rw [h1] at this
          exact List.eq_nil_of_length_eq_zero (by simpa using this)
        subst this
        exact (hf a).none s' n hn
    · rw [h3] at hn
      exact hm.none s n hn

/-- A reader that asks for small buffers only. -/
theorem P.Small.once {m : P π α} (h : P.Small m) (hl : ∀ s inp, (m.run memory s inp).2.length ≤ inp.length) : P.Once α m := by
  have h8 : ∀ s inp, large inp (m.asks memory s inp) = [] := fun s inp => large_eq_nil.2 fun n hn => by
    have := Prog.AllAsks.asks (h s) memory inp n hn
    omega
  exact ⟨fun s inp => ⟨by rw [h8]; exact Nat.zero_le _, hl s inp, fun h => (h (h8 s inp)).elim⟩,
    fun s n hn => Prog.AllAsks.asks (h s) memory [] n hn⟩

/-- Neither reads nor writes. -/
def P.AsksNothing (m : P π α) : Prop := ∀ s inp, (m.asks memory s inp) = [] ∧ (m.run memory s inp).2 = inp

theorem P.AsksNothing.once {m : P π α} (h : m.AsksNothing) : P.Once α m :=
  ⟨fun s inp => ⟨by rw [(h s inp).1]; exact Nat.zero_le _, by rw [(h s inp).2]; exact Nat.le_refl _, fun hh => (hh (by rw [(h s inp).1]; rfl)).elim⟩,
    fun s n hn => by rw [(h s []).1] at hn; cases hn⟩

theorem quiet_get : P.AsksNothing (P.get : P π π) := fun _ _ => ⟨rfl, rfl⟩
theorem quiet_modify (f : π → π) : P.AsksNothing (P.modify f) := fun _ _ => ⟨rfl, rfl⟩

theorem P.AsksNothing.bind {m : P π α} {f : α → P π β} (hm : m.AsksNothing) (hf : ∀ a s inp, (f a).Weak s inp) (s : π) (inp : Bytes) :
    (m >>= f).Weak s inp := by
  rcases run_bind_cases memory m f s inp with ⟨a, s', i, h1, h2, h3⟩ | ⟨h2, h3⟩
  · have hi : i = inp := by have := (hm s inp).2; rw [h1] at this; exact this
    subst hi
    rw [(hm s i).1, List.nil_append] at h3
    have hk := hf a s' i
    exact ⟨by rw [h3]; exact hk.one, by rw [h2]; exact hk.less, by rw [h3, h2]; exact hk.gone⟩
  · rw [(hm s inp).1] at h3
    rw [(hm s inp).2] at h2
    exact ⟨by rw [h3]; exact Nat.zero_le _, by rw [h2]; exact Nat.le_refl _, fun h => (h (by rw [h3]; rfl)).elim⟩

theorem weak_readAll (n : Nat) (s : π) (inp : Bytes) : (P.readAll n : P π _).Weak s inp := by
  have ha : (P.readAll n : P π _).asks memory s inp = [n] := by
    show Prog.asks memory (.readAll n fun x => .ret (x, s)) inp = _
    rw [Prog.asks]
    rcases memory.readAll n inp with ⟨x | _ | _, s'⟩ <;> rfl
  have hr : ((P.readAll n : P π _).run memory s inp).2 = if n ≤ inp.length then inp.drop n else [] := by
    rw [P.run_readAll, memory_readAll]
    by_cases h : n ≤ inp.length
    · rw [if_pos h, if_pos h]
    · rw [if_neg h, if_neg h]
  refine ⟨?_, ?_, ?_⟩
  · rw [ha]; exact List.length_filter_le _ _
  · rw [hr]; split
    · simp
    · simp
  · rw [ha, hr]
    intro h
    have : max inp.length 8 < n := by
      apply Classical.byContradiction
      intro hc
      refine h (large_eq_nil.2 ?_)
      intro k hk
      rw [List.mem_singleton] at hk
      omega
    rw [if_neg (by omega)]

theorem weak_pure (a : α) (s : π) (inp : Bytes) : (Pure.pure a : P π α).Weak s inp := (once_composes.pure a).weak s inp
theorem weak_panic (s : π) (inp : Bytes) : (P.panic : P π α).Weak s inp := once_composes.panic.weak s inp
theorem weak_ite {c : Prop} [Decidable c] {a b : P π α} {s : π} {inp : Bytes} (ha : a.Weak s inp) (hb : b.Weak s inp) :
    (if c then a else b).Weak s inp := by
  split <;> assumption

/-- A small reader that needs data, and then something that may ask for a large buffer. -/
theorem once_gate (e : α → GoErr) {m : P π α} {bad : α → β} {k : α → P π β} (hs : P.Small m) (hl : P.Once _ m) (hn : m.NeedsData e)
    (hk : ∀ a s inp, (k a).Weak s inp) : P.Once _ (m >>= fun r => if (e r).isSome then Pure.pure (bad r) else k r) := by
  have h8 : ∀ s inp, large inp (m.asks memory s inp) = [] := fun s inp => large_eq_nil.2 fun n hn => by
    have := Prog.AllAsks.asks (hs s) memory inp n hn
    omega
  refine ⟨fun s inp => ?_, fun s n hn' => ?_⟩
  · rcases run_bind_cases memory m (fun r => if (e r).isSome then Pure.pure (bad r) else k r) s inp with ⟨a, s', i, h1, h2, h3⟩ | ⟨h2, h3⟩
    · have hli : i.length ≤ inp.length := by have := (hl.weak s inp).less; rw [h1] at this; exact this
      have hw : P.Weak (if (e a).isSome then Pure.pure (bad a) else k a) s' i := weak_ite (weak_pure _ _ _) (hk _ _ _)
      have hB := large_length_le hli ((if (e a).isSome then Pure.pure (bad a) else k a : P π β).asks memory s' i)
      refine ⟨?_, ?_, ?_⟩
      · rw [h3, large_append, h8, List.nil_append]; exact Nat.le_trans hB hw.one
      · rw [h2]; exact Nat.le_trans hw.less hli
      · rw [h3, large_append, h8, List.nil_append, h2]
        intro h
        refine hw.gone fun h0 => ?_
        rw [h0] at hB
        exact h (List.eq_nil_of_length_eq_zero (by simpa using hB))
    · exact ⟨by rw [h3, h8]; exact Nat.zero_le _, by rw [h2]; exact (hl.weak s inp).less, fun h => (h (by rw [h3, h8])).elim⟩
  · rcases run_bind_cases memory m (fun r => if (e r).isSome then Pure.pure (bad r) else k r) s [] with ⟨a, s', i, h1, h2, h3⟩ | ⟨h2, h3⟩
    · rw [h3, if_pos (hn s a s' i h1), List.mem_append] at hn'
      rcases hn' with hn' | hn'
      · exact Prog.AllAsks.asks (hs s) memory [] n hn'
      · cases hn'
    · rw [h3] at hn'
      exact Prog.AllAsks.asks (hs s) memory [] n hn'

end Thrift
