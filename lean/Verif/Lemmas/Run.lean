import Verif.Model.Go
import Verif.Spec.Stream
/-!
# Running programs

Rewriting rules for `P.run`, first on any transport, then on the ideal stream.
-/

namespace Thrift

/-- Sequencing of outcomes. -/
def andThen (r : Res (α × π) × σ) (f : α → π → σ → Res (β × π) × σ) : Res (β × π) × σ :=
  match r with
  | (.ok (a, s), t) => f a s t
  | (.panic, t) => (.panic, t)
  | (.stuck, t) => (.stuck, t)

@[simp] theorem andThen_ok (a : α) (s : π) (t : σ) (f : α → π → σ → Res (β × π) × σ) :
    andThen (.ok (a, s), t) f = f a s t := rfl
@[simp] theorem andThen_panic (t : σ) (f : α → π → σ → Res (β × π) × σ) :
    andThen (.panic, t) f = (.panic, t) := rfl
@[simp] theorem andThen_stuck (t : σ) (f : α → π → σ → Res (β × π) × σ) :
    andThen (.stuck, t) f = (.stuck, t) := rfl

theorem Prog.run_bind (T : Transport σ) (p : Prog α) (f : α → Prog β) (t : σ) :
    (p.bind f).run T t =
      match p.run T t with
      | (.ok a, t') => (f a).run T t'
      | (.panic, t') => (.panic, t')
      | (.stuck, t') => (.stuck, t') := by
  induction p generalizing t with
  | ret a => rfl
  | panic => rfl
  | stuck => rfl
  | readAll n k ih =>
    simp only [Prog.bind, Prog.run]
    rcases T.readAll n t with ⟨_ | _ | _, t'⟩ <;> simp [ih]
  | write bs k ih =>
    simp only [Prog.bind, Prog.run]
    rcases T.write bs t with ⟨_ | _ | _, t'⟩ <;> simp [ih]
  | flush k ih =>
    simp only [Prog.bind, Prog.run]
    rcases T.flush t with ⟨_ | _ | _, t'⟩ <;> simp [ih]

namespace P
variable (T : Transport σ) (s : π) (t : σ)

@[simp] theorem run_pure (a : α) : (pure a : P π α).run T s t = (.ok (a, s), t) := rfl

@[simp] theorem run_bind (m : P π α) (f : α → P π β) :
    (m >>= f).run T s t = andThen (m.run T s t) fun a s' t' => (f a).run T s' t' := by
  show ((m s).bind _).run T t = _
  rw [Prog.run_bind]
  simp only [run, andThen]
  rcases (m s).run T t with ⟨_ | _ | _, t'⟩ <;> rfl

@[simp] theorem run_ite (c : Prop) [Decidable c] (a b : P π α) :
    (if c then a else b).run T s t = if c then a.run T s t else b.run T s t := by
  split <;> rfl

@[simp] theorem run_get : (P.get : P π π).run T s t = (.ok (s, s), t) := rfl
@[simp] theorem run_modify (f : π → π) : (P.modify f).run T s t = (.ok ((), f s), t) := rfl
@[simp] theorem run_panic : (P.panic : P π α).run T s t = (.panic, t) := rfl
@[simp] theorem run_stuck : (P.stuck : P π α).run T s t = (.stuck, t) := rfl

theorem run_readAll (n : Nat) : (P.readAll n : P π _).run T s t =
    match T.readAll n t with
    | (.ok x, t') => (.ok (x, s), t')
    | (.panic, t') => (.panic, t')
    | (.stuck, t') => (.stuck, t') := by
  simp only [P.run, P.readAll, Prog.run]
  rcases T.readAll n t with ⟨_ | _ | _, t'⟩ <;> rfl
theorem run_write (bs : Bytes) : (P.write bs : P π _).run T s t =
    match T.write bs t with
    | (.ok x, t') => (.ok (x, s), t')
    | (.panic, t') => (.panic, t')
    | (.stuck, t') => (.stuck, t') := by
  simp only [P.run, P.write, Prog.run]
  rcases T.write bs t with ⟨_ | _ | _, t'⟩ <;> rfl
theorem run_tflush : (P.tflush : P π _).run T s t =
    match T.flush t with
    | (.ok x, t') => (.ok (x, s), t')
    | (.panic, t') => (.panic, t')
    | (.stuck, t') => (.stuck, t') := by
  simp only [P.run, P.tflush, Prog.run]
  rcases T.flush t with ⟨_ | _ | _, t'⟩ <;> rfl
end P

/-! ## `ReadAll` on a faithful transport -/

theorem fillBuf_self (x : Bytes) : fillBuf x.length x = x := by simp [fillBuf]

/-- `ReadAll` on a faithful transport: all or an error. -/
theorem FaithfulReaderOn.readAllLoop {T : Transport σ} {I : σ → Prop} {view sent : σ → Bytes}
    (F : FaithfulReaderOn T I view sent)
    (size : Nat) : ∀ (fuel : Nat) (got : Bytes) (s : σ), I s → got.length ≤ size → size ≤ got.length + fuel →
    ∃ s', view s' = (view s).drop (size - got.length) ∧ sent s' = sent s ∧ I s' ∧
      readAllLoop T.read size fuel got none s =
        if size ≤ got.length + (view s).length then
          (.ok ⟨got ++ (view s).take (size - got.length), size, none⟩, s')
        else (.ok ⟨fillBuf size (got ++ view s), 0, some readAllErr⟩, s') := by
  intro fuel
  induction fuel with
  | zero =>
    intro got s hI h1 h2
    have : size = got.length := by omega
    subst this
    exact ⟨s, by simp, rfl, hI, by simp [Thrift.readAllLoop, fillBuf_self]⟩
  | succ fuel ih =>
    intro got s hI h1 h2
    by_cases hlt : got.length < size
    · by_cases hv : view s = []
      · obtain ⟨e, s', hr, hv', hs', hI'⟩ := F.read_end (size - got.length) s hI (by omega) hv
        refine ⟨s', by simp [hv', hv], hs', hI', ?_⟩
        have : ¬ size ≤ got.length := by omega
        simp [Thrift.readAllLoop, hlt, hr, hv, this]
      · obtain ⟨k, s', hk0, hkn, hkv, hr, hv', hs', hI'⟩ := F.read_some (size - got.length) s hI (by omega) hv
        obtain ⟨s'', hv'', hs'', hI'', hl⟩ := ih (got ++ (view s).take k) s' hI'
          (by rw [List.length_append, List.length_take]; omega)
          (by rw [List.length_append, List.length_take]; omega)
        refine ⟨s'', ?_, by rw [hs'', hs'], hI'', ?_⟩
        · rw [hv'', hv', List.drop_drop]
          congr 1
          rw [List.length_append, List.length_take]; omega
        · have hk : ((view s).take k).length ≠ 0 := by rw [List.length_take]; omega
          simp only [Thrift.readAllLoop, hlt, if_true, hr, hk, if_false]
          rw [hl, hv']
          have hlen : (got ++ (view s).take k).length = got.length + k := by
            rw [List.length_append, List.length_take]; omega
          rw [hlen]
          have hsplit : ∀ m, k ≤ m → (view s).take m = (view s).take k ++ ((view s).drop k).take (m - k) := by
            intro m hm
            obtain ⟨d, rfl⟩ := Nat.exists_eq_add_of_le hm
            rw [List.take_add, Nat.add_sub_cancel_left]
          have hdl : ((view s).drop k).length = (view s).length - k := by simp
          rw [hdl]
          by_cases hc : size ≤ got.length + (view s).length
          · rw [if_pos (by omega), if_pos hc, hsplit (size - got.length) hkn]
            simp [List.append_assoc, Nat.sub_sub]
          · rw [if_neg (by omega), if_neg hc, List.append_assoc, List.take_append_drop]
    · have : size = got.length := by omega
      subst this
      exact ⟨s, by simp, rfl, hI, by simp [Thrift.readAllLoop, fillBuf_self]⟩

theorem FaithfulReaderOn.readAll {T : Transport σ} {I : σ → Prop} {view sent : σ → Bytes}
    (F : FaithfulReaderOn T I view sent)
    (n : Nat) (s : σ) (hI : I s) :
    ∃ s', view s' = (view s).drop n ∧ sent s' = sent s ∧ I s' ∧
      T.readAll n s =
        if n ≤ (view s).length then (.ok ⟨(view s).take n, n, none⟩, s')
        else (.ok ⟨fillBuf n (view s), 0, some readAllErr⟩, s') := by
  obtain ⟨s', h1, h2, hI', h3⟩ := F.readAllLoop n n [] s hI (by simp) (by simp)
  refine ⟨s', by simpa using h1, h2, hI', ?_⟩
  simpa [Transport.readAll] using h3

/-! ## The ideal stream -/

theorem duplex_faithful : Faithful duplex (fun s => s.1) (fun s => s.2) where
  read_some n s _ hn hv := by
    refine ⟨min n s.1.length, (s.1.drop n, s.2), ?_, by omega, by omega, ?_, ?_, rfl, trivial⟩
    · have : s.1.length ≠ 0 := by simpa using hv
      omega
    · have h : List.take n s.1 = List.take (min n s.1.length) s.1 := by
        by_cases h : n ≤ s.1.length
        · rw [Nat.min_eq_left h]
        · rw [Nat.min_eq_right (by omega), List.take_of_length_le (by omega), List.take_length]
      show (if s.1 = [] then _ else _) = _
      rw [if_neg hv, h]
    · by_cases h : n ≤ s.1.length
      · rw [Nat.min_eq_left h]
      · rw [Nat.min_eq_right (by omega), List.drop_of_length_le (by omega), List.drop_length]
  read_end n s _ hn hv := by
    have hn' : n ≠ 0 := by omega
    exact ⟨endOfStream, s, by simp only [duplex, hv]; simp [hn'], hv, rfl, trivial⟩
  write bs s := ⟨_, rfl, rfl, rfl⟩
  flush s := ⟨_, rfl, rfl, rfl⟩

theorem duplex_readAll (n : Nat) (inp out : Bytes) :
    duplex.readAll n (inp, out) =
      if n ≤ inp.length then (.ok ⟨inp.take n, n, none⟩, (inp.drop n, out))
      else (.ok ⟨fillBuf n inp, 0, some readAllErr⟩, ([], out)) := by
  obtain ⟨⟨i, o⟩, h1, h2, _, h3⟩ := duplex_faithful.readAll n (inp, out) trivial
  simp only at h1 h2 h3
  subst h1 h2
  rw [h3]
  split
  · rfl
  · rw [List.drop_of_length_le (by omega)]

theorem P.run_readAll_duplex (n : Nat) (s : π) (inp out : Bytes) :
    (P.readAll n : P π _).run duplex s (inp, out) =
      if n ≤ inp.length then (.ok (⟨inp.take n, n, none⟩, s), (inp.drop n, out))
      else (.ok (⟨fillBuf n inp, 0, some readAllErr⟩, s), ([], out)) := by
  rw [P.run_readAll, duplex_readAll]
  by_cases h : n ≤ inp.length <;> simp [h]

/-- The complete read: the next `n` bytes are there. -/
theorem P.run_readAll_append (x : Bytes) (s : π) (rest out : Bytes) :
    (P.readAll x.length : P π _).run duplex s (x ++ rest, out) =
      (.ok (⟨x, x.length, none⟩, s), (rest, out)) := by
  rw [P.run_readAll_duplex]
  simp

@[simp] theorem P.run_write_duplex (bs : Bytes) (s : π) (inp out : Bytes) :
    (P.write bs : P π _).run duplex s (inp, out) =
      (.ok ((bs.length, none), s), (inp, out ++ bs)) := rfl

@[simp] theorem P.run_tflush_duplex (s : π) (t : Bytes × Bytes) :
    (P.tflush : P π _).run duplex s t = (.ok (none, s), t) := rfl

/-- `m` succeeds, writes exactly `bs` and reads nothing. -/
def Emits (m : P π GoErr) (s s' : π) (bs : Bytes) : Prop :=
  ∀ inp out, m.run duplex s (inp, out) = (.ok (none, s'), (inp, out ++ bs))

/-- `m` ends with result `r`, consumes exactly `bs` and writes nothing. -/
def Runs (m : P π α) (s s' : π) (bs : Bytes) (r : α) : Prop :=
  ∀ rest out, m.run duplex s (bs ++ rest, out) = (.ok (r, s'), (rest, out))

/-- `m` succeeds with value `a`, consumes exactly `bs` and writes nothing. -/
abbrev Reads (m : P π (α × GoErr)) (s s' : π) (bs : Bytes) (a : α) : Prop :=
  Runs m s s' bs (a, none)

/-! ## Any program behaves on a faithful transport as on the ideal stream -/

theorem Faithful.simulate {T : Transport σ} {view sent : σ → Bytes} (F : Faithful T view sent)
    (p : Prog α) (s : σ) :
    ∃ s', p.run T s = ((p.run duplex (view s, sent s)).1, s') ∧
      (p.run duplex (view s, sent s)).2 = (view s', sent s') := by
  induction p generalizing s with
  | ret a => exact ⟨s, rfl, rfl⟩
  | panic => exact ⟨s, rfl, rfl⟩
  | stuck => exact ⟨s, rfl, rfl⟩
  | readAll n k ih =>
    obtain ⟨s', h1, h2, _, h3⟩ := F.readAll n s trivial
    simp only [Prog.run]
    rw [h3, duplex_readAll]
    by_cases h : n ≤ (view s).length
    · simp only [h, if_true]
      rw [← h1, ← h2]; exact ih _ s'
    · simp only [h, if_false]
      rw [show ([] : Bytes) = view s' by rw [h1, List.drop_of_length_le (by omega)], ← h2]
      exact ih _ s'
  | write bs k ih =>
    obtain ⟨s', h1, h2, h3⟩ := F.write bs s
    simp only [Prog.run]
    rw [h1]
    show ∃ s'_1, _ = ((Prog.run duplex (k (bs.length, none)) (view s, sent s ++ bs)).1, _) ∧
      (Prog.run duplex (k (bs.length, none)) (view s, sent s ++ bs)).2 = _
    rw [← h2, ← h3]
    exact ih _ s'
  | flush k ih =>
    obtain ⟨s', h1, h2, h3⟩ := F.flush s
    simp only [Prog.run]
    rw [h1]
    show ∃ s'_1, _ = ((Prog.run duplex (k none) (view s, sent s)).1, _) ∧
      (Prog.run duplex (k none) (view s, sent s)).2 = _
    rw [← h2, ← h3]
    exact ih _ s'

theorem Faithful.simulateP {T : Transport σ} {view sent : σ → Bytes} (F : Faithful T view sent)
    (m : P π α) (s : π) (t : σ) :
    ∃ t', m.run T s t = ((m.run duplex s (view t, sent t)).1, t') ∧
      (m.run duplex s (view t, sent t)).2 = (view t', sent t') :=
  F.simulate (m s) t

end Thrift

namespace Thrift

/-! ## Sequencing -/

/-- `if e := m; e != nil { return e }; k`. -/
theorem Emits.seq {m k : P π GoErr} {s s' s'' : π} {a b : Bytes} (hm : Emits m s s' a)
    (hk : Emits k s' s'' b) :
    Emits (m >>= fun e => if e.isSome then pure e else k) s s'' (a ++ b) := by
  intro inp out
  simp [hm inp out, hk inp (out ++ a)]

/-- `m` with its error ignored, then `k`. -/
theorem Emits.seq_ {m k : P π GoErr} {s s' s'' : π} {a b : Bytes} (hm : Emits m s s' a)
    (hk : Emits k s' s'' b) : Emits (m >>= fun _ => k) s s'' (a ++ b) := by
  intro inp out
  simp [hm inp out, hk inp (out ++ a)]

theorem Emits.pure (s : π) : Emits (Pure.pure none) s s [] := by
  intro inp out; simp

theorem Emits.congr {m : P π GoErr} {s s' : π} {a b : Bytes} (hm : Emits m s s' a) (h : a = b) :
    Emits m s s' b := h ▸ hm

theorem Runs.bind {m : P π α} {k : α → P π β} {s s' s'' : π} {a b : Bytes} {r : α} {q : β}
    (hm : Runs m s s' a r) (hk : Runs (k r) s' s'' b q) : Runs (m >>= k) s s'' (a ++ b) q := by
  intro rest out
  rw [List.append_assoc]
  simp [hm (b ++ rest) out, hk rest out]

/-- A last step that consumes nothing. -/
theorem Runs.bind' {m : P π α} {k : α → P π β} {s s' s'' : π} {a : Bytes} {r : α} {q : β}
    (hm : Runs m s s' a r) (hk : Runs (k r) s' s'' [] q) : Runs (m >>= k) s s'' a q := by
  have := Runs.bind hm hk
  rwa [List.append_nil] at this

theorem Runs.pure (s : π) (y : β) : Runs (Pure.pure y) s s [] y := by
  intro inp out; simp

theorem Runs.congr {m : P π α} {s s' : π} {a b : Bytes} {x : α} (hm : Runs m s s' a x)
    (h : a = b) : Runs m s s' b x := h ▸ hm

end Thrift
