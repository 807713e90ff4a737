import Verif.Lemmas.CompactLoose
/-!
# Exactly what the compact reader takes for a value
-/

namespace Thrift

mutual
/-- The fuel it takes to read a value: `readVal` spends it on nesting and on fields. -/
def Val.need : Val → Nat
  | .struct fs => max (fs.length + 1) fs.need + 1
  | .map _ _ ps => ps.need + 1
  | .set _ vs => vs.need + 1
  | .list _ vs => vs.need + 1
  | _ => 1
def Fields.need : Fields → Nat
  | .nil => 0
  | .cons _ v r => max v.need r.need
def Vals.need : Vals → Nat
  | .nil => 0
  | .cons v r => max v.need r.need
def Pairs.need : Pairs → Nat
  | .nil => 0
  | .cons k v r => max (max k.need v.need) r.need
end

namespace Cmp
open CompactProtocol CompactSpec

/-- What the reader remembers. -/
def memo (s : Cmp) : Memo := ⟨s.lastField, s.lastFieldId⟩

/-- With no boolean pending, `m` succeeds exactly as `F` says. -/
def Exact (f : Nat) (m : P Cmp (α × GoErr)) (F : Memo → Bytes → α → Memo → Bytes → Prop) : Prop :=
  ∀ s, Idle s → ∀ inp, inp.length ≤ f →
    (∀ r s' rest, Gives m s inp r s' rest → Idle s' ∧ rest.length ≤ inp.length ∧ F (memo s) inp r (memo s') rest) ∧
    (∀ r m' rest, F (memo s) inp r m' rest → ∃ s', Gives m s inp r s' rest ∧ memo s' = m')

variable {f : Nat} {α β : Type}

theorem Exact.congr {m : P Cmp (α × GoErr)} {F G : Memo → Bytes → α → Memo → Bytes → Prop} (h : Exact f m F)
    (he : ∀ a inp r b rest, F a inp r b rest ↔ G a inp r b rest) : Exact f m G := by
  have : F = G := by
    funext a inp r b rest; exact propext (he a inp r b rest)
  exact this ▸ h

theorem Exact.same {m : P Cmp (α × GoErr)} {R : Bytes → α → Bytes → Prop}
    (h : ∀ s, Idle s → ∀ inp, inp.length ≤ f → ∀ r s' rest, Gives m s inp r s' rest ↔ s' = s ∧ R inp r rest)
    (hl : ∀ inp r rest, R inp r rest → rest.length ≤ inp.length) : Exact f m (fun a inp r b rest => b = a ∧ R inp r rest) := by
  intro s hs inp hi
  constructor
  · intro r s' rest hg
    obtain ⟨rfl, hr⟩ := (h s hs inp hi r s' rest).1 hg
    exact ⟨hs, hl _ _ _ hr, rfl, hr⟩
  · rintro r m' rest ⟨rfl, hr⟩
    exact ⟨s, (h s hs inp hi r s rest).2 ⟨rfl, hr⟩, rfl⟩

theorem Exact.pure (a : α) : Exact f (Pure.pure (a, none)) (fun m inp r m' rest => m' = m ∧ r = a ∧ rest = inp) :=
  Exact.same (R := fun inp r rest => r = a ∧ rest = inp)
    (fun s _ inp _ r s' rest => Gives.pure.trans ⟨fun ⟨a, b, c⟩ => ⟨b, a, c⟩, fun ⟨a, b, c⟩ => ⟨b, a, c⟩⟩)
    (by rintro inp r rest ⟨_, rfl⟩; exact Nat.le_refl _)

theorem Exact.map {m : P Cmp (α × GoErr)} {F : Memo → Bytes → α → Memo → Bytes → Prop} (h : Exact f m F) (g : α → β) :
    Exact f (m >>= fun x => Pure.pure (g x.1, x.2)) (fun a inp r b rest => ∃ x, F a inp x b rest ∧ r = g x) := by
  intro s hs inp hi
  constructor
  · intro r s' rest hg
    obtain ⟨x, hx, rfl⟩ := Gives.map.1 hg
    obtain ⟨h1, h2, h3⟩ := (h s hs inp hi).1 _ _ _ hx
    exact ⟨h1, h2, x, h3, rfl⟩
  · rintro r m' rest ⟨x, hx, rfl⟩
    obtain ⟨s', h1, h2⟩ := (h s hs inp hi).2 _ _ _ hx
    exact ⟨s', Gives.map.2 ⟨x, h1, rfl⟩, h2⟩

theorem Exact.check {m : P Cmp (α × GoErr)} {k : α × GoErr → P Cmp (β × GoErr)} {bad : α × GoErr → β} {w : GoErr → GoErr}
    {F : Memo → Bytes → α → Memo → Bytes → Prop} {G : α → Memo → Bytes → β → Memo → Bytes → Prop}
    (hw : ∀ e, e.isSome → (w e).isSome) (hm : Exact f m F) (hk : ∀ a, Exact f (k (a, none)) (G a)) :
    Exact f (m >>= fun r => if r.2.isSome then Pure.pure (bad r, w r.2) else k r)
      (fun a inp r b rest => ∃ x a₁ mid, F a inp x a₁ mid ∧ G x a₁ mid r b rest) := by
  intro s hs inp hi
  constructor
  · intro r s' rest hg
    obtain ⟨x, s₁, mid, h1, h2⟩ := (Gives.check hw).1 hg
    obtain ⟨a1, a2, a3⟩ := (hm s hs inp hi).1 _ _ _ h1
    obtain ⟨b1, b2, b3⟩ := (hk x s₁ a1 mid (by omega)).1 _ _ _ h2
    exact ⟨b1, by omega, x, memo s₁, mid, a3, b3⟩
  · rintro r m' rest ⟨x, a₁, mid, h1, h2⟩
    obtain ⟨s₁, g1, rfl⟩ := (hm s hs inp hi).2 _ _ _ h1
    obtain ⟨a1, a2, _⟩ := (hm s hs inp hi).1 _ _ _ g1
    obtain ⟨s', g2, g3⟩ := (hk x s₁ a1 mid (by omega)).2 _ _ _ h2
    exact ⟨s', (Gives.check hw).2 ⟨x, s₁, mid, g1, g2⟩, g3⟩

/-! ## What is left is no longer than what there was -/

theorem Num.length {inp rest : Bytes} {n : Nat} (h : Num inp n rest) : rest.length ≤ inp.length := by
  obtain ⟨bs, _, rfl⟩ := h; simp

theorem listStart_length {inp rest : Bytes} {t : Byte} {k : Nat} (h : ListStart inp t k rest) : rest.length ≤ inp.length := by
  obtain ⟨b, mid, rfl, _, ⟨_, _, rfl⟩ | ⟨_, n, hn, _⟩⟩ := h
  · simp
  · have := Num.length hn; simp; omega

theorem mapStart_length {inp rest : Bytes} {kt vt : Byte} {k : Nat} (h : MapStart inp kt vt k rest) : rest.length ≤ inp.length := by
  obtain ⟨n, mid, hn, _, ⟨_, _, _, rfl⟩ | ⟨_, b, rfl, _⟩⟩ := h
  · exact Num.length hn
  · have := Num.length hn; simp at this; omega

theorem fieldStart_length {last : Int} {inp rest : Bytes} {c : Nat} {id : I16} (h : FieldStart last inp c id rest) : rest.length ≤ inp.length := by
  obtain ⟨b, mid, rfl, _, ⟨_, _, rfl⟩ | ⟨_, n, hn, _⟩⟩ := h
  · simp
  · have := Num.length hn; simp; omega

theorem takesString_length {inp v rest : Bytes} (h : TakesString inp v rest) : rest.length ≤ inp.length := by
  obtain ⟨n, mid, hn, _, _, rfl | ⟨_, _, rfl⟩⟩ := h
  · have := Num.length hn; simp at this; omega
  · simp

/-! ## Sequences -/

theorem exact_vals {N : Nat} {rd : P Cmp (Val × GoErr)} {t : Byte}
    (hr : Exact f rd (fun a inp v b rest => v.type = t ∧ v.need ≤ N ∧ Takes a inp v b rest)) : ∀ n,
    Exact f (readVals rd n) (fun a inp vs b rest => vs.length = n ∧ vs.need ≤ N ∧ TakesVals a inp t vs b rest)
  | 0 => (Exact.pure (f := f) Vals.nil).congr (by
      intro a inp r b rest
      constructor
      · rintro ⟨rfl, rfl, rfl⟩; exact ⟨rfl, Nat.zero_le _, by simp only [TakesVals]; trivial⟩
      · rintro ⟨h1, _, h2⟩
        cases r with
        | nil => simp only [TakesVals] at h2; exact ⟨h2.1, rfl, h2.2⟩
        | cons v r => cases h1)
  | n + 1 => (Exact.check (w := _root_.id) (fun _ h => h) hr (fun v => (exact_vals hr n).map (Vals.cons v))).congr (by
      intro a inp r b rest
      constructor
      · rintro ⟨v, a₁, mid, ⟨h1, h2, h3⟩, vs, ⟨h4, h5, h6⟩, rfl⟩
        refine ⟨congrArg (· + 1) h4, by simp only [Vals.need]; omega, ?_⟩
        simp only [TakesVals]
        exact ⟨h1, a₁, mid, h3, h6⟩
      · rintro ⟨h1, h2, h3⟩
        cases r with
        | nil => cases h1
        | cons v r =>
          simp only [TakesVals] at h3
          obtain ⟨h4, a₁, mid, h5, h6⟩ := h3
          simp only [Vals.need] at h2
          exact ⟨v, a₁, mid, ⟨h4, by omega, h5⟩, r, ⟨Nat.succ.inj h1, by omega, h6⟩, rfl⟩)

theorem exact_pairs {N : Nat} {rk rv : P Cmp (Val × GoErr)} {kt vt : Byte}
    (hk : Exact f rk (fun a inp v b rest => v.type = kt ∧ v.need ≤ N ∧ Takes a inp v b rest))
    (hv : Exact f rv (fun a inp v b rest => v.type = vt ∧ v.need ≤ N ∧ Takes a inp v b rest)) : ∀ n,
    Exact f (readPairs rk rv n) (fun a inp vs b rest => vs.length = n ∧ vs.need ≤ N ∧ TakesPairs a inp kt vt vs b rest)
  | 0 => (Exact.pure (f := f) Pairs.nil).congr (by
      intro a inp r b rest
      constructor
      · rintro ⟨rfl, rfl, rfl⟩; exact ⟨rfl, Nat.zero_le _, by simp only [TakesPairs]; trivial⟩
      · rintro ⟨h1, _, h2⟩
        cases r with
        | nil => simp only [TakesPairs] at h2; exact ⟨h2.1, rfl, h2.2⟩
        | cons k v r => cases h1)
  | n + 1 => (Exact.check (w := _root_.id) (fun _ h => h) hk (fun k => Exact.check (w := _root_.id) (fun _ h => h) hv
      (fun v => (exact_pairs hk hv n).map (Pairs.cons k v)))).congr (by
      intro a inp r b rest
      constructor
      · rintro ⟨k, a₁, mid, ⟨h1, h2, h3⟩, v, a₂, mid₂, ⟨h1', h2', h3'⟩, vs, ⟨h4, h5, h6⟩, rfl⟩
        refine ⟨congrArg (· + 1) h4, by simp only [Pairs.need]; omega, ?_⟩
        simp only [TakesPairs]
        exact ⟨h1, h1', a₁, mid, a₂, mid₂, h3, h3', h6⟩
      · rintro ⟨h1, h2, h3⟩
        cases r with
        | nil => cases h1
        | cons k v r =>
          simp only [TakesPairs] at h3
          obtain ⟨h4, h4', a₁, mid, a₂, mid₂, h5, h5', h6⟩ := h3
          simp only [Pairs.need] at h2
          exact ⟨k, a₁, mid, ⟨h4, by omega, h5⟩, v, a₂, mid₂, ⟨h4', by omega, h5'⟩, r, ⟨Nat.succ.inj h1, by omega, h6⟩, rfl⟩)

/-! ## Fields -/

theorem codeOf_bool {c : Nat} {t : Byte} (h : CodeOf c t) : c = 1 ↔ t = 2 := by
  obtain ⟨hw, rfl⟩ := h
  have : ∀ t : Byte, IsWireType t → (typeCode t = 1 ↔ t = 2) := by decide +kernel
  exact this t hw

theorem codeOf_ne_zero {c : Nat} {t : Byte} (h : CodeOf c t) : t ≠ 0 := by
  rintro rfl; exact absurd h.1 (by decide)

/-- What is taken for the value of a field. -/
def FieldValue (a : Memo) (inp : Bytes) (v : Val) (b : Memo) (rest : Bytes) : Prop :=
  (v = .bool true ∧ rest = inp ∧ b = a) ∨ (v.type ≠ 2 ∧ Takes a inp v b rest)

section
variable {N : Nat} {rd : TType → P Cmp (Val × GoErr)}
  (hr : ∀ t, Exact f (rd t) (fun a inp v b rest => v.type = t ∧ v.need ≤ N ∧ Takes a inp v b rest))
  (hb : ∀ s inp r s' rest, s.boolValueIsNotNull = true → (Gives (rd TT.BOOL) s inp r s' rest ↔
    1 ≤ N ∧ r = .bool s.boolValue ∧ s' = { s with boolValueIsNotNull := false } ∧ rest = inp))
include hr hb

/-- The value of a field, after its header. -/
theorem exact_fieldValue {s : Cmp} (hs : Idle s) {id : I16} {c : Nat} {t : Byte} (hc : CodeOf c t) {inp : Bytes} (hi : inp.length ≤ f) :
    (∀ v s' rest, Gives (rd t) (s.readField id c) inp v s' rest → Idle s' ∧ rest.length ≤ inp.length ∧ v.type = t ∧ v.need ≤ N ∧
      FieldValue ⟨s.lastField, id.toInt⟩ inp v (memo s') rest) ∧
    (∀ v m' rest, v.type = t → v.need ≤ N → FieldValue ⟨s.lastField, id.toInt⟩ inp v m' rest →
      ∃ s', Gives (rd t) (s.readField id c) inp v s' rest ∧ memo s' = m') := by
  by_cases h1 : c = 1
  · have ht := (codeOf_bool hc).1 h1
    subst ht
    have hp : (s.readField id c).boolValueIsNotNull = true := by simp [readField, h1]
    have hv : (s.readField id c).boolValue = true := by simp [readField, h1]
    constructor
    · intro v s' rest hg
      obtain ⟨h2, rfl, rfl, rfl⟩ := (hb _ _ _ _ _ hp).1 hg
      rw [hv]
      exact ⟨rfl, Nat.le_refl _, rfl, h2, .inl ⟨rfl, rfl, by simp [memo, readField, h1]⟩⟩
    · rintro v m' rest ht hn (⟨rfl, rfl, rfl⟩ | ⟨h2, _⟩)
      · refine ⟨_, (hb _ _ _ _ _ hp).2 ⟨hn, by rw [hv], rfl, rfl⟩, by simp [memo, readField, h1]⟩
      · exact absurd ht h2
  · have ht : t ≠ 2 := fun h => h1 ((codeOf_bool hc).2 h)
    have e : s.readField id c = { s with lastFieldId := id.toInt } := by simp [readField, h1]
    have hx := hr t (s.readField id c) (by rw [e]; exact hs) inp hi
    rw [show memo (s.readField id c) = ⟨s.lastField, id.toInt⟩ by rw [e]; rfl] at hx
    constructor
    · intro v s' rest hg
      obtain ⟨a1, a2, a3, a4, a5⟩ := hx.1 _ _ _ hg
      exact ⟨a1, a2, a3, a4, .inr ⟨a3 ▸ ht, a5⟩⟩
    · rintro v m' rest hv hn (⟨rfl, rfl, rfl⟩ | ⟨h2, h3⟩)
      · exact absurd hv.symm ht
      · exact hx.2 _ _ _ ⟨hv, hn, h3⟩

theorem exact_fields : ∀ n, Exact f (readFields (compact f) rd n)
    (fun a inp fs b rest => fs.length < n ∧ fs.need ≤ N ∧ TakesFields a inp fs b rest)
  | 0 => by
    intro s hs inp hi
    exact ⟨fun r s' rest h => (by cases h), fun r m' rest h => absurd h.1 (by omega)⟩
  | n + 1 => by
    have ih := exact_fields n
    intro s hs inp hi
    have eq : ∀ r s' rest, Gives (readFields (compact f) rd (n + 1)) s inp r s' rest ↔
        ∃ (x : Bytes × TType × I16) (s₁ : Cmp) (mid : Bytes), Gives (readFieldBegin f) s inp x s₁ mid ∧
          Gives (if x.2.1 = TT.STOP then Pure.pure (.nil, none) else
            rd x.2.1 >>= fun y => if y.2.isSome then Pure.pure (.nil, _root_.id y.2) else
              readFields (compact f) rd n >>= fun z => Pure.pure (Fields.cons x.2.2 y.1 z.1, z.2)) s₁ mid r s' rest := by
      intro r s' rest
      exact Gives.check (w := _root_.id) (m := readFieldBegin f) (bad := fun _ => Fields.nil)
        (k := fun x => if x.1.2.1 = TT.STOP then Pure.pure (.nil, none) else
            rd x.1.2.1 >>= fun y => if y.2.isSome then Pure.pure (.nil, _root_.id y.2) else
              readFields (compact f) rd n >>= fun z => Pure.pure (Fields.cons x.1.2.2 y.1 z.1, z.2)) (fun _ h => h)
    constructor
    · intro r s' rest hg
      obtain ⟨⟨nm, t, id⟩, s₁, mid, h1, h2⟩ := (eq r s' rest).1 hg
      obtain ⟨rfl, ⟨rfl, rfl, rfl, b, rfl, h3⟩ | ⟨c, h3, h4, rfl⟩⟩ := (gives_fieldBegin hi).1 h1
      · rw [if_pos (by rfl)] at h2
        obtain ⟨rfl, rfl, rfl⟩ := Gives.pure.1 h2
        refine ⟨hs, by simp, Nat.zero_lt_succ _, Nat.zero_le _, ?_⟩
        simp only [TakesFields]
        exact ⟨trivial, b, rfl, h3⟩
      · rw [if_neg (show ¬ t = TT.STOP from codeOf_ne_zero h4)] at h2
        obtain ⟨v, s₂, mid₂, h5, h6⟩ := (Gives.check (w := _root_.id) (bad := fun _ => Fields.nil) (fun _ h => h)).1 h2
        have hl := fieldStart_length h3
        obtain ⟨a1, a2, a3, a4, a5⟩ := (exact_fieldValue hr hb hs h4 (by omega)).1 _ _ _ h5
        obtain ⟨fs, h7, rfl⟩ := Gives.map.1 h6
        obtain ⟨b1, b2, b3, b4, b5⟩ := (ih s₂ a1 mid₂ (by omega)).1 _ _ _ h7
        refine ⟨b1, by omega, by simp only [Fields.length]; omega, by simp only [Fields.need]; omega, ?_⟩
        simp only [TakesFields]
        exact ⟨c, mid, mid₂, memo s₂, h3, a3 ▸ h4, a5, b5⟩
    · rintro r m' rest ⟨h1, h2, h3⟩
      cases r with
      | nil =>
        simp only [TakesFields] at h3
        obtain ⟨rfl, b, rfl, h4⟩ := h3
        refine ⟨s, (eq _ _ _).2 ⟨([], 0, 0), s, rest, (gives_fieldBegin hi).2 ⟨rfl, .inl ⟨rfl, rfl, rfl, b, rfl, h4⟩⟩, ?_⟩, rfl⟩
        rw [if_pos (by rfl)]
        exact Gives.pure.2 ⟨rfl, rfl, rfl⟩
      | cons id v r =>
        simp only [TakesFields] at h3
        obtain ⟨c, mid, mid₂, m₁, h4, h5, h6, h7⟩ := h3
        simp only [Fields.need] at h2
        simp only [Fields.length] at h1
        have hl := fieldStart_length h4
        obtain ⟨s₂, g1, rfl⟩ := (exact_fieldValue hr hb hs (id := id) h5 (inp := mid) (by omega)).2 v m₁ mid₂ rfl (by omega) h6
        obtain ⟨a1, a2, _⟩ := (exact_fieldValue hr hb hs (id := id) h5 (inp := mid) (by omega)).1 _ _ _ g1
        obtain ⟨s', g2, g3⟩ := (ih s₂ a1 mid₂ (by omega)).2 r m' rest ⟨by omega, by omega, h7⟩
        refine ⟨s', (eq _ _ _).2 ⟨([], v.type, id), _, mid, (gives_fieldBegin hi).2 ⟨rfl, .inr ⟨c, h4, h5, rfl⟩⟩, ?_⟩, g3⟩
        rw [if_neg (show ¬ v.type = TT.STOP from codeOf_ne_zero h5)]
        exact (Gives.check (w := _root_.id) (bad := fun _ => Fields.nil) (fun _ h => h)).2 ⟨v, s₂, mid₂, g1, Gives.map.2 ⟨r, g2, rfl⟩⟩

end

/-! ## Values -/

/-- A pending boolean is the value of a field. -/
theorem gives_pending (N : Nat) (s : Cmp) (inp : Bytes) (r : Val) (s' : Cmp) (rest : Bytes) (hp : s.boolValueIsNotNull = true) :
    Gives (readVal (compact f) N TT.BOOL) s inp r s' rest ↔
      1 ≤ N ∧ r = .bool s.boolValue ∧ s' = { s with boolValueIsNotNull := false } ∧ rest = inp := by
  cases N with
  | zero => exact ⟨fun h => (by cases h), fun h => absurd h.1 (by omega)⟩
  | succ N =>
    have h := (reads_boolField s hp).memory inp
    have e : (readVal (compact f) (N + 1) TT.BOOL).run memory s inp = (.ok ((.bool s.boolValue, none), { s with boolValueIsNotNull := false }), inp) := by
      unfold readVal
      rw [if_pos rfl]
      show P.run memory (readBool >>= fun x => Pure.pure (Val.bool x.1, x.2)) s inp = _
      rw [P.run_bind]
      rw [List.nil_append] at h
      rw [h]
      rfl
    unfold Gives
    rw [e]
    simp only [Prod.mk.injEq, Res.ok.injEq, and_true]
    constructor
    · rintro ⟨⟨rfl, rfl⟩, rfl⟩; exact ⟨by omega, rfl, rfl, rfl⟩
    · rintro ⟨_, rfl, rfl, rfl⟩; exact ⟨⟨rfl, rfl⟩, rfl⟩

theorem exact_struct {N n : Nat} {m : P Cmp (Fields × GoErr)}
    (hm : Exact f m (fun a inp fs b rest => fs.length < n ∧ fs.need ≤ N ∧ TakesFields a inp fs b rest)) :
    Exact f (readStructBegin >>= fun r => if r.2.isSome then Pure.pure (Val.struct .nil, _root_.id r.2) else
        m >>= fun y => if y.2.isSome then Pure.pure (Val.struct y.1, _root_.id y.2) else
          readStructEnd >>= fun e => Pure.pure (Val.struct y.1, e))
      (fun a inp v b rest => ∃ fs, v = .struct fs ∧ fs.length < n ∧ fs.need ≤ N ∧ Takes a inp v b rest) := by
  intro s hs inp hi
  have stop : ∀ (fs : Fields) (s₁ : Cmp) (mid : Bytes) r s' rest, Gives (readStructEnd >>= fun e => Pure.pure (Val.struct fs, e)) s₁ mid r s' rest ↔
      rest = mid ∧ r = .struct fs ∧ ∃ top, s₁.lastField.head? = some top ∧ s' = { s₁ with lastFieldId := top } := by
    intro fs s₁ mid r s' rest
    unfold Gives readStructEnd
    simp only [P.run_bind, P.run_get, andThen_ok]
    rcases s₁ with ⟨lf, x1, x2, x3, x4⟩
    cases lf with
    | nil => simp
    | cons top u =>
      simp only [P.run_bind, P.run_modify, andThen_ok, P.run_pure, Prod.mk.injEq, Res.ok.injEq, and_true, List.head?_cons, Option.some.injEq]
      constructor
      · rintro ⟨⟨rfl, rfl⟩, rfl⟩; exact ⟨rfl, rfl, top, rfl, rfl⟩
      · rintro ⟨rfl, rfl, _, rfl, rfl⟩; exact ⟨⟨rfl, rfl⟩, rfl⟩
  have start : ∀ r s' rest, Gives (readStructBegin >>= fun r => if r.2.isSome then Pure.pure (Val.struct .nil, _root_.id r.2) else
        m >>= fun y => if y.2.isSome then Pure.pure (Val.struct y.1, _root_.id y.2) else
          readStructEnd >>= fun e => Pure.pure (Val.struct y.1, e)) s inp r s' rest ↔
      ∃ fs s₁, Gives m { s with lastField := s.lastFieldId :: s.lastField, lastFieldId := 0 } inp fs s₁ rest ∧
        r = .struct fs ∧ ∃ top, s₁.lastField.head? = some top ∧ s' = { s₁ with lastFieldId := top } := by
    intro r s' rest
    have : Gives (readStructBegin >>= fun r => if r.2.isSome then Pure.pure (Val.struct .nil, _root_.id r.2) else
        m >>= fun y => if y.2.isSome then Pure.pure (Val.struct y.1, _root_.id y.2) else
          readStructEnd >>= fun e => Pure.pure (Val.struct y.1, e)) s inp r s' rest ↔
        Gives (m >>= fun y => if y.2.isSome then Pure.pure (Val.struct y.1, _root_.id y.2) else
          readStructEnd >>= fun e => Pure.pure (Val.struct y.1, e)) { s with lastField := s.lastFieldId :: s.lastField, lastFieldId := 0 } inp r s' rest := by
      unfold Gives readStructBegin
      simp only [P.run_bind, P.run_modify, andThen_ok, P.run_pure, Option.isSome_none, Bool.false_eq_true, if_false]
    rw [this]
    refine (Gives.check (w := _root_.id) (m := m) (bad := fun y => Val.struct y.1)
      (k := fun y => readStructEnd >>= fun e => Pure.pure (Val.struct y.1, e)) (fun _ h => h)).trans ?_
    constructor
    · rintro ⟨fs, s₁, mid, h1, h2⟩
      obtain ⟨rfl, h3⟩ := (stop _ _ _ _ _ _).1 h2
      exact ⟨fs, s₁, h1, h3⟩
    · rintro ⟨fs, s₁, h1, h3⟩
      exact ⟨fs, s₁, rest, h1, (stop _ _ _ _ _ _).2 ⟨rfl, h3⟩⟩
  have hx := hm { s with lastField := s.lastFieldId :: s.lastField, lastFieldId := 0 } hs inp hi
  constructor
  · intro r s' rest hg
    obtain ⟨fs, s₁, h1, rfl, top, h2, rfl⟩ := (start r s' rest).1 hg
    obtain ⟨a1, a2, a3, a4, a5⟩ := hx.1 _ _ _ h1
    refine ⟨a1, a2, fs, rfl, a3, a4, ?_⟩
    simp only [Takes]
    exact ⟨memo s₁, top, a5, h2, rfl⟩
  · rintro r m' rest ⟨fs, rfl, h1, h2, h3⟩
    simp only [Takes] at h3
    obtain ⟨m₁, top, h4, h5, rfl⟩ := h3
    obtain ⟨s₁, g1, rfl⟩ := hx.2 fs m₁ rest ⟨h1, h2, h4⟩
    exact ⟨{ s₁ with lastFieldId := top }, (start _ _ _).2 ⟨fs, s₁, g1, rfl, top, h5, rfl⟩, rfl⟩

theorem exact_listBegin : Exact f (readListBegin f) (fun a inp (r : TType × Int) b rest => b = a ∧ ∃ b' mid, inp = b' :: mid ∧ ElemType (low b') r.1 ∧
      ((high b' ≠ 15 ∧ r.2 = high b' ∧ rest = mid) ∨ (high b' = 15 ∧ ∃ n, Num mid n rest ∧ r.2 = (BitVec.ofNat 32 n).toInt))) :=
  Exact.same (R := fun inp (r : TType × Int) rest => ∃ b' mid, inp = b' :: mid ∧ ElemType (low b') r.1 ∧
      ((high b' ≠ 15 ∧ r.2 = high b' ∧ rest = mid) ∨ (high b' = 15 ∧ ∃ n, Num mid n rest ∧ r.2 = (BitVec.ofNat 32 n).toInt)))
    (fun s _ inp hi r s' rest => gives_listBegin hi)
    (by
      rintro inp r rest ⟨b, mid, rfl, _, ⟨_, _, rfl⟩ | ⟨_, n, hn, _⟩⟩
      · simp
      · have := Num.length hn; simp; omega)

theorem exact_mapBegin : Exact f (readMapBegin f) (fun a inp (r : TType × TType × Int) b rest => b = a ∧ ∃ n mid, Num inp n mid ∧ r.2.2 = (BitVec.ofNat 32 n).toInt ∧
      ((n % 2 ^ 32 = 0 ∧ r.1 = 0 ∧ r.2.1 = 0 ∧ rest = mid) ∨
        (n % 2 ^ 32 ≠ 0 ∧ ∃ b, mid = b :: rest ∧ EntryType (high b) r.1 ∧ EntryType (low b) r.2.1))) :=
  Exact.same (R := fun inp (r : TType × TType × Int) rest => ∃ n mid, Num inp n mid ∧ r.2.2 = (BitVec.ofNat 32 n).toInt ∧
      ((n % 2 ^ 32 = 0 ∧ r.1 = 0 ∧ r.2.1 = 0 ∧ rest = mid) ∨
        (n % 2 ^ 32 ≠ 0 ∧ ∃ b, mid = b :: rest ∧ EntryType (high b) r.1 ∧ EntryType (low b) r.2.1)))
    (fun s _ inp hi r s' rest => gives_mapBegin hi)
    (by
      rintro inp r rest ⟨n, mid, hn, _, ⟨_, _, _, rfl⟩ | ⟨_, b, rfl, _⟩⟩
      · exact Num.length hn
      · have := Num.length hn; simp at this; omega)

/-- The reader of a list or of a set. -/
theorem exact_seq {N : Nat} {rd : TType → P Cmp (Val × GoErr)}
    (hr : ∀ t, Exact f (rd t) (fun a inp v b rest => v.type = t ∧ v.need ≤ N ∧ Takes a inp v b rest)) (mk : Byte → Vals → Val)
    (bad : (TType × Int) × GoErr → Val) (bad' : TType → Vals × GoErr → Val) :
    Exact f (readListBegin f >>= fun r => if r.2.isSome then Pure.pure (bad r, _root_.id r.2) else
        readVals (rd r.1.1) r.1.2.toNat >>= fun y => if y.2.isSome then Pure.pure (bad' r.1.1 y, _root_.id y.2) else Pure.pure (mk r.1.1 y.1, none))
      (fun a inp v b rest => ∃ t vs mid, v = mk t vs ∧ vs.need ≤ N ∧ ListStart inp t vs.length mid ∧ TakesVals a mid t vs b rest) :=
  (Exact.check (w := _root_.id) (fun _ h => h) exact_listBegin
    (fun (r : TType × Int) => Exact.check (w := _root_.id) (fun _ h => h) (exact_vals (hr r.1) r.2.toNat) (fun vs => Exact.pure (mk r.1 vs)))).congr (by
    intro a inp v b rest
    constructor
    · rintro ⟨⟨t, z⟩, a₁, mid, ⟨rfl, h1⟩, vs, a₂, mid₂, ⟨h2, h3, h4⟩, rfl, rfl, rfl⟩
      refine ⟨t, vs, mid, rfl, h3, ?_, h4⟩
      obtain ⟨c, m, rfl, h5, ⟨h6, h7, rfl⟩ | ⟨h6, n, h7, h8⟩⟩ := h1
      · simp only at h2 h7
        exact ⟨c, _, rfl, h5, .inl ⟨h6, by rw [h2, h7]; rfl, rfl⟩⟩
      · simp only at h2 h8
        exact ⟨c, _, rfl, h5, .inr ⟨h6, n, h7, by rw [h2, h8]; exact (bits32 n).2.2.2.1⟩⟩
    · rintro ⟨t, vs, mid, rfl, h3, ⟨c, m, rfl, h5, ⟨h6, h7, rfl⟩ | ⟨h6, n, h7, h8⟩⟩, h4⟩
      · exact ⟨(t, (high c : Int)), a, mid, ⟨rfl, c, mid, rfl, h5, .inl ⟨h6, rfl, rfl⟩⟩, vs, b, rest, ⟨h7, h3, h4⟩, rfl, rfl, rfl⟩
      · exact ⟨(t, (BitVec.ofNat 32 n).toInt), a, mid, ⟨rfl, c, m, rfl, h5, .inr ⟨h6, n, h7, rfl⟩⟩, vs, b, rest,
          ⟨h8.trans (bits32 n).2.2.2.1.symm, h3, h4⟩, rfl, rfl, rfl⟩)

theorem exact_map {N : Nat} {rd : TType → P Cmp (Val × GoErr)}
    (hr : ∀ t, Exact f (rd t) (fun a inp v b rest => v.type = t ∧ v.need ≤ N ∧ Takes a inp v b rest))
    (bad : (TType × TType × Int) × GoErr → Val) (bad' : TType → TType → Pairs × GoErr → Val) :
    Exact f (readMapBegin f >>= fun r => if r.2.isSome then Pure.pure (bad r, _root_.id r.2) else
        readPairs (rd r.1.1) (rd r.1.2.1) r.1.2.2.toNat >>= fun y => if y.2.isSome then Pure.pure (bad' r.1.1 r.1.2.1 y, _root_.id y.2) else
          Pure.pure (Val.map r.1.1 r.1.2.1 y.1, none))
      (fun a inp v b rest => ∃ kt vt ps mid, v = .map kt vt ps ∧ ps.need ≤ N ∧ MapStart inp kt vt ps.length mid ∧ TakesPairs a mid kt vt ps b rest) :=
  (Exact.check (w := _root_.id) (fun _ h => h) exact_mapBegin
    (fun (r : TType × TType × Int) => Exact.check (w := _root_.id) (fun _ h => h) (exact_pairs (hr r.1) (hr r.2.1) r.2.2.toNat)
      (fun vs => Exact.pure (Val.map r.1 r.2.1 vs)))).congr (by
    intro a inp v b rest
    constructor
    · rintro ⟨⟨kt, vt, z⟩, a₁, mid, ⟨rfl, n, m, h1, h5, h6⟩, vs, a₂, mid₂, ⟨h2, h3, h4⟩, rfl, rfl, rfl⟩
      simp only at h2 h5
      exact ⟨kt, vt, vs, mid, rfl, h3, ⟨n, m, h1, by rw [h2, h5]; exact (bits32 n).2.2.2.1, h6⟩, h4⟩
    · rintro ⟨kt, vt, vs, mid, rfl, h3, ⟨n, m, h1, h2, h6⟩, h4⟩
      exact ⟨(kt, vt, (BitVec.ofNat 32 n).toInt), a, mid, ⟨rfl, n, m, h1, rfl, h6⟩, vs, b, rest,
        ⟨h2.trans (bits32 n).2.2.2.1.symm, h3, h4⟩, rfl, rfl, rfl⟩)

theorem exact_val : ∀ (N : Nat) (t : TType), Exact f (readVal (compact f) N t)
    (fun a inp v b rest => v.type = t ∧ v.need ≤ N ∧ Takes a inp v b rest)
  | 0, t => by
    intro s hs inp hi
    refine ⟨fun r s' rest h => (by cases h), fun r m' rest h => ?_⟩
    have : 1 ≤ r.need := by cases r <;> simp [Val.need]
    exact absurd h.2.1 (by omega)
  | N + 1, t => by
    unfold readVal
    by_cases h1 : t = TT.BOOL
    · rw [if_pos h1]; subst h1
      refine ((Exact.same (m := readBool) (f := f) (fun s hs inp _ r s' rest => gives_bool hs) (by
        rintro inp r rest ⟨b, rfl, _⟩; simp)).map Val.bool).congr ?_
      intro a inp v b rest
      constructor
      · rintro ⟨x, ⟨rfl, h⟩, rfl⟩
        exact ⟨rfl, by simp [Val.need], by simp only [Takes]; exact ⟨trivial, h⟩⟩
      · rintro ⟨ht, _, h⟩
        cases v <;> first | (simp [Val.type, TT.BOOL] at ht; done) | skip
        simp only [Takes] at h
        exact ⟨_, h, rfl⟩
    rw [if_neg h1]
    by_cases h1 : t = TT.BYTE
    · rw [if_pos h1]; subst h1
      refine ((Exact.same (m := readByte) (f := f) (fun s hs inp _ r s' rest => gives_byte) (by
        rintro inp r rest rfl; simp)).map Val.byte).congr ?_
      intro a inp v b rest
      constructor
      · rintro ⟨x, ⟨rfl, h⟩, rfl⟩
        exact ⟨rfl, by simp [Val.need], by simp only [Takes]; exact ⟨trivial, h⟩⟩
      · rintro ⟨ht, _, h⟩
        cases v <;> first | (simp [Val.type, TT.BYTE] at ht; done) | skip
        simp only [Takes] at h
        exact ⟨_, h, rfl⟩
    rw [if_neg h1]
    by_cases h1 : t = TT.I16
    · rw [if_pos h1]; subst h1
      refine ((Exact.same (m := readI16 f) (f := f) (fun s hs inp hi r s' rest => gives_i16 hi) (by
        rintro inp r rest ⟨n, hn, _⟩; exact Num.length hn)).map Val.i16).congr ?_
      intro a inp v b rest
      constructor
      · rintro ⟨x, ⟨rfl, h⟩, rfl⟩
        exact ⟨rfl, by simp [Val.need], by simp only [Takes]; exact ⟨trivial, h⟩⟩
      · rintro ⟨ht, _, h⟩
        cases v <;> first | (simp [Val.type, TT.I16] at ht; done) | skip
        simp only [Takes] at h
        exact ⟨_, h, rfl⟩
    rw [if_neg h1]
    by_cases h1 : t = TT.I32
    · rw [if_pos h1]; subst h1
      refine ((Exact.same (m := readI32 f) (f := f) (fun s hs inp hi r s' rest => gives_i32 hi) (by
        rintro inp r rest ⟨n, hn, _⟩; exact Num.length hn)).map Val.i32).congr ?_
      intro a inp v b rest
      constructor
      · rintro ⟨x, ⟨rfl, h⟩, rfl⟩
        exact ⟨rfl, by simp [Val.need], by simp only [Takes]; exact ⟨trivial, h⟩⟩
      · rintro ⟨ht, _, h⟩
        cases v <;> first | (simp [Val.type, TT.I32] at ht; done) | skip
        simp only [Takes] at h
        exact ⟨_, h, rfl⟩
    rw [if_neg h1]
    by_cases h1 : t = TT.I64
    · rw [if_pos h1]; subst h1
      refine ((Exact.same (m := readI64 f) (f := f) (fun s hs inp hi r s' rest => gives_i64 hi) (by
        rintro inp r rest ⟨n, hn, _⟩; exact Num.length hn)).map Val.i64).congr ?_
      intro a inp v b rest
      constructor
      · rintro ⟨x, ⟨rfl, h⟩, rfl⟩
        exact ⟨rfl, by simp [Val.need], by simp only [Takes]; exact ⟨trivial, h⟩⟩
      · rintro ⟨ht, _, h⟩
        cases v <;> first | (simp [Val.type, TT.I64] at ht; done) | skip
        simp only [Takes] at h
        exact ⟨_, h, rfl⟩
    rw [if_neg h1]
    by_cases h1 : t = TT.DOUBLE
    · rw [if_pos h1]; subst h1
      refine ((Exact.same (m := readDouble) (f := f) (fun s hs inp hi r s' rest => gives_double) (by
        rintro inp r rest rfl; simp)).map Val.double).congr ?_
      intro a inp v b rest
      constructor
      · rintro ⟨x, ⟨rfl, h⟩, rfl⟩
        exact ⟨rfl, by simp [Val.need], by simp only [Takes]; exact ⟨trivial, h⟩⟩
      · rintro ⟨ht, _, h⟩
        cases v <;> first | (simp [Val.type, TT.DOUBLE] at ht; done) | skip
        simp only [Takes] at h
        exact ⟨_, h, rfl⟩
    rw [if_neg h1]
    by_cases h1 : t = TT.STRING
    · rw [if_pos h1]; subst h1
      refine ((Exact.same (m := readString f) (f := f) (fun s hs inp hi r s' rest => gives_string hi) (by
        rintro inp r rest h; exact takesString_length h)).map Val.str).congr ?_
      intro a inp v b rest
      constructor
      · rintro ⟨x, ⟨rfl, h⟩, rfl⟩
        exact ⟨rfl, by simp [Val.need], by simp only [Takes]; exact ⟨trivial, h⟩⟩
      · rintro ⟨ht, _, h⟩
        cases v <;> first | (simp [Val.type, TT.STRING] at ht; done) | skip
        simp only [Takes] at h
        exact ⟨_, h, rfl⟩
    rw [if_neg h1]
    by_cases h1 : t = TT.STRUCT
    · rw [if_pos h1]; subst h1
      refine (exact_struct (exact_fields (exact_val N) (fun s inp r s' rest hp => gives_pending N s inp r s' rest hp) N)).congr ?_
      intro a inp v b rest
      constructor
      · rintro ⟨fs, rfl, h1, h2, h3⟩
        exact ⟨rfl, by simp only [Val.need]; omega, h3⟩
      · rintro ⟨ht, hn, h⟩
        cases v <;> first | (simp [Val.type, TT.STRUCT] at ht; done) | skip
        simp only [Val.need] at hn
        exact ⟨_, rfl, by omega, by omega, h⟩
    rw [if_neg h1]
    by_cases h1 : t = TT.MAP
    · rw [if_pos h1]; subst h1
      refine (exact_map (exact_val N) (fun r => .map r.1.1 r.1.2.1 .nil) (fun kt vt y => .map kt vt y.1)).congr ?_
      intro a inp v b rest
      constructor
      · rintro ⟨kt, vt, ps, mid, rfl, h1, h2, h3⟩
        exact ⟨rfl, by simp only [Val.need]; omega, by simp only [Takes]; exact ⟨mid, h2, h3⟩⟩
      · rintro ⟨ht, hn, h⟩
        cases v <;> first | (simp [Val.type, TT.MAP] at ht; done) | skip
        simp only [Val.need] at hn
        simp only [Takes] at h
        obtain ⟨mid, h2, h3⟩ := h
        exact ⟨_, _, _, mid, rfl, by omega, h2, h3⟩
    rw [if_neg h1]
    by_cases h1 : t = TT.SET
    · rw [if_pos h1]; subst h1
      refine (exact_seq (exact_val N) Val.set (fun r => .set r.1.1 .nil) (fun t y => .set t y.1)).congr ?_
      intro a inp v b rest
      constructor
      · rintro ⟨t, vs, mid, rfl, h1, h2, h3⟩
        exact ⟨rfl, by simp only [Val.need]; omega, by simp only [Takes]; exact ⟨mid, h2, h3⟩⟩
      · rintro ⟨ht, hn, h⟩
        cases v <;> first | (simp [Val.type, TT.SET] at ht; done) | skip
        simp only [Val.need] at hn
        simp only [Takes] at h
        obtain ⟨mid, h2, h3⟩ := h
        exact ⟨_, _, mid, rfl, by omega, h2, h3⟩
    rw [if_neg h1]
    by_cases h1 : t = TT.LIST
    · rw [if_pos h1]; subst h1
      refine (exact_seq (exact_val N) Val.list (fun r => .list r.1.1 .nil) (fun t y => .list t y.1)).congr ?_
      intro a inp v b rest
      constructor
      · rintro ⟨t, vs, mid, rfl, h1, h2, h3⟩
        exact ⟨rfl, by simp only [Val.need]; omega, by simp only [Takes]; exact ⟨mid, h2, h3⟩⟩
      · rintro ⟨ht, hn, h⟩
        cases v <;> first | (simp [Val.type, TT.LIST] at ht; done) | skip
        simp only [Val.need] at hn
        simp only [Takes] at h
        obtain ⟨mid, h2, h3⟩ := h
        exact ⟨_, _, mid, rfl, by omega, h2, h3⟩
    rw [if_neg h1]
    intro s hs inp hi
    constructor
    · intro r s' rest hg
      unfold Gives at hg
      rw [P.run_pure] at hg
      simp only [Prod.mk.injEq, Res.ok.injEq] at hg
      exact absurd hg.1.1.2 (by simp)
    · rintro r m' rest ⟨ht, _⟩
      subst ht
      cases r <;> contradiction

end Cmp
end Thrift
