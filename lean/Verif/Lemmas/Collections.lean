import Verif.Lemmas.Dyn
import Verif.Model.Collections
/-! # Lemmas about sets and maps -/

namespace Thrift

/-- Values of `S` are ordered by their keys, and the functions of the library
see it. -/
structure KeyOrder (L : FloatLib) (t : TType) (S : Dyn → Prop) (k : Dyn → List Int) : Prop where
  native : ∀ a, S a → Native t a
  cmp : ∀ a b, S a → S b → ∃ c, compare L t a b = .ok (c, true) ∧ SignOf (k a) (k b) c
  eqv : ∀ a b, S a → S b → elemTest L t a b = .ok (decide (k a = k b))

theorem goEq_scalar {t : TType} {a b : Dyn} (ha : Scalar t a) (hb : Scalar t b) (ht : t ≠ TT.BINARY) :
    a.goEq b = .ok (decide (a.key = b.key)) := by
  obtain ⟨ha, oa⟩ := ha
  obtain ⟨hb, ob⟩ := hb
  cases a with
  | nil | int | int8 | uint | uint16 | uint32 | uint64 | float32 | numeric | stringer | enumer | obj => exact ha.elim
  | struct | map | set | list => exact oa.elim
  | bool a =>
    have hp : t = _ := ha
    subst hp
    obtain ⟨b, rfl⟩ := native_bool hb
    cases a <;> cases b <;> rfl
  | byte a =>
    have hp : t = _ := ha
    subst hp
    obtain ⟨b, rfl⟩ := native_byte hb
    simp only [Dyn.goEq, Dyn.key, single_inj, natCast_inj, BitVec.toNat_inj]
  | int16 a =>
    have hp : t = _ := ha
    subst hp
    obtain ⟨b, rfl⟩ := native_int16 hb
    simp only [Dyn.goEq, Dyn.key, single_inj, BitVec.toInt_inj]
  | int32 a =>
    have hp : t = _ := ha
    subst hp
    obtain ⟨b, rfl⟩ := native_int32 hb
    simp only [Dyn.goEq, Dyn.key, single_inj, BitVec.toInt_inj]
  | int64 a =>
    have hp : t = _ := ha
    subst hp
    obtain ⟨b, rfl⟩ := native_int64 hb
    simp only [Dyn.goEq, Dyn.key, single_inj, BitVec.toInt_inj]
  | float64 a =>
    have hp : t = _ := ha
    subst hp
    obtain ⟨b, rfl⟩ := native_float64 hb
    have oa : F64.isNaN a = false := oa
    have ob : F64.isNaN b = false := ob
    simp only [Dyn.goEq, Dyn.key, single_inj, F64.eq, oa, ob]
    simp
    rw [Bool.eq_iff_iff]; simp
  | string a =>
    obtain ⟨b, rfl⟩ := native_string ha hb
    simp only [Dyn.goEq]
    congr 1
    rw [decide_eq_decide]
    exact ⟨fun h => by rw [h], bytesKey_inj⟩
  | bytes a => exact absurd ha ht

theorem bytesEq_key (a b : Bytes) : bytesEq (.bytes a) (.bytes b) = .ok (decide ((Dyn.bytes a).key = (Dyn.bytes b).key)) := by
  simp only [bytesEq]
  congr 1
  rw [decide_eq_decide]
  exact (compareString_sign a b).zero_iff

theorem Scalar.base {t : TType} {a : Dyn} (h : Scalar t a) : isBaseType t = true := by
  obtain ⟨ha, oa⟩ := h
  cases a with
  | nil | int | int8 | uint | uint16 | uint32 | uint64 | float32 | numeric | stringer | enumer | obj => exact ha.elim
  | struct | map | set | list => exact oa.elim
  | string a => rcases ha with h | h | h <;> subst h <;> rfl
  | _ =>
    have hp : t = _ := ha
    subst hp
    rfl

theorem elemTest_scalar (L : FloatLib) {t : TType} {a b : Dyn} (ha : Scalar t a) (hb : Scalar t b) :
    elemTest L t a b = .ok (decide (a.key = b.key)) := by
  unfold elemTest
  by_cases ht : t = TT.BINARY
  · subst ht
    obtain ⟨a, rfl⟩ := native_bytes ha.1
    obtain ⟨b, rfl⟩ := native_bytes hb.1
    rw [if_pos rfl, bytesEq_key]
  · rw [if_neg ht, if_pos (by rw [ha.base]; rfl), goEq_scalar ha hb ht]

theorem scalarOrder (L : FloatLib) (t : TType) : KeyOrder L t (Scalar t) Dyn.key where
  native _ h := h.1
  cmp _ _ ha hb := compare_scalar L ha hb
  eqv _ _ ha hb := elemTest_scalar L ha hb

variable {L : FloatLib} {t : TType} {S : Dyn → Prop} {k : Dyn → List Int}

/-- `Compare` on values of `S`, as a case distinction. -/
theorem KeyOrder.cases (O : KeyOrder L t S k) {a b : Dyn} (ha : S a) (hb : S b) :
    (LexLt (k a) (k b) ∧ compare L t a b = .ok (-1, true)) ∨ (k a = k b ∧ compare L t a b = .ok (0, true)) ∨
      (LexLt (k b) (k a) ∧ compare L t a b = .ok (1, true)) := by
  obtain ⟨c, h, s⟩ := O.cmp a b ha hb
  cases s with
  | lt e => exact Or.inl ⟨e, h⟩
  | eq e => exact Or.inr (Or.inl ⟨e, h⟩)
  | gt e => exact Or.inr (Or.inr ⟨e, h⟩)

/-- What adding to a list of elements does. -/
inductive Added (k : Dyn → List Int) (x : Dyn) : List Dyn → List Dyn → Prop
  | lost : Added k x [] []
  | same : k x = k e → Added k x (e :: es) (e :: es)
  | here : LexLt (k e) (k x) → Added k x (e :: es) (x :: e :: es)
  | later : LexLt (k x) (k e) → Added k x es es' → Added k x (e :: es) (e :: es')

theorem addLoop_added (O : KeyOrder L t S k) {x : Dyn} (hx : S x) : ∀ l, (∀ e ∈ l, S e) →
    ∃ l', TSet.addLoop L t x l = .ok l' ∧ Added k x l l'
  | [], _ => ⟨[], rfl, .lost⟩
  | e :: es, hl => by
    rcases O.cases hx (hl e List.mem_cons_self) with ⟨h, hc⟩ | ⟨h, hc⟩ | ⟨h, hc⟩
    · obtain ⟨l', h1, h2⟩ := addLoop_added O hx es fun e he => hl e (List.mem_cons_of_mem _ he)
      exact ⟨e :: l', by rw [TSet.addLoop, hc]; simp [h1], .later h h2⟩
    · exact ⟨e :: es, by rw [TSet.addLoop, hc]; rfl, .same h⟩
    · exact ⟨x :: e :: es, by rw [TSet.addLoop, hc]; rfl, .here h⟩

/-- Strictly descending keys. -/
def Desc (k : Dyn → List Int) (l : List Dyn) : Prop := l.Pairwise fun a b => LexLt (k b) (k a)

theorem Added.mem (h : Added k x l l') : ∀ y ∈ l', y = x ∨ y ∈ l := by
  induction h with
  | lost => exact fun _ h => Or.inr h
  | same => exact fun _ h => Or.inr h
  | here => exact fun y h => List.mem_cons.1 h
  | later _ _ ih =>
    intro y h
    rcases List.mem_cons.1 h with h | h
    · exact Or.inr (h ▸ List.mem_cons_self)
    · exact (ih y h).imp id (List.mem_cons_of_mem _)

theorem Added.keeps (h : Added k x l l') : ∀ y ∈ l, y ∈ l' := by
  induction h with
  | lost => exact fun _ h => h
  | same => exact fun _ h => h
  | here => exact fun y h => List.mem_cons_of_mem _ h
  | later _ _ ih =>
    intro y h
    rcases List.mem_cons.1 h with h | h
    · exact h ▸ List.mem_cons_self
    · exact List.mem_cons_of_mem _ (ih y h)

theorem Added.desc (h : Added k x l l') (hd : Desc k l) : Desc k l' := by
  induction h with
  | lost => exact hd
  | same => exact hd
  | here h1 =>
    refine List.pairwise_cons.2 ⟨fun y hy => ?_, hd⟩
    rcases List.mem_cons.1 hy with h | h
    · exact h ▸ h1
    · exact ((List.pairwise_cons.1 hd).1 y h).trans h1
  | later h1 h2 ih =>
    have hd' := List.pairwise_cons.1 hd
    refine List.pairwise_cons.2 ⟨fun y hy => ?_, ih hd'.2⟩
    rcases h2.mem y hy with h | h
    · exact h ▸ h1
    · exact hd'.1 y h

/-- The new value is a member exactly if some member was not above it. -/
theorem Added.member_iff (h : Added k x l l') : (∃ y ∈ l', k y = k x) ↔ ∃ m ∈ l, ¬ LexLt (k x) (k m) := by
  induction h with
  | lost => exact ⟨fun ⟨_, h, _⟩ => absurd h List.not_mem_nil, fun ⟨_, h, _⟩ => absurd h List.not_mem_nil⟩
  | same h =>
    exact ⟨fun _ => ⟨_, List.mem_cons_self, h ▸ LexLt.irrefl _⟩, fun _ => ⟨_, List.mem_cons_self, h.symm⟩⟩
  | here h =>
    exact ⟨fun _ => ⟨_, List.mem_cons_self, h.asymm⟩, fun _ => ⟨_, List.mem_cons_self, rfl⟩⟩
  | later h h2 ih =>
    constructor
    · rintro ⟨y, hy, e⟩
      rcases List.mem_cons.1 hy with hy | hy
      · subst hy; exact absurd (e ▸ h) (LexLt.irrefl _)
      · obtain ⟨m, hm, hl⟩ := ih.1 ⟨y, hy, e⟩
        exact ⟨m, List.mem_cons_of_mem _ hm, hl⟩
    · rintro ⟨m, hm, hl⟩
      rcases List.mem_cons.1 hm with hm | hm
      · subst hm; exact absurd h hl
      · obtain ⟨y, hy, e⟩ := ih.2 ⟨m, hm, hl⟩
        exact ⟨y, List.mem_cons_of_mem _ hy, e⟩

/-- If every member was above the new value, nothing changes. -/
theorem Added.unchanged (h : Added k x l l') (ha : ∀ m ∈ l, LexLt (k x) (k m)) : l' = l := by
  induction h with
  | lost => rfl
  | same h => exact absurd (h ▸ ha _ List.mem_cons_self) (LexLt.irrefl _)
  | here h => exact absurd h (ha _ List.mem_cons_self).asymm
  | later h h2 ih => rw [ih fun m hm => ha m (List.mem_cons_of_mem _ hm)]

theorem findIdxRes_test (f : Dyn → Res Bool) (g : Dyn → Bool) : ∀ l, (∀ e ∈ l, f e = .ok (g e)) →
    findIdxRes f l = .ok (l.findIdx? g)
  | [], _ => rfl
  | e :: es, h => by
    have ih := findIdxRes_test f g es fun e he => h e (List.mem_cons_of_mem _ he)
    rw [findIdxRes, h e List.mem_cons_self, ih, List.findIdx?_cons]
    cases g e <;> rfl

/-- A value that the element type turns into a value of `S`, or refuses. -/
def Coerces (L : FloatLib) (t : TType) (S : Dyn → Prop) (v : Dyn) : Prop :=
  v.isNil = false ∧ ∃ x ok, coerceData L t v = .ok (x, ok) ∧ (ok = true → S x)

theorem KeyOrder.coerces (O : KeyOrder L t S k) (hx : S x) : Coerces L t S x :=
  ⟨(O.native x hx).not_nil, x, true, coerceData_native L (O.native x hx), fun _ => hx⟩

theorem findElem_coerced (O : KeyOrder L t S k) {v x : Dyn} (hv : v.isNil = false)
    (hc : coerceData L t v = .ok (x, true)) (hx : S x) {l : List Dyn} (hl : ∀ e ∈ l, S e) :
    findElem L t l v = .ok (l.findIdx? fun e => k x = k e) := by
  rw [findElem, hv, hc]
  show (if (x.isNil || false) = true then Res.ok none else findIdxRes (elemTest L t x) l) = _
  rw [(O.native x hx).not_nil]
  exact findIdxRes_test _ _ l fun e he => O.eqv x e hx (hl e he)

theorem findElem_refused {v x : Dyn} (hv : v.isNil = false) (hc : coerceData L t v = .ok (x, false)) (l : List Dyn) :
    findElem L t l v = .ok none := by
  rw [findElem, hv, hc]
  show (if (x.isNil || true) = true then Res.ok none else _) = _
  rw [Bool.or_true]; rfl

theorem findElem_eq (O : KeyOrder L t S k) {x : Dyn} (hx : S x) {l : List Dyn} (hl : ∀ e ∈ l, S e) :
    findElem L t l x = .ok (l.findIdx? fun e => k x = k e) :=
  findElem_coerced O (O.native x hx).not_nil (coerceData_native L (O.native x hx)) hx hl

/-- A strictly descending list is determined by its keys. -/
theorem Desc.ext : ∀ {l l' : List Dyn}, Desc k l → Desc k l' →
    (∀ key, key ∈ l.map k ↔ key ∈ l'.map k) → l.map k = l'.map k
  | [], [], _, _, _ => rfl
  | [], b :: bs, _, _, h => absurd ((h (k b)).2 List.mem_cons_self) List.not_mem_nil
  | a :: as, [], _, _, h => absurd ((h (k a)).1 List.mem_cons_self) List.not_mem_nil
  | a :: as, b :: bs, ha, hb, h => by
    have pa := List.pairwise_cons.1 ha
    have pb := List.pairwise_cons.1 hb
    have below : ∀ {x : Dyn} {xs : List Dyn}, (∀ y ∈ xs, LexLt (k y) (k x)) → ∀ key ∈ xs.map k, LexLt key (k x) := by
      intro x xs hx key hk
      obtain ⟨y, hy, rfl⟩ := List.mem_map.1 hk
      exact hx y hy
    have e : k a = k b := by
      rcases List.mem_cons.1 ((h (k a)).1 List.mem_cons_self) with h1 | h1
      · exact h1
      · rcases List.mem_cons.1 ((h (k b)).2 List.mem_cons_self) with h2 | h2
        · exact h2.symm
        · exact absurd (below pb.1 _ h1) (below pa.1 _ h2).asymm
    have ih := Desc.ext pa.2 pb.2 fun key => by
      constructor
      · intro hk
        rcases List.mem_cons.1 ((h key).1 (List.mem_cons_of_mem _ hk)) with h1 | h1
        · exact absurd (h1 ▸ e ▸ below pa.1 _ hk) (LexLt.irrefl _)
        · exact h1
      · intro hk
        rcases List.mem_cons.1 ((h key).2 (List.mem_cons_of_mem _ hk)) with h1 | h1
        · exact absurd (h1 ▸ e.symm ▸ below pb.1 _ hk) (LexLt.irrefl _)
        · exact h1
    rw [List.map_cons, List.map_cons, e, ih]

/-! ## Set operations -/

/-- The state of a set of values of `S`. -/
structure SetOk (t : TType) (S : Dyn → Prop) (k : Dyn → List Int) (p : TSet) : Prop where
  type : p.elemType = t
  elems : ∀ e ∈ p.l, S e
  desc : Desc k p.l

theorem contains_eq (O : KeyOrder L t S k) {p : TSet} (hp : SetOk t S k p) {x : Dyn} (hx : S x) :
    p.contains L x = .ok (decide (∃ y ∈ p.l, k y = k x)) := by
  rw [TSet.contains, hp.type, findElem_eq O hx hp.elems]
  show Res.ok _ = _
  congr 1
  rw [List.findIdx?_isSome, Bool.eq_iff_iff, List.any_eq_true, decide_eq_true_eq]
  exact ⟨fun ⟨y, hy, e⟩ => ⟨y, hy, (of_decide_eq_true e).symm⟩, fun ⟨y, hy, e⟩ => ⟨y, hy, decide_eq_true e.symm⟩⟩

theorem add_ok (O : KeyOrder L t S k) {p : TSet} (hp : SetOk t S k p) {v : Dyn} (hv : Coerces L t S v) :
    ∃ p', p.add L v = .ok p' ∧ SetOk t S k p' := by
  obtain ⟨_, x, ok, hc, hx⟩ := hv
  cases ok with
  | false => exact ⟨p, by rw [TSet.add, hp.type, hc]; rfl, hp⟩
  | true =>
    have hx := hx rfl
    cases hl : p.l with
    | nil =>
      refine ⟨{ p with l := [x] }, by rw [TSet.add, hp.type, hc, hl]; rfl, hp.type, ?_, List.pairwise_singleton _ _⟩
      intro e he
      exact List.mem_singleton.1 he ▸ hx
    | cons e es =>
      obtain ⟨l', h1, h2⟩ := addLoop_added O hx p.l hp.elems
      refine ⟨{ p with l := l' }, ?_, hp.type, ?_, h2.desc hp.desc⟩
      · rw [TSet.add, hp.type, hc]
        show (if p.l.isEmpty = true then _ else _) = _
        rw [h1, hl]; rfl
      · intro y hy
        rcases h2.mem y hy with h | h
        · exact h ▸ hx
        · exact hp.elems y h

theorem add_cons (O : KeyOrder L t S k) {p : TSet} (hp : SetOk t S k p) {x : Dyn} (hx : S x) (hl : p.l ≠ []) :
    ∃ l', p.add L x = .ok { p with l := l' } ∧ Added k x p.l l' := by
  obtain ⟨l', h1, h2⟩ := addLoop_added O hx p.l hp.elems
  refine ⟨l', ?_, h2⟩
  rw [TSet.add, hp.type, coerceData_native L (O.native x hx)]
  show (if p.l.isEmpty = true then _ else _) = _
  rw [h1, if_neg (by simpa using hl)]; rfl

theorem add_nil (O : KeyOrder L t S k) {p : TSet} (hp : SetOk t S k p) {x : Dyn} (hx : S x) (hl : p.l = []) :
    p.add L x = .ok { p with l := [x] } := by
  rw [TSet.add, hp.type, coerceData_native L (O.native x hx), hl]; rfl

theorem remove_ok (O : KeyOrder L t S k) {p : TSet} (hp : SetOk t S k p) {v : Dyn} (hv : Coerces L t S v) :
    ∃ p', p.remove L v = .ok p' ∧ SetOk t S k p' ∧ p'.l.Sublist p.l := by
  obtain ⟨hn, x, ok, hc, hx⟩ := hv
  have : ∃ o, findElem L p.elemType p.l v = .ok o := by
    rw [hp.type]
    cases ok with
    | false => exact ⟨_, findElem_refused hn hc _⟩
    | true => exact ⟨_, findElem_coerced O hn hc (hx rfl) hp.elems⟩
  obtain ⟨o, ho⟩ := this
  cases o with
  | none => exact ⟨p, by rw [TSet.remove, ho]; rfl, hp, List.Sublist.refl _⟩
  | some i =>
    have hs := List.eraseIdx_sublist p.l i
    exact ⟨{ p with l := p.l.eraseIdx i }, by rw [TSet.remove, ho]; rfl,
      ⟨hp.type, fun e he => hp.elems e (hs.subset he), hp.desc.sublist hs⟩, hs⟩

theorem erase_found : ∀ {l : List Dyn} {i : Nat} {key : List Int}, Desc k l →
    l.findIdx? (fun e => decide (key = k e)) = some i → ∀ y, y ∈ l.eraseIdx i ↔ y ∈ l ∧ k y ≠ key
  | [], _, _, _, h, _ => by simp at h
  | e :: es, i, key, hd, h, y => by
    have hd' := List.pairwise_cons.1 hd
    rw [List.findIdx?_cons] at h
    by_cases he : key = k e
    · rw [if_pos (decide_eq_true he)] at h
      injection h with h
      subst h
      rw [List.eraseIdx_cons_zero, List.mem_cons]
      constructor
      · intro hy
        refine ⟨Or.inr hy, fun e' => ?_⟩
        exact absurd (e'.trans he ▸ hd'.1 y hy) (LexLt.irrefl _)
      · rintro ⟨hy | hy, hn⟩
        · exact absurd (hy ▸ he.symm) hn
        · exact hy
    · rw [if_neg (by simpa using he)] at h
      cases hf : es.findIdx? (fun e => decide (key = k e)) with
      | none => rw [hf] at h; simp at h
      | some j =>
        rw [hf] at h
        simp only [Option.map_some, Option.some.injEq] at h
        subst h
        rw [List.eraseIdx_cons_succ, List.mem_cons, List.mem_cons, erase_found hd'.2 hf y]
        constructor
        · rintro (hy | ⟨hy, hn⟩)
          · exact ⟨Or.inl hy, fun e' => he (hy ▸ e'.symm)⟩
          · exact ⟨Or.inr hy, hn⟩
        · rintro ⟨hy | hy, hn⟩
          · exact Or.inl hy
          · exact Or.inr ⟨hy, hn⟩

theorem remove_members (O : KeyOrder L t S k) {p : TSet} (hp : SetOk t S k p) {x : Dyn} (hx : S x) :
    ∃ p', p.remove L x = .ok p' ∧ p'.elemType = p.elemType ∧ p'.size = p.size ∧
      ∀ y, y ∈ p'.l ↔ y ∈ p.l ∧ k y ≠ k x := by
  have hf := findElem_eq O hx hp.elems
  rw [← hp.type] at hf
  cases ho : p.l.findIdx? fun e => k x = k e with
  | none =>
    refine ⟨p, by rw [TSet.remove, hf, ho]; rfl, rfl, rfl, fun y => ⟨fun hy => ⟨hy, fun e => ?_⟩, fun h => h.1⟩⟩
    have := List.findIdx?_eq_none_iff.1 ho y hy
    exact absurd e.symm (by simpa using this)
  | some i =>
    exact ⟨{ p with l := p.l.eraseIdx i }, by rw [TSet.remove, hf, ho]; rfl, rfl, rfl, erase_found hp.desc ho⟩

end Thrift
