import Verif.Lemmas.Nested
import Verif.Props.Collections
/-!
# C81 – C90: order of containers, fields and enums; coercion of odd values
-/

namespace Thrift

/-! ## C81 nested lists and sets -/

/-- `Compare` on nested lists and sets (no NaN inside) always succeeds and gives
the sign of the order: shorter before longer, then by the first difference; zero
means equal contents. -/
theorem C81_order (L : FloatLib) (heap : Nat → Dyn) (s : Shape) {a b : Dyn} (ha : s.Has heap a) (hb : s.Has heap b) :
    ∃ c, compare L s.type a b = .ok (c, true) ∧ (c < 0 ↔ s.Before a b) ∧ (c = 0 ↔ s.Same a b) ∧
      (0 < c ↔ s.Before b a) := by
  obtain ⟨c, h, sg⟩ := compare_shape L ha hb
  exact ⟨c, h, by rw [Shape.before_iff ha hb]; exact sg.neg_iff, by rw [Shape.same_iff ha hb]; exact sg.zero_iff,
    by rw [Shape.before_iff hb ha]; exact sg.pos_iff⟩

/-- That order is a total order. -/
theorem C81_total (heap : Nat → Dyn) (s : Shape) {a b c : Dyn} (ha : s.Has heap a) (hb : s.Has heap b)
    (hc : s.Has heap c) :
    ¬ s.Before a a ∧ s.Same a a ∧ (s.Before a b → s.Before b c → s.Before a c) ∧
    (s.Before a b ∨ s.Same a b ∨ s.Before b a) ∧ (s.Same a b → s.Before b c → s.Before a c) := by
  rw [Shape.before_iff ha ha, Shape.same_iff ha ha, Shape.before_iff ha hb, Shape.before_iff hb hc,
    Shape.before_iff ha hc, Shape.same_iff ha hb, Shape.before_iff hb ha]
  exact ⟨LexLt.irrefl _, rfl, LexLt.trans, LexLt.total _ _, fun e h => e ▸ h⟩

/-- `Equals` of lists and sets, and through it `Contains` of containers that hold
lists and sets: equality of contents. -/
theorem C81_equals (L : FloatLib) (heap : Nat → Dyn) (s : Shape) {a b : Dyn} (ha : s.Has heap a) (hb : s.Has heap b) :
    ∃ r, elemTest L s.type a b = .ok r ∧ (r = true ↔ s.Same a b) := by
  refine ⟨_, elemTest_shape L ha hb, ?_⟩
  rw [decide_eq_true_eq, Shape.same_iff ha hb]

/-- A heap with two lists of lists. -/
def exampleHeap : Nat → Dyn
  | 0 => .list 0 TT.I32 [.int32 1]
  | 1 => .list 1 TT.LIST [.list 0 TT.I32 [.int32 1]]
  | 2 => .list 2 TT.LIST []
  | _ => .nil

/-- Lists of lists exist on it, and they are in order. -/
example : (Shape.list (.list (.scalar TT.I32))).Has exampleHeap (exampleHeap 1) ∧
    (Shape.list (.list (.scalar TT.I32))).Has exampleHeap (exampleHeap 2) ∧
    (Shape.list (.list (.scalar TT.I32))).Before (exampleHeap 2) (exampleHeap 1) := by
  refine ⟨⟨1, _, rfl, rfl, ?_⟩, ⟨2, [], rfl, rfl, fun v h => nomatch h⟩, Or.inl (by decide)⟩
  intro v hv
  rw [List.mem_singleton.1 hv]
  refine ⟨0, _, rfl, rfl, ?_⟩
  intro v hv
  rw [List.mem_singleton.1 hv]
  exact ⟨rfl, trivial⟩

/-! ## C36 – C38 for sets of lists and sets -/

/-- `C36_partial` for sets whose elements are lists or sets. -/
theorem C36_nested_partial (L : FloatLib) (heap : Nat → Dyn) (s : Shape) (n : Int) (ops : List SetOp)
    (hops : ∀ op ∈ ops, s.Has heap op.arg) (x : Dyn) (hx : s.Has heap x) :
    ∃ p p', setHistory L (TSet.new s.type n) ops = .ok p ∧ p.add L x = .ok p' ∧
      (∀ y, s.Has heap y → p.contains L y = .ok true → p'.contains L y = .ok true) ∧
      (p'.contains L x = .ok true ↔ p.values = [] ∨ ∃ m ∈ p.values, ¬ s.Before x m) ∧
      (∀ m ∈ p'.values, m = x ∨ m ∈ p.values) := by
  have O := shapeOrder L heap s
  obtain ⟨p, h, hp, _⟩ := setHistory_ok O ops (TSet.new s.type n) (setNew_ok n) fun op hop => O.coerces (hops op hop)
  by_cases hl : p.l = []
  · have ha := add_nil O hp hx hl
    have hp' : SetOk s.type (s.Has heap) s.key { p with l := [x] } :=
      ⟨hp.type, fun e he => List.mem_singleton.1 he ▸ hx, List.pairwise_singleton _ _⟩
    refine ⟨p, _, h, ha, ?_, ?_, fun m hm => Or.inl (List.mem_singleton.1 hm)⟩
    · intro y hy hc
      rw [contains_eq O hp hy] at hc
      injection hc with hc
      obtain ⟨z, hz, _⟩ := of_decide_eq_true hc
      rw [hl] at hz
      exact absurd hz List.not_mem_nil
    · rw [contains_eq O hp' hx]
      exact ⟨fun _ => Or.inl hl, fun _ => congrArg _ (decide_eq_true ⟨x, List.mem_singleton.2 rfl, rfl⟩)⟩
  · obtain ⟨l', ha, had⟩ := add_cons O hp hx hl
    have hp' : SetOk s.type (s.Has heap) s.key { p with l := l' } :=
      ⟨hp.type, fun e he => (had.mem e he).elim (fun h => h ▸ hx) (hp.elems e), had.desc hp.desc⟩
    refine ⟨p, _, h, ha, ?_, ?_, had.mem⟩
    · intro y hy hc
      rw [contains_eq O hp hy] at hc
      rw [contains_eq O hp' hy]
      injection hc with hc
      obtain ⟨z, hz, e⟩ := of_decide_eq_true hc
      exact congrArg _ (decide_eq_true ⟨z, had.keeps z hz, e⟩)
    · rw [contains_eq O hp' hx]
      constructor
      · intro hc
        injection hc with hc
        obtain ⟨m, hm, hlt⟩ := had.member_iff.1 (of_decide_eq_true hc)
        exact Or.inr ⟨m, hm, by rw [Shape.before_iff hx (hp.elems m hm)]; exact hlt⟩
      · rintro (h0 | ⟨m, hm, hlt⟩)
        · exact absurd h0 hl
        · rw [Shape.before_iff hx (hp.elems m hm)] at hlt
          exact congrArg _ (decide_eq_true (had.member_iff.2 ⟨m, hm, hlt⟩))

/-- `C37_sorted_partial` for sets whose elements are lists or sets: the members
are strictly descending, hence without duplicates. -/
theorem C37_nested_partial (L : FloatLib) (heap : Nat → Dyn) (s : Shape) (n : Int) (ops : List SetOp)
    (hops : ∀ op ∈ ops, s.Has heap op.arg) :
    ∃ p, setHistory L (TSet.new s.type n) ops = .ok p ∧ (∀ m ∈ p.values, s.Has heap m) ∧
      p.values.Pairwise fun a b => s.Before b a := by
  have O := shapeOrder L heap s
  obtain ⟨p, h, hp, _⟩ := setHistory_ok O ops (TSet.new s.type n) (setNew_ok n) fun op hop => O.coerces (hops op hop)
  refine ⟨p, h, hp.elems, ?_⟩
  have hd : p.l.Pairwise fun a b => LexLt (s.key b) (s.key a) := hp.desc
  exact hd.imp_of_mem fun {a b} ha hb hlt => (Shape.before_iff (hp.elems b hb) (hp.elems a ha)).2 hlt

example : ∀ op ∈ [SetOp.add (exampleHeap 1), .remove (exampleHeap 2)], ∃ ptr vs, op.arg = .list ptr TT.LIST vs := by
  intro op hop
  rcases List.mem_cons.1 hop with h | h
  · rw [h]; exact ⟨1, _, rfl⟩
  · rw [List.mem_singleton.1 h]; exact ⟨2, _, rfl⟩

/-! ## C43 the Less of lists -/

/-- C43 for `Less` of a list: element `i` is smaller than element `j`. -/
def C43_list_statement : Prop :=
  ∀ (L : FloatLib) t (l : List Dyn) (i j : Nat) x y, (∀ v ∈ l, Scalar t v) → l[i]? = some x → l[j]? = some y →
    ∃ r, TList.less L ⟨t, l⟩ i j = .ok r ∧ (r = true ↔ LexLt x.key y.key)

theorem index_some {l : List Dyn} {i : Nat} {x : Dyn} (h : l[i]? = some x) : TList.index l (i : Int) = .ok x := by
  rw [TList.index, if_neg (by omega)]
  simp [h]

/-- `Less` of a list says yes for any two elements, whatever their order. -/
theorem C43_list_partial (L : FloatLib) (t : TType) (l : List Dyn) (i j : Nat) (x y : Dyn) (hl : ∀ v ∈ l, Scalar t v)
    (hx : l[i]? = some x) (hy : l[j]? = some y) : TList.less L ⟨t, l⟩ i j = .ok true := by
  obtain ⟨c, hc, _⟩ := compare_scalar L (hl x (List.mem_of_getElem? hx)) (hl y (List.mem_of_getElem? hy))
  rw [TList.less, index_some hx, index_some hy]
  simp only [Res.bind_ok, hc, Res.pure_def]

theorem C43_list_violated : ¬ C43_list_statement := by
  intro h
  have hl : ∀ v ∈ [Dyn.int32 1], Scalar TT.I32 v := fun v hv => by rw [List.mem_singleton.1 hv]; exact ⟨rfl, trivial⟩
  obtain ⟨r, h1, h2⟩ := h exampleLib TT.I32 [.int32 1] 0 0 (.int32 1) (.int32 1) hl rfl rfl
  have h3 := C43_list_partial exampleLib TT.I32 [.int32 1] 0 0 (.int32 1) (.int32 1) hl rfl rfl
  obtain rfl : r = true := by
    have := h1.symm.trans h3
    injection this
  exact LexLt.irrefl _ (h2.1 rfl)

/-- C43 for `Less` of sets: the first set is the smaller one. -/
def C43_set_statement : Prop :=
  ∀ (L : FloatLib) (heap : Nat → Dyn) (s : Shape) (a b : Dyn), (Shape.set s).Has heap a → (Shape.set s).Has heap b →
    ∃ r, lessOf L TT.SET a b = .ok r ∧ (r = true ↔ (Shape.set s).Before a b)

/-- `Less` of a set says yes exactly if the other set is the smaller one. -/
theorem C43_set_partial (L : FloatLib) (heap : Nat → Dyn) (s : Shape) {a b : Dyn} (ha : (Shape.set s).Has heap a)
    (hb : (Shape.set s).Has heap b) : ∃ r, lessOf L TT.SET a b = .ok r ∧ (r = true ↔ (Shape.set s).Before b a) := by
  obtain ⟨c, h, _, _, h3⟩ := C81_order L heap (.set s) ha hb
  refine ⟨decide (c > 0), ?_, ?_⟩
  · rw [lessOf, show compare L TT.SET a b = .ok (c, true) from h]
    rfl
  · rw [decide_eq_true_eq]; exact h3

/-- An empty set and one with one element. -/
def exampleSets : Nat → Dyn
  | 0 => .set 0 TT.I32 0 []
  | 1 => .set 1 TT.I32 1 [.int32 1]
  | _ => .nil

theorem exampleSets_have : (Shape.set (.scalar TT.I32)).Has exampleSets (exampleSets 0) ∧
    (Shape.set (.scalar TT.I32)).Has exampleSets (exampleSets 1) ∧
    (Shape.set (.scalar TT.I32)).Before (exampleSets 0) (exampleSets 1) := by
  refine ⟨⟨0, 0, [], rfl, rfl, fun v h => nomatch h⟩, ⟨1, 1, _, rfl, rfl, fun v hv => ?_⟩, Or.inl (by decide)⟩
  rw [List.mem_singleton.1 hv]
  exact ⟨rfl, trivial⟩

theorem C43_set_violated : ¬ C43_set_statement := by
  intro h
  obtain ⟨h0, h1, hb⟩ := exampleSets_have
  obtain ⟨r, e, hr⟩ := h exampleLib exampleSets (.scalar TT.I32) _ _ h0 h1
  obtain ⟨r', e', hr'⟩ := C43_set_partial exampleLib exampleSets (.scalar TT.I32) h0 h1
  have : r = r' := by
    have := e.symm.trans e'
    injection this
  subst this
  have t := C81_total exampleSets (.set (.scalar TT.I32)) h0 h1 h0
  exact t.1 (t.2.2.1 hb (hr'.1 (hr.2 hb)))

/-- `Less` of maps and sets, whatever they hold: it is `CompareTo` with the sides
exchanged, no wherever that does not answer, and a panic where that panics. -/
theorem C43_map_partial (L : FloatLib) (t : TType) (a b : Dyn) :
    (∀ c, compare L t a b = .ok (c, true) → lessOf L t a b = .ok (decide (0 < c))) ∧
    (∀ c, compare L t a b = .ok (c, false) → lessOf L t a b = .ok false) ∧
    (compare L t a b = .panic → lessOf L t a b = .panic) := by
  refine ⟨fun c h => ?_, fun c h => ?_, fun h => ?_⟩ <;> (rw [lessOf, h]; rfl)

example : lessOf exampleLib TT.MAP (.map 0 TT.I32 TT.I32 1 [.int32 1] [.int32 1] [(.int32 1, .int32 1)])
    (.map 1 TT.I32 TT.I32 0 [] [] []) = .ok true := by decide +kernel

example : (∀ v ∈ [Dyn.int32 2, .int32 1], Scalar TT.I32 v) ∧ [Dyn.int32 2, .int32 1][0]? = some (.int32 2) := by
  refine ⟨fun v hv => ?_, rfl⟩
  rcases List.mem_cons.1 hv with h | h
  · rw [h]; exact ⟨rfl, trivial⟩
  · rw [List.mem_singleton.1 h]; exact ⟨rfl, trivial⟩

/-! ## C41 Contains -/

theorem mapContains_ok (L : FloatLib) {t vt n p} (hp : MapOk t vt n p) {a : Dyn} (ha : Scalar t a) :
    p.contains L a = .ok (assoc p.rep a.key).isSome := by
  have hne := ha.notEmpty
  have hse : ¬ (t = TT.STOP ∨ t = TT.VOID) := by
    intro h
    rw [isEmptyType] at hne
    rcases h with h | h <;> simp [h] at hne
  rw [TMap.contains, hp.kt, coerceData_native L ha.1]
  by_cases ht : t = TT.BINARY
  · subst ht
    have hu : TMap.usesGoMap TT.BINARY = false := rfl
    have hr : p.rep = p.l := by rw [TMap.rep, if_pos hp.kt]
    have : TMap.scan (TMap.keyTest L TT.BINARY a) p.l = .ok (assoc p.rep a.key) := by
      rw [scan_eq _ (fun x => decide (x.key = a.key)), hr]
      · rfl
      · intro e he
        have he := hp.keys e (hr ▸ he)
        refine ⟨he.1.not_nil, ?_⟩
        rw [TMap.keyTest, if_pos rfl]
        obtain ⟨x, hx⟩ := native_bytes he.1
        obtain ⟨y, rfl⟩ := native_bytes ha.1
        rw [hx, bytesEq_key]
    simp only [Res.bind_ok, Bool.not_true, Bool.false_eq_true, if_false, ha.1.not_nil, if_neg hse, hu, this, Res.pure_def]
  · obtain ⟨hu, hf⟩ := ha.goMap ht
    have hr : p.rep = p.m.getD [] := by rw [TMap.rep, hp.kt, if_neg ht]
    simp only [Res.bind_ok, Bool.not_true, Bool.false_eq_true, if_false, ha.1.not_nil, if_neg hse, hu, if_true, hf]
    cases hm : p.m with
    | none =>
      have : p.rep = [] := hp.nomap hm ht
      rw [this]
      simp [assoc]
    | some m =>
      have hrm : p.rep = m := by rw [hr, hm]; rfl
      have hk : ∀ e ∈ m, Scalar t e.1 := hrm ▸ hp.keys
      simp only [lookup_assoc hk ha ht, hrm, Res.pure_def]

/-- After every history of `Set` calls a map with scalar keys contains exactly
the keys that were set (here nothing is special about boolean keys). -/
theorem C41_contains_partial (L : FloatLib) (t vt : TType) (n : Int) (hs : List (Dyn × Dyn)) (hg : GoodHistory t vt hs) :
    ∃ p, mapHistory L (TMap.new t vt n) hs = .ok p ∧
      ∀ k, Scalar t k → ∃ r, p.contains L k = .ok r ∧ (r = true ↔ ∃ e ∈ hs, e.1.key = k.key) := by
  obtain ⟨p, h, hp, _, ha⟩ := mapHistory_ok L hs _ (mapNew_ok t vt n) hg
  have hnew : (TMap.new t vt n).rep = [] := by rw [TMap.rep]; split <;> rfl
  refine ⟨p, h, fun k hk => ⟨_, mapContains_ok L hp hk, ?_⟩⟩
  rw [ha k.key, hnew]
  have := lastValue_none_iff k.key hs
  cases hv : lastValue hs k.key with
  | some v =>
    simp only [Option.isSome_some, true_iff]
    rw [hv] at this
    simp only [reduceCtorEq, false_iff] at this
    apply Classical.byContradiction
    intro hno
    exact this fun e he hek => hno ⟨e, he, hek⟩
  | none =>
    simp only [assoc, List.find?_nil, Option.map_none, Option.isSome_none, Bool.false_eq_true, false_iff]
    rintro ⟨e, he, hek⟩
    exact this.1 hv e he hek

/-! ## C82 equality of maps -/

/-- A map value with these entries: its keys and its values come in some order,
each in its own. -/
def MapShows (es : List (Dyn × Dyn)) (kt vt : TType) (d : Dyn) : Prop :=
  ∃ ptr ks vs es', d = .map ptr kt vt es.length ks vs es' ∧ ks.Perm (es.map (·.1)) ∧ vs.Perm (es.map (·.2)) ∧ es'.Perm es

/-- Entries with different scalar keys and scalar values. -/
def GoodEntries (kt vt : TType) (es : List (Dyn × Dyn)) : Prop :=
  (∀ e ∈ es, Scalar kt e.1 ∧ Scalar vt e.2) ∧ es.Pairwise fun a b => a.1.key ≠ b.1.key

/-- The same finite map. -/
def SameEntries (es fs : List (Dyn × Dyn)) : Prop :=
  ∀ k v, (∃ e ∈ es, e.1.key = k ∧ e.2.key = v) ↔ ∃ e ∈ fs, e.1.key = k ∧ e.2.key = v

/-- C82 in full: two different map objects compare equal exactly when they have
the same entries. -/
def C82_statement : Prop :=
  ∀ (L : FloatLib) kt vt es fs a b, GoodEntries kt vt es → GoodEntries kt vt fs → MapShows es kt vt a → MapShows fs kt vt b →
    a.goEq b = .ok false → ∃ c, compare L TT.MAP a b = .ok (c, true) ∧ (c = 0 ↔ SameEntries es fs)

/-- Two entries. -/
def twoEntries : List (Dyn × Dyn) := [(.int32 1, .int32 10), (.int32 2, .int32 20)]
/-- The same keys with the values exchanged. -/
def crossedEntries : List (Dyn × Dyn) := [(.int32 1, .int32 20), (.int32 2, .int32 10)]

theorem twoEntries_good : GoodEntries TT.I32 TT.I32 twoEntries := by
  refine ⟨fun e he => ?_, ?_⟩
  · rcases List.mem_cons.1 he with h | h
    · rw [h]; exact ⟨⟨rfl, trivial⟩, rfl, trivial⟩
    · rw [List.mem_singleton.1 h]; exact ⟨⟨rfl, trivial⟩, rfl, trivial⟩
  · refine List.Pairwise.cons (fun e he => ?_) (List.pairwise_singleton _ _)
    rw [List.mem_singleton.1 he]
    decide

theorem crossedEntries_good : GoodEntries TT.I32 TT.I32 crossedEntries := by
  refine ⟨fun e he => ?_, ?_⟩
  · rcases List.mem_cons.1 he with h | h
    · rw [h]; exact ⟨⟨rfl, trivial⟩, rfl, trivial⟩
    · rw [List.mem_singleton.1 h]; exact ⟨⟨rfl, trivial⟩, rfl, trivial⟩
  · refine List.Pairwise.cons (fun e he => ?_) (List.pairwise_singleton _ _)
    rw [List.mem_singleton.1 he]
    decide

/-- C82 does not hold: two maps with the same entries differ when Go happens to
enumerate their keys in different orders. -/
theorem C82_violated : ¬ C82_statement := by
  intro h
  obtain ⟨c, hc, he⟩ := h exampleLib TT.I32 TT.I32 twoEntries twoEntries
    (.map 1 TT.I32 TT.I32 2 [.int32 1, .int32 2] [.int32 10, .int32 20] twoEntries)
    (.map 2 TT.I32 TT.I32 2 [.int32 2, .int32 1] [.int32 20, .int32 10] twoEntries) twoEntries_good twoEntries_good
    ⟨1, _, _, _, rfl, .refl _, .refl _, .refl _⟩ ⟨2, _, _, _, rfl, .swap _ _ _, .swap _ _ _, .refl _⟩ rfl
  have : compare exampleLib TT.MAP (.map 1 TT.I32 TT.I32 2 [.int32 1, .int32 2] [.int32 10, .int32 20] twoEntries)
    (.map 2 TT.I32 TT.I32 2 [.int32 2, .int32 1] [.int32 20, .int32 10] twoEntries) = .ok (-1, true) := by decide +kernel
  rw [this] at hc
  injection hc with hc
  injection hc with hc
  exact absurd (he.2 fun _ _ => Iff.rfl) (by omega)

/-- The other direction fails too: keys and values are enumerated separately, so
maps with the values exchanged can compare equal. -/
theorem C82_crossed_violated : ¬ C82_statement := by
  intro h
  obtain ⟨c, hc, he⟩ := h exampleLib TT.I32 TT.I32 twoEntries crossedEntries
    (.map 1 TT.I32 TT.I32 2 [.int32 1, .int32 2] [.int32 10, .int32 20] twoEntries)
    (.map 2 TT.I32 TT.I32 2 [.int32 1, .int32 2] [.int32 10, .int32 20] crossedEntries) twoEntries_good crossedEntries_good
    ⟨1, _, _, _, rfl, .refl _, .refl _, .refl _⟩ ⟨2, _, _, _, rfl, .refl _, .swap _ _ _, .refl _⟩ rfl
  have : compare exampleLib TT.MAP (.map 1 TT.I32 TT.I32 2 [.int32 1, .int32 2] [.int32 10, .int32 20] twoEntries)
    (.map 2 TT.I32 TT.I32 2 [.int32 1, .int32 2] [.int32 10, .int32 20] crossedEntries) = .ok (0, true) := by decide +kernel
  rw [this] at hc
  injection hc with hc
  injection hc with hc
  obtain ⟨e, hm, hk, hv⟩ := (he.1 hc.symm [1] [10]).1 ⟨(.int32 1, .int32 10), List.mem_cons_self, by decide, by decide⟩
  rcases List.mem_cons.1 hm with h | h
  · subst h
    exact absurd hv (by decide)
  · rw [List.mem_singleton.1 h] at hk
    exact absurd hk (by decide)

/-- Two rows of scalar values have equal keys. -/
def KeysAgree : List Dyn → List Dyn → Prop := RowSame fun a b => a.key = b.key

theorem compareValueArrays_sign {cmp : Dyn → Dyn → Res (Int × Bool)} {xs ys : List Dyn}
    (h : ∀ x ∈ xs, ∀ y ∈ ys, ∃ c, cmp x y = .ok (c, true) ∧ SignOf x.key y.key c) :
    ∃ c, compareValueArrays cmp xs ys = .ok (c, true) ∧ (c = 0 ↔ KeysAgree xs ys) := by
  rw [compareValueArrays]
  have hks := rowSame_iff (k := Dyn.key) (same := fun a b => a.key = b.key) xs ys fun _ _ _ _ => Iff.rfl
  by_cases hl : xs.length = ys.length
  · obtain ⟨c, hc, sc⟩ := compareArrays_sign (k := Dyn.key) xs ys hl h
    have : compareInt xs.length ys.length = 0 := by rw [hl]; simp [compareInt]
    refine ⟨c, by simp only [this, ne_eq, not_true_eq_false, if_false]; exact hc, ?_⟩
    rw [sc.zero_iff, KeysAgree, hks]
    simp [hl]
  · have : compareInt xs.length ys.length ≠ 0 := by unfold compareInt; split <;> (try split) <;> omega
    refine ⟨compareInt xs.length ys.length, by simp only [if_pos this], ?_⟩
    rw [KeysAgree, hks]
    simp [this, hl]

/-- What `Compare` on two different map objects with scalar keys and values
decides: the same number of entries, the same keys in the order of enumeration,
and the same values in the order of their enumeration.  C82 is missing that the
orders play no part. -/
theorem C82_partial (L : FloatLib) (kt vt : TType) (p q : Nat) (m n : Int) (ks vs ls ws : List Dyn) (es fs)
    (hpq : p ≠ q) (hk : ∀ k ∈ ks ++ ls, Scalar kt k) (hv : ∀ v ∈ vs ++ ws, Scalar vt v) :
    ∃ c, compare L TT.MAP (.map p kt vt m ks vs es) (.map q kt vt n ls ws fs) = .ok (c, true) ∧
      (c = 0 ↔ m = n ∧ KeysAgree ks ls ∧ KeysAgree vs ws) := by
  obtain ⟨N', hN⟩ : ∃ N', max (Dyn.map p kt vt m ks vs es).depth (Dyn.map q kt vt n ls ws fs).depth = N' + 1 := by
    rw [Dyn.depth, Dyn.depth]
    exact ⟨_ - 1, (Nat.sub_add_cancel (by omega)).symm⟩
  rw [compare, hN, compareFuel_native L (N' + 1) (p := TT.MAP) (a := .map p kt vt m ks vs es)
    (b := .map q kt vt n ls ws fs) rfl rfl, if_pos (by decide), Dyn.goEq, Res.bind_ok]
  simp only [hpq, decide_false, Bool.false_eq_true, if_false]
  have hcc : ∀ r, compareCoerced r TT.MAP (.map p kt vt m ks vs es) (.map q kt vt n ls ws fs) =
      if kt ≠ kt then .ok (compareInt kt.toNat kt.toNat, true)
      else if vt ≠ vt then .ok (compareInt vt.toNat vt.toNat, true)
      else if m ≠ n then .ok (compareInt m n, true)
      else (do
        let (c, ok) ← compareValueArrays (r kt) ks ls
        if c ≠ 0 ∨ ok = false then return (c, ok)
        compareValueArrays (r vt) vs ws) := fun _ => rfl
  rw [hcc, if_neg (by simp), if_neg (by simp)]
  by_cases hmn : m = n
  · rw [if_neg (by simpa using hmn)]
    obtain ⟨c, hc, sc⟩ := compareValueArrays_sign (cmp := compareFuel L (N' + 1) kt) (xs := ks) (ys := ls)
      fun x hx y hy => compareFuel_scalar L N' (hk x (List.mem_append_left _ hx)) (hk y (List.mem_append_right _ hy))
    obtain ⟨d, hd, sd⟩ := compareValueArrays_sign (cmp := compareFuel L (N' + 1) vt) (xs := vs) (ys := ws)
      fun x hx y hy => compareFuel_scalar L N' (hv x (List.mem_append_left _ hx)) (hv y (List.mem_append_right _ hy))
    rw [hc]
    simp only [Res.bind_ok, Bool.true_eq_false, or_false]
    by_cases h0 : c = 0
    · refine ⟨d, by simp [h0, hd], ?_⟩
      rw [sd]
      have := sc.1 h0
      exact ⟨fun h => ⟨hmn, this, h⟩, fun h => h.2.2⟩
    · refine ⟨c, by simp [h0], ?_⟩
      exact ⟨fun h => absurd h h0, fun h => absurd (sc.2 h.2.1) h0⟩
  · rw [if_pos hmn]
    refine ⟨_, rfl, ?_⟩
    have : compareInt m n ≠ 0 := by unfold compareInt; split <;> (try split) <;> omega
    simp [this, hmn]

example : ∀ k ∈ [Dyn.int32 1] ++ [.int32 2], Scalar TT.I32 k := by
  intro k hk
  rcases List.mem_cons.1 hk with h | h
  · rw [h]; exact ⟨rfl, trivial⟩
  · rw [List.mem_singleton.1 h]; exact ⟨rfl, trivial⟩

/-! ## C83 order of fields -/

/-- The place of a field: by id, then by type, then by name. -/
def FieldBefore (p d : Field) : Prop :=
  p.id < d.id ∨ p.id = d.id ∧ (p.typeId.toNat < d.typeId.toNat ∨ p.typeId = d.typeId ∧
    LexLt (p.name.map fun b => (b.toNat : Int)) (d.name.map fun b => (b.toNat : Int)))

/-- C83 in full: `CompareTo` orders fields by id, type and name, and gives zero
exactly for fields that `Equals` calls equal. -/
def C83_statement : Prop :=
  ∀ p d : Field, (p.compareTo d < 0 ↔ FieldBefore p d) ∧ (0 < p.compareTo d ↔ FieldBefore d p) ∧
    (p.compareTo d = 0 ↔ p.equals d = true)

/-- C83 does not hold: `Equals` ignores the name. -/
theorem C83_violated : ¬ C83_statement := by
  intro h
  exact absurd ((h ⟨[1], TT.I32, 1⟩ ⟨[2], TT.I32, 1⟩).2.2.2 (by decide)) (by decide)

theorem field_sign (p d : Field) : SignOf (p.id :: p.typeId.toNat :: p.name.map fun b => (b.toNat : Int))
    (d.id :: d.typeId.toNat :: d.name.map fun b => (b.toNat : Int)) (p.compareTo d) := by
  rw [Field.compareTo]
  by_cases hi : p.id = d.id
  · rw [if_neg (by simpa using hi), hi]
    by_cases ht : p.typeId = d.typeId
    · rw [if_neg (by simpa using ht), ht]
      exact (compareString_sign p.name d.name).cons.cons
    · rw [if_pos ht]
      have hn : (p.typeId.toNat : Int) ≠ d.typeId.toNat := fun e => ht (BitVec.eq_of_toNat_eq (by omega))
      have : compareByte p.typeId d.typeId = compareInt p.typeId.toNat d.typeId.toNat := by
        unfold compareByte compareInt
        simp only [gt_iff_lt, Int.ofNat_lt]
      rw [this]
      exact (signOf_cons_ne hn).cons
  · rw [if_pos hi]
    exact signOf_cons_ne hi

theorem fieldBefore_iff (p d : Field) : FieldBefore p d ↔
    LexLt (p.id :: p.typeId.toNat :: p.name.map fun b => (b.toNat : Int))
      (d.id :: d.typeId.toNat :: d.name.map fun b => (b.toNat : Int)) := by
  rw [FieldBefore, LexLt, LexLt, natCast_inj, BitVec.toNat_inj]
  refine or_congr Iff.rfl (and_congr_right fun _ => or_congr (by omega) Iff.rfl)

/-- C83 except for `Equals`: `CompareTo` gives zero exactly for identical fields;
`Equals` holds exactly for fields that differ at most in the name. -/
theorem C83_partial (p d : Field) : (p.compareTo d < 0 ↔ FieldBefore p d) ∧ (0 < p.compareTo d ↔ FieldBefore d p) ∧
    (p.compareTo d = 0 ↔ p = d) ∧ (p.equals d = true ↔ { p with name := d.name } = d) := by
  have s := field_sign p d
  rw [fieldBefore_iff, fieldBefore_iff]
  refine ⟨s.neg_iff, s.pos_iff, ?_, ?_⟩
  · rw [s.zero_iff]
    rcases p with ⟨n, t, i⟩
    rcases d with ⟨m, u, j⟩
    simp only [List.cons.injEq, natCast_inj, BitVec.toNat_inj, Field.mk.injEq]
    constructor
    · rintro ⟨rfl, rfl, h⟩
      exact ⟨bytesKey_inj h, rfl, rfl⟩
    · rintro ⟨rfl, rfl, rfl⟩
      exact ⟨rfl, rfl, rfl⟩
  · rcases p with ⟨n, t, i⟩
    rcases d with ⟨m, u, j⟩
    simp [Field.equals]

/-! ## C84 order of field containers -/

/-- C84 in full: comparing in the other direction gives the opposite sign, and
zero means the same fields. -/
def C84_statement : Prop :=
  ∀ fs gs : List Field, (fs.map Field.id).Nodup → (gs.map Field.id).Nodup →
    ((FieldContainer.new fs).compareTo (FieldContainer.new gs) < 0 ↔
      0 < (FieldContainer.new gs).compareTo (FieldContainer.new fs)) ∧
    ((FieldContainer.new fs).compareTo (FieldContainer.new gs) = 0 ↔ ∀ f, f ∈ fs ↔ f ∈ gs)

/-- C84 does not hold: each of two containers with one field is greater than the
other when the ids differ. -/
theorem C84_violated : ¬ C84_statement := by
  intro h
  have := (h [⟨[], TT.I32, 1⟩] [⟨[], TT.I32, 2⟩] (by decide) (by decide)).1.2 (by decide)
  exact absurd this (by decide)

theorem compareLoop_zero (d : FieldContainer) : ∀ fs : List Field,
    FieldContainer.compareLoop d fs = 0 ↔ ∀ f ∈ fs, d.fieldFromFieldId f.id = f
  | [] => by simp [FieldContainer.compareLoop]
  | f :: fs => by
    rw [FieldContainer.compareLoop]
    have hz := (C83_partial f (d.fieldFromFieldId f.id)).2.2.1
    by_cases h : f.compareTo (d.fieldFromFieldId f.id) = 0
    · simp only [h, ne_eq, not_true_eq_false, if_false, compareLoop_zero d fs]
      constructor
      · intro hall g hg
        rcases List.mem_cons.1 hg with rfl | hg
        · exact (hz.1 h).symm
        · exact hall g hg
      · exact fun hall g hg => hall g (List.mem_cons_of_mem _ hg)
    · simp only [ne_eq, h, not_false_eq_true, if_true, false_iff]
      intro hall
      exact h (hz.2 (hall f List.mem_cons_self).symm)

theorem nodup_of_map' {f : α → β} : ∀ {l : List α}, (l.map f).Nodup → l.Nodup
  | [], _ => List.nodup_nil
  | a :: l, h => by
    rw [List.map_cons, List.nodup_cons] at h
    exact List.nodup_cons.2 ⟨fun hm => h.1 (List.mem_map_of_mem hm), nodup_of_map' h.2⟩

/-- Zero means the same fields, as long as ids are unique and no field looks like
the place holder for missing fields.  The sign means nothing beyond that. -/
theorem C84_partial (fs gs : List Field) (hf : (fs.map Field.id).Nodup) (hg : (gs.map Field.id).Nodup)
    (ha : ⟨[], 0, 0⟩ ∉ fs) :
    (FieldContainer.new fs).compareTo (FieldContainer.new gs) = 0 ↔ fs.length = gs.length ∧ ∀ f, f ∈ fs ↔ f ∈ gs := by
  rw [FieldContainer.compareTo]
  have hlen : ∀ l, (FieldContainer.new l).len = l.length := fun _ => rfl
  have hfields : (FieldContainer.new fs).fields = fs := rfl
  simp only [hlen, hfields]
  by_cases hl : fs.length = gs.length
  · have : compareInt fs.length gs.length = 0 := by rw [hl]; simp [compareInt]
    simp only [this, ne_eq, not_true_eq_false, if_false]
    rw [compareLoop_zero]
    constructor
    · intro h
      refine ⟨hl, ?_⟩
      have hsub : ∀ f ∈ fs, f ∈ gs := by
        intro f hf
        have h1 := h f hf
        by_cases hex : ∃ g ∈ gs, g.id = f.id
        · obtain ⟨g, hgm, hgi⟩ := hex
          have h2 : (FieldContainer.new gs).byId g.id = some g := fillMaps_id_present gs _ _ hg g hgm
          rw [FieldContainer.fieldFromFieldId, ← hgi, h2] at h1
          exact h1 ▸ hgm
        · have h2 : (FieldContainer.new gs).byId f.id = none :=
            fillMaps_id_absent gs _ _ f.id fun g hgm e => hex ⟨g, hgm, e⟩
          rw [FieldContainer.fieldFromFieldId, h2] at h1
          have h1 : anonymousField = f := h1
          exact absurd (h1 ▸ hf : anonymousField ∈ fs) ha
      exact fun f => ⟨hsub f, fun h' => subset_of_nodup fs gs (nodup_of_map' hf) hsub (by omega) h'⟩
    · rintro ⟨_, h⟩ f hfm
      have h2 : (FieldContainer.new gs).byId f.id = some f := fillMaps_id_present gs _ _ hg f ((h f).1 hfm)
      rw [FieldContainer.fieldFromFieldId, h2]
  · have : compareInt fs.length gs.length ≠ 0 := by unfold compareInt; split <;> (try split) <;> omega
    simp [this, hl]

example : (([⟨[97], TT.I32, 1⟩, ⟨[98], TT.I32, 2⟩] : List Field).map Field.id).Nodup ∧
    (⟨[], 0, 0⟩ : Field) ∉ [(⟨[97], TT.I32, 1⟩ : Field), ⟨[98], TT.I32, 2⟩] := by decide

/-! ## C85 coercion of a Numeric -/

/-- C85 in full: a `Numeric` is coerced to each scalar type by the number or the
text that it holds. -/
def C85_statement : Prop :=
  ∀ (L : FloatLib) ptr i d s,
    coerceData L TT.BOOL (.numeric ptr i d s) = .ok (.bool (decide (i ≠ 0)), true) ∧
    coerceData L TT.BYTE (.numeric ptr i d s) = .ok (.byte (i.setWidth 8), true) ∧
    coerceData L TT.I16 (.numeric ptr i d s) = .ok (.int16 (i.setWidth 16), true) ∧
    coerceData L TT.I32 (.numeric ptr i d s) = .ok (.int32 (i.setWidth 32), true) ∧
    coerceData L TT.I64 (.numeric ptr i d s) = .ok (.int64 i, true) ∧
    coerceData L TT.DOUBLE (.numeric ptr i d s) = .ok (.float64 d, true) ∧
    coerceData L TT.STRING (.numeric ptr i d s) = .ok (.string s, true) ∧
    coerceData L TT.BINARY (.numeric ptr i d s) = .ok (.bytes s, true)

/-- C85 does not hold: as an integer or a floating point number a `Numeric`
becomes a bool. -/
theorem C85_violated : ¬ C85_statement := by
  intro h
  have h1 := (h exampleLib 0 7 0 []).2.2.2.1
  have h2 : coerceData exampleLib TT.I32 (.numeric 0 7 0 []) = .ok (.bool true, true) := rfl
  rw [h2] at h1
  injection h1 with h1
  injection h1 with h1
  exact nomatch h1

/-- What holds: BOOL, BYTE, STRING and BINARY are as they should be; the other
types give the bool that says whether the number is zero. -/
theorem C85_partial (L : FloatLib) (ptr : Nat) (i : I64) (d : F64) (s : Bytes) :
    coerceData L TT.BOOL (.numeric ptr i d s) = .ok (.bool (decide (i ≠ 0)), true) ∧
    coerceData L TT.BYTE (.numeric ptr i d s) = .ok (.byte (i.setWidth 8), true) ∧
    coerceData L TT.STRING (.numeric ptr i d s) = .ok (.string s, true) ∧
    coerceData L TT.BINARY (.numeric ptr i d s) = .ok (.bytes s, true) ∧
    coerceData L TT.I64 (.numeric ptr i d s) = .ok (.bool (decide (i ≠ 0)), true) ∧
    coerceData L TT.DOUBLE (.numeric ptr i d s) = .ok (.bool (!F64.eq d 0), true) := by
  refine ⟨rfl, rfl, rfl, rfl, ?_, rfl⟩
  show Res.ok (Dyn.bool (decide (i.setWidth 64 ≠ 0)), true) = _
  rw [BitVec.setWidth_eq]

/-! ## C86 coercion of numbers to text -/

/-- The decimal digits of a number. -/
def decimalText (n : Int) : Bytes := ascii (toString n)

/-- C86 in full: an integer is coerced to its decimal text. -/
def C86_statement : Prop :=
  ∀ (L : FloatLib) d n, d.intValue = some n → coerceData L TT.STRING d = .ok (.string (decimalText n), true)

/-- C86 does not hold: 65 becomes the letter A. -/
theorem C86_violated : ¬ C86_statement := by
  intro h
  have h1 := h exampleLib (.int32 65) 65 rfl
  have h2 : coerceData exampleLib TT.STRING (.int32 65) = .ok (.string [65], true) := rfl
  rw [h2] at h1
  injection h1 with h1
  injection h1 with h1
  injection h1 with h1
  exact absurd h1 (by decide)

/-- What an integer becomes: the UTF-8 form of the code point with that number;
U+FFFD for numbers without one. -/
theorem C86_partial (L : FloatLib) (d : Dyn) (n : Int) (hd : d.intValue = some n) :
    ∃ s, coerceData L TT.STRING d = .ok (.string s, true) ∧ coerceData L TT.BINARY d = .ok (.bytes s, true) ∧
      ((0 ≤ n ∧ n < 0x80) → s = [BitVec.ofInt 8 n]) ∧
      ((n < 0 ∨ 0x10ffff < n ∨ 0xd800 ≤ n ∧ n ≤ 0xdfff) → s = [0xef, 0xbf, 0xbd]) ∧
      1 ≤ s.length ∧ s.length ≤ 4 := by
  have hs : coerceTextOf L d = some (runeString n) ∧ d.isNil = false := by
    cases d <;> simp_all [Dyn.intValue, coerceTextOf, Dyn.text, Dyn.isNil]
  refine ⟨runeString n, ?_, ?_, ?_, ?_, ?_⟩
  · simp only [coerceData, hs.1, hs.2]; rfl
  · simp only [coerceData, hs.1, hs.2]; rfl
  · intro ⟨h0, h1⟩
    rw [runeString, if_neg (by omega)]
    simp only
    rw [if_pos (by omega)]
    congr 1
    apply BitVec.eq_of_toNat_eq
    simp
    omega
  · intro h
    rw [runeString, if_pos (by omega)]
  · unfold runeString
    split
    · decide
    · simp only
      repeat' split
      all_goals simp

example : (Dyn.uint16 955).intValue = some 955 ∧ runeString 955 = [0xce, 0xbb] := by decide

/-! ## C87 values that do not fit -/

/-- A value that the type cannot take is placed below one that it can take, and
two values that it cannot take are not comparable; nil is below everything. -/
theorem C87_unfit (L : FloatLib) (p : TType) (i j ci cj : Dyn) (hi : i.isNil = false) (hj : j.isNil = false)
    (hcj : coerceData L p j = .ok (cj, false)) :
    (coerceData L p i = .ok (ci, true) → i.goEq j = .ok false → compare L p i j = .ok (1, true)) ∧
    (coerceData L p i = .ok (ci, true) → j.goEq i = .ok false → compare L p j i = .ok (-1, true)) ∧
    (coerceData L p i = .ok (ci, false) → i.goEq j = .ok false → compare L p i j = .ok (0, false)) := by
  refine ⟨fun hci hg => ?_, fun hci hg => ?_, fun hci hg => ?_⟩ <;>
  · rw [compare, compareFuel]
    simp [hi, hj, hci, hcj, hg]

theorem C87_nil (L : FloatLib) (p : TType) (i : Dyn) (hi : i.isNil = false) :
    compare L p .nil i = .ok (-1, true) ∧ compare L p i .nil = .ok (1, true) ∧ compare L p .nil .nil = .ok (0, true) := by
  have h1 : Dyn.nil.goEq i = .ok false := by cases i <;> first | rfl | exact absurd hi (by decide)
  have h2 : i.goEq .nil = .ok false := by cases i <;> first | rfl | exact absurd hi (by decide)
  have h3 : Dyn.nil.goEq .nil = .ok true := rfl
  have hn : Dyn.nil.isNil = true := rfl
  refine ⟨?_, ?_, ?_⟩ <;>
  · rw [compare, compareFuel]
    simp [hi, h1, h2, h3, hn]

example : coerceData exampleLib TT.I32 (.obj 1) = .ok (.int32 0, false) ∧
    coerceData exampleLib TT.I32 (.int8 1) = .ok (.int32 1, true) := ⟨rfl, rfl⟩

/-! ## C88 order of enums -/

/-- `Compare` on two enum values orders them by name, whatever their Go types
(values of one type with one number have one name). -/
theorem C88_enum (L : FloatLib) (a b : Nat) (v w : I64) (s t : Bytes) (h : a = b → v = w → s = t) :
    ∃ c, compare L TT.ENUM (.enumer a v s) (.enumer b w t) = .ok (c, true) ∧
      (c < 0 ↔ LexLt (s.map fun x => (x.toNat : Int)) (t.map fun x => (x.toNat : Int))) ∧
      (c = 0 ↔ s = t) ∧
      (0 < c ↔ LexLt (t.map fun x => (x.toNat : Int)) (s.map fun x => (x.toNat : Int))) := by
  have key : ∀ x : Bytes, (Dyn.string x).key = x.map fun b => (b.toNat : Int) := fun _ => rfl
  obtain ⟨c, hc, sc⟩ := compareFuel_scalar L 0 (p := TT.ENUM) (a := .string s) (b := .string t)
    ⟨Or.inr (Or.inl rfl), trivial⟩ ⟨Or.inr (Or.inl rfl), trivial⟩
  rw [key, key] at sc
  have heq : s.map (fun x => (x.toNat : Int)) = t.map (fun x => (x.toNat : Int)) ↔ s = t :=
    ⟨bytesKey_inj, fun e => by rw [e]⟩
  refine ⟨c, ?_, sc.neg_iff, sc.zero_iff.trans heq, sc.pos_iff⟩
  by_cases hsame : a = b ∧ v = w
  · obtain rfl := h hsame.1 hsame.2
    have h0 : c = 0 := sc.zero_iff.2 rfl
    rw [compare, compareFuel]
    have hg : (Dyn.enumer a v s).goEq (.enumer b w s) = .ok true := by simp [Dyn.goEq, hsame]
    simp [hg, h0, TT.ENUM, TT.BINARY]
  · have hg : (Dyn.enumer a v s).goEq (.enumer b w t) = .ok false := by
      simp only [Dyn.goEq]
      congr 1
      simpa using hsame
    have h1 : coerceData L TT.ENUM (.enumer a v s) = .ok (.string s, true) := rfl
    have h2 : coerceData L TT.ENUM (.enumer b w t) = .ok (.string t, true) := rfl
    have hn : ∀ x y z, (Dyn.enumer x y z).isNil = false := fun _ _ _ => rfl
    have hs : ∀ x, (Dyn.string x).isNil = false := fun _ => rfl
    rw [compareFuel_native L 0 (p := TT.ENUM) (a := .string s) (b := .string t) (Or.inr (Or.inl rfl)) (Or.inr (Or.inl rfl))] at hc
    rw [compare]
    have hd : max (Dyn.enumer a v s).depth (Dyn.enumer b w t).depth + 1 = 0 + 1 := rfl
    rw [hd, compareFuel]
    simp only [hg, h1, h2, hn, hs, Res.bind_ok] at hc ⊢
    simpa [TT.ENUM, TT.BINARY] using hc

example : compare exampleLib TT.ENUM (.enumer 1 0 (ascii "A")) (.enumer 2 0 (ascii "B")) = .ok (-1, true) := by
  decide +kernel

/-! ## C89 containers without a declared element type -/

/-- Two values denote the same number, or are the same value. -/
def SameNumber (v w : Dyn) : Prop := v = w ∨ ∃ n, v.intValue = some n ∧ w.intValue = some n

/-- C89 in full: a list without an element type keeps its first value, whatever
it is. -/
def C89_statement : Prop :=
  ∀ (L : FloatLib) v, v.isNil = false → ∃ p w, TList.push L (TList.new TT.STOP) v = .ok p ∧ p.get 0 = .ok w ∧ SameNumber v w

/-- C89 does not hold: a Go `int` beyond 32 bits is cut. -/
theorem C89_violated : ¬ C89_statement := by
  intro h
  obtain ⟨p, w, hp, hw, hs⟩ := h exampleLib (.int 0x100000000) rfl
  have h1 : TList.push exampleLib (TList.new TT.STOP) (.int 0x100000000) = .ok ⟨TT.I32, [.int32 0]⟩ := rfl
  rw [h1] at hp
  injection hp with hp
  subst hp
  have h2 : TList.get ⟨TT.I32, [.int32 0]⟩ 0 = .ok (.int32 0) := rfl
  rw [h2] at hw
  injection hw with hw
  subst hw
  rcases hs with hs | ⟨n, h3, h4⟩
  · exact nomatch hs
  · have h3 : (4294967296 : Int) = n := Option.some.inj h3
    have h4 : (0 : Int) = n := Option.some.inj h4
    omega

/-- Unsigned numbers are lost altogether: they are stored as nil. -/
theorem C89_unsigned_violated : ¬ C89_statement := by
  intro h
  obtain ⟨p, w, hp, hw, hs⟩ := h exampleLib (.uint16 1) rfl
  have h1 : TList.push exampleLib (TList.new TT.STOP) (.uint16 1) = .ok ⟨TT.STOP, [.nil]⟩ := rfl
  rw [h1] at hp
  injection hp with hp
  subst hp
  have h2 : TList.get ⟨TT.STOP, [.nil]⟩ 0 = .ok .nil := rfl
  rw [h2] at hw
  injection hw with hw
  subst hw
  rcases hs with hs | ⟨n, _, h4⟩
  · exact nomatch hs
  · exact nomatch h4

/-- C89 for the dynamic types that stand for a Thrift type, for `int` values of
at most 32 bits and for `int8` values that are not negative. -/
theorem C89_partial (L : FloatLib) (v : Dyn)
    (hv : Native (typeFromValue v) v ∨ (∃ x, v = .int x ∧ -2 ^ 31 ≤ x.toInt ∧ x.toInt < 2 ^ 31) ∨
      ∃ x, v = .int8 x ∧ 0 ≤ x.toInt) :
    ∃ p w, TList.push L (TList.new TT.STOP) v = .ok p ∧ p.get 0 = .ok w ∧ SameNumber v w := by
  rcases hv with hv | ⟨x, rfl, hlo, hhi⟩ | ⟨x, rfl, hx⟩
  · refine ⟨_, v, C40_default L v hv, ?_, Or.inl rfl⟩
    rfl
  · refine ⟨⟨TT.I32, [.int32 (BitVec.ofInt 32 x.toInt)]⟩, .int32 (BitVec.ofInt 32 x.toInt), rfl, rfl, Or.inr ⟨x.toInt, rfl, ?_⟩⟩
    rw [Dyn.intValue, BitVec.toInt_ofInt]
    congr 1
    rw [Int.bmod_eq_of_le] <;> omega
  · refine ⟨⟨TT.BYTE, [.byte (BitVec.ofInt 8 x.toInt)]⟩, .byte (BitVec.ofInt 8 x.toInt), rfl, rfl, Or.inr ⟨x.toInt, rfl, ?_⟩⟩
    rw [Dyn.intValue, BitVec.toNat_ofInt]
    have := BitVec.toInt_lt (x := x)
    congr 1
    omega

example : Native (typeFromValue (.float64 1)) (.float64 1) ∧ (Dyn.int 5).intValue = some 5 := ⟨rfl, rfl⟩

/-! ## C90 iteration over maps -/

/-- C90 in full: every map with keys of a Thrift type can be iterated. -/
def C90_statement : Prop :=
  ∀ (L : FloatLib) kt vt n k v p, Native kt k → Native vt v → (TMap.new kt vt n).set L k v = .ok p →
    p.entries = .ok [(k, v)]

/-- C90 does not hold: iterating a map whose keys are maps panics. -/
theorem C90_violated : ¬ C90_statement := by
  intro h
  have := h exampleLib TT.MAP TT.I32 0 emptyMap (.int32 1) ⟨TT.MAP, TT.I32, 0, [(emptyMap, .int32 1)], none⟩ rfl rfl rfl
  exact nomatch this

theorem not_stop_of_native {t : TType} {v : Dyn} (h : Native t v) : ¬ (t = TT.STOP ∨ t = TT.VOID) := by
  intro hs
  cases v with
  | nil | int | int8 | uint | uint16 | uint32 | uint64 | float32 | numeric | stringer | enumer | obj => exact h.elim
  | string => rcases h with h | h | h <;> subst h <;> exact absurd hs (by decide)
  | _ => cases h; exact absurd hs (by decide)

/-- C90 for all other key types. -/
theorem C90_partial (L : FloatLib) (kt vt : TType) (n : Int) (k v : Dyn) (p : TMap) (hkt : kt ≠ TT.MAP) (hk : Native kt k)
    (hv : Native vt v) (hp : (TMap.new kt vt n).set L k v = .ok p) : p.entries = .ok [(k, v)] := by
  have hs := not_stop_of_native hk
  have hsv := not_stop_of_native hv
  have hset : (TMap.new kt vt n).set L k v =
      if (!isBaseType kt || decide (kt = TT.BINARY)) = true then .ok ⟨kt, vt, n, [(k, v)], none⟩
      else if (!TMap.keyFits kt k) = true then .panic else .ok ⟨kt, vt, n, [], some (TMap.store [] k v)⟩ := by
    rw [TMap.set]
    simp only [TMap.new, hs, hsv, coerceData_native L hk, coerceData_native L hv, Res.bind_ok, Bool.not_true,
      Bool.false_eq_true, if_false, hk.not_nil, TMap.insertSorted]
    rfl
  have hp := hset.symm.trans hp
  cases k with
  | nil | int | int8 | uint | uint16 | uint32 | uint64 | float32 | numeric | stringer | enumer | obj => exact hk.elim
  | map => exact absurd hk hkt
  | string => rcases hk with h | h | h <;> subst h <;> (injection hp with hp; subst hp; rfl)
  | _ => cases hk; injection hp with hp; subst hp; rfl

example : (TMap.new TT.LIST TT.I32 0).set exampleLib emptyList (.int32 1) =
    .ok ⟨TT.LIST, TT.I32, 0, [(emptyList, .int32 1)], none⟩ := rfl

end Thrift
