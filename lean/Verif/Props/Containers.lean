import Verif.Props.Comparison
import Verif.Lemmas.Halts
import Verif.Lemmas.KernelRfl
/-!
# More about containers: C163 – C168
-/

namespace Thrift

/-! ## C163: the first difference decides -/

theorem compareArrays_congr {f g : Dyn → Dyn → Res (Int × Bool)} : ∀ (xs ys : List Dyn), (∀ x ∈ xs, ∀ y ∈ ys, f x y = g x y) →
    compareArrays f xs ys = compareArrays g xs ys
  | [], ys, _ => by unfold compareArrays; rfl
  | _ :: _, [], _ => by unfold compareArrays; rfl
  | x :: xs, y :: ys, h => by
    rw [compareArrays, compareArrays, h x List.mem_cons_self y List.mem_cons_self,
      compareArrays_congr xs ys fun x hx y hy => h x (List.mem_cons_of_mem _ hx) y (List.mem_cons_of_mem _ hy)]

/-- Two rows of the same length whose elements compare as equal, in this order. -/
def RowEqual (L : FloatLib) (t : TType) : List Dyn → List Dyn → Prop
  | [], [] => True
  | x :: xs, y :: ys => compare L t x y = .ok (0, true) ∧ RowEqual L t xs ys
  | _, _ => False

theorem compareArrays_equal (L : FloatLib) (t : TType) : ∀ pre pre', RowEqual L t pre pre' → ∀ xs ys,
    compareArrays (compare L t) (pre ++ xs) (pre' ++ ys) = compareArrays (compare L t) xs ys
  | [], [], _, _, _ => rfl
  | x :: pre, y :: pre', h, xs, ys => by
    rw [List.cons_append, List.cons_append, compareArrays, h.1]
    exact compareArrays_equal L t pre pre' h.2 xs ys

theorem RowEqual.length {L : FloatLib} {t : TType} : ∀ {pre pre' : List Dyn}, RowEqual L t pre pre' → pre.length = pre'.length
  | [], [], _ => rfl
  | _ :: _, _ :: _, h => by rw [List.length_cons, List.length_cons, RowEqual.length h.2]

theorem compare_list (L : FloatLib) {p q : Nat} (h : p ≠ q) (t : TType) (as bs : List Dyn) (hl : as.length = bs.length) :
    compare L TT.LIST (.list p t as) (.list q t bs) = compareArrays (compare L t) as bs := by
  rw [compare, compareFuel_native L _ (show Native TT.LIST (.list p t as) from rfl) (show Native TT.LIST (.list q t bs) from rfl),
    if_pos (by decide), Dyn.goEq, Res.bind_ok]
  simp only [decide_eq_true_eq, h, if_false]
  show (if t ≠ t then Res.ok (compareInt t.toNat t.toNat, true) else if as.length ≠ bs.length then _ else _) = _
  rw [if_neg (by simp), if_neg (by simpa using hl)]
  refine compareArrays_congr _ _ fun x hx y hy => compareFuel_compare L _ t x y ?_ ?_
  all_goals
    have h1 := mem_depth hx
    have h2 := mem_depth hy
    simp only [Dyn.depth]
    omega

theorem compare_set (L : FloatLib) {p q : Nat} (h : p ≠ q) (t : TType) (n : Int) (as bs : List Dyn) (hl : as.length = bs.length) :
    compare L TT.SET (.set p t n as) (.set q t n bs) = compareArrays (compare L t) as bs := by
  rw [compare, compareFuel_native L _ (show Native TT.SET (.set p t n as) from rfl) (show Native TT.SET (.set q t n bs) from rfl),
    if_pos (by decide), Dyn.goEq, Res.bind_ok]
  simp only [decide_eq_true_eq, h, if_false]
  show (if t ≠ t then Res.ok (compareInt t.toNat t.toNat, true) else if n ≠ n then Res.ok (compareInt n n, true) else
    if compareInt as.length bs.length ≠ 0 then _ else _) = _
  rw [if_neg (by simp), if_neg (by simp), if_neg (by rw [hl]; simp [compareInt])]
  refine compareArrays_congr _ _ fun x hx y hy => compareFuel_compare L _ t x y ?_ ?_
  all_goals
    have h1 := mem_depth hx
    have h2 := mem_depth hy
    simp only [Dyn.depth]
    omega

theorem compareArrays_first (L : FloatLib) (t : TType) {pre pre' : List Dyn} (h : RowEqual L t pre pre') (x y : Dyn) (xs ys : List Dyn)
    (r : Res (Int × Bool)) (hr : compare L t x y = r) (hn : r ≠ .ok (0, true)) :
    compareArrays (compare L t) (pre ++ x :: xs) (pre' ++ y :: ys) = r := by
  rw [compareArrays_equal L t _ _ h, compareArrays, hr]
  match r, hn with
  | .panic, _ => rfl
  | .stuck, _ => rfl
  | .ok (c, ok), hn =>
    have : c ≠ 0 ∨ ok = false := by
      by_cases hc : c = 0
      · cases ok
        · exact .inr rfl
        · exact absurd (by rw [hc]) hn
      · exact .inl hc
    show (if c ≠ 0 ∨ ok = false then Res.ok (c, ok) else _) = _
    rw [if_pos this]

/-- C163.  Two lists (sets) of the same element type and the same length, holding
anything: the first two elements in the same place that are not equal decide, be
one less, be they not comparable, or should comparing them panic.  Without such
elements the two are equal. -/
theorem C163_first (L : FloatLib) {p q : Nat} (hpq : p ≠ q) (t : TType) (n : Int) {pre pre' : List Dyn} (h : RowEqual L t pre pre')
    (x y : Dyn) (xs ys : List Dyn) (hl : xs.length = ys.length) (r : Res (Int × Bool)) (hr : compare L t x y = r)
    (hn : r ≠ .ok (0, true)) :
    compare L TT.LIST (.list p t (pre ++ x :: xs)) (.list q t (pre' ++ y :: ys)) = r ∧
    compare L TT.SET (.set p t n (pre ++ x :: xs)) (.set q t n (pre' ++ y :: ys)) = r := by
  have hlen : (pre ++ x :: xs).length = (pre' ++ y :: ys).length := by simp [h.length, hl]
  rw [compare_list L hpq t _ _ hlen, compare_set L hpq t n _ _ hlen]
  exact ⟨compareArrays_first L t h x y xs ys r hr hn, compareArrays_first L t h x y xs ys r hr hn⟩

theorem C163_equal (L : FloatLib) {p q : Nat} (hpq : p ≠ q) (t : TType) (n : Int) {as bs : List Dyn} (h : RowEqual L t as bs) :
    compare L TT.LIST (.list p t as) (.list q t bs) = .ok (0, true) ∧
    compare L TT.SET (.set p t n as) (.set q t n bs) = .ok (0, true) := by
  rw [compare_list L hpq t _ _ h.length, compare_set L hpq t n _ _ h.length]
  have := compareArrays_equal L t as bs h [] []
  rw [List.append_nil, List.append_nil] at this
  rw [this]
  exact ⟨rfl, rfl⟩

/-- Numbers: 1, 2 against 1, 3, and an element that a comparison as I32 cannot place. -/
theorem sample_less : compare exampleLib TT.I32 (.int32 2) (.int32 3) = .ok (-1, true) := by kernel_rfl
theorem sample_none : compare exampleLib TT.I32 (.obj 1) (.obj 2) = .ok (0, false) := by kernel_rfl
example : compare exampleLib TT.LIST (.list 1 TT.I32 [.int32 1, .int32 2]) (.list 2 TT.I32 [.int 1, .int32 3]) = .ok (-1, true) :=
  (C163_first exampleLib (by decide) TT.I32 0 (pre := [.int32 1]) (pre' := [.int 1]) ⟨rfl, trivial⟩ _ _ [] [] rfl _ sample_less
    (by simp)).1
example : compare exampleLib TT.LIST (.list 1 TT.I32 [.obj 1, .int32 2]) (.list 2 TT.I32 [.obj 2, .int32 3]) = .ok (0, false) :=
  (C163_first exampleLib (by decide) TT.I32 0 (pre := []) (pre' := []) trivial _ _ [_] [_] rfl _ sample_none (by simp)).1
example : RowEqual exampleLib TT.I32 [.int32 1] [.int 1] := ⟨rfl, trivial⟩

/-! ## C164: equal sets -/

/-- C164 as stated, for scalar element types: two set objects with the same members
compare as equal. -/
def C164_statement : Prop :=
  ∀ (L : FloatLib) t (n n' : Int) ops ops' (a b : Nat) p p', a ≠ b → (∀ op ∈ ops, Coerces L t (Scalar t) op.arg) →
    (∀ op ∈ ops', Coerces L t (Scalar t) op.arg) →
    setHistory L (TSet.new t n) ops = .ok p → setHistory L (TSet.new t n') ops' = .ok p' →
    (∀ key, key ∈ p.values.map Dyn.key ↔ key ∈ p'.values.map Dyn.key) →
    compare L TT.SET (p.toDyn a) (p'.toDyn b) = .ok (0, true)

/-- Two empty sets, one made with room for five. -/
theorem C164_violated : ¬ C164_statement := by
  intro h
  have := h exampleLib TT.I32 5 0 [] [] 1 2 _ _ (by decide) (fun _ h => absurd h List.not_mem_nil)
    (fun _ h => absurd h List.not_mem_nil) rfl rfl (fun _ => Iff.rfl)
  rw [show compare exampleLib TT.SET ((TSet.new TT.I32 5).toDyn 1) ((TSet.new TT.I32 0).toDyn 2) = .ok (1, true) from by kernel_rfl] at this
  injection this with h
  injection h with h
  exact absurd h (by decide)

theorem rowEqual_keys (L : FloatLib) (t : TType) : ∀ (as bs : List Dyn), (∀ v ∈ as, Scalar t v) → (∀ v ∈ bs, Scalar t v) →
    as.map Dyn.key = bs.map Dyn.key → RowEqual L t as bs
  | [], [], _, _, _ => trivial
  | [], _ :: _, _, _, h => by simp at h
  | _ :: _, [], _, _, h => by simp at h
  | a :: as, b :: bs, ha, hb, h => by
    rw [List.map_cons, List.map_cons] at h
    injection h with h1 h2
    refine ⟨?_, rowEqual_keys L t as bs (fun v hv => ha v (List.mem_cons_of_mem _ hv)) (fun v hv => hb v (List.mem_cons_of_mem _ hv)) h2⟩
    obtain ⟨c, hc, hs⟩ := (scalarOrder L t).cmp a b (ha a List.mem_cons_self) (hb b List.mem_cons_self)
    rw [hc, hs.zero_iff.2 h1]

/-- It holds unless both are empty and were made with different sizes. -/
theorem C164_partial (L : FloatLib) (t : TType) (n n' : Int) (ops ops' : List SetOp) {a b : Nat} (hab : a ≠ b)
    (hops : ∀ op ∈ ops, Coerces L t (Scalar t) op.arg) (hops' : ∀ op ∈ ops', Coerces L t (Scalar t) op.arg)
    {p p' : TSet} (h : setHistory L (TSet.new t n) ops = .ok p) (h' : setHistory L (TSet.new t n') ops' = .ok p')
    (hsame : ∀ key, key ∈ p.values.map Dyn.key ↔ key ∈ p'.values.map Dyn.key) :
    compare L TT.SET (p.toDyn a) (p'.toDyn b) = .ok (0, true) ↔ p.values ≠ [] ∨ n = n' := by
  obtain ⟨q, hq, ho, hz⟩ := setHistory_ok (scalarOrder L t) ops _ (setNew_ok n) hops
  obtain rfl : q = p := by rw [h] at hq; injection hq with e; exact e.symm
  obtain ⟨q', hq', ho', hz'⟩ := setHistory_ok (scalarOrder L t) ops' _ (setNew_ok n') hops'
  obtain rfl : q' = p' := by rw [h'] at hq'; injection hq' with e; exact e.symm
  have hk := C37_order_independent_partial L t n n' ops ops' hops hops' h h' hsame
  have hlen : q.l.length = q'.l.length := by
    have := congrArg List.length hk
    simpa [TSet.values] using this
  rw [TSet.toDyn, TSet.toDyn, ho.type, ho'.type]
  by_cases he : q.l.length = 0
  · have e1 : q.len = n := by rw [TSet.len, if_neg (by omega), hz]; rfl
    have e2 : q'.len = n' := by rw [TSet.len, if_neg (by omega), hz']; rfl
    have hq0 : q.l = [] := List.eq_nil_of_length_eq_zero he
    have hq0' : q'.l = [] := List.eq_nil_of_length_eq_zero (by omega)
    rw [e1, e2, TSet.values, TSet.values, hq0, hq0']
    constructor
    · intro hc
      right
      rw [compare, compareFuel_native L _ (show Native TT.SET (.set a t n []) from rfl) (show Native TT.SET (.set b t n' []) from rfl),
        if_pos (by decide), Dyn.goEq, Res.bind_ok] at hc
      simp only [decide_eq_true_eq, hab, if_false] at hc
      have hc : (if t ≠ t then Res.ok (compareInt t.toNat t.toNat, true) else if n ≠ n' then Res.ok (compareInt n n', true) else
        compareValueArrays _ [] []) = .ok (0, true) := hc
      rw [if_neg (by simp)] at hc
      apply Classical.byContradiction
      intro hne
      rw [if_pos hne] at hc
      injection hc with hc
      injection hc with hc
      unfold compareInt at hc
      split at hc
      · exact absurd hc (by decide)
      · split at hc
        · exact absurd hc (by decide)
        · omega
    · rintro (hne | rfl)
      · exact absurd rfl hne
      · exact (C163_equal L hab t n (as := []) (bs := []) trivial).2
  · have e1 : q.len = q'.len := by rw [TSet.len, TSet.len, if_pos he, if_pos (by omega), hlen]
    rw [e1, TSet.values, TSet.values, (C163_equal L hab t q'.len (rowEqual_keys L t _ _ ho.elems ho'.elems hk)).2]
    exact ⟨fun _ => .inl fun h0 => he (by rw [show q.l = [] from h0]; rfl), fun _ => rfl⟩

/-! ## C165: keys and values of maps -/

/-- The keys with which a history has set something. -/
def KeysOf (hs : List (Dyn × Dyn)) (ks : List Dyn) : Prop :=
  (ks.map Dyn.key).Nodup ∧ ∀ key, key ∈ ks.map Dyn.key ↔ ∃ e ∈ hs, e.1.key = key

/-- C165 as stated, for maps with scalar keys: `Keys` is every key once and nothing
else, `Values` are the last values of these keys, in some order. -/
def C165_statement : Prop :=
  ∀ (L : FloatLib) t vt n hs p, ScalarType t → GoodHistory t vt hs → mapHistory L (TMap.new t vt n) hs = .ok p →
    ∃ ks vs, p.keys = .ok ks ∧ p.vals = .ok vs ∧ KeysOf hs ks ∧
      (vs.map some).Perm (ks.map fun k => lastValue hs k.key)

theorem scalar_binary : ScalarType TT.BINARY := by simp [ScalarType]

/-- An empty map with binary keys, made with room for two, has two keys: nil and nil. -/
theorem C165_violated : ¬ C165_statement := by
  intro h
  obtain ⟨ks, vs, hk, hv, ho, hp⟩ := h exampleLib TT.BINARY TT.I32 2 [] _ scalar_binary (fun _ h => absurd h List.not_mem_nil) rfl
  rw [show (TMap.new TT.BINARY TT.I32 2).keys = .ok [.nil, .nil] from rfl] at hk
  injection hk with hk
  subst hk
  exact absurd ho.1 (by simp)

/-- With a negative size `Keys` panics. -/
theorem C165_panics_violated : (TMap.new TT.BINARY TT.I32 (-1)).keys = .panic := rfl

theorem assoc_self : ∀ (es : List (Dyn × Dyn)), es.Pairwise (fun a b => a.1.key ≠ b.1.key) → ∀ e ∈ es, assoc es e.1.key = some e.2
  | [], _, _, h => absurd h List.not_mem_nil
  | x :: es, hp, e, he => by
    rw [assoc_cons]
    obtain ⟨h1, h2⟩ := List.pairwise_cons.1 hp
    rcases List.mem_cons.1 he with rfl | he
    · rw [if_pos rfl]
    · rw [if_neg (h1 e he)]
      exact assoc_self es h2 e he

/-- It holds for every map in which something was set. -/
theorem C165_partial (L : FloatLib) (t vt : TType) (n : Int) (hs : List (Dyn × Dyn)) (hne : hs ≠ []) (hg : GoodHistory t vt hs) :
    ∃ p ks vs, mapHistory L (TMap.new t vt n) hs = .ok p ∧ p.keys = .ok ks ∧ p.vals = .ok vs ∧ KeysOf hs ks ∧
      (vs.map some).Perm (ks.map fun k => lastValue hs k.key) := by
  obtain ⟨p, es, h, he, hd, ha⟩ := C41_entries_partial L t vt n hs hne hg
  obtain ⟨e0, rest, rfl⟩ : ∃ e0 rest, hs = e0 :: rest := by
    cases hs with
    | nil => exact absurd rfl hne
    | cons e r => exact ⟨e, r, rfl⟩
  have hsc := (hg e0 List.mem_cons_self).1
  obtain ⟨q, hq, hok, _, _⟩ := mapHistory_ok L (e0 :: rest) _ (mapNew_ok t vt n) hg
  obtain rfl : q = p := by rw [h] at hq; injection hq with e; exact e.symm
  have hrep : es = q.rep := by
    have := entries_ok hok hsc
    rw [he] at this
    injection this
  have hmem : ∀ key, key ∈ es.map (fun e => e.1.key) ↔ ∃ e ∈ e0 :: rest, e.1.key = key := by
    intro key
    have h1 := assoc_none_iff es key
    rw [ha, lastValue_none_iff] at h1
    constructor
    · intro hk
      obtain ⟨e, he, hek⟩ := List.mem_map.1 hk
      apply Classical.byContradiction
      intro hno
      exact h1.1 (fun e he hek => hno ⟨e, he, hek⟩) e he hek
    · intro ⟨e, he, hek⟩
      apply Classical.byContradiction
      intro hno
      exact h1.2 (fun e he hek => hno (List.mem_map.2 ⟨e, he, hek⟩)) e he hek
  have hes : es ≠ [] := by
    intro h0
    have := (hmem e0.1.key).2 ⟨e0, List.mem_cons_self, rfl⟩
    rw [h0] at this
    exact absurd this List.not_mem_nil
  have hlen : q.len = es.length := by
    rw [len_ok hok hsc, if_neg (fun h => hes (hrep.trans h.2)), hrep]
  have hl (f : Dyn × Dyn → Dyn) : q.listed f = .ok (es.map f) := by
    rw [TMap.listed, if_neg (by rw [hlen]; omega), he, Res.bind_ok, if_neg (by rw [hlen]; omega), hlen]
    simp
  refine ⟨q, es.map Prod.fst, es.map Prod.snd, h, hl _, hl _, ⟨?_, ?_⟩, ?_⟩
  · rw [List.map_map]
    exact List.pairwise_map.2 hd
  · rw [List.map_map]
    exact hmem
  · rw [List.map_map, List.map_map]
    refine List.Perm.of_eq (List.map_congr_left fun e he => ?_)
    show some e.2 = lastValue _ e.1.key
    rw [← ha, assoc_self es hd e he]

example : GoodHistory TT.BINARY TT.I32 [(.bytes [1], .int32 1)] := by
  intro e he
  rw [List.mem_singleton.1 he]
  exact ⟨⟨rfl, trivial⟩, rfl⟩

/-- More generally: `Keys` and `Values` of an empty map object panic exactly if a
negative size was announced, when its keys are kept in a list; otherwise they are
that many nils. -/
theorem C165_empty (k v : TType) (n : Int) (hk : k = TT.BINARY ∨ k = TT.STRUCT ∨ k = TT.LIST ∨ k = TT.SET) :
    ((TMap.new k v n).keys = .panic ↔ n < 0) ∧ ((TMap.new k v n).vals = .panic ↔ n < 0) ∧
    (0 ≤ n → (TMap.new k v n).keys = .ok (List.replicate n.toNat .nil) ∧ (TMap.new k v n).vals = .ok (List.replicate n.toNat .nil)) := by
  have hs : ¬ (k = TT.STOP ∨ k = TT.VOID) := by rcases hk with rfl | rfl | rfl | rfl <;> decide
  have hm : TMap.usesGoMap k = false := by rcases hk with rfl | rfl | rfl | rfl <;> decide
  have hl : (TMap.new k v n).len = n := by
    unfold TMap.len TMap.new; dsimp only; rw [if_neg (by simp), if_neg hs, hm]; rfl
  have he : (TMap.new k v n).entries = .ok [] := by
    unfold TMap.entries TMap.new; dsimp only; rw [if_neg hs, hm, if_neg (by decide), if_pos hk]
  have key (f : Dyn × Dyn → Dyn) : (TMap.new k v n).listed f = if n < 0 then .panic else .ok (List.replicate n.toNat .nil) := by
    rw [TMap.listed, hl, he]
    by_cases h : n < 0
    · rw [if_pos h, if_pos h]
    · rw [if_neg h, if_neg h, Res.bind_ok, if_neg (by simpa using h)]
      rfl
  rw [TMap.keys, TMap.vals, key, key]
  by_cases h : n < 0 <;> simp [h] <;> omega

/-! ## C166: looking for a value -/

/-- A list after pushing values. -/
def pushAll (L : FloatLib) (p : TList) : List Dyn → Res TList
  | [] => .ok p
  | v :: vs => do pushAll L (← p.push L v) vs

/-- C166 as stated: whatever was pushed onto a list of scalar values, `Contains` does not
panic. -/
def C166_statement : Prop :=
  ∀ (L : FloatLib) t vs x p, ScalarType t → pushAll L (TList.new t) vs = .ok p → p.contains L x ≠ .panic

/-- A nil among binary values. -/
theorem C166_violated : ¬ C166_statement := fun h =>
  h exampleLib TT.BINARY [.nil] (.bytes [1]) ⟨TT.BINARY, [.nil]⟩ scalar_binary rfl rfl

theorem goEq_total (a b : Dyn) (h : ∀ s, a ≠ .bytes s) : ∃ r, a.goEq b = .ok r := by
  cases a <;> cases b <;> first | exact ⟨_, rfl⟩ | exact absurd rfl (h _)

/-- What coercion to a scalar type gives. -/
theorem coerce_scalar (L : FloatLib) {t : TType} (ht : ScalarType t) (v : Dyn) :
    ∃ d ok, coerceData L t v = .ok (d, ok) ∧ (t ≠ TT.BINARY → ∀ s, d ≠ .bytes s) ∧
      (t = TT.BINARY → v.isNil = false → ok = true → ∃ s, d = .bytes s) := by
  cases hv : v.isNil with
  | true =>
    unfold coerceData
    rw [if_pos hv]
    rcases ht with h | h | h | h | h | h | h | h | h | h <;> subst h <;>
      exact ⟨_, _, rfl, fun _ _ => nofun, fun _ h => nomatch h⟩
  | false =>
    unfold coerceData
    rw [if_neg (by simp [hv])]
    have hint (w : Nat) (mk : BitVec w → Dyn) (hmk : ∀ x s, mk x ≠ .bytes s) (s : Bytes) : (coerceInt L w mk v).1 ≠ .bytes s := by
      unfold coerceInt
      split
      · nofun
      · exact hmk _ _
      · exact hmk _ _
      · exact hmk _ _
      · split
        · exact hmk _ _
        · unfold coerceText
          split
          · dsimp only
            split <;> exact hmk _ _
          · exact hmk _ _
    rcases ht with h | h | h | h | h | h | h | h | h | h <;> subst h
    · refine ⟨(coerceBool v).1, (coerceBool v).2, rfl, fun _ s => ?_, fun h => absurd h (by decide)⟩
      unfold coerceBool
      (repeat' split) <;> nofun
    · refine ⟨(coerceByte L v).1, (coerceByte L v).2, rfl, fun _ s => ?_, fun h => absurd h (by decide)⟩
      unfold coerceByte coerceText
      (repeat' split) <;> (try dsimp only) <;> (repeat' split) <;> nofun
    · refine ⟨(coerceDouble L v).1, (coerceDouble L v).2, rfl, fun _ s => ?_, fun h => absurd h (by decide)⟩
      unfold coerceDouble
      (repeat' split) <;> (try dsimp only) <;> (repeat' split) <;> nofun
    · exact ⟨_, _, rfl, fun _ s => hint 16 .int16 (fun _ _ => nofun) s, fun h => absurd h (by decide)⟩
    · exact ⟨_, _, rfl, fun _ s => hint 32 .int32 (fun _ _ => nofun) s, fun h => absurd h (by decide)⟩
    · exact ⟨_, _, rfl, fun _ s => hint 64 .int64 (fun _ _ => nofun) s, fun h => absurd h (by decide)⟩
    iterate 3
      · show ∃ d ok, Res.ok (match coerceTextOf L v with | some s => (Dyn.string s, true) | none => (Dyn.string [], false)) = _ ∧ _
        cases coerceTextOf L v with
        | some s => exact ⟨_, _, rfl, fun _ _ => nofun, fun h => absurd h (by decide)⟩
        | none => exact ⟨_, _, rfl, fun _ _ => nofun, fun h => absurd h (by decide)⟩
    · show ∃ d ok, Res.ok (match coerceTextOf L v with | some s => (Dyn.bytes s, true) | none => (Dyn.string [], false)) = _ ∧ _
      cases coerceTextOf L v with
      | some s => exact ⟨_, _, rfl, fun h => absurd rfl h, fun _ _ _ => ⟨s, rfl⟩⟩
      | none => exact ⟨_, _, rfl, fun _ _ => nofun, fun _ _ h => nomatch h⟩

theorem findIdxRes_total (f : Dyn → Res Bool) : ∀ l, (∀ e ∈ l, ∃ b, f e = .ok b) → ∃ o, findIdxRes f l = .ok o
  | [], _ => ⟨_, rfl⟩
  | e :: l, h => by
    obtain ⟨b, hb⟩ := h e List.mem_cons_self
    obtain ⟨o, ho⟩ := findIdxRes_total f l fun e he => h e (List.mem_cons_of_mem _ he)
    cases b with
    | true => exact ⟨some 0, by rw [findIdxRes, hb]; rfl⟩
    | false => exact ⟨o.map (· + 1), by rw [findIdxRes, hb]; show (do return (← findIdxRes f l).map (· + 1)) = _; rw [ho]; rfl⟩

theorem pushAll_ok (L : FloatLib) {t : TType} (ht : ScalarType t) : ∀ (vs : List Dyn) (p : TList), p.elemType = t →
    (t ≠ TT.BINARY ∨ ∀ v ∈ vs, v.isNil = false) → (t = TT.BINARY → ∀ e ∈ p.l, ∃ s, e = .bytes s) →
    ∃ p', pushAll L p vs = .ok p' ∧ p'.elemType = t ∧ (t = TT.BINARY → ∀ e ∈ p'.l, ∃ s, e = .bytes s)
  | [], p, h, _, hp => ⟨p, rfl, h, hp⟩
  | v :: vs, p, h, hv, hp => by
    have htf : p.typeFor v = t := by
      rw [TList.typeFor, h]
      rcases ht with h | h | h | h | h | h | h | h | h | h <;> subst h <;> rfl
    obtain ⟨d, ok, hc, _, hb⟩ := coerce_scalar L ht v
    have hrest : t ≠ TT.BINARY ∨ ∀ v ∈ vs, v.isNil = false := hv.imp id fun h v hv => h v (List.mem_cons_of_mem _ hv)
    rw [pushAll]
    cases ok with
    | false =>
      have e : p.push L v = .ok ⟨t, p.l⟩ := by rw [TList.push, htf, hc]; rfl
      rw [e]
      exact pushAll_ok L ht vs _ rfl hrest hp
    | true =>
      have e : p.push L v = .ok ⟨t, p.l ++ [d]⟩ := by rw [TList.push, htf, hc]; rfl
      rw [e]
      refine pushAll_ok L ht vs _ rfl hrest fun hbin x hx => ?_
      rcases List.mem_append.1 hx with hx | hx
      · exact hp hbin x hx
      · rw [List.mem_singleton.1 hx]
        exact hb hbin ((hv.resolve_left fun h => h hbin) v List.mem_cons_self) rfl

/-- It holds unless nil is pushed onto a list of binary values; pushing always succeeds. -/
theorem C166_partial (L : FloatLib) (t : TType) (ht : ScalarType t) (vs : List Dyn) (x : Dyn)
    (hv : t ≠ TT.BINARY ∨ ∀ v ∈ vs, v.isNil = false) :
    ∃ p b, pushAll L (TList.new t) vs = .ok p ∧ p.contains L x = .ok b := by
  obtain ⟨p, h, hpt, hp⟩ := pushAll_ok L ht vs (TList.new t) rfl hv fun _ e he => absurd he List.not_mem_nil
  have : ∃ o, findElem L p.elemType p.l x = .ok o := by
    unfold findElem
    cases hx : x.isNil with
    | true => rw [if_pos rfl]; exact findIdxRes_total _ _ fun e _ => ⟨_, rfl⟩
    | false =>
      rw [if_neg (by simp), hpt]
      obtain ⟨d, ok, hc, hd, hb⟩ := coerce_scalar L ht x
      rw [hc, Res.bind_ok]
      dsimp only
      by_cases hn : (d.isNil || !ok) = true
      · exact ⟨none, by rw [if_pos hn]; rfl⟩
      · rw [if_neg hn]
        refine findIdxRes_total _ _ fun e he => ?_
        unfold elemTest
        by_cases hbin : t = TT.BINARY
        · rw [if_pos hbin]
          obtain ⟨s, rfl⟩ := hb hbin hx (by simpa using (not_or.1 (by simpa using hn : ¬ (d.isNil = true ∨ ok = false))).2)
          obtain ⟨s', rfl⟩ := hp hbin e he
          exact ⟨_, rfl⟩
        · rw [if_neg hbin, if_pos (by
            rcases ht with h | h | h | h | h | h | h | h | h | h <;> subst h <;> rfl)]
          exact goEq_total d e (hd hbin)
  obtain ⟨o, ho⟩ := this
  exact ⟨p, o.isSome, h, by rw [TList.contains, ho]; rfl⟩

example : ScalarType TT.BINARY ∧ ∀ v ∈ [Dyn.bytes [1], .int32 7], v.isNil = false := ⟨scalar_binary, by decide⟩

/-! ## C167: iteration -/

/-- Some receives from the channel of an iteration. -/
def receives (s : Sender) : Nat → List (Option Dyn) × Sender
  | 0 => ([], s)
  | k + 1 => let (x, s) := s.receive; let (xs, s) := receives s k; (x :: xs, s)

/-- C167 as stated: the goroutine of an iteration ends, however many elements are
taken from it. -/
def C167_statement : Prop := ∀ (l : List Dyn) (k : Nat), (receives (Sender.iter l) k).2.ended = true

/-- A loop that is left after the first of two elements leaves the goroutine behind. -/
theorem C167_violated : ¬ C167_statement := fun h =>
  absurd (h [.int32 1, .int32 2] 1) (by decide)

theorem receives_idle : ∀ (k : Nat) (l : List Dyn), (receives (Sender.iter l) k).2.ended = decide (l.length ≤ k) ∧
    ∀ i, i < k → (receives (Sender.iter l) k).1[i]? = some l[i]?
  | 0, [] => ⟨rfl, fun _ h => absurd h (Nat.not_lt_zero _)⟩
  | 0, _ :: _ => ⟨rfl, fun _ h => absurd h (Nat.not_lt_zero _)⟩
  | k + 1, [] => by
    obtain ⟨h1, h2⟩ := receives_idle k []
    have e : Sender.receive (Sender.iter []) = (none, Sender.iter []) := rfl
    rw [receives, e]
    refine ⟨by simpa using h1, fun i hi => ?_⟩
    cases i with
    | zero => rfl
    | succ i => exact (h2 i (by omega)).trans (by simp)
  | k + 1, x :: l => by
    obtain ⟨h1, h2⟩ := receives_idle k l
    have e : Sender.receive (Sender.iter (x :: l)) = (some x, Sender.iter l) := rfl
    rw [receives, e]
    refine ⟨by simpa using h1, fun i hi => ?_⟩
    cases i with
    | zero => rfl
    | succ i => exact (h2 i (by omega)).trans (by simp)

/-- The elements come in order, then the channel is closed; the goroutine ends exactly
when all elements are taken. -/
theorem C167_partial (l : List Dyn) (k : Nat) :
    ((receives (Sender.iter l) k).2.ended = true ↔ l.length ≤ k) ∧ ∀ i, i < k → (receives (Sender.iter l) k).1[i]? = some l[i]? := by
  obtain ⟨h1, h2⟩ := receives_idle k l
  exact ⟨by rw [h1, decide_eq_true_eq], h2⟩

end Thrift
