import Verif.Lemmas.Map
import Verif.Props.Types
/-!
# C36 – C38, C40, C41: sets, lists and maps
-/

namespace Thrift

/-! ## Histories of a set -/

inductive SetOp where
  | add (v : Dyn)
  | remove (v : Dyn)

def SetOp.arg : SetOp → Dyn
  | .add v | .remove v => v

def SetOp.run (L : FloatLib) (p : TSet) : SetOp → Res TSet
  | .add v => p.add L v
  | .remove v => p.remove L v

/-- The set after a history of calls. -/
def setHistory (L : FloatLib) (p : TSet) : List SetOp → Res TSet
  | [] => .ok p
  | op :: ops => do setHistory L (← op.run L p) ops

theorem setHistory_ok {L t S k} (O : KeyOrder L t S k) : ∀ ops p, SetOk t S k p →
    (∀ op ∈ ops, Coerces L t S op.arg) → ∃ p', setHistory L p ops = .ok p' ∧ SetOk t S k p' ∧ p'.size = p.size
  | [], p, hp, _ => ⟨p, rfl, hp, rfl⟩
  | op :: ops, p, hp, hops => by
    have hop := hops op List.mem_cons_self
    have : ∃ p1, op.run L p = .ok p1 ∧ SetOk t S k p1 ∧ p1.size = p.size := by
      cases op with
      | add v =>
        obtain ⟨p1, h, h1⟩ := add_ok O hp hop
        refine ⟨p1, h, h1, ?_⟩
        have h : p.add L v = .ok p1 := h
        obtain ⟨_, x, ok, hc, hx⟩ := hop
        have hc : coerceData L t v = .ok (x, ok) := hc
        rw [TSet.add, hp.type, hc] at h
        cases ok with
        | false => simp at h; rw [← h]
        | true =>
          obtain ⟨l', h2, _⟩ := addLoop_added O (hx rfl) p.l hp.elems
          simp [h2] at h
          split at h <;> (injection h with h; rw [← h])
      | remove v =>
        obtain ⟨p1, h, h1, _⟩ := remove_ok O hp hop
        refine ⟨p1, h, h1, ?_⟩
        have h : p.remove L v = .ok p1 := h
        rw [TSet.remove] at h
        cases ho : findElem L p.elemType p.l v with
        | ok o =>
          rw [ho] at h
          cases o with
          | none => injection h with h; rw [← h]
          | some i => injection h with h; rw [← h]
        | panic => rw [ho] at h; contradiction
        | stuck => rw [ho] at h; contradiction
    obtain ⟨p1, h1, h2, h3⟩ := this
    obtain ⟨p', h4, h5, h6⟩ := setHistory_ok O ops p1 h2 fun o ho => hops o (List.mem_cons_of_mem _ ho)
    exact ⟨p', by rw [setHistory, h1]; exact h4, h5, h6.trans h3⟩

theorem setNew_ok {t S k} (n : Int) : SetOk t S k (TSet.new t n) :=
  ⟨rfl, fun _ h => absurd h List.not_mem_nil, List.Pairwise.nil⟩

/-! ## C36 -/

/-- C36 as stated, for scalar element types: after `Add(x)` the set contains `x`
and what it contained before. -/
def C36_statement : Prop :=
  ∀ (L : FloatLib) t n ops p x p', (∀ op ∈ ops, Scalar t op.arg) → Scalar t x →
    setHistory L (TSet.new t n) ops = .ok p → p.add L x = .ok p' →
    p'.contains L x = .ok true ∧ ∀ y, Scalar t y → p.contains L y = .ok true → p'.contains L y = .ok true

/-- Adding 1 to the set {2} leaves it as it was. -/
theorem C36_violated : ¬ C36_statement := by
  intro h
  have := (h exampleLib TT.I32 0 [.add (.int32 2)] ⟨TT.I32, 0, [.int32 2]⟩ (.int32 1) ⟨TT.I32, 0, [.int32 2]⟩
    (by intro op hop; rw [List.mem_singleton.1 hop]; exact ⟨rfl, trivial⟩) ⟨rfl, trivial⟩ rfl rfl).1
  exact absurd this (by decide +kernel)

/-- What holds for every history: nothing already in the set is lost, and the new
value is a member exactly if the set was empty or had a member that is not
greater.  The missing part of C36 is membership of a value below all members. -/
theorem C36_partial (L : FloatLib) (t : TType) (n : Int) (ops : List SetOp) (hops : ∀ op ∈ ops, Scalar t op.arg)
    (x : Dyn) (hx : Scalar t x) :
    ∃ p p', setHistory L (TSet.new t n) ops = .ok p ∧ p.add L x = .ok p' ∧
      (∀ y, Scalar t y → p.contains L y = .ok true → p'.contains L y = .ok true) ∧
      (p'.contains L x = .ok true ↔ p.values = [] ∨ ∃ m ∈ p.values, ¬ LexLt x.key m.key) ∧
      (∀ m ∈ p'.values, m = x ∨ m ∈ p.values) := by
  have O := scalarOrder L t
  obtain ⟨p, h, hp, _⟩ := setHistory_ok O ops (TSet.new t n) (setNew_ok n) fun op hop => O.coerces (hops op hop)
  by_cases hl : p.l = []
  · have ha := add_nil O hp hx hl
    have hp' : SetOk t (Scalar t) Dyn.key { p with l := [x] } :=
      ⟨hp.type, fun e he => List.mem_singleton.1 he ▸ hx, List.pairwise_singleton _ _⟩
    refine ⟨p, _, h, ha, ?_, ?_, fun m hm => Or.inl (List.mem_singleton.1 hm)⟩
    · intro y hy hc
      rw [contains_eq O hp hy] at hc
      injection hc with hc
      obtain ⟨z, hz, _⟩ := of_decide_eq_true hc
      rw [hl] at hz
      exact absurd hz List.not_mem_nil
    · rw [contains_eq O hp' hx]
      exact ⟨fun _ => Or.inl hl, fun _ => congrArg _ (decide_eq_true ⟨x, List.mem_singleton.2 rfl, rfl⟩)⟩
  · obtain ⟨l', ha, had⟩ := add_cons O hp hx hl
    have hp' : SetOk t (Scalar t) Dyn.key { p with l := l' } :=
      ⟨hp.type, fun e he => (had.mem e he).elim (fun h => h ▸ hx) (hp.elems e), had.desc hp.desc⟩
    refine ⟨p, _, h, ha, ?_, ?_, had.mem⟩
    · intro y hy hc
      rw [contains_eq O hp hy] at hc
      rw [contains_eq O hp' hy]
      injection hc with hc
      obtain ⟨z, hz, e⟩ := of_decide_eq_true hc
      exact congrArg _ (decide_eq_true ⟨z, had.keeps z hz, e⟩)
    · rw [contains_eq O hp' hx]
      constructor
      · intro hc
        injection hc with hc
        exact Or.inr (had.member_iff.1 (of_decide_eq_true hc))
      · rintro (h0 | hm)
        · exact absurd h0 hl
        · exact congrArg _ (decide_eq_true (had.member_iff.2 hm))

/-- `Remove` does what it should after every history: the value is gone, every
other member stays. -/
theorem C36_remove_partial (L : FloatLib) (t : TType) (n : Int) (ops : List SetOp) (hops : ∀ op ∈ ops, Scalar t op.arg)
    (x : Dyn) (hx : Scalar t x) :
    ∃ p p', setHistory L (TSet.new t n) ops = .ok p ∧ p.remove L x = .ok p' ∧ p'.contains L x = .ok false ∧
      ∀ y, y ∈ p'.values ↔ y ∈ p.values ∧ y.key ≠ x.key := by
  have O := scalarOrder L t
  obtain ⟨p, h, hp, _⟩ := setHistory_ok O ops (TSet.new t n) (setNew_ok n) fun op hop => O.coerces (hops op hop)
  obtain ⟨p', hr, _, _, hm⟩ := remove_members O hp hx
  obtain ⟨p'', hr', hp', _⟩ := remove_ok O hp (O.coerces hx)
  obtain rfl : p'' = p' := by rw [hr] at hr'; injection hr' with e; exact e.symm
  refine ⟨p, p'', h, hr, ?_, hm⟩
  rw [contains_eq O hp' hx]
  congr 1
  rw [decide_eq_false_iff_not]
  rintro ⟨y, hy, e⟩
  exact ((hm y).1 hy).2 e

example : ∀ op ∈ [SetOp.add (.int32 2), .remove (.int32 2)], Scalar TT.I32 op.arg := by
  intro op hop
  rcases List.mem_cons.1 hop with h | h
  · rw [h]; exact ⟨rfl, trivial⟩
  · rw [List.mem_singleton.1 h]; exact ⟨rfl, trivial⟩

/-! ## C37 -/

/-- C37 as stated, for scalar element types: two histories that lead to the same
members lead to the same enumeration (equality of members is identity here, so
that NaN equals itself). -/
def C37_statement : Prop :=
  ∀ (L : FloatLib) t n ops ops' p p', ScalarType t → (∀ op ∈ ops, Native t op.arg) → (∀ op ∈ ops', Native t op.arg) →
    setHistory L (TSet.new t n) ops = .ok p → setHistory L (TSet.new t n) ops' = .ok p' →
    (∀ y, y ∈ p.values ↔ y ∈ p'.values) → p.values = p'.values

/-- NaN goes to the front or to the back, depending on when it is added. -/
theorem C37_violated : ¬ C37_statement := by
  intro h
  have := h exampleLib TT.DOUBLE 0 [.add (.float64 0x7ff8000000000000), .add (.float64 0x3ff0000000000000)]
    [.add (.float64 0x3ff0000000000000), .add (.float64 0x7ff8000000000000)]
    ⟨TT.DOUBLE, 0, [.float64 0x3ff0000000000000, .float64 0x7ff8000000000000]⟩
    ⟨TT.DOUBLE, 0, [.float64 0x7ff8000000000000, .float64 0x3ff0000000000000]⟩ (Or.inr (Or.inr (Or.inl rfl)))
    (by intro op hop; simp only [List.mem_cons, List.not_mem_nil, or_false] at hop; rcases hop with rfl | rfl <;> rfl)
    (by intro op hop; simp only [List.mem_cons, List.not_mem_nil, or_false] at hop; rcases hop with rfl | rfl <;> rfl)
    rfl rfl (by intro y; simp only [TSet.values, List.mem_cons, List.not_mem_nil, or_false]; exact or_comm)
  simp [TSet.values] at this

/-- After every history (of values that the element type accepts as, or coerces
to, scalar values) the members are strictly descending: sorted, no duplicates.  Missing: NaN. -/
theorem C37_sorted_partial (L : FloatLib) (t : TType) (n : Int) (ops : List SetOp)
    (hops : ∀ op ∈ ops, Coerces L t (Scalar t) op.arg) :
    ∃ p, setHistory L (TSet.new t n) ops = .ok p ∧ p.values.Pairwise fun a b => LexLt b.key a.key := by
  obtain ⟨p, h, hp, _⟩ := setHistory_ok (scalarOrder L t) ops _ (setNew_ok n) hops
  exact ⟨p, h, hp.desc⟩

/-- Two histories that lead to the same members lead to the same enumeration. -/
theorem C37_order_independent_partial (L : FloatLib) (t : TType) (n n' : Int) (ops ops' : List SetOp)
    (hops : ∀ op ∈ ops, Coerces L t (Scalar t) op.arg) (hops' : ∀ op ∈ ops', Coerces L t (Scalar t) op.arg)
    {p p' : TSet} (h : setHistory L (TSet.new t n) ops = .ok p) (h' : setHistory L (TSet.new t n') ops' = .ok p')
    (hsame : ∀ key, key ∈ p.values.map Dyn.key ↔ key ∈ p'.values.map Dyn.key) :
    p.values.map Dyn.key = p'.values.map Dyn.key := by
  obtain ⟨q, hq, ho, _⟩ := setHistory_ok (scalarOrder L t) ops _ (setNew_ok n) hops
  obtain rfl : q = p := by rw [h] at hq; injection hq with e; exact e.symm
  obtain ⟨q', hq', ho', _⟩ := setHistory_ok (scalarOrder L t) ops' _ (setNew_ok n') hops'
  obtain rfl : q' = p' := by rw [h'] at hq'; injection hq' with e; exact e.symm
  exact Desc.ext ho.desc ho'.desc hsame

example (L : FloatLib) : Coerces L TT.I32 (Scalar TT.I32) (.int 5) ∧ Coerces L TT.I32 (Scalar TT.I32) (.int32 5) :=
  ⟨⟨rfl, .int32 5, true, rfl, fun _ => ⟨rfl, trivial⟩⟩, ⟨rfl, .int32 5, true, rfl, fun _ => ⟨rfl, trivial⟩⟩⟩

/-! ## C38 -/

/-- C38 as stated. -/
def C38_statement : Prop :=
  ∀ (L : FloatLib) t n ops p, (∀ op ∈ ops, Coerces L t (Scalar t) op.arg) →
    setHistory L (TSet.new t n) ops = .ok p → p.len = p.values.length

/-- An empty set made with room for five reports five members. -/
theorem C38_violated : ¬ C38_statement := by
  intro h
  exact absurd (h exampleLib TT.I32 5 [] _ (fun _ h => absurd h List.not_mem_nil) rfl) (by decide)

/-- `Len` after every history: the number of members, except that an empty set
reports the capacity given at construction. -/
theorem C38_partial (L : FloatLib) (t : TType) (n : Int) (ops : List SetOp)
    (hops : ∀ op ∈ ops, Coerces L t (Scalar t) op.arg) :
    ∃ p, setHistory L (TSet.new t n) ops = .ok p ∧ (p.values ≠ [] → p.len = p.values.length) ∧
      (p.values = [] → p.len = n) := by
  obtain ⟨p, h, _, hs⟩ := setHistory_ok (scalarOrder L t) ops _ (setNew_ok n) hops
  refine ⟨p, h, fun hne => ?_, fun he => ?_⟩
  · have : p.l.length ≠ 0 := fun e => hne (List.eq_nil_of_length_eq_zero e)
    rw [TSet.len, if_pos this]; rfl
  · have : p.l.length = 0 := by rw [show p.l = [] from he]; rfl
    rw [TSet.len, if_neg (by omega), hs]; rfl

example : (TSet.new TT.I32 5).values = [] ∧ (⟨TT.I32, 5, [.int32 1]⟩ : TSet).values ≠ [] := ⟨rfl, by simp [TSet.values]⟩

/-! ## C40 -/

inductive ListOp where
  | push (v : Dyn)
  | set (i : Int) (v : Dyn)
  | insert (i : Int) (v : Dyn)
  | delete (i : Int)
  | pop
  | get (i : Int)
  | swap (i j : Int)
  | len

/-- What a call answers. -/
inductive ListAnswer where
  | nothing
  | value (v : Dyn)
  | number (n : Int)

/-- One call on the library's list. -/
def ListOp.run (L : FloatLib) (p : TList) : ListOp → Res (ListAnswer × TList)
  | .push v => do return (.nothing, ← p.push L v)
  | .set i v => do return (.nothing, ← p.set L i v)
  | .insert i v => do return (.nothing, ← p.insert i v)
  | .delete i => do return (.nothing, ← p.delete i)
  | .pop => do let (x, p) ← p.pop; return (.value x, p)
  | .get i => do return (.value (← p.get i), p)
  | .swap i j => do return (.nothing, ← p.swap i j)
  | .len => return (.number p.len, p)

/-- The same call on a mathematical sequence; `none` for an index out of range.
(A `Set` beyond the position after the last appends, as the code does; a
mathematical sequence has no opinion on it.) -/
def ListOp.spec (l : List Dyn) : ListOp → Option (ListAnswer × List Dyn)
  | .push v => some (.nothing, l ++ [v])
  | .set i v =>
    if 0 ≤ i ∧ i < l.length then some (.nothing, l.set i.toNat v)
    else if (l.length : Int) < i then some (.nothing, l ++ [v])
    else none
  | .insert i v => if 0 ≤ i ∧ i ≤ l.length then some (.nothing, l.insertIdx i.toNat v) else none
  | .delete i => if 0 ≤ i ∧ i < l.length then some (.nothing, l.eraseIdx i.toNat) else none
  | .pop => match l.getLast? with | some x => some (.value x, l.dropLast) | none => none
  | .get i => if 0 ≤ i then (l[i.toNat]?).map fun x => (.value x, l) else none
  | .swap i j =>
    if 0 ≤ i ∧ 0 ≤ j then
      match l[i.toNat]?, l[j.toNat]? with
      | some x, some y => some (.nothing, (l.set i.toNat y).set j.toNat x)
      | _, _ => none
    else none
  | .len => some (.number l.length, l)

/-- Histories, with all the answers. -/
def listHistory (L : FloatLib) : TList → List ListOp → Res (List ListAnswer × TList)
  | p, [] => .ok ([], p)
  | p, op :: ops => do
    let (a, p) ← op.run L p
    let (as, p) ← listHistory L p ops
    return (a :: as, p)

def specHistory : List Dyn → List ListOp → Option (List ListAnswer × List Dyn)
  | l, [] => some ([], l)
  | l, op :: ops =>
    match op.spec l with
    | none => none
    | some (a, l) => match specHistory l ops with
      | none => none
      | some (as, l) => some (a :: as, l)

/-- The value that a call stores needs no coercion. -/
def ListOp.Fits (t : TType) : ListOp → Prop
  | .push v | .set _ v => Native t v
  | _ => True

theorem Native.nonempty {t : TType} {v : Dyn} (h : Native t v) : isEmptyType t = false := by
  cases v with
  | nil | int | int8 | uint | uint16 | uint32 | uint64 | float32 | numeric | stringer | enumer | obj => exact h.elim
  | string s => rcases h with h | h | h <;> subst h <;> rfl
  | _ =>
    have hp : t = _ := h
    subst hp
    rfl

theorem take_insert (l : List Dyn) (v : Dyn) : ∀ i, i ≤ l.length → l.take i ++ v :: l.drop i = l.insertIdx i v := by
  induction l with
  | nil => intro i hi; obtain rfl : i = 0 := by simpa using hi
           rfl
  | cons a as ih =>
    intro i hi
    cases i with
    | zero => rfl
    | succ i =>
      rw [List.take_succ_cons, List.drop_succ_cons, List.cons_append, ih i (by simpa using hi), List.insertIdx_succ_cons]

/-- One call: the same answer and the same contents, and a panic exactly for an
index out of range. -/
theorem C40_step (L : FloatLib) (t : TType) (l : List Dyn) (op : ListOp) (h : op.Fits t) :
    op.run L ⟨t, l⟩ = match op.spec l with
      | some (a, l') => .ok (a, ⟨t, l'⟩)
      | none => .panic := by
  cases op with
  | push v =>
    have h : Native t v := h
    have ht : (⟨t, l⟩ : TList).typeFor v = t := by simp [TList.typeFor, h.nonempty]
    simp [ListOp.run, ListOp.spec, TList.push, ht, coerceData_native L h]
  | set i v =>
    have h : Native t v := h
    have ht : (⟨t, l⟩ : TList).typeFor v = t := by simp [TList.typeFor, h.nonempty]
    simp only [ListOp.run, ListOp.spec, TList.set, ht, coerceData_native L h, Res.bind_ok, if_true]
    by_cases h1 : 0 ≤ i ∧ i < l.length
    · rw [if_pos h1, if_pos (by omega), TList.assign, if_neg (by omega)]; rfl
    · rw [if_neg h1]
      by_cases h2 : (l.length : Int) < i
      · rw [if_pos h2, if_neg (by omega)]; rfl
      · rw [if_neg h2, if_pos (by omega), TList.assign, if_pos (by omega)]; rfl
  | insert i v =>
    simp only [ListOp.run, ListOp.spec, TList.insert]
    by_cases h1 : 0 ≤ i ∧ i ≤ l.length
    · rw [if_pos h1, if_neg (by omega)]
      simp [take_insert l v i.toNat (by omega)]
    · rw [if_neg h1, if_pos (by omega)]; rfl
  | delete i =>
    simp only [ListOp.run, ListOp.spec, TList.delete]
    by_cases h1 : 0 ≤ i ∧ i < l.length
    · rw [if_pos h1, if_neg (by omega)]
      simp [List.eraseIdx_eq_take_drop_succ]
    · rw [if_neg h1, if_pos (by omega)]; rfl
  | pop =>
    simp only [ListOp.run, ListOp.spec, TList.pop]
    cases l with
    | nil => rfl
    | cons a as =>
      have hi : TList.index (a :: as) (((a :: as).length : Int) - 1) = .ok ((a :: as).getLast (by simp)) := by
        rw [TList.index, if_neg (by simp only [List.length_cons]; omega)]
        have : (((a :: as).length : Int) - 1).toNat = (a :: as).length - 1 := by simp only [List.length_cons]; omega
        rw [this, List.getLast_eq_getElem, List.getElem?_eq_getElem (by simp)]
      rw [hi, List.getLast?_eq_some_getLast (by simp : a :: as ≠ [])]
      simp [List.dropLast_eq_take]
  | get i =>
    simp only [ListOp.run, ListOp.spec, TList.get, TList.index]
    by_cases h1 : 0 ≤ i
    · rw [if_pos h1, if_neg (by omega)]
      cases l[i.toNat]? <;> rfl
    · rw [if_neg h1, if_pos (by omega)]; rfl
  | swap i j =>
    simp only [ListOp.run, ListOp.spec, TList.swap, TList.index]
    by_cases h1 : 0 ≤ i ∧ 0 ≤ j
    · rw [if_pos h1, if_neg (by omega), if_neg (by omega)]
      cases hi : l[i.toNat]? with
      | none => rfl
      | some x =>
        have li := (List.getElem?_eq_some_iff.1 hi).1
        cases hj : l[j.toNat]? with
        | none => rfl
        | some y =>
          have lj := (List.getElem?_eq_some_iff.1 hj).1
          simp only [Res.bind_ok]
          rw [TList.assign, if_neg (by omega), Res.bind_ok, TList.assign, if_neg (by rw [List.length_set]; omega)]
          rfl
    · rw [if_neg h1]
      by_cases h2 : i < 0
      · rw [if_pos h2]; rfl
      · rw [if_neg h2, if_pos (by omega : j < 0)]
        cases l[i.toNat]? <;> rfl
  | len => rfl

/-- C40, for every history of calls on a list whose values need no coercion. -/
theorem C40_history (L : FloatLib) (t : TType) : ∀ (ops : List ListOp) (l : List Dyn), (∀ op ∈ ops, op.Fits t) →
    listHistory L ⟨t, l⟩ ops = match specHistory l ops with
      | some (as, l') => .ok (as, ⟨t, l'⟩)
      | none => .panic
  | [], _, _ => rfl
  | op :: ops, l, h => by
    rw [listHistory, specHistory, C40_step L t l op (h op List.mem_cons_self)]
    cases op.spec l with
    | none => rfl
    | some r =>
      obtain ⟨a, l1⟩ := r
      simp only [Res.bind_ok, C40_history L t ops l1 fun o ho => h o (List.mem_cons_of_mem _ ho)]
      cases specHistory l1 ops <;> rfl

example : ∀ op ∈ [ListOp.push (.int32 1), .insert 0 (.int32 2), .get 1], op.Fits TT.I32 := by
  intro op hop
  simp only [List.mem_cons, List.not_mem_nil, or_false] at hop
  rcases hop with rfl | rfl | rfl <;> first | rfl | trivial

/-- A list made without an element type takes it from the first value. -/
theorem C40_default (L : FloatLib) (v : Dyn) (h : Native (typeFromValue v) v) :
    (TList.new TT.STOP).push L v = .ok ⟨typeFromValue v, [v]⟩ := by
  have ht : (TList.new TT.STOP).typeFor v = typeFromValue v := rfl
  rw [TList.push, ht, coerceData_native L h]
  rfl

example : Native (typeFromValue (.string (ascii "a"))) (.string (ascii "a")) := Or.inl rfl

/-! ## C41 -/

/-- The map after a history of `Set` calls (there is no `Delete`). -/
def mapHistory (L : FloatLib) (p : TMap) : List (Dyn × Dyn) → Res TMap
  | [] => .ok p
  | (k, v) :: hs => do mapHistory L (← p.set L k v) hs

/-- The last value given for a key. -/
def lastValue : List (Dyn × Dyn) → List Int → Option Dyn
  | [], _ => none
  | (k, v) :: hs, key => match lastValue hs key with
    | some w => some w
    | none => if k.key = key then some v else none

/-- `n` is the number of different keys in a history. -/
def KeyCount (hs : List (Dyn × Dyn)) (n : Int) : Prop :=
  ∃ ks : List (List Int), ks.Nodup ∧ (∀ key, key ∈ ks ↔ ∃ e ∈ hs, e.1.key = key) ∧ n = ks.length

/-- Keys are scalar values of the key type and values need no coercion. -/
def GoodHistory (t vt : TType) (hs : List (Dyn × Dyn)) : Prop := ∀ e ∈ hs, Scalar t e.1 ∧ Native vt e.2

/-- C41 as stated, for maps with scalar keys. -/
def C41_statement : Prop :=
  ∀ (L : FloatLib) t vt n hs p, ScalarType t → GoodHistory t vt hs → mapHistory L (TMap.new t vt n) hs = .ok p →
    (∀ k, Scalar t k → p.get L k = .ok (match lastValue hs k.key with
      | some v => (v, true)
      | none => (.nil, false))) ∧
    KeyCount hs p.len

/-- A map with boolean keys claims to have both once it has one. -/
theorem C41_violated : ¬ C41_statement := by
  intro h
  have := (h exampleLib TT.BOOL TT.I32 0 [(.bool true, .int32 7)] ⟨TT.BOOL, TT.I32, 0, [], some [(.bool true, .int32 7)]⟩
    (Or.inl rfl) (by intro e he; rw [List.mem_singleton.1 he]; exact ⟨⟨rfl, trivial⟩, rfl⟩) rfl).1 (.bool false) ⟨rfl, trivial⟩
  have h2 : TMap.get exampleLib ⟨TT.BOOL, TT.I32, 0, [], some [(.bool true, .int32 7)]⟩ (.bool false) = .ok (.nil, true) := rfl
  rw [h2] at this
  injection this with h
  injection h with _ h
  exact absurd h (by decide)

theorem mapHistory_ok (L : FloatLib) {t vt : TType} {n : Int} : ∀ (hs : List (Dyn × Dyn)) (p : TMap), MapOk t vt n p →
    GoodHistory t vt hs → ∃ p', mapHistory L p hs = .ok p' ∧ MapOk t vt n p' ∧
      (t ≠ TT.BINARY → (p'.m = none ↔ p.m = none ∧ hs = [])) ∧
      ∀ key, assoc p'.rep key = match lastValue hs key with
        | some v => some v
        | none => assoc p.rep key
  | [], p, hp, _ => ⟨p, rfl, hp, fun _ => by simp, fun _ => rfl⟩
  | (k, v) :: hs, p, hp, hg => by
    have hkv := hg (k, v) List.mem_cons_self
    obtain ⟨p1, h1, hp1, hm1, _, ha1⟩ := set_ok L hp hkv.1 hkv.2
    obtain ⟨p', h2, hp', hm2, ha2⟩ := mapHistory_ok L hs p1 hp1 fun e he => hg e (List.mem_cons_of_mem _ he)
    refine ⟨p', by rw [mapHistory, h1]; exact h2, hp', fun ht => ?_, fun key => ?_⟩
    · rw [hm2 ht]; simp [hm1 ht]
    · rw [ha2, lastValue, ha1]
      cases lastValue hs key with
      | some w => rfl
      | none => by_cases hk : k.key = key <;> simp [hk]

theorem lastValue_none_iff (key : List Int) : ∀ hs, lastValue hs key = none ↔ ∀ e ∈ hs, e.1.key ≠ key
  | [] => by simp [lastValue]
  | (k, v) :: hs => by
    have ih := lastValue_none_iff key hs
    rw [lastValue]
    cases h : lastValue hs key with
    | some w =>
      rw [h] at ih
      simp only [reduceCtorEq, false_iff] at ih ⊢
      exact fun hall => ih fun e he => hall e (List.mem_cons_of_mem _ he)
    | none =>
      rw [h] at ih
      simp only [true_iff] at ih
      by_cases hk : k.key = key
      · simp [hk]
      · simp only [if_neg hk, true_iff]
        intro e he
        rcases List.mem_cons.1 he with he | he
        · rw [he]; exact hk
        · exact ih e he

/-- What `Get` and `Len` answer after every history of `Set` calls on a map with
scalar keys.  The differences to C41: a map with boolean keys that is not empty
reports absent keys as present (with the value nil), and an empty map with binary
keys reports the capacity given at construction as its length. -/
theorem C41_partial (L : FloatLib) (t vt : TType) (n : Int) (ht : ScalarType t) (hs : List (Dyn × Dyn))
    (hg : GoodHistory t vt hs) :
    ∃ p, mapHistory L (TMap.new t vt n) hs = .ok p ∧
      (∀ k, Scalar t k → p.get L k = .ok (match lastValue hs k.key with
        | some v => (v, true)
        | none => (.nil, decide (t = TT.BOOL ∧ hs ≠ [])))) ∧
      (if t = TT.BINARY ∧ hs = [] then p.len = n else KeyCount hs p.len) := by
  obtain ⟨p, h, hp, hm, ha⟩ := mapHistory_ok L hs _ (mapNew_ok t vt n) hg
  have hnew : (TMap.new t vt n).rep = [] := by rw [TMap.rep]; split <;> rfl
  have ha : ∀ key, assoc p.rep key = lastValue hs key := by
    intro key
    rw [ha key, hnew]
    cases lastValue hs key <;> rfl
  refine ⟨p, h, fun k hk => ?_, ?_⟩
  · rw [get_ok L hp hk, ha]
    cases lastValue hs k.key with
    | some v => rfl
    | none =>
      show Res.ok (Dyn.nil, _) = Res.ok (Dyn.nil, _)
      congr 2
      rw [decide_eq_decide]
      refine and_congr_right fun hb => ?_
      have := hm (by rw [hb]; decide)
      rw [ne_eq, this]
      show ¬ (none = none ∧ hs = []) ↔ _
      simp
  · have hex : ∃ a, Scalar t a := by
      rcases ht with h | h | h | h | h | h | h | h | h | h <;> subst h
      · exact ⟨.bool true, rfl, trivial⟩
      · exact ⟨.byte 0, rfl, trivial⟩
      · exact ⟨.float64 0, rfl, by show F64.isNaN _ = false; decide +kernel⟩
      · exact ⟨.int16 0, rfl, trivial⟩
      · exact ⟨.int32 0, rfl, trivial⟩
      · exact ⟨.int64 0, rfl, trivial⟩
      · exact ⟨.string [], Or.inl rfl, trivial⟩
      · exact ⟨.string [], Or.inr (Or.inl rfl), trivial⟩
      · exact ⟨.string [], Or.inr (Or.inr rfl), trivial⟩
      · exact ⟨.bytes [], rfl, trivial⟩
    obtain ⟨a, hsa⟩ := hex
    have hkeys : ∀ key, key ∈ p.rep.map (fun e => e.1.key) ↔ ∃ e ∈ hs, e.1.key = key := by
      intro key
      have h1 := assoc_none_iff p.rep key
      rw [ha, lastValue_none_iff] at h1
      constructor
      · intro hk
        obtain ⟨e, he, hek⟩ := List.mem_map.1 hk
        apply Classical.byContradiction
        intro hno
        exact h1.1 (fun e he hek => hno ⟨e, he, hek⟩) e he hek
      · intro ⟨e, he, hek⟩
        apply Classical.byContradiction
        intro hno
        exact h1.2 (fun e he hek => hno (List.mem_map.2 ⟨e, he, hek⟩)) e he hek
    have hrep : p.rep = [] ↔ hs = [] := by
      constructor
      · intro h0
        cases hs with
        | nil => rfl
        | cons e es =>
          have := (hkeys e.1.key).2 ⟨e, List.mem_cons_self, rfl⟩
          rw [h0] at this
          exact absurd this List.not_mem_nil
      · intro h0
        cases hr : p.rep with
        | nil => rfl
        | cons e es =>
          obtain ⟨x, hx, _⟩ := (hkeys e.1.key).1 (by rw [hr]; exact List.mem_cons_self)
          rw [h0] at hx
          exact absurd hx List.not_mem_nil
    rw [len_ok hp hsa]
    by_cases hc : t = TT.BINARY ∧ hs = []
    · rw [if_pos hc, if_pos ⟨hc.1, hrep.2 hc.2⟩]
    · rw [if_neg hc, if_neg fun h => hc ⟨h.1, hrep.1 h.2⟩]
      refine ⟨p.rep.map fun e => e.1.key, List.pairwise_map.2 hp.nodup, hkeys, by rw [List.length_map]⟩

example : GoodHistory TT.I32 TT.STRING [(.int32 1, .string [])] := by
  intro e he
  rw [List.mem_singleton.1 he]
  exact ⟨⟨rfl, trivial⟩, Or.inl rfl⟩

/-- The entries that iteration delivers are the last values of the keys, each key
once. -/
theorem C41_entries_partial (L : FloatLib) (t vt : TType) (n : Int) (hs : List (Dyn × Dyn)) (hne : hs ≠ [])
    (hg : GoodHistory t vt hs) :
    ∃ p es, mapHistory L (TMap.new t vt n) hs = .ok p ∧ p.entries = .ok es ∧
      es.Pairwise (fun a b => a.1.key ≠ b.1.key) ∧ ∀ key, assoc es key = lastValue hs key := by
  obtain ⟨p, h, hp, _, ha⟩ := mapHistory_ok L hs _ (mapNew_ok t vt n) hg
  have hnew : (TMap.new t vt n).rep = [] := by rw [TMap.rep]; split <;> rfl
  cases hs with
  | nil => exact absurd rfl hne
  | cons e es =>
    refine ⟨p, p.rep, h, entries_ok hp (hg e List.mem_cons_self).1, hp.nodup, fun key => ?_⟩
    rw [ha key, hnew]
    cases lastValue (e :: es) key <;> rfl

end Thrift
