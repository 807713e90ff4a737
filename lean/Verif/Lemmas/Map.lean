import Verif.Lemmas.Collections
/-! # Lemmas about maps with scalar keys -/

namespace Thrift

/-- The value that an association list has for a key. -/
def assoc (es : List (Dyn × Dyn)) (key : List Int) : Option Dyn := (es.find? fun e => e.1.key = key).map (·.2)

/-- The entries of a map, wherever they live. -/
def TMap.rep (p : TMap) : List (Dyn × Dyn) := if p.keyType = TT.BINARY then p.l else p.m.getD []

/-- The state of a map with scalar keys. -/
structure MapOk (t vt : TType) (n : Int) (p : TMap) : Prop where
  kt : p.keyType = t
  vt : p.valueType = vt
  size : p.size = n
  keys : ∀ e ∈ p.rep, Scalar t e.1
  desc : t = TT.BINARY → p.rep.Pairwise fun a b => LexLt b.1.key a.1.key
  nodup : p.rep.Pairwise fun a b => a.1.key ≠ b.1.key
  nolist : t ≠ TT.BINARY → p.l = []
  nomap : p.m = none → t ≠ TT.BINARY → p.rep = []

theorem Scalar.notEmpty {t : TType} {a : Dyn} (h : Scalar t a) : isEmptyType t = false := by
  obtain ⟨ha, oa⟩ := h
  cases a with
  | nil | int | int8 | uint | uint16 | uint32 | uint64 | float32 | numeric | stringer | enumer | obj => exact ha.elim
  | struct | map | set | list => exact oa.elim
  | string a => rcases ha with h | h | h <;> subst h <;> rfl
  | _ =>
    have hp : t = _ := ha
    subst hp
    rfl

theorem Scalar.goMap {t : TType} {a : Dyn} (h : Scalar t a) (ht : t ≠ TT.BINARY) :
    TMap.usesGoMap t = true ∧ TMap.keyFits t a = true := by
  obtain ⟨ha, oa⟩ := h
  cases a with
  | nil | int | int8 | uint | uint16 | uint32 | uint64 | float32 | numeric | stringer | enumer | obj => exact ha.elim
  | struct | map | set | list => exact oa.elim
  | string a => rcases ha with h | h | h <;> subst h <;> exact ⟨rfl, rfl⟩
  | bytes => exact absurd ha ht
  | _ =>
    have hp : t = _ := ha
    subst hp
    exact ⟨rfl, rfl⟩

theorem sameKey_scalar {t : TType} {a b : Dyn} (ha : Scalar t a) (hb : Scalar t b) (ht : t ≠ TT.BINARY) :
    TMap.sameKey a b = decide (a.key = b.key) := by
  rw [TMap.sameKey, goEq_scalar ha hb ht]

theorem find?_congr' {f g : α → Bool} : ∀ {l : List α}, (∀ e ∈ l, f e = g e) → l.find? f = l.find? g
  | [], _ => rfl
  | e :: es, h => by
    rw [List.find?_cons, List.find?_cons, h e List.mem_cons_self, find?_congr' fun e he => h e (List.mem_cons_of_mem _ he)]

theorem lookup_assoc {t : TType} {m : List (Dyn × Dyn)} (hm : ∀ e ∈ m, Scalar t e.1) {a : Dyn} (ha : Scalar t a)
    (ht : t ≠ TT.BINARY) : TMap.lookup m a = assoc m a.key := by
  rw [TMap.lookup, assoc, find?_congr' (g := fun e => decide (e.1.key = a.key))]
  intro e he
  rw [sameKey_scalar ha (hm e he) ht, decide_eq_decide]
  exact eq_comm

/-- Storing, in terms of keys. -/
def storeKey (m : List (Dyn × Dyn)) (a v : Dyn) : List (Dyn × Dyn) :=
  if m.any fun e => e.1.key = a.key then m.map fun e => if e.1.key = a.key then (e.1, v) else e else m ++ [(a, v)]

theorem store_eq {t : TType} {m : List (Dyn × Dyn)} (hm : ∀ e ∈ m, Scalar t e.1) {a : Dyn} (ha : Scalar t a)
    (ht : t ≠ TT.BINARY) (v : Dyn) : TMap.store m a v = storeKey m a v := by
  have h : ∀ e ∈ m, TMap.sameKey a e.1 = decide (e.1.key = a.key) := fun e he => by
    rw [sameKey_scalar ha (hm e he) ht, decide_eq_decide]; exact eq_comm
  have h1 : (m.any fun e => TMap.sameKey a e.1) = m.any fun e => e.1.key = a.key := by
    rw [Bool.eq_iff_iff, List.any_eq_true, List.any_eq_true]
    exact ⟨fun ⟨e, he, x⟩ => ⟨e, he, (h e he).symm.trans x⟩, fun ⟨e, he, x⟩ => ⟨e, he, (h e he).trans x⟩⟩
  have h2 : (m.map fun e => if TMap.sameKey a e.1 = true then (e.1, v) else e)
      = m.map fun e => if e.1.key = a.key then (e.1, v) else e := by
    refine List.map_congr_left fun e he => ?_
    rw [h e he]; simp
  rw [TMap.store, storeKey, h1, h2]

theorem assoc_cons (e : Dyn × Dyn) (es) (key) : assoc (e :: es) key = if e.1.key = key then some e.2 else assoc es key := by
  rw [assoc, assoc, List.find?_cons]
  by_cases h : e.1.key = key
  · rw [if_pos h, decide_eq_true h]; rfl
  · rw [if_neg h, decide_eq_false h]

theorem assoc_replace (m : List (Dyn × Dyn)) (ak : List Int) (v : Dyn) (key : List Int) :
    assoc (m.map fun e => if e.1.key = ak then (e.1, v) else e) key =
      if ak = key then (assoc m key).map fun _ => v else assoc m key := by
  induction m with
  | nil => simp [assoc]
  | cons e es ih =>
    rw [List.map_cons, assoc_cons, assoc_cons, ih]
    by_cases h1 : e.1.key = ak
    · rw [if_pos h1]
      by_cases h2 : ak = key
      · subst h2; simp [h1]
      · simp [h1, h2]
    · rw [if_neg h1]
      by_cases h2 : ak = key
      · subst h2; simp [h1]
      · simp [h2]

theorem assoc_append (m : List (Dyn × Dyn)) (a v : Dyn) (key : List Int) :
    assoc (m ++ [(a, v)]) key = match assoc m key with
      | some w => some w
      | none => if a.key = key then some v else none := by
  induction m with
  | nil => simp [assoc_cons]; simp [assoc]
  | cons e es ih =>
    rw [List.cons_append, assoc_cons, assoc_cons, ih]
    split <;> rfl

theorem assoc_none_iff (m : List (Dyn × Dyn)) (key) : assoc m key = none ↔ ∀ e ∈ m, e.1.key ≠ key := by
  rw [assoc, Option.map_eq_none_iff, List.find?_eq_none]
  simp

theorem storeKey_assoc (m : List (Dyn × Dyn)) (a v : Dyn) (key : List Int) :
    assoc (storeKey m a v) key = if a.key = key then some v else assoc m key := by
  rw [storeKey]
  split
  · rename_i h
    rw [assoc_replace]
    by_cases hk : a.key = key
    · subst hk
      rw [if_pos rfl, if_pos rfl]
      cases hm : assoc m a.key with
      | some => rfl
      | none =>
        obtain ⟨e, he, x⟩ := List.any_eq_true.1 h
        exact absurd (of_decide_eq_true x) ((assoc_none_iff _ _).1 hm e he)
    · rw [if_neg hk, if_neg hk]
  · rename_i h
    rw [assoc_append]
    by_cases hk : a.key = key
    · subst hk
      have : assoc m a.key = none := (assoc_none_iff _ _).2 fun e he x =>
        h (List.any_eq_true.2 ⟨e, he, decide_eq_true x⟩)
      rw [this]
    · rw [if_neg hk, if_neg hk]
      cases assoc m key <;> rfl

theorem storeKey_keys {t : TType} {m : List (Dyn × Dyn)} (hm : ∀ e ∈ m, Scalar t e.1) {a : Dyn} (ha : Scalar t a) (v : Dyn) :
    ∀ e ∈ storeKey m a v, Scalar t e.1 := by
  intro e he
  rw [storeKey] at he
  split at he
  · obtain ⟨x, hx, rfl⟩ := List.mem_map.1 he
    split <;> exact hm x hx
  · rcases List.mem_append.1 he with h | h
    · exact hm e h
    · rw [List.mem_singleton.1 h]; exact ha

theorem storeKey_nodup {m : List (Dyn × Dyn)} (hm : m.Pairwise fun a b => a.1.key ≠ b.1.key) (a v : Dyn) :
    (storeKey m a v).Pairwise fun a b => a.1.key ≠ b.1.key := by
  rw [storeKey]
  split
  · refine List.pairwise_map.2 (hm.imp ?_)
    intro x y h
    split <;> split <;> exact h
  · rename_i h
    refine List.pairwise_append.2 ⟨hm, List.pairwise_singleton _ _, fun x hx y hy => ?_⟩
    rw [List.mem_singleton.1 hy]
    exact fun e => h (List.any_eq_true.2 ⟨x, hx, decide_eq_true e⟩)

/-- What `insertSorted` does. -/
inductive Put (a v : Dyn) : List (Dyn × Dyn) → List (Dyn × Dyn) → Prop
  | last : Put a v [] [(a, v)]
  | same : a.key = e.1.key → Put a v (e :: es) ((a, v) :: es)
  | here : LexLt e.1.key a.key → Put a v (e :: es) ((a, v) :: e :: es)
  | later : LexLt a.key e.1.key → Put a v es es' → Put a v (e :: es) (e :: es')

theorem insertSorted_put (L : FloatLib) {t : TType} {a : Dyn} (ha : Scalar t a) (v : Dyn) : ∀ m, (∀ e ∈ m, Scalar t e.1) →
    ∃ m', TMap.insertSorted L t a v m = .ok m' ∧ Put a v m m'
  | [], _ => ⟨_, rfl, .last⟩
  | e :: es, hm => by
    rcases (scalarOrder L t).cases ha (hm e List.mem_cons_self) with ⟨h, hc⟩ | ⟨h, hc⟩ | ⟨h, hc⟩
    · obtain ⟨m', h1, h2⟩ := insertSorted_put L ha v es fun e he => hm e (List.mem_cons_of_mem _ he)
      exact ⟨e :: m', by rw [TMap.insertSorted, hc]; simp [h1], .later h h2⟩
    · exact ⟨_, by rw [TMap.insertSorted, hc]; rfl, .same h⟩
    · exact ⟨_, by rw [TMap.insertSorted, hc]; rfl, .here h⟩

theorem Put.mem (h : Put a v m m') : ∀ e ∈ m', e = (a, v) ∨ e ∈ m := by
  induction h with
  | last => exact fun e h => Or.inl (List.mem_singleton.1 h)
  | same => exact fun e h => (List.mem_cons.1 h).imp id (List.mem_cons_of_mem _)
  | here => exact fun e h => List.mem_cons.1 h
  | later _ _ ih =>
    intro y h
    rcases List.mem_cons.1 h with h | h
    · exact Or.inr (h ▸ List.mem_cons_self)
    · exact (ih y h).imp id (List.mem_cons_of_mem _)

theorem Put.desc (h : Put a v m m') (hd : m.Pairwise fun a b => LexLt b.1.key a.1.key) :
    m'.Pairwise fun a b => LexLt b.1.key a.1.key := by
  induction h with
  | last => exact List.pairwise_singleton _ _
  | same h =>
    have hd' := List.pairwise_cons.1 hd
    exact List.pairwise_cons.2 ⟨fun y hy => h ▸ hd'.1 y hy, hd'.2⟩
  | here h1 =>
    refine List.pairwise_cons.2 ⟨fun y hy => ?_, hd⟩
    rcases List.mem_cons.1 hy with h | h
    · exact h ▸ h1
    · exact ((List.pairwise_cons.1 hd).1 y h).trans h1
  | later h1 h2 ih =>
    have hd' := List.pairwise_cons.1 hd
    refine List.pairwise_cons.2 ⟨fun y hy => ?_, ih hd'.2⟩
    rcases h2.mem y hy with h | h
    · exact h ▸ h1
    · exact hd'.1 y h

theorem Put.assoc (h : Put a v m m') (key : List Int) :
    assoc m' key = if a.key = key then some v else Thrift.assoc m key := by
  induction h with
  | last => rw [assoc_cons]
  | same h =>
    rw [assoc_cons, assoc_cons]
    by_cases hk : a.key = key
    · rw [if_pos hk, if_pos hk]
    · rw [if_neg hk, if_neg hk, if_neg (h ▸ hk)]
  | here h => rw [assoc_cons]
  | later h h2 ih =>
    rw [assoc_cons, assoc_cons, ih]
    rename_i e es es'
    by_cases h1 : e.1.key = key
    · rw [if_pos h1, if_neg (fun e' => LexLt.irrefl key (by rw [e', h1] at h; exact h)), if_pos h1]
    · rw [if_neg h1, if_neg h1]

theorem desc_nodup {m : List (Dyn × Dyn)} (h : m.Pairwise fun a b => LexLt b.1.key a.1.key) :
    m.Pairwise fun a b => a.1.key ≠ b.1.key :=
  h.imp fun {a b} (h : LexLt b.1.key a.1.key) (e : a.1.key = b.1.key) => LexLt.irrefl b.1.key (e ▸ h)

theorem scan_eq (f : Dyn → Res Bool) (g : Dyn → Bool) : ∀ es : List (Dyn × Dyn), (∀ e ∈ es, e.1.isNil = false ∧ f e.1 = .ok (g e.1)) →
    TMap.scan f es = .ok ((es.find? fun e => g e.1).map (·.2))
  | [], _ => rfl
  | e :: es, h => by
    have h1 := h e List.mem_cons_self
    rw [TMap.scan, h1.1, h1.2, List.find?_cons]
    have ih := scan_eq f g es fun e he => h e (List.mem_cons_of_mem _ he)
    cases g e.1 with
    | true => rfl
    | false => exact ih

theorem get_ok (L : FloatLib) {t vt n p} (hp : MapOk t vt n p) {a : Dyn} (ha : Scalar t a) :
    p.get L a = .ok (match assoc p.rep a.key with
      | some v => (v, true)
      | none => (.nil, decide (t = TT.BOOL ∧ p.m ≠ none))) := by
  rw [TMap.get, hp.kt, ha.notEmpty, ha.1.not_nil, coerceData_native L ha.1]
  by_cases ht : t = TT.BINARY
  · subst ht
    have hu : TMap.usesGoMap TT.BINARY = false := rfl
    have hr : p.rep = p.l := by rw [TMap.rep, if_pos hp.kt]
    have : TMap.scan (TMap.keyTest L TT.BINARY a) p.l = .ok (assoc p.rep a.key) := by
      rw [scan_eq _ (fun x => decide (x.key = a.key)), hr]
      · rfl
      · intro e he
        have he := hp.keys e (hr ▸ he)
        refine ⟨he.1.not_nil, ?_⟩
        rw [TMap.keyTest, if_pos rfl]
        obtain ⟨x, hx⟩ := native_bytes he.1
        obtain ⟨y, rfl⟩ := native_bytes ha.1
        rw [hx, bytesEq_key]
    simp only [Bool.false_eq_true, if_false, Res.bind_ok, Bool.not_true, hu, this]
    cases assoc p.rep a.key with
    | some v => rfl
    | none => rfl
  · obtain ⟨hu, hf⟩ := ha.goMap ht
    have hr : p.rep = p.m.getD [] := by rw [TMap.rep, hp.kt, if_neg ht]
    show (if TMap.usesGoMap t = true then _ else _) = _
    rw [hu, if_pos rfl]
    cases hm : p.m with
    | none =>
      have : p.rep = [] := hp.nomap hm ht
      rw [this]
      simp only [hf, if_true]
      show (if t = TT.BYTE then Res.ok (Dyn.nil, false) else Res.ok (Dyn.nil, false)) = _
      rw [ite_self]
      simp [assoc]
    | some m =>
      have hrm : p.rep = m := by rw [hr, hm]; rfl
      have hk : ∀ e ∈ m, Scalar t e.1 := hrm ▸ hp.keys
      simp only [hf, Bool.not_true, Bool.false_eq_true, if_false, lookup_assoc hk ha ht, hrm]
      cases assoc m a.key with
      | some v => rfl
      | none => simp

theorem set_ok (L : FloatLib) {t vt n p} (hp : MapOk t vt n p) {a v : Dyn} (ha : Scalar t a) (hv : Native vt v) :
    ∃ p', p.set L a v = .ok p' ∧ MapOk t vt n p' ∧ (t ≠ TT.BINARY → p'.m ≠ none) ∧ p'.rep ≠ [] ∧
      ∀ key, assoc p'.rep key = if a.key = key then some v else assoc p.rep key := by
  have hkt : (if p.keyType = TT.STOP ∨ p.keyType = TT.VOID then typeFromValue a else p.keyType) = t := by
    have := ha.notEmpty
    rw [hp.kt, if_neg]
    rintro (h | h) <;> rw [h] at this <;> exact absurd this (by decide)
  have hvt : (if p.valueType = TT.STOP ∨ p.valueType = TT.VOID then typeFromValue v else p.valueType) = vt := by
    have : isEmptyType vt = false := by
      cases v with
      | nil | int | int8 | uint | uint16 | uint32 | uint64 | float32 | numeric | stringer | enumer | obj => exact hv.elim
      | string s => rcases hv with h | h | h <;> subst h <;> rfl
      | _ =>
        have hp : vt = _ := hv
        subst hp
        rfl
    rw [hp.vt, if_neg]
    rintro (h | h) <;> rw [h] at this <;> exact absurd this (by decide)
  have hset : p.set L a v = (if (!isBaseType t || decide (t = TT.BINARY)) = true then
      (do return { p with keyType := t, valueType := vt, l := ← TMap.insertSorted L t a v p.l })
    else if (!TMap.keyFits t a) = true then .panic
    else .ok { p with keyType := t, valueType := vt, m := some (TMap.store (p.m.getD []) a v) }) := by
    rw [TMap.set]
    simp only [hkt, hvt, coerceData_native L ha.1, coerceData_native L hv, ha.1.not_nil, Res.bind_ok]
    rfl
  by_cases ht : t = TT.BINARY
  · have hr : p.rep = p.l := by rw [TMap.rep, hp.kt, if_pos ht]
    obtain ⟨m', h1, h2⟩ := insertSorted_put L ha v p.l fun e he => hp.keys e (hr ▸ he)
    rw [hset, if_pos (by rw [ht]; rfl), h1]
    have hr' : ({ p with keyType := t, valueType := vt, l := m' } : TMap).rep = m' := by rw [TMap.rep]; exact if_pos ht
    have hd' := h2.desc (hr ▸ hp.desc ht)
    refine ⟨_, rfl, ⟨rfl, rfl, hp.size, ?_, fun _ => hr'.symm ▸ hd', hr'.symm ▸ desc_nodup hd', fun hn => absurd ht hn,
      fun _ hn => absurd ht hn⟩, fun hn => absurd ht hn, ?_, ?_⟩
    · intro e he
      rw [hr'] at he
      rcases h2.mem e he with h | h
      · rw [h]; exact ha
      · exact hp.keys e (hr ▸ h)
    · rw [hr']
      intro h0
      have := h2.assoc a.key
      rw [h0, if_pos rfl] at this
      simp [assoc] at this
    · intro key; rw [hr', h2.assoc, hr]
  · obtain ⟨hu, hf⟩ := ha.goMap ht
    have hr : p.rep = p.m.getD [] := by rw [TMap.rep, hp.kt, if_neg ht]
    have hk : ∀ e ∈ p.m.getD [], Scalar t e.1 := hr ▸ hp.keys
    rw [hset, if_neg (by rw [ha.base, decide_eq_false ht]; decide), hf, if_neg (by decide), store_eq hk ha ht]
    have hr' : ({ p with keyType := t, valueType := vt, m := some (storeKey (p.m.getD []) a v) } : TMap).rep
        = storeKey (p.m.getD []) a v := by rw [TMap.rep]; exact if_neg ht
    refine ⟨_, rfl, ⟨rfl, rfl, hp.size, hr'.symm ▸ storeKey_keys hk ha v, fun h => absurd h ht,
      hr'.symm ▸ storeKey_nodup (hr ▸ hp.nodup) a v, hp.nolist, fun h => absurd h (by simp)⟩, fun _ => by simp, ?_, ?_⟩
    · rw [hr']
      intro h0
      have := storeKey_assoc (p.m.getD []) a v a.key
      rw [h0, if_pos rfl] at this
      simp [assoc] at this
    · intro key; rw [hr', storeKey_assoc, hr]

theorem len_ok {t vt n p} (hp : MapOk t vt n p) {a : Dyn} (ha : Scalar t a) :
    p.len = if t = TT.BINARY ∧ p.rep = [] then n else p.rep.length := by
  rw [TMap.len, hp.kt]
  by_cases ht : t = TT.BINARY
  · subst ht
    have hr : p.rep = p.l := by rw [TMap.rep, if_pos hp.kt]
    rw [hr]
    cases hl : p.l with
    | nil => show p.size = n; exact hp.size
    | cons e es => rw [if_pos (by simp), if_neg (by simp)]
  · have hr : p.rep = p.m.getD [] := by rw [TMap.rep, hp.kt, if_neg ht]
    have hne := ha.notEmpty
    rw [hp.nolist ht, (ha.goMap ht).1, hr]
    have h1 : ¬ (t = TT.STOP ∨ t = TT.VOID) := by
      rintro (h | h) <;> rw [h] at hne <;> exact absurd hne (by decide)
    rw [if_neg (by simp), if_neg h1, if_pos rfl, if_neg (fun h => ht h.1)]

theorem entries_ok {t vt n p} (hp : MapOk t vt n p) {a : Dyn} (ha : Scalar t a) : p.entries = .ok p.rep := by
  have hne := ha.notEmpty
  have h1 : ¬ (t = TT.STOP ∨ t = TT.VOID) := by
    rintro (h | h) <;> rw [h] at hne <;> exact absurd hne (by decide)
  rw [TMap.entries, hp.kt, if_neg h1, TMap.rep, hp.kt]
  by_cases ht : t = TT.BINARY
  · subst ht; rfl
  · rw [(ha.goMap ht).1, if_neg ht]; rfl

theorem mapNew_ok (t vt : TType) (n : Int) : MapOk t vt n (TMap.new t vt n) := by
  have hr : (TMap.new t vt n).rep = [] := by
    rw [TMap.rep]; split <;> rfl
  exact ⟨rfl, rfl, rfl, by rw [hr]; exact fun _ h => absurd h List.not_mem_nil, fun _ => by rw [hr]; exact List.Pairwise.nil,
    by rw [hr]; exact List.Pairwise.nil, fun _ => rfl, fun _ _ => hr⟩

end Thrift
