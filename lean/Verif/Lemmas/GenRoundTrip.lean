import Verif.Lemmas.GenRead
import Verif.Lemmas.GenWrite
import Verif.Lemmas.Map
import Verif.Lemmas.Coerce
import Verif.Spec.RoundTrip
/-!
# Generated code: what is written is what is read

Pure part: the tree of an object, and the object of that tree.
-/

namespace Thrift

variable {S : Schema} {L : FloatLib} {mem : List Nat → Nat}

/-- The object made from the tree is a copy. -/
structure Copies (S : Schema) (L : FloatLib) (e : Ty) (x d' : Dyn) : Prop where
  same : Same x d'
  key : e.Key → d' = x
  plain : e.Plain → Native e.wire d'
  text : e.Textual S → ∃ c, coerceData L e.wire d' = .ok (c, true)

def Good (S : Schema) (L : FloatLib) (mem : List Nat → Nat) (e : Ty) (x : Dyn) : Prop :=
  ∃ v N, (∀ fuel, N ≤ fuel → flatVal true S fuel e x = some v) ∧ v.WF ∧ v.Conforms S e ∧
    ∀ path, ∃ d', buildVal S L mem v path e = .ok d' ∧ Copies S L e x d'

theorem Copies.ofNative {e : Ty} {x d' : Dyn} (h : Same x d') (hk : e.Key → d' = x) (hn : Native e.wire d') : Copies S L e x d' :=
  ⟨h, hk, fun _ => hn, fun _ => ⟨d', coerceData_native L hn⟩⟩

theorem Good.leaf {e : Ty} {x : Dyn} {v : Val} (h1 : ∀ n, flatVal true S (n + 1) e x = some v) (h2 : v.WF) (h3 : v.Conforms S e)
    (h4 : ∀ path, buildVal S L mem v path e = .ok x) (h5 : Copies S L e x x) : Good S L mem e x :=
  ⟨v, 1, fun | 0, h => by omega | n + 1, _ => h1 n, h2, h3, fun path => ⟨x, h4 path, h5⟩⟩

theorem wire_isWire (e : Ty) : IsWireType e.wire := by cases e <;> simp [Ty.wire, Ty.code, IsWireType]

theorem plain_wire {e : Ty} (h : e.Plain) : e.wire = e.code := by
  cases e <;> first | rfl | exact h.elim

/-! ## Lists and sets -/

def SameList (as bs : List Dyn) : Prop := as.length = bs.length ∧ ∀ i, Same (as.getD i .nil) (bs.getD i .nil)

theorem SameList.nil : SameList [] [] := ⟨rfl, fun _ => Same.refl _⟩

theorem SameList.cons {a b as bs} (h : Same a b) (hs : SameList as bs) : SameList (a :: as) (b :: bs) :=
  ⟨by simp [hs.1], fun i => by cases i with | zero => exact h | succ i => simpa using hs.2 i⟩

theorem good_vals {e : Ty} (he : e.Plain) : ∀ ds : List Dyn, (∀ d ∈ ds, Good S L mem e d) →
    ∃ vs N, (∀ fuel, N ≤ fuel → flatVals (flatVal true S fuel e) ds = some vs) ∧ vs.length = ds.length ∧
      vs.WF e.wire ∧ vs.Conforms S e ∧
      ∀ path i (l : TList), l.elemType = e.wire → ∃ ds', buildList S L mem vs path e i l = .ok ⟨e.wire, l.l ++ ds'⟩ ∧ SameList ds ds'
  | [], _ => ⟨.nil, 0, fun _ _ => rfl, rfl, trivial, trivial,
      fun path i l hl => ⟨[], by simp only [buildList, List.append_nil, ← hl], SameList.nil⟩⟩
  | d :: ds, h => by
    obtain ⟨v, N, h1, h2, h3, h4⟩ := h d List.mem_cons_self
    obtain ⟨vs, M, k1, kl, k2, k3, k4⟩ := good_vals he ds fun x hx => h x (List.mem_cons_of_mem _ hx)
    refine ⟨.cons v vs, max N M, fun fuel hf => ?_, by simp [Vals.length, kl], ⟨?_, h2, k2⟩, ⟨h3, k3⟩, ?_⟩
    · simp only [flatVals, h1 fuel (by omega), k1 fuel (by omega)]
    · exact flatVal_type (h1 N (Nat.le_refl _))
    · intro path i l hl
      obtain ⟨d', hb, hc⟩ := h4 (i :: path)
      obtain ⟨ds', hb', hs⟩ := k4 path (i + 1) ⟨e.wire, l.l ++ [d']⟩ rfl
      refine ⟨d' :: ds', ?_, hs.cons hc.same⟩
      have hp : l.push L d' = .ok ⟨e.wire, l.l ++ [d']⟩ := by
        have ht : l.typeFor d' = e.wire := by
          have : isEmptyType e.wire = false := by cases e <;> rfl
          simp only [TList.typeFor, hl, this]
          rfl
        simp only [TList.push, ht, coerceData_native L (hc.plain he), Res.bind_ok, if_true, Res.pure_def]
      simp only [buildList, hb, Res.bind_ok, hp, hb']
      simp

theorem good_list {e : Ty} {ptr : Nat} {t : TType} {vs : List Dyn} (he : e.Plain) (len : vs.length < 2 ^ 31)
    (h : ∀ d ∈ vs, Good S L mem e d) : Good S L mem (.list e) (.list ptr t vs) := by
  obtain ⟨ws, N, h1, hl, h2, h3, h4⟩ := good_vals he vs h
  refine ⟨.list e.wire ws, N + 1, fun fuel hf => ?_, ⟨wire_isWire e, by omega, h2⟩, h3, fun path => ?_⟩
  · obtain ⟨n, rfl⟩ : ∃ n, fuel = n + 1 := ⟨fuel - 1, by omega⟩
    simp only [flatVal, Ty.header, Bool.true_or, if_true, h1 n (by omega), Option.map_some]
  · obtain ⟨ds', hb, hs⟩ := h4 path 0 (TList.new e.wire) rfl
    refine ⟨_, ?_, Copies.ofNative (Same.list (q := mem path) (t' := e.wire) hs.1 hs.2) (fun hk => hk.elim) rfl⟩
    simp only [buildVal, hb, Res.bind_ok, TList.toDyn]
    rfl

theorem good_set {e : Ty} {ptr : Nat} {t : TType} {vs : List Dyn} (he : e.Plain) (len : vs.length ≤ 1)
    (h : ∀ d ∈ vs, Good S L mem e d) : Good S L mem (.set e) (.set ptr t vs.length vs) := by
  match vs, len with
  | [], _ =>
    refine ⟨.set e.wire .nil, 1, fun fuel hf => ?_, ⟨wire_isWire e, by simp [Vals.length], trivial⟩, trivial, fun path => ?_⟩
    · obtain ⟨n, rfl⟩ : ∃ n, fuel = n + 1 := ⟨fuel - 1, by omega⟩
      simp [flatVal, Ty.header, flatVals]
    · refine ⟨.set (mem path) e.wire 0 [], rfl, Copies.ofNative (Same.set rfl fun _ => Same.refl _) (fun hk => hk.elim) rfl⟩
  | [d], _ =>
    obtain ⟨v, N, h1, h2, h3, h4⟩ := h d List.mem_cons_self
    refine ⟨.set e.wire (.cons v .nil), N + 1, fun fuel hf => ?_,
      ⟨wire_isWire e, by simp [Vals.length], flatVal_type (h1 N (Nat.le_refl _)), h2, trivial⟩, ⟨h3, trivial⟩, fun path => ?_⟩
    · obtain ⟨n, rfl⟩ : ∃ n, fuel = n + 1 := ⟨fuel - 1, by omega⟩
      simp [flatVal, Ty.header, flatVals, h1 n (by omega)]
    · obtain ⟨d', hb, hc⟩ := h4 (0 :: path)
      refine ⟨.set (mem path) e.wire 1 [d'], ?_,
        Copies.ofNative (Same.set rfl (SameList.nil.cons hc.same).2) (fun hk => hk.elim) rfl⟩
      simp only [buildVal, buildSet, hb, Res.bind_ok, TSet.add, TSet.new, coerceData_native L (hc.plain he), if_true,
        List.isEmpty_nil, Res.pure_def]
      rfl

/-! ## Maps -/

theorem key_native {k : Ty} (hk : k.Key) : k.Plain := by cases k <;> first | trivial | exact hk.elim

theorem key_types {k : Ty} (hk : k.Key) : ¬(k.wire = TT.STOP ∨ k.wire = TT.VOID) ∧ (!isBaseType k.wire || decide (k.wire = TT.BINARY)) = false ∧
    TMap.usesGoMap k.wire = true ∧ k.code = k.wire := by
  cases k <;> first | exact hk.elim | exact ⟨by decide, rfl, rfl, rfl⟩

theorem native_fits {k : Ty} (hk : k.Key) {d : Dyn} (h : Native k.wire d) : TMap.keyFits k.wire d = true := by
  cases k with
  | enum | binary | struct | list | set | map => exact hk.elim
  | bool => obtain ⟨x, rfl⟩ := native_bool h; rfl
  | byte => obtain ⟨x, rfl⟩ := native_byte h; rfl
  | i16 => obtain ⟨x, rfl⟩ := native_int16 h; rfl
  | i32 => obtain ⟨x, rfl⟩ := native_int32 h; rfl
  | i64 => obtain ⟨x, rfl⟩ := native_int64 h; rfl
  | double => obtain ⟨x, rfl⟩ := native_float64 h; rfl
  | string => obtain ⟨x, rfl⟩ := native_string (.inl rfl) h; rfl

def SamePairs (as bs : List (Dyn × Dyn)) : Prop :=
  as.length = bs.length ∧ (∀ i, Same (as.getD i (.nil, .nil)).1 (bs.getD i (.nil, .nil)).1) ∧
    ∀ i, Same (as.getD i (.nil, .nil)).2 (bs.getD i (.nil, .nil)).2

theorem SamePairs.nil : SamePairs [] [] := ⟨rfl, fun _ => Same.refl _, fun _ => Same.refl _⟩

theorem SamePairs.cons {a b as bs} (h : Same a.1 b.1) (h' : Same a.2 b.2) (hs : SamePairs as bs) : SamePairs (a :: as) (b :: bs) :=
  ⟨by simp [hs.1], fun i => by cases i with | zero => exact h | succ i => simpa using hs.2.1 i,
    fun i => by cases i with | zero => exact h' | succ i => simpa using hs.2.2 i⟩

theorem store_new {m : List (Dyn × Dyn)} {k v : Dyn} (h : ∀ e ∈ m, TMap.sameKey k e.1 = false) : TMap.store m k v = m ++ [(k, v)] := by
  rw [TMap.store, if_neg]
  intro hc
  obtain ⟨e, he, hs⟩ := List.any_eq_true.mp hc
  rw [h e he] at hs
  cases hs

theorem good_pairs {k w : Ty} (hk : k.Key) (hw : w.Textual S) : ∀ es : List (Dyn × Dyn),
    (∀ d ∈ es, Good S L mem k d.1) → (∀ d ∈ es, Good S L mem w d.2) →
    es.Pairwise (fun a b => TMap.sameKey b.1 a.1 = false) →
    ∃ ps N, (∀ fuel, N ≤ fuel → flatPairs (flatVal true S fuel k) (flatVal true S fuel w) es = some ps) ∧ ps.length = es.length ∧
      ps.WF k.wire w.wire ∧ ps.Conforms S k w ∧
      ∀ path i (m : TMap), m.keyType = k.wire → m.valueType = w.wire → m.l = [] →
        (∀ d ∈ es, ∀ e ∈ m.m.getD [], TMap.sameKey d.1 e.1 = false) →
        ∃ es' m', buildPairs S L mem ps path k w i m = .ok m' ∧ m'.keyType = k.wire ∧ m'.valueType = w.wire ∧ m'.l = [] ∧
          m'.m.getD [] = m.m.getD [] ++ es' ∧ SamePairs es es'
  | [], _, _, _ => ⟨.nil, 0, fun _ _ => rfl, rfl, trivial, trivial,
      fun path i m h1 h2 h3 _ => ⟨[], m, rfl, h1, h2, h3, by simp, SamePairs.nil⟩⟩
  | (a, b) :: es, h, h', hd => by
    obtain ⟨v, N, h1, h2, h3, h4⟩ := h (a, b) List.mem_cons_self
    obtain ⟨v', N', h1', h2', h3', h4'⟩ := h' (a, b) List.mem_cons_self
    rw [List.pairwise_cons] at hd
    obtain ⟨ps, M, k1, kl, k2, k3, k4⟩ := good_pairs hk hw es (fun x hx => h x (List.mem_cons_of_mem _ hx))
      (fun x hx => h' x (List.mem_cons_of_mem _ hx)) hd.2
    refine ⟨.cons v v' ps, max (max N N') M, fun fuel hf => ?_, by simp [Pairs.length, kl],
      ⟨flatVal_type (h1 N (Nat.le_refl _)), flatVal_type (h1' N' (Nat.le_refl _)), h2, h2', k2⟩, ⟨h3, h3', k3⟩, ?_⟩
    · simp only [flatPairs, h1 fuel (by omega), h1' fuel (by omega), k1 fuel (by omega)]
    · intro path i m e1 e2 e3 e4
      obtain ⟨d1, hb1, hc1⟩ := h4 ((2 * i) :: path)
      obtain ⟨d2, hb2, hc2⟩ := h4' ((2 * i + 1) :: path)
      have hn := hc1.plain (key_native hk)
      have := hc1.key hk
      simp only at this
      subst this
      obtain ⟨c, hcv⟩ := hc2.text hw
      obtain ⟨t1, t2, t3, t4⟩ := key_types hk
      have hset : m.set L d1 d2 = .ok { m with m := some (m.m.getD [] ++ [(d1, d2)]) } := by
        have hvt : (if m.valueType = TT.STOP ∨ m.valueType = TT.VOID then typeFromValue d2 else m.valueType) = w.wire := by
          rw [e2, if_neg]; cases w <;> simp [Ty.wire, Ty.code]
        simp only [TMap.set, e1, if_neg t1, coerceData_native L hn, Res.bind_ok, hvt, hcv, Bool.not_true]
        simp only [t2, Bool.false_eq_true, if_false, Native.not_nil hn, native_fits hk hn, Bool.not_true,
          store_new fun e he => e4 (d1, b) List.mem_cons_self e he]
        simp [Res.pure_def, ← e1, ← e2]
      obtain ⟨es', m', r1, r2, r3, r4, r5, r6⟩ := k4 path (i + 1) { m with m := some (m.m.getD [] ++ [(d1, d2)]) } e1 e2 e3 (by
        intro d hdm e he
        simp only [Option.getD_some, List.mem_append, List.mem_singleton] at he
        rcases he with he | rfl
        · exact e4 d (List.mem_cons_of_mem _ hdm) e he
        · exact hd.1 d hdm)
      refine ⟨(d1, d2) :: es', m', ?_, r2, r3, r4, ?_, r6.cons hc1.same hc2.same⟩
      · simp only [buildPairs, hb1, hb2, Res.bind_ok, hset, r1]
      · rw [r5]; simp

theorem good_map {k w : Ty} {ptr : Nat} {vt : TType} {ks vs : List Dyn} {es : List (Dyn × Dyn)} (hk : k.Key) (hw : w.Textual S)
    (len : es.length < 2 ^ 31) (hd : es.Pairwise fun a b => TMap.sameKey b.1 a.1 = false)
    (h : ∀ d ∈ es, Good S L mem k d.1) (h' : ∀ d ∈ es, Good S L mem w d.2) :
    Good S L mem (.map k w) (.map ptr k.code vt es.length ks vs es) := by
  obtain ⟨ps, N, h1, hl, h2, h3, h4⟩ := good_pairs hk hw es h h' hd
  obtain ⟨t1, t2, t3, t4⟩ := key_types hk
  refine ⟨.map k.wire w.wire ps, N + 1, fun fuel hf => ?_, ⟨wire_isWire k, wire_isWire w, by omega, h2⟩, h3, fun path => ?_⟩
  · obtain ⟨n, rfl⟩ : ∃ n, fuel = n + 1 := ⟨fuel - 1, by omega⟩
    simp only [flatVal, Ty.header, Bool.true_or, true_and, if_true, iterated, t4, if_neg t1, t3, true_or,
      h1 n (by omega), Option.map_some]
  · obtain ⟨es', m', r1, r2, r3, r4, r5, r6⟩ := h4 path 0 (TMap.new k.wire w.wire ps.length) rfl rfl rfl (by
      intro d _ e he; simp [TMap.new] at he)
    have hm : m'.m.getD [] = es' := by simpa [TMap.new] using r5
    have hdyn : m'.toDyn (mem path) = .map (mem path) k.wire w.wire es.length (es'.map (·.1)) (es'.map (·.2)) es' := by
      simp only [TMap.toDyn, r2, r3, t3, if_true, hm, TMap.len, r4, List.length_nil, ne_eq, not_true, if_false, if_neg t1, r6.1]
    refine ⟨_, ?_, Copies.ofNative (Same.map (q := mem path) (kt' := k.wire) (vt' := w.wire) (ks' := es'.map (·.1)) (vs' := es'.map (·.2)) r6.1 r6.2.1 r6.2.2) (fun hk => hk.elim) rfl⟩
    simp only [buildVal, r1, Res.bind_ok, hdyn]

/-! ## Structs -/

theorem member_unique {sd : StructDef} (h : sd.Ok) {a b : Member} (ha : a ∈ sd.members) (hb : b ∈ sd.members)
    (hab : a.id = b.id) : a = b := by
  have aux : ∀ ms : List Member, ms.Pairwise (fun a b => a.id ≠ b.id) → a ∈ ms → b ∈ ms → a = b := by
    intro ms
    induction ms with
    | nil => intro _ h; cases h
    | cons m ms ih =>
      intro hp ha hb
      rw [List.pairwise_cons] at hp
      rcases List.mem_cons.mp ha with ha | ha <;> rcases List.mem_cons.mp hb with hb | hb
      · rw [ha, hb]
      · exact absurd (ha ▸ hab) (hp.1 b hb)
      · exact absurd (hb ▸ hab.symm) (hp.1 a ha)
      · exact ih hp.2 ha hb
  exact aux _ h.ids ha hb

theorem byId_member {sd : StructDef} (h : sd.Ok) {m : Member} (hm : m ∈ sd.members) : sd.byId m.id = some m := by
  rw [StructDef.byId]
  cases hf : sd.members.find? fun x => decide (m.id = x.id) with
  | none => have := List.find?_eq_none.mp hf m hm; simp at this
  | some x =>
    have h1 := List.find?_some hf
    have h2 := List.mem_of_find?_eq_some hf
    rw [member_unique h hm h2 (by simpa using h1)]

theorem mem_insertMember {m x : Member} : ∀ {ms : List Member}, x ∈ insertMember m ms ↔ x = m ∨ x ∈ ms
  | [] => by simp [insertMember]
  | n :: ns => by
    rw [insertMember]
    split
    · simp
    · simp only [List.mem_cons, mem_insertMember]
      constructor
      · rintro (h | h | h) <;> simp [h]
      · rintro (h | h | h) <;> simp [h]

theorem mem_sorted {sd : StructDef} {x : Member} : x ∈ sd.sorted ↔ x ∈ sd.members := by
  unfold StructDef.sorted
  induction sd.members with
  | nil => simp
  | cons m ms ih => simp [mem_insertMember, ih]

theorem insertMember_distinct {m : Member} : ∀ {ms : List Member}, (∀ x ∈ ms, x.id ≠ m.id) → ms.Pairwise (fun a b => a.id ≠ b.id) →
    (insertMember m ms).Pairwise fun a b => a.id ≠ b.id
  | [], _, _ => by simp [insertMember]
  | n :: ns, h, hp => by
    rw [insertMember]
    split
    · exact List.pairwise_cons.mpr ⟨fun x hx => (h x hx).symm, hp⟩
    · rw [List.pairwise_cons] at hp ⊢
      refine ⟨fun x hx => ?_, insertMember_distinct (fun x hx => h x (List.mem_cons_of_mem _ hx)) hp.2⟩
      rcases mem_insertMember.mp hx with rfl | hx
      · exact h n List.mem_cons_self
      · exact hp.1 x hx

theorem sorted_distinct {sd : StructDef} (h : sd.Ok) : sd.sorted.Pairwise fun a b => a.id ≠ b.id := by
  have aux : ∀ ms : List Member, ms.Pairwise (fun a b => a.id ≠ b.id) →
      (ms.foldr insertMember []).Pairwise (fun a b => a.id ≠ b.id) ∧ ∀ x, x ∈ ms.foldr insertMember [] → x ∈ ms := by
    intro ms
    induction ms with
    | nil => intro _; exact ⟨List.Pairwise.nil, fun x hx => hx⟩
    | cons m ms ih =>
      intro hp
      rw [List.pairwise_cons] at hp
      obtain ⟨h1, h2⟩ := ih hp.2
      refine ⟨insertMember_distinct (fun x hx => (hp.1 x (h2 x hx)).symm) h1, fun x hx => ?_⟩
      rcases mem_insertMember.mp hx with rfl | hx
      · exact List.mem_cons_self
      · exact List.mem_cons_of_mem _ (h2 x hx)
  exact (aux _ h.ids).1

theorem attributeOf_cons (x : Int × Dyn) (as : List (Int × Dyn)) (i : Int) :
    attributeOf (x :: as) i = if x.1 = i then x.2 else attributeOf as i := by
  simp only [attributeOf, List.find?_cons]
  by_cases h : x.1 = i <;> simp [h]

theorem setAttr_ids (as : List (Int × Dyn)) (i : Int) (d : Dyn) : (setAttr as i d).map (·.1) = as.map (·.1) := by
  rw [setAttr, List.map_map]
  refine List.map_congr_left fun x _ => ?_
  simp only [Function.comp]
  split <;> rfl

theorem attributeOf_setAttr (d : Dyn) (i j : Int) : ∀ as : List (Int × Dyn),
    attributeOf (setAttr as i d) j = if i = j ∧ j ∈ as.map (·.1) then d else attributeOf as j
  | [] => by simp [setAttr, attributeOf]
  | x :: as => by
    have ih := attributeOf_setAttr d i j as
    have hs : setAttr (x :: as) i d = (if x.1 = i then (x.1, d) else x) :: setAttr as i d := rfl
    rw [hs, attributeOf_cons, attributeOf_cons, ih]
    by_cases hx : x.1 = i
    · by_cases hij : i = j
      · subst hij; simp [hx]
      · simp [hx, hij]
    · by_cases hij : i = j
      · subst hij
        have hx' : ¬ i = x.1 := fun h => hx h.symm
        simp only [hx, hx', if_false, true_and, List.map_cons, List.mem_cons, false_or]
      · simp [hx, hij]

theorem attributeOf_absent {as : List (Int × Dyn)} {i : Int} (h : i ∉ as.map (·.1)) : attributeOf as i = .nil := by
  rw [attributeOf]
  have : as.find? (fun x => decide (x.1 = i)) = none := by
    rw [List.find?_eq_none]
    intro x hx
    simp only [decide_eq_true_eq]
    rintro rfl
    exact h (List.mem_map.mpr ⟨x, hx, rfl⟩)
  rw [this]

theorem fresh_ids (sd : StructDef) : (sd.fresh S).map (·.1) = sd.members.map (·.id.toInt) := by
  simp [StructDef.fresh]

theorem attributeOf_fresh {sd : StructDef} (h : sd.Ok) {m : Member} (hm : m ∈ sd.members) :
    attributeOf (sd.fresh S) m.id.toInt = m.initial S := by
  have aux : ∀ ms : List Member, ms.Pairwise (fun a b => a.id ≠ b.id) → m ∈ ms →
      attributeOf (ms.map fun m => (m.id.toInt, m.initial S)) m.id.toInt = m.initial S := by
    intro ms
    induction ms with
    | nil => intro _ h; cases h
    | cons n ms ih =>
      intro hp hm
      rw [List.pairwise_cons] at hp
      rw [List.map_cons, attributeOf_cons]
      rcases List.mem_cons.mp hm with rfl | hm
      · simp
      · have : n.id.toInt ≠ m.id.toInt := fun hc => hp.1 m hm (toInt_inj hc)
        rw [if_neg this]
        exact ih hp.2 hm
  exact aux _ h.ids hm

theorem good_members {sd : StructDef} (hsd : sd.Ok) (attrs : List (Int × Dyn)) : ∀ ms : List Member,
    (∀ m ∈ ms, m ∈ sd.members) → ms.Pairwise (fun a b => a.id ≠ b.id) →
    (∀ m ∈ ms, m.written S (attributeOf attrs m.id.toInt) = true → Good S L mem m.ty (attributeOf attrs m.id.toInt)) →
    ∃ fs N, (∀ fuel, N ≤ fuel → flatMembers S (flatVal true S fuel) attrs ms = some fs) ∧ fs.WF ∧ fs.Conforms S sd ∧
      ∀ path as, as.map (·.1) = sd.members.map (·.id.toInt) →
        ∃ as', buildFields S L mem fs path sd as = .ok as' ∧ as'.map (·.1) = as.map (·.1) ∧
          (∀ i, (∀ m ∈ ms, m.written S (attributeOf attrs m.id.toInt) = true → m.id.toInt ≠ i) →
            attributeOf as' i = attributeOf as i) ∧
          ∀ m ∈ ms, m.written S (attributeOf attrs m.id.toInt) = true →
            Same (attributeOf attrs m.id.toInt) (attributeOf as' m.id.toInt)
  | [], _, _, _ => ⟨.nil, 0, fun _ _ => rfl, trivial, trivial, fun path as _ => ⟨as, rfl, rfl, fun _ _ => rfl, fun m hm => by cases hm⟩⟩
  | m :: ms, hmem, hp, h => by
    rw [List.pairwise_cons] at hp
    obtain ⟨fs, M, k1, k2, k3, k4⟩ := good_members hsd attrs ms (fun x hx => hmem x (List.mem_cons_of_mem _ hx)) hp.2
      (fun x hx => h x (List.mem_cons_of_mem _ hx))
    by_cases hw : m.written S (attributeOf attrs m.id.toInt) = true
    · obtain ⟨v, N, h1, h2, h3, h4⟩ := h m List.mem_cons_self hw
      have hm := hmem m List.mem_cons_self
      refine ⟨.cons m.id v fs, max N M, fun fuel hf => ?_, ⟨h2, k2⟩, ⟨?_, ?_, k3⟩, ?_⟩
      · simp only [flatMembers, hw, if_true, h1 fuel (by omega), k1 fuel (by omega)]
      · intro m' hm' he
        rw [member_unique hsd hm' hm he]; exact h3
      · intro hlt
        have := hsd.low m hm
        omega
      · intro path as has
        obtain ⟨d', hb, hc⟩ := h4 (m.id.toNat :: path)
        obtain ⟨as', r1, r2, r3, r4⟩ := k4 path (setAttr as m.id.toInt d') ((setAttr_ids _ _ _).trans has)
        refine ⟨as', ?_, r2.trans (setAttr_ids _ _ _), ?_, ?_⟩
        · simp only [buildFields, byId_member hsd hm, hb, Res.bind_ok, r1]
        · intro i hi
          rw [r3 i fun x hx => hi x (List.mem_cons_of_mem _ hx), attributeOf_setAttr, if_neg]
          exact fun hc => hi m List.mem_cons_self hw hc.1
        · intro x hx hxw
          rcases List.mem_cons.mp hx with rfl | hx
          · rw [r3 _ fun y hy _ hc => hp.1 y hy (toInt_inj hc.symm), attributeOf_setAttr, if_pos]
            · exact hc.same
            · exact ⟨rfl, by rw [has]; exact List.mem_map.mpr ⟨_, hm, rfl⟩⟩
          · exact r4 x hx hxw
    · refine ⟨fs, M, fun fuel hf => ?_, k2, k3, ?_⟩
      · simp only [flatMembers, hw, k1 fuel hf]
        rfl
      · intro path as has
        obtain ⟨as', r1, r2, r3, r4⟩ := k4 path as has
        refine ⟨as', r1, r2, fun i hi => r3 i fun x hx => hi x (List.mem_cons_of_mem _ hx), fun x hx hxw => ?_⟩
        rcases List.mem_cons.mp hx with rfl | hx
        · exact absurd hxw hw
        · exact r4 x hx hxw

theorem Ty.Nilable.can {t : Ty} (h : t.Nilable) : t.canBeNil = true := by
  cases t <;> first | rfl | exact h.elim

/-- A field that is not written holds its default. -/
theorem unwritten_same {m : Member} {d : Dyn} (hc : m.ty = .double → m.initial S = .float64 m.check)
    (hne : m.optional = true → d.isEmpty = false) (hf : m.Unset S d ∨ Fine S m.ty d) (hw : ¬ m.written S d = true) :
    Same d (m.initial S) := by
  have hw : m.written S d = false := by simpa using hw
  rcases hf with ⟨hd, h⟩ | hf
  · have : d = m.initial S := by
      rcases h with ⟨hn, rfl⟩ | ⟨k, hk, rfl⟩
      · simp only [Member.initial, hd]
        cases ht : m.ty <;> rw [ht] at hn <;> first | rfl | exact hn.elim
      · simp only [Member.initial, hd, hk]
    rw [this]; exact Same.refl _
  · cases hty : m.ty <;> rw [hty] at hf hc <;> cases hf <;>
      simp only [Member.written, Member.isSet, hty, Ty.canBeNil, Ty.isEnum, Dyn.isNil, Bool.and_false, Bool.and_true, Bool.not_false,
        Bool.true_and, Bool.or_false, Bool.or_true, Bool.not_true, Bool.false_or, Bool.or_eq_false_iff, Bool.not_eq_false', Bool.true_eq_false,
        decide_eq_false_iff_not, ne_eq, Decidable.not_not] at hw
    case double => rw [hc rfl]; exact Same.float hw.2
    case enum h _ => rw [hw] at h; exact absurd h.1 (by decide)
    case struct => simp [StructDef.object] at hw
    case list => have := hne hw.1; simp_all [Dyn.isEmpty]
    case set => have := hne hw.1; simp_all [Dyn.isEmpty]
    case map => have := hne hw.1; simp_all [Dyn.isEmpty]
    all_goals
      cases hi : m.initial S <;> rw [hi] at hw <;> simp [Dyn.goEq] at hw
      rw [hw.2]; exact Same.refl _

theorem good_struct {k ptr : Nat} {attrs : List (Int × Dyn)} (hsd : (S.structs k).Ok)
    (ids : attrs.map (·.1) = (S.structs k).members.map (·.id.toInt))
    (check : ∀ m ∈ (S.structs k).members, m.ty = .double → m.initial S = .float64 m.check)
    (nonempty : ∀ m ∈ (S.structs k).members, m.optional = true → (attributeOf attrs m.id.toInt).isEmpty = false)
    (hf : ∀ m ∈ (S.structs k).members, ¬ m.Unset S (attributeOf attrs m.id.toInt) →
      Fine S m.ty (attributeOf attrs m.id.toInt))
    (h : ∀ m ∈ (S.structs k).members, ¬ m.Unset S (attributeOf attrs m.id.toInt) →
      Good S L mem m.ty (attributeOf attrs m.id.toInt)) :
    ∃ fs N, (∀ fuel, N ≤ fuel → flatMembers S (flatVal true S fuel) attrs (S.structs k).sorted = some fs) ∧ fs.WF ∧
      fs.Conforms S (S.structs k) ∧ ∀ path, ∃ as', buildFields S L mem fs path (S.structs k) ((S.structs k).fresh S) = .ok as' ∧
        Same ((S.structs k).object ptr attrs) ((S.structs k).object (mem path) as') := by
  have hun : ∀ m ∈ (S.structs k).members, m.written S (attributeOf attrs m.id.toInt) = true →
      ¬ m.Unset S (attributeOf attrs m.id.toInt) := by
    rintro m _ hw ⟨_, h⟩
    rcases h with ⟨hn, hd⟩ | ⟨j, hj, hd⟩
    · rw [hd] at hw; simp [Member.written, hn.can, Dyn.isNil] at hw
    · rw [hd] at hw; simp [Member.written, hj, Ty.canBeNil, Ty.isEnum, Member.isSet] at hw
  obtain ⟨fs, N, h1, h2, h3, h4⟩ := good_members hsd attrs (S.structs k).sorted (fun m hm => mem_sorted.mp hm)
    (sorted_distinct hsd) (fun m hm hw => h m (mem_sorted.mp hm) (hun m (mem_sorted.mp hm) hw))
  refine ⟨fs, N, h1, h2, h3, fun path => ?_⟩
  obtain ⟨as', r1, r2, r3, r4⟩ := h4 path _ (fresh_ids _)
  refine ⟨as', r1, Same.struct (ids.trans (r2.trans (fresh_ids _)).symm) fun i => ?_⟩
  by_cases hi : i ∈ (S.structs k).members.map (·.id.toInt)
  · obtain ⟨m, hm, rfl⟩ := List.mem_map.mp hi
    by_cases hw : m.written S (attributeOf attrs m.id.toInt) = true
    · exact r4 m (mem_sorted.mpr hm) hw
    · rw [r3 _ fun x hx hxw hc => ?_, attributeOf_fresh hsd hm]
      · refine unwritten_same (check m hm) (nonempty m hm) ?_ hw
        by_cases hu : m.Unset S (attributeOf attrs m.id.toInt)
        · exact .inl hu
        · exact .inr (hf m hm hu)
      · rw [member_unique hsd (mem_sorted.mp hx) hm (toInt_inj hc)] at hxw
        exact hw hxw
  · rw [attributeOf_absent (by rwa [ids]), attributeOf_absent (by rwa [r2, fresh_ids])]
    exact Same.refl _

theorem Fine.good (hS : S.Ok) {ty : Ty} {d : Dyn} (h : Fine S ty d) : Good S L mem ty d := by
  induction h with
  | bool b => exact Good.leaf (fun _ => rfl) trivial trivial (fun _ => rfl) (Copies.ofNative (Same.refl _) (fun _ => rfl) rfl)
  | byte b => exact Good.leaf (fun _ => rfl) trivial trivial (fun _ => rfl) (Copies.ofNative (Same.refl _) (fun _ => rfl) rfl)
  | i16 b => exact Good.leaf (fun _ => rfl) trivial trivial (fun _ => rfl) (Copies.ofNative (Same.refl _) (fun _ => rfl) rfl)
  | i32 b => exact Good.leaf (fun _ => rfl) trivial trivial (fun _ => rfl) (Copies.ofNative (Same.refl _) (fun _ => rfl) rfl)
  | i64 b => exact Good.leaf (fun _ => rfl) trivial trivial (fun _ => rfl) (Copies.ofNative (Same.refl _) (fun _ => rfl) rfl)
  | double b => exact Good.leaf (fun _ => rfl) trivial trivial (fun _ => rfl) (Copies.ofNative (Same.refl _) (fun _ => rfl) rfl)
  | string b h => exact Good.leaf (fun _ => rfl) h trivial (fun _ => rfl) (Copies.ofNative (Same.refl _) (fun _ => rfl) (.inl rfl))
  | binary b h =>
    exact Good.leaf (fun _ => rfl) h trivial (fun _ => rfl) ⟨Same.refl _, fun _ => rfl, fun h => h.elim, fun _ => ⟨.string b, rfl⟩⟩
  | enum k v h =>
    have hv : (v.setWidth 32).signExtend 64 = v := by
      apply BitVec.eq_of_toInt_eq
      rw [BitVec.toInt_signExtend_of_le (by omega), ofInt_toInt_setWidth 32 (by omega), BitVec.toInt_ofInt,
        Int.bmod_eq_of_le (by omega) (by omega)]
    refine Good.leaf (v := .i32 (v.setWidth 32)) (fun _ => by simp [flatVal]) trivial trivial
      (fun _ => by simp only [buildVal, hv]) ⟨Same.refl _, fun _ => rfl, fun h => h.elim, fun ht => ?_⟩
    have hp := parseInt_eq (S.enumText k v)
    rw [ht v] at hp
    obtain ⟨w, _, hp⟩ := hp
    refine ⟨.int32 (w.setWidth 32), ?_⟩
    show Res.ok (coerceText (fun i => Dyn.int32 (i.setWidth 32)) (.enumer k v (S.enumText k v))) = _
    simp only [coerceText, Dyn.text, hp, if_true]
  | struct k ptr attrs ids check nonempty hf ih =>
    obtain ⟨fs, N, h1, h2, h3, h4⟩ := good_struct (L := L) (mem := mem) (ptr := ptr) (hS k) ids check nonempty hf ih
    refine ⟨.struct fs, N + 1, fun fuel hfu => ?_, h2, h3, fun path => ?_⟩
    · obtain ⟨n, rfl⟩ : ∃ n, fuel = n + 1 := ⟨fuel - 1, by omega⟩
      simp only [flatVal, StructDef.object, if_true, h1 n (by omega), Option.map_some]
    · obtain ⟨as', hb, hs⟩ := h4 path
      refine ⟨_, ?_, Copies.ofNative hs (fun hk => hk.elim) rfl⟩
      simp only [buildVal, hb, Res.bind_ok]
  | list e ptr t vs he len _ ih => exact good_list he len ih
  | set e ptr t vs he len _ ih => exact good_set he len ih
  | map k v ptr vt ks vs es hk hv len hd _ _ ih1 ih2 => exact good_map hk hv len hd ih1 ih2

/-! ## Through the binary protocol -/

theorem binary_writes (sw : Bin) {fuel : Nat} {sd : StructDef} {attrs : List (Int × Dyn)} {fs : Fields}
    (h : flatMembers S (flatVal true S fuel) attrs sd.sorted = some fs) (hw : fs.WF) :
    Emits (genWrite binary S fuel sd attrs) sw sw (BinarySpec.encode (.struct fs)) :=
  (Bin.emits_val (.struct fs) sw hw).sim (sim_struct blind_binary fuel sd attrs fs h)

theorem binary_roundtrips (hS : S.Ok) (msd : Int) (sw sr : Bin) (hr : sr.checkReadLength = false) {fw fr : Nat} {sd : StructDef}
    {path : List Nat} (hsd : sd.Ok) {attrs as' : List (Int × Dyn)} {fs : Fields} (hf : fs.size ≤ fr)
    (h : flatMembers S (flatVal true S fw) attrs sd.sorted = some fs) (hw : fs.WF) (hc : fs.Conforms S sd)
    (hb : buildFields S L mem fs path sd (sd.fresh S) = .ok as') :
    RoundTrips (genWrite binary S fw sd attrs) sw (genRead binary S L mem msd fr path sd) sr as' := by
  have ho := Dec.genInto hS L mem msd fs fr path sd (sd.fresh S) hf hsd hc (Bin.dec_val (.struct fs) sr hr hw)
  rw [hb] at ho
  exact ⟨_, (binary_writes sw h hw).memory, Runs.memory ho⟩

theorem RoundTrips.unique {w : P π GoErr} {sw : π} {r : P ρ (α × GoErr)} {sr : ρ} {a b : α} (h1 : RoundTrips w sw r sr a)
    (h2 : RoundTrips w sw r sr b) : a = b := by
  obtain ⟨x, hx, hx'⟩ := h1
  obtain ⟨y, hy, hy'⟩ := h2
  have h := (hx []).symm.trans (hy [])
  simp only [List.nil_append, Prod.mk.injEq, true_and] at h
  subst h
  have h := (hx' []).symm.trans (hy' [])
  simpa using h

end Thrift
