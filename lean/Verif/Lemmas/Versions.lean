import Verif.Lemmas.GenRoundTrip
import Verif.Spec.Versions
/-!
# What is written by one version is read by another

As `Lemmas/GenRoundTrip.lean`, with the tree made by one schema and the object made
from it by another.
-/

namespace Thrift

variable {S S' : Schema} {L : FloatLib} {mem : List Nat → Nat} {lax : Prop}

/-- The object made from the tree holds what was sent. -/
structure Carries2 (S S' : Schema) (lax : Prop) (L : FloatLib) (e : Ty) (x d' : Dyn) : Prop where
  got : Received S S' lax e x d'
  key : e.Key → d' = x
  plain : e.Plain → Native e.wire d'
  text : e.Textual S' → ∃ c, coerceData L e.wire d' = .ok (c, true)

def Passes (S S' : Schema) (lax : Prop) (L : FloatLib) (mem : List Nat → Nat) (e : Ty) (x : Dyn) : Prop :=
  ∃ v N, (∀ fuel, N ≤ fuel → flatVal true S fuel e x = some v) ∧ v.WF ∧ v.Conforms S' e ∧
    ∀ path, ∃ d', buildVal S' L mem v path e = .ok d' ∧ Carries2 S S' lax L e x d'

theorem Carries2.ofNative {e : Ty} {x d' : Dyn} (h : Received S S' lax e x d') (hk : e.Key → d' = x) (hn : Native e.wire d') :
    Carries2 S S' lax L e x d' :=
  ⟨h, hk, fun _ => hn, fun _ => ⟨d', coerceData_native L hn⟩⟩

theorem Passes.leaf {e : Ty} {x : Dyn} {v : Val} (h1 : ∀ n, flatVal true S (n + 1) e x = some v) (h2 : v.WF) (h3 : v.Conforms S' e)
    {x' : Dyn} (h4 : ∀ path, buildVal S' L mem v path e = .ok x') (h5 : Carries2 S S' lax L e x x') : Passes S S' lax L mem e x :=
  ⟨v, 1, fun | 0, h => by omega | n + 1, _ => h1 n, h2, h3, fun path => ⟨x', h4 path, h5⟩⟩

/-! ## Lists and sets -/

def ReceivedList (S S' : Schema) (lax : Prop) (e : Ty) (as bs : List Dyn) : Prop :=
  as.length = bs.length ∧ ∀ i, i < as.length → Received S S' lax e (as.getD i .nil) (bs.getD i .nil)

theorem ReceivedList.nil {e : Ty} : ReceivedList S S' lax e [] [] := ⟨rfl, fun _ h => by cases h⟩

theorem ReceivedList.cons {e : Ty} {a b as bs} (h : Received S S' lax e a b) (hs : ReceivedList S S' lax e as bs) :
    ReceivedList S S' lax e (a :: as) (b :: bs) :=
  ⟨by simp [hs.1], fun i hi => by cases i with | zero => exact h | succ i => simpa using hs.2 i (by simpa using hi)⟩

theorem passes_vals {e : Ty} (he : e.Plain) : ∀ ds : List Dyn, (∀ d ∈ ds, Passes S S' lax L mem e d) →
    ∃ vs N, (∀ fuel, N ≤ fuel → flatVals (flatVal true S fuel e) ds = some vs) ∧ vs.length = ds.length ∧
      vs.WF e.wire ∧ vs.Conforms S' e ∧
      ∀ path i (l : TList), l.elemType = e.wire → ∃ ds', buildList S' L mem vs path e i l = .ok ⟨e.wire, l.l ++ ds'⟩ ∧
        ReceivedList S S' lax e ds ds'
  | [], _ => ⟨.nil, 0, fun _ _ => rfl, rfl, trivial, trivial,
      fun path i l hl => ⟨[], by simp only [buildList, List.append_nil, ← hl], .nil⟩⟩
  | d :: ds, h => by
    obtain ⟨v, N, h1, h2, h3, h4⟩ := h d List.mem_cons_self
    obtain ⟨vs, M, k1, kl, k2, k3, k4⟩ := passes_vals he ds fun x hx => h x (List.mem_cons_of_mem _ hx)
    refine ⟨.cons v vs, max N M, fun fuel hf => ?_, by simp [Vals.length, kl], ⟨?_, h2, k2⟩, ⟨h3, k3⟩, ?_⟩
    · simp only [flatVals, h1 fuel (by omega), k1 fuel (by omega)]
    · exact flatVal_type (h1 N (Nat.le_refl _))
    · intro path i l hl
      obtain ⟨d', hb, hc⟩ := h4 (i :: path)
      obtain ⟨ds', hb', hs⟩ := k4 path (i + 1) ⟨e.wire, l.l ++ [d']⟩ rfl
      refine ⟨d' :: ds', ?_, hs.cons hc.got⟩
      have hp : l.push L d' = .ok ⟨e.wire, l.l ++ [d']⟩ := by
        have ht : l.typeFor d' = e.wire := by
          have : isEmptyType e.wire = false := by cases e <;> rfl
          simp only [TList.typeFor, hl, this]
          rfl
        simp only [TList.push, ht, coerceData_native L (hc.plain he), Res.bind_ok, if_true, Res.pure_def]
      simp only [buildList, hb, Res.bind_ok, hp, hb']
      simp

theorem passes_list {e : Ty} {ptr : Nat} {t : TType} {vs : List Dyn} (he : e.Plain) (len : vs.length < 2 ^ 31)
    (h : ∀ d ∈ vs, Passes S S' lax L mem e d) : Passes S S' lax L mem (.list e) (.list ptr t vs) := by
  obtain ⟨ws, N, h1, hl, h2, h3, h4⟩ := passes_vals he vs h
  refine ⟨.list e.wire ws, N + 1, fun fuel hf => ?_, ⟨wire_isWire e, by omega, h2⟩, h3, fun path => ?_⟩
  · obtain ⟨n, rfl⟩ : ∃ n, fuel = n + 1 := ⟨fuel - 1, by omega⟩
    simp only [flatVal, Ty.header, Bool.true_or, if_true, h1 n (by omega), Option.map_some]
  · obtain ⟨ds', hb, hs⟩ := h4 path 0 (TList.new e.wire) rfl
    refine ⟨_, ?_, Carries2.ofNative (Received.list (q := mem path) (t' := e.wire) hs.1 hs.2) (fun hk => hk.elim) rfl⟩
    simp only [buildVal, hb, Res.bind_ok, TList.toDyn]
    rfl

theorem passes_set {e : Ty} {ptr : Nat} {t : TType} {vs : List Dyn} (he : e.Plain) (len : vs.length ≤ 1)
    (h : ∀ d ∈ vs, Passes S S' lax L mem e d) : Passes S S' lax L mem (.set e) (.set ptr t vs.length vs) := by
  match vs, len with
  | [], _ =>
    refine ⟨.set e.wire .nil, 1, fun fuel hf => ?_, ⟨wire_isWire e, by simp [Vals.length], trivial⟩, trivial, fun path => ?_⟩
    · obtain ⟨n, rfl⟩ : ∃ n, fuel = n + 1 := ⟨fuel - 1, by omega⟩
      simp [flatVal, Ty.header, flatVals]
    · refine ⟨.set (mem path) e.wire 0 [], rfl, Carries2.ofNative (Received.set rfl fun _ h => by cases h) (fun hk => hk.elim) rfl⟩
  | [d], _ =>
    obtain ⟨v, N, h1, h2, h3, h4⟩ := h d List.mem_cons_self
    refine ⟨.set e.wire (.cons v .nil), N + 1, fun fuel hf => ?_,
      ⟨wire_isWire e, by simp [Vals.length], flatVal_type (h1 N (Nat.le_refl _)), h2, trivial⟩, ⟨h3, trivial⟩, fun path => ?_⟩
    · obtain ⟨n, rfl⟩ : ∃ n, fuel = n + 1 := ⟨fuel - 1, by omega⟩
      simp [flatVal, Ty.header, flatVals, h1 n (by omega)]
    · obtain ⟨d', hb, hc⟩ := h4 (0 :: path)
      refine ⟨.set (mem path) e.wire 1 [d'], ?_,
        Carries2.ofNative (Received.set rfl (ReceivedList.nil.cons hc.got).2) (fun hk => hk.elim) rfl⟩
      simp only [buildVal, buildSet, hb, Res.bind_ok, TSet.add, TSet.new, coerceData_native L (hc.plain he), if_true,
        List.isEmpty_nil, Res.pure_def]
      rfl

/-! ## Maps -/

def ReceivedPairs (S S' : Schema) (lax : Prop) (k w : Ty) (as bs : List (Dyn × Dyn)) : Prop :=
  as.length = bs.length ∧ (∀ i, i < as.length → Received S S' lax k (as.getD i (.nil, .nil)).1 (bs.getD i (.nil, .nil)).1) ∧
    ∀ i, i < as.length → Received S S' lax w (as.getD i (.nil, .nil)).2 (bs.getD i (.nil, .nil)).2

theorem ReceivedPairs.nil {k w : Ty} : ReceivedPairs S S' lax k w [] [] := ⟨rfl, fun _ h => absurd h (Nat.not_lt_zero _), fun _ h => absurd h (Nat.not_lt_zero _)⟩

theorem ReceivedPairs.cons {k w : Ty} {a b as bs} (h : Received S S' lax k a.1 b.1) (h' : Received S S' lax w a.2 b.2)
    (hs : ReceivedPairs S S' lax k w as bs) : ReceivedPairs S S' lax k w (a :: as) (b :: bs) :=
  ⟨by simp [hs.1], fun i hi => by cases i with | zero => exact h | succ i => simpa using hs.2.1 i (by simpa using hi),
    fun i hi => by cases i with | zero => exact h' | succ i => simpa using hs.2.2 i (by simpa using hi)⟩

theorem passes_pairs {k w : Ty} (hk : k.Key) (hw : w.Textual S') : ∀ es : List (Dyn × Dyn),
    (∀ d ∈ es, Passes S S' lax L mem k d.1) → (∀ d ∈ es, Passes S S' lax L mem w d.2) →
    es.Pairwise (fun a b => TMap.sameKey b.1 a.1 = false) →
    ∃ ps N, (∀ fuel, N ≤ fuel → flatPairs (flatVal true S fuel k) (flatVal true S fuel w) es = some ps) ∧ ps.length = es.length ∧
      ps.WF k.wire w.wire ∧ ps.Conforms S' k w ∧
      ∀ path i (m : TMap), m.keyType = k.wire → m.valueType = w.wire → m.l = [] →
        (∀ d ∈ es, ∀ e ∈ m.m.getD [], TMap.sameKey d.1 e.1 = false) →
        ∃ es' m', buildPairs S' L mem ps path k w i m = .ok m' ∧ m'.keyType = k.wire ∧ m'.valueType = w.wire ∧ m'.l = [] ∧
          m'.m.getD [] = m.m.getD [] ++ es' ∧ ReceivedPairs S S' lax k w es es'
  | [], _, _, _ => ⟨.nil, 0, fun _ _ => rfl, rfl, trivial, trivial,
      fun path i m h1 h2 h3 _ => ⟨[], m, rfl, h1, h2, h3, by simp, .nil⟩⟩
  | (a, b) :: es, h, h', hd => by
    obtain ⟨v, N, h1, h2, h3, h4⟩ := h (a, b) List.mem_cons_self
    obtain ⟨v', N', h1', h2', h3', h4'⟩ := h' (a, b) List.mem_cons_self
    rw [List.pairwise_cons] at hd
    obtain ⟨ps, M, k1, kl, k2, k3, k4⟩ := passes_pairs hk hw es (fun x hx => h x (List.mem_cons_of_mem _ hx))
      (fun x hx => h' x (List.mem_cons_of_mem _ hx)) hd.2
    refine ⟨.cons v v' ps, max (max N N') M, fun fuel hf => ?_, by simp [Pairs.length, kl],
      ⟨flatVal_type (h1 N (Nat.le_refl _)), flatVal_type (h1' N' (Nat.le_refl _)), h2, h2', k2⟩, ⟨h3, h3', k3⟩, ?_⟩
    · simp only [flatPairs, h1 fuel (by omega), h1' fuel (by omega), k1 fuel (by omega)]
    · intro path i m e1 e2 e3 e4
      obtain ⟨d1, hb1, hc1⟩ := h4 ((2 * i) :: path)
      obtain ⟨d2, hb2, hc2⟩ := h4' ((2 * i + 1) :: path)
      have hn := hc1.plain (key_native hk)
      have := hc1.key hk
      simp only at this
      subst this
      obtain ⟨c, hcv⟩ := hc2.text hw
      obtain ⟨t1, t2, t3, t4⟩ := key_types hk
      have hset : m.set L d1 d2 = .ok { m with m := some (m.m.getD [] ++ [(d1, d2)]) } := by
        have hvt : (if m.valueType = TT.STOP ∨ m.valueType = TT.VOID then typeFromValue d2 else m.valueType) = w.wire := by
          rw [e2, if_neg]; cases w <;> simp [Ty.wire, Ty.code]
        simp only [TMap.set, e1, if_neg t1, coerceData_native L hn, Res.bind_ok, hvt, hcv, Bool.not_true]
        simp only [t2, Bool.false_eq_true, if_false, Native.not_nil hn, native_fits hk hn, Bool.not_true,
          store_new fun e he => e4 (d1, b) List.mem_cons_self e he]
        simp [Res.pure_def, ← e1, ← e2]
      obtain ⟨es', m', r1, r2, r3, r4, r5, r6⟩ := k4 path (i + 1) { m with m := some (m.m.getD [] ++ [(d1, d2)]) } e1 e2 e3 (by
        intro d hdm e he
        simp only [Option.getD_some, List.mem_append, List.mem_singleton] at he
        rcases he with he | rfl
        · exact e4 d (List.mem_cons_of_mem _ hdm) e he
        · exact hd.1 d hdm)
      refine ⟨(d1, d2) :: es', m', ?_, r2, r3, r4, ?_, r6.cons hc1.got hc2.got⟩
      · simp only [buildPairs, hb1, hb2, Res.bind_ok, hset, r1]
      · rw [r5]; simp

theorem passes_map {k w : Ty} {ptr : Nat} {vt : TType} {ks vs : List Dyn} {es : List (Dyn × Dyn)} (hk : k.Key) (hw : w.Textual S')
    (len : es.length < 2 ^ 31) (hd : es.Pairwise fun a b => TMap.sameKey b.1 a.1 = false)
    (h : ∀ d ∈ es, Passes S S' lax L mem k d.1) (h' : ∀ d ∈ es, Passes S S' lax L mem w d.2) :
    Passes S S' lax L mem (.map k w) (.map ptr k.code vt es.length ks vs es) := by
  obtain ⟨ps, N, h1, hl, h2, h3, h4⟩ := passes_pairs hk hw es h h' hd
  obtain ⟨t1, t2, t3, t4⟩ := key_types hk
  refine ⟨.map k.wire w.wire ps, N + 1, fun fuel hf => ?_, ⟨wire_isWire k, wire_isWire w, by omega, h2⟩, h3, fun path => ?_⟩
  · obtain ⟨n, rfl⟩ : ∃ n, fuel = n + 1 := ⟨fuel - 1, by omega⟩
    simp only [flatVal, Ty.header, Bool.true_or, true_and, if_true, iterated, t4, if_neg t1, t3, true_or,
      h1 n (by omega), Option.map_some]
  · obtain ⟨es', m', r1, r2, r3, r4, r5, r6⟩ := h4 path 0 (TMap.new k.wire w.wire ps.length) rfl rfl rfl (by
      intro d _ e he; simp [TMap.new] at he)
    have hm : m'.m.getD [] = es' := by simpa [TMap.new] using r5
    have hdyn : m'.toDyn (mem path) = .map (mem path) k.wire w.wire es.length (es'.map (·.1)) (es'.map (·.2)) es' := by
      simp only [TMap.toDyn, r2, r3, t3, if_true, hm, TMap.len, r4, List.length_nil, ne_eq, not_true, if_false, if_neg t1, r6.1]
    rw [t4]
    refine ⟨_, ?_, Carries2.ofNative (Received.map (q := mem path) (vt' := w.wire) (ks' := es'.map (·.1)) (vs' := es'.map (·.2)) r6.1 r6.2.1 r6.2.2) (fun hk => hk.elim) rfl⟩
    simp only [buildVal, r1, Res.bind_ok, hdyn]

/-! ## Structs -/

theorem byId_absent {sd : StructDef} {id : I16} (h : ∀ m ∈ sd.members, m.id ≠ id) : sd.byId id = none := by
  rw [StructDef.byId, List.find?_eq_none]
  intro m hm
  simpa using fun hc => h m hm hc.symm

theorem passes_members {sd sd' : StructDef} (hsd : sd.Ok) (hsd' : sd'.Ok)
    (ht : ∀ m ∈ sd.members, ∀ m' ∈ sd'.members, m.id = m'.id → m.ty = m'.ty) (attrs : List (Int × Dyn)) : ∀ ms : List Member,
    (∀ m ∈ ms, m ∈ sd.members) → ms.Pairwise (fun a b => a.id ≠ b.id) →
    (∀ m ∈ ms, m.written S (attributeOf attrs m.id.toInt) = true → Passes S S' lax L mem m.ty (attributeOf attrs m.id.toInt)) →
    ∃ fs N, (∀ fuel, N ≤ fuel → flatMembers S (flatVal true S fuel) attrs ms = some fs) ∧ fs.WF ∧ fs.Conforms S' sd' ∧
      ∀ path as, as.map (·.1) = sd'.members.map (·.id.toInt) →
        ∃ as', buildFields S' L mem fs path sd' as = .ok as' ∧ as'.map (·.1) = as.map (·.1) ∧
          (∀ i, (∀ m ∈ ms, m.written S (attributeOf attrs m.id.toInt) = true → m.id.toInt ≠ i) →
            attributeOf as' i = attributeOf as i) ∧
          ∀ m ∈ ms, m.written S (attributeOf attrs m.id.toInt) = true → (∃ m' ∈ sd'.members, m.id = m'.id) →
            Received S S' lax m.ty (attributeOf attrs m.id.toInt) (attributeOf as' m.id.toInt)
  | [], _, _, _ => ⟨.nil, 0, fun _ _ => rfl, trivial, trivial, fun path as _ => ⟨as, rfl, rfl, fun _ _ => rfl, fun m hm => by cases hm⟩⟩
  | m :: ms, hmem, hp, h => by
    rw [List.pairwise_cons] at hp
    obtain ⟨fs, M, k1, k2, k3, k4⟩ := passes_members hsd hsd' ht attrs ms (fun x hx => hmem x (List.mem_cons_of_mem _ hx)) hp.2
      (fun x hx => h x (List.mem_cons_of_mem _ hx))
    by_cases hw : m.written S (attributeOf attrs m.id.toInt) = true
    · obtain ⟨v, N, h1, h2, h3, h4⟩ := h m List.mem_cons_self hw
      have hm := hmem m List.mem_cons_self
      refine ⟨.cons m.id v fs, max N M, fun fuel hf => ?_, ⟨h2, k2⟩, ⟨?_, ?_, k3⟩, ?_⟩
      · simp only [flatMembers, hw, if_true, h1 fuel (by omega), k1 fuel (by omega)]
      · intro m' hm' he
        rw [← ht m hm m' hm' he.symm]; exact h3
      · intro hlt
        have := hsd.low m hm
        omega
      · intro path as has
        by_cases hex : ∃ m' ∈ sd'.members, m.id = m'.id
        · obtain ⟨m', hm', he⟩ := hex
          obtain ⟨d', hb, hc⟩ := h4 (m.id.toNat :: path)
          obtain ⟨as', r1, r2, r3, r4⟩ := k4 path (setAttr as m.id.toInt d') ((setAttr_ids _ _ _).trans has)
          refine ⟨as', ?_, r2.trans (setAttr_ids _ _ _), ?_, ?_⟩
          · have hby := byId_member hsd' hm'
            rw [← he] at hby
            simp only [buildFields, hby]
            rw [← he, ← ht m hm m' hm' he, hb]
            simp only [Res.bind_ok, r1]
          · intro i hi
            rw [r3 i fun x hx => hi x (List.mem_cons_of_mem _ hx), attributeOf_setAttr, if_neg]
            exact fun hc => hi m List.mem_cons_self hw hc.1
          · intro x hx hxw hxe
            rcases List.mem_cons.mp hx with rfl | hx
            · rw [r3 _ fun y hy _ hc => hp.1 y hy (toInt_inj hc.symm), attributeOf_setAttr, if_pos]
              · exact hc.got
              · exact ⟨rfl, by rw [has, he]; exact List.mem_map.mpr ⟨_, hm', rfl⟩⟩
            · exact r4 x hx hxw hxe
        · obtain ⟨as', r1, r2, r3, r4⟩ := k4 path as has
          refine ⟨as', ?_, r2, fun i hi => r3 i fun x hx => hi x (List.mem_cons_of_mem _ hx), fun x hx hxw hxe => ?_⟩
          · simp only [buildFields, byId_absent (sd := sd') (id := m.id) fun m' hm' hc => hex ⟨m', hm', hc.symm⟩, r1]
          · rcases List.mem_cons.mp hx with rfl | hx
            · exact absurd hxe hex
            · exact r4 x hx hxw hxe
    · refine ⟨fs, M, fun fuel hf => ?_, k2, k3, ?_⟩
      · simp only [flatMembers, hw, k1 fuel hf]
        rfl
      · intro path as has
        obtain ⟨as', r1, r2, r3, r4⟩ := k4 path as has
        refine ⟨as', r1, r2, fun i hi => r3 i fun x hx => hi x (List.mem_cons_of_mem _ hx), fun x hx hxw => ?_⟩
        rcases List.mem_cons.mp hx with rfl | hx
        · exact absurd hxw hw
        · exact r4 x hx hxw

/-- A field that was set and is not written is optional, of a leaf type, and holds its
default. -/
theorem unwritten_leaf {m : Member} {d : Dyn} (hc : m.ty = .double → m.initial S = .float64 m.check)
    (hne : m.optional = true → d.isEmpty = false) (hf : Fine S m.ty d) (hw : ¬ m.written S d = true) :
    m.optional = true ∧ m.ty.Leaf ∧ Same d (m.initial S) := by
  refine ⟨?_, ?_, unwritten_same hc hne (.inr hf) hw⟩
  all_goals
    have hw : m.written S d = false := by simpa using hw
    cases hty : m.ty <;> rw [hty] at hf hc <;> cases hf <;>
      simp only [Member.written, Member.isSet, hty, Ty.canBeNil, Ty.isEnum, Dyn.isNil, Bool.and_false, Bool.and_true, Bool.not_false,
        Bool.true_and, Bool.or_false, Bool.or_true, Bool.not_true, Bool.false_or, Bool.or_eq_false_iff, Bool.not_eq_false', Bool.true_eq_false,
        decide_eq_false_iff_not, ne_eq, Decidable.not_not] at hw
    case enum h _ => rw [hw] at h; exact absurd h.1 (by decide)
    case struct => simp [StructDef.object] at hw
    case list => have := hne hw.1; simp_all [Dyn.isEmpty]
    case set => have := hne hw.1; simp_all [Dyn.isEmpty]
    case map => have := hne hw.1; simp_all [Dyn.isEmpty]
    all_goals first | exact hw.1 | trivial

theorem initial_leaf {m m' : Member} (ht : m.ty = m'.ty) (hd : m.dflt = m'.dflt) (hl : m.ty.Leaf) : m.initial S = m'.initial S' := by
  simp only [Member.initial, ← hd]
  cases m.dflt with
  | some d => rfl
  | none =>
    simp only [← ht]
    cases hty : m.ty <;> rw [hty] at hl <;> first | rfl | exact hl.elim

theorem passes_struct {k ptr : Nat} {attrs : List (Int × Dyn)} (hsd : (S.structs k).Ok) (hsd' : (S'.structs k).Ok)
    (ht : ∀ m ∈ (S.structs k).members, ∀ m' ∈ (S'.structs k).members, m.id = m'.id → m.ty = m'.ty)
    (hlax : lax ∨ ∀ m ∈ (S.structs k).members, ∀ m' ∈ (S'.structs k).members, m.id = m'.id → m.optional = true → m.dflt = m'.dflt)
    (check : ∀ m ∈ (S.structs k).members, m.ty = .double → m.initial S = .float64 m.check)
    (nonempty : ∀ m ∈ (S.structs k).members, m.optional = true → (attributeOf attrs m.id.toInt).isEmpty = false)
    (hf : ∀ m ∈ (S.structs k).members, ¬ m.Unset S (attributeOf attrs m.id.toInt) →
      Fine S m.ty (attributeOf attrs m.id.toInt))
    (h : ∀ m ∈ (S.structs k).members, ¬ m.Unset S (attributeOf attrs m.id.toInt) →
      Passes S S' lax L mem m.ty (attributeOf attrs m.id.toInt)) :
    ∃ fs N, (∀ fuel, N ≤ fuel → flatMembers S (flatVal true S fuel) attrs (S.structs k).sorted = some fs) ∧ fs.WF ∧
      fs.Conforms S' (S'.structs k) ∧ ∀ path, ∃ as', buildFields S' L mem fs path (S'.structs k) ((S'.structs k).fresh S') = .ok as' ∧
        Received S S' lax (.struct k) ((S.structs k).object ptr attrs) ((S'.structs k).object (mem path) as') := by
  have hun : ∀ m ∈ (S.structs k).members, m.written S (attributeOf attrs m.id.toInt) = true →
      ¬ m.Unset S (attributeOf attrs m.id.toInt) := by
    rintro m _ hw ⟨_, h⟩
    rcases h with ⟨hn, hd⟩ | ⟨j, hj, hd⟩
    · rw [hd] at hw; simp [Member.written, hn.can, Dyn.isNil] at hw
    · rw [hd] at hw; simp [Member.written, hj, Ty.canBeNil, Ty.isEnum, Member.isSet] at hw
  obtain ⟨fs, N, h1, h2, h3, h4⟩ := passes_members hsd hsd' ht attrs (S.structs k).sorted (fun m hm => mem_sorted.mp hm)
    (sorted_distinct hsd) (fun m hm hw => h m (mem_sorted.mp hm) (hun m (mem_sorted.mp hm) hw))
  refine ⟨fs, N, h1, h2, h3, fun path => ?_⟩
  obtain ⟨as', r1, r2, r3, r4⟩ := h4 path _ (fresh_ids _)
  have hinit : ∀ m ∈ (S.structs k).members, ∀ m' ∈ (S'.structs k).members, m.id = m'.id →
      ¬ m.written S (attributeOf attrs m.id.toInt) = true → attributeOf as' m.id.toInt = m'.initial S' := by
    intro m hm m' hm' he hw
    rw [r3 _ fun x hx hxw hc => ?_, he, attributeOf_fresh hsd' hm']
    rw [member_unique hsd (mem_sorted.mp hx) hm (toInt_inj hc)] at hxw
    exact hw hxw
  refine ⟨as', r1, Received.struct (r2.trans (fresh_ids _)) (fun m' hm' hno => ?_) (fun m hm m' hm' he hu => ?_)
    (fun m hm m' hm' he hu hlx => ?_)⟩
  · rw [r3 _ fun x hx _ hc => hno x (mem_sorted.mp hx) (toInt_inj hc), attributeOf_fresh hsd' hm']
  · exact hinit m hm m' hm' he fun hw => hun m hm hw hu
  · by_cases hw : m.written S (attributeOf attrs m.id.toInt) = true
    · exact r4 m (mem_sorted.mpr hm) hw ⟨m', hm', he⟩
    · have hi := hinit m hm m' hm' he hw
      obtain ⟨u1, u2, u3⟩ := unwritten_leaf (check m hm) (nonempty m hm) (hf m hm hu) hw
      by_cases hlq : lax
      · exact absurd ⟨hlq, u1, u2, u3, hi⟩ hlx
      · have hl := hlax.resolve_left hlq
        rw [hi, ← initial_leaf (S := S) (ht m hm m' hm' he) (hl m hm m' hm' he u1) u2]
        exact .leaf u2 u3 fun h => absurd h hlq

theorem Fine.passes (hS : S.Ok) (hS' : S'.Ok) (hv : Versions S S') (hlax : lax ∨ SameDefaults S S') {ty : Ty} {d : Dyn} (h : Fine S ty d) :
    Passes S S' lax L mem ty d := by
  induction h with
  | bool b => exact Passes.leaf (fun _ => rfl) trivial trivial (fun _ => rfl) (Carries2.ofNative (.leaf trivial (Same.refl _) fun _ => rfl) (fun _ => rfl) rfl)
  | byte b => exact Passes.leaf (fun _ => rfl) trivial trivial (fun _ => rfl) (Carries2.ofNative (.leaf trivial (Same.refl _) fun _ => rfl) (fun _ => rfl) rfl)
  | i16 b => exact Passes.leaf (fun _ => rfl) trivial trivial (fun _ => rfl) (Carries2.ofNative (.leaf trivial (Same.refl _) fun _ => rfl) (fun _ => rfl) rfl)
  | i32 b => exact Passes.leaf (fun _ => rfl) trivial trivial (fun _ => rfl) (Carries2.ofNative (.leaf trivial (Same.refl _) fun _ => rfl) (fun _ => rfl) rfl)
  | i64 b => exact Passes.leaf (fun _ => rfl) trivial trivial (fun _ => rfl) (Carries2.ofNative (.leaf trivial (Same.refl _) fun _ => rfl) (fun _ => rfl) rfl)
  | double b => exact Passes.leaf (fun _ => rfl) trivial trivial (fun _ => rfl) (Carries2.ofNative (.leaf trivial (Same.refl _) fun _ => rfl) (fun _ => rfl) rfl)
  | string b h =>
    exact Passes.leaf (fun _ => rfl) h trivial (fun _ => rfl) (Carries2.ofNative (.leaf trivial (Same.refl _) fun _ => rfl) (fun _ => rfl) (.inl rfl))
  | binary b h =>
    exact Passes.leaf (fun _ => rfl) h trivial (fun _ => rfl)
      ⟨.leaf trivial (Same.refl _) (fun _ => rfl), fun _ => rfl, fun h => h.elim, fun _ => ⟨.string b, rfl⟩⟩
  | enum k v h =>
    have hv : (v.setWidth 32).signExtend 64 = v := by
      apply BitVec.eq_of_toInt_eq
      rw [BitVec.toInt_signExtend_of_le (by omega), ofInt_toInt_setWidth 32 (by omega), BitVec.toInt_ofInt,
        Int.bmod_eq_of_le (by omega) (by omega)]
    refine Passes.leaf (v := .i32 (v.setWidth 32)) (fun _ => by simp [flatVal]) trivial trivial
      (fun _ => by simp only [buildVal, hv]) ⟨.enum _ _ _, fun h => h.elim, fun h => h.elim, fun ht => ?_⟩
    have hp := parseInt_eq (S'.enumText k v)
    rw [ht v] at hp
    obtain ⟨w, _, hp⟩ := hp
    refine ⟨.int32 (w.setWidth 32), ?_⟩
    show Res.ok (coerceText (fun i => Dyn.int32 (i.setWidth 32)) (.enumer k v (S'.enumText k v))) = _
    simp only [coerceText, Dyn.text, hp, if_true]
  | struct k ptr attrs ids check nonempty hf ih =>
    obtain ⟨fs, N, h1, h2, h3, h4⟩ := passes_struct (L := L) (mem := mem) (ptr := ptr) (hS k) (hS' k) (hv.types k)
      (hlax.imp id fun h => h k) check nonempty hf ih
    refine ⟨.struct fs, N + 1, fun fuel hfu => ?_, h2, h3, fun path => ?_⟩
    · obtain ⟨n, rfl⟩ : ∃ n, fuel = n + 1 := ⟨fuel - 1, by omega⟩
      simp only [flatVal, StructDef.object, if_true, h1 n (by omega), Option.map_some]
    · obtain ⟨as', hb, hs⟩ := h4 path
      refine ⟨_, ?_, Carries2.ofNative hs (fun hk => hk.elim) rfl⟩
      simp only [buildVal, hb, Res.bind_ok]
  | list e ptr t vs he len _ ih => exact passes_list he len ih
  | set e ptr t vs he len _ ih => exact passes_set he len ih
  | map k v ptr vt ks vs es hk hv' len hd _ _ ih1 ih2 =>
    refine passes_map hk ?_ len hd ih1 ih2
    cases v with
    | enum j => exact hv.texts j hv'
    | _ => trivial

end Thrift
