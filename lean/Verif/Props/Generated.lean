import Verif.Lemmas.GenRoundTrip
import Verif.Lemmas.GenStrip
import Verif.Lemmas.CompactValue
import Verif.Lemmas.Collections
/-!
# Generated structs
-/

namespace Thrift

/-- Conversions for examples that need none. -/
def noFloats : FloatLib := ⟨fun _ => 0, fun _ => 0, fun _ => 0, fun _ => 0, fun _ => [], fun _ => [], fun _ => (0, false)⟩

theorem Same.list_elem {p q : Nat} {t t' : TType} {as bs : List Dyn} (h : Same (.list p t as) (.list q t' bs)) (i : Nat) :
    Same (as.getD i .nil) (bs.getD i .nil) := by
  cases h with
  | refl => exact Same.refl _
  | list _ h => exact h i

theorem Same.attr {p q : Nat} {sd : StructDef} {as bs : List (Int × Dyn)} (h : Same (sd.object p as) (sd.object q bs)) (i : Int) :
    Same (attributeOf as i) (attributeOf bs i) := by
  unfold StructDef.object at h
  cases h with
  | refl => exact Same.refl _
  | struct _ h => exact h i

theorem singleton_ok {sd : StructDef} {m : Member} (h : sd.members = [m]) (hn : m.name ≠ []) (hl : -1 ≤ m.id.toInt) : sd.Ok where
  ids := by rw [h]; exact List.pairwise_singleton _ _
  names := by rw [h]; exact List.pairwise_singleton _ _
  low := by rw [h]; intro x hx; rw [List.mem_singleton.1 hx]; exact hl
  named := by rw [h]; intro x hx; rw [List.mem_singleton.1 hx]; exact hn

/-! ## C51: round trip -/

/-- C51.  Whatever the exported names let a program put into a generated struct
without implicit field ids comes back. -/
def C51_statement : Prop :=
  ∀ (S : Schema) (L : FloatLib) (mem : List Nat → Nat) (msd : Int) (k ptr : Nat) (attrs : List (Int × Dyn)) (path : List Nat)
    (sw sr : Bin), S.Ok → S.NonNegative → sr.checkReadLength = false → Typed S (.struct k) ((S.structs k).object ptr attrs) →
    ∃ N, ∀ fuel, N ≤ fuel → ∃ as',
      RoundTrips (genWrite binary S fuel (S.structs k) attrs) sw (genRead binary S L mem msd fuel path (S.structs k)) sr as' ∧
      Same ((S.structs k).object ptr attrs) ((S.structs k).object (mem path) as')

/-- One struct with a list of enumerators. -/
def enumListSchema : Schema where
  structs _ := ⟨ascii "S", [⟨ascii "a", 1, .list (.enum 0), false, none, 0, true⟩]⟩
  enumText _ _ := ascii "X"

theorem enumListSchema_ok : enumListSchema.Ok := fun _ => singleton_ok rfl (by decide) (by decide)

/-- Lists of enumerators come back as lists of the number 0. -/
theorem C51_violated : ¬ C51_statement := by
  intro h
  have hty : Typed enumListSchema (.struct 0) ((enumListSchema.structs 0).object 0 [(1, .list 0 8 [.enumer 0 1 (ascii "X")])]) := by
    refine Typed.struct 0 0 _ rfl ?_
    intro m hm _
    rw [List.mem_singleton.1 hm]
    refine Typed.list (.enum 0) 0 [.enumer 0 1 (ascii "X")] (by decide) ?_
    intro d hd
    rw [List.mem_singleton.1 hd]
    exact Typed.enum (S := enumListSchema) 0 1 (by decide)
  obtain ⟨N, h⟩ := h enumListSchema noFloats (fun _ => 0) 64 0 0 _ [] Bin.default Bin.default enumListSchema_ok
    (fun _ m hm => by rw [List.mem_singleton.1 hm]; decide) rfl hty
  obtain ⟨as', h1, h2⟩ := h (N + 10) (by omega)
  have h3 : RoundTrips (genWrite binary enumListSchema (N + 10) (enumListSchema.structs 0) [(1, .list 0 8 [.enumer 0 1 (ascii "X")])])
      Bin.default (genRead binary enumListSchema noFloats (fun _ => 0) 64 (N + 10) [] (enumListSchema.structs 0)) Bin.default
      [(1, .list 0 8 [.int32 0])] :=
    binary_roundtrips (fs := .cons 1 (.list 8 (.cons (.i32 1) .nil)) .nil) enumListSchema_ok 64 _ _ rfl (enumListSchema_ok 0)
      (by simp [Fields.size, Val.size, Vals.size]) rfl
      ⟨⟨by decide, by decide, rfl, trivial, trivial⟩, trivial⟩
      ⟨fun m hm _ => by rw [List.mem_singleton.1 hm]; exact ⟨trivial, trivial⟩, fun h => absurd h (by decide), trivial⟩ rfl
  have e := h1.unique h3
  subst e
  have h4 := (h2.attr 1).list_elem 0
  have h4 : Same (.enumer 0 1 (ascii "X")) (.int32 0) := h4
  cases h4

theorem generated_roundtrip (S : Schema) (L : FloatLib) (mem : List Nat → Nat) (msd : Int) (k ptr : Nat) (attrs : List (Int × Dyn))
    (path : List Nat) (sw sr : Bin) (hS : S.Ok) (hr : sr.checkReadLength = false)
    (hf : Fine S (.struct k) ((S.structs k).object ptr attrs)) :
    ∃ N, ∀ fuel, N ≤ fuel → ∃ as',
      RoundTrips (genWrite binary S fuel (S.structs k) attrs) sw (genRead binary S L mem msd fuel path (S.structs k)) sr as' ∧
      Same ((S.structs k).object ptr attrs) ((S.structs k).object (mem path) as') := by
  generalize hd : (S.structs k).object ptr attrs = d at hf
  cases hf with
  | struct k' ptr' attrs' ids check nonempty hfine =>
    simp only [StructDef.object, Dyn.struct.injEq] at hd
    obtain ⟨rfl, -, -, -, -, rfl⟩ := hd
    obtain ⟨fs, N, h1, h2, h3, h4⟩ := good_struct (L := L) (mem := mem) (ptr := ptr) (hS k) ids check nonempty hfine
      fun m hm hu => (hfine m hm hu).good hS
    obtain ⟨as', hb, hs⟩ := h4 path
    exact ⟨max N fs.size, fun fuel hfu => ⟨as', binary_roundtrips hS msd sw sr hr (hS k) (by omega) (h1 fuel (by omega)) h2 h3 hb, hs⟩⟩

/-- C51 for values that generated code can carry; missing are lists and sets of
enums or binaries, sets of more than one element, maps with other than primitive
keys, empty optional containers, and `double` fields whose default is not
printed exactly. -/
theorem C51_partial (S : Schema) (L : FloatLib) (mem : List Nat → Nat) (msd : Int) (k ptr : Nat) (attrs : List (Int × Dyn))
    (path : List Nat) (sw sr : Bin) (hS : S.Ok) (_ : S.NonNegative) (hr : sr.checkReadLength = false)
    (hf : Fine S (.struct k) ((S.structs k).object ptr attrs)) :
    ∃ N, ∀ fuel, N ≤ fuel → ∃ as',
      RoundTrips (genWrite binary S fuel (S.structs k) attrs) sw (genRead binary S L mem msd fuel path (S.structs k)) sr as' ∧
      Same ((S.structs k).object ptr attrs) ((S.structs k).object (mem path) as') :=
  generated_roundtrip S L mem msd k ptr attrs path sw sr hS hr hf

/-- A struct with an enum, an optional list and a map to enumerators. -/
def sampleSchema : Schema where
  structs _ := ⟨ascii "S", [⟨ascii "a", 2, .enum 0, false, none, 0, true⟩, ⟨ascii "b", 1, .list .string, true, none, 0, true⟩,
    ⟨ascii "c", 7, .map .i32 (.enum 0), false, none, 0, true⟩]⟩
  enumText _ _ := ascii "X"

def sampleAttrs : List (Int × Dyn) :=
  [(2, .enumer 0 5 (ascii "X")), (1, .list 1 11 [.string (ascii "hi")]),
   (7, .map 2 8 8 1 [.int32 3] [.enumer 0 4 (ascii "X")] [(.int32 3, .enumer 0 4 (ascii "X"))])]

theorem sampleSchema_ok : sampleSchema.Ok := fun _ =>
  ⟨by simp [sampleSchema], by simp [sampleSchema]; decide, by simp [sampleSchema], by simp [sampleSchema]; decide⟩

theorem sample_fine : Fine sampleSchema (.struct 0) ((sampleSchema.structs 0).object 9 sampleAttrs) := by
  refine Fine.struct 0 9 _ rfl ?_ ?_ ?_
  · intro m hm
    simp only [sampleSchema, List.mem_cons, List.not_mem_nil, or_false] at hm
    rcases hm with rfl | rfl | rfl <;> simp
  · intro m hm
    simp only [sampleSchema, List.mem_cons, List.not_mem_nil, or_false] at hm
    rcases hm with rfl | rfl | rfl <;> intro _ <;> rfl
  · intro m hm _
    simp only [sampleSchema, List.mem_cons, List.not_mem_nil, or_false] at hm
    rcases hm with rfl | rfl | rfl
    · exact Fine.enum (S := sampleSchema) 0 5 (by decide)
    · refine Fine.list .string 1 11 [.string (ascii "hi")] trivial (by decide) ?_
      intro d hd
      rw [List.mem_singleton.1 hd]
      exact Fine.string _ (by decide)
    · refine Fine.map .i32 (.enum 0) 2 8 [.int32 3] [.enumer 0 4 (ascii "X")] [(.int32 3, .enumer 0 4 (ascii "X"))] trivial
        (fun _ => rfl) (by decide) (List.pairwise_singleton _ _) ?_ ?_
      · intro d hd
        rw [List.mem_singleton.1 hd]
        exact Fine.i32 _
      · intro d hd
        rw [List.mem_singleton.1 hd]
        exact Fine.enum (S := sampleSchema) 0 4 (by decide)

example : ∃ N, ∀ fuel, N ≤ fuel → ∃ as',
    RoundTrips (genWrite binary sampleSchema fuel (sampleSchema.structs 0) sampleAttrs) Bin.default
      (genRead binary sampleSchema noFloats (fun _ => 0) 64 fuel [] (sampleSchema.structs 0)) Bin.default as' ∧
    Same ((sampleSchema.structs 0).object 9 sampleAttrs) ((sampleSchema.structs 0).object 0 as') :=
  C51_partial _ _ _ _ _ _ _ _ _ _ sampleSchema_ok
    (fun _ m hm => by
      simp only [sampleSchema, List.mem_cons, List.not_mem_nil, or_false] at hm
      rcases hm with rfl | rfl | rfl <;> decide) rfl sample_fine

/-! ## C54: implicit field ids -/

/-- C54.  As C51, with any distinct field ids.  (The generator prints Go that does
not compile for structs with negative ids, t_go_generator.cc:894-919; this is
about what the `Read` and `Write` methods would do.) -/
def C54_statement : Prop :=
  ∀ (S : Schema) (L : FloatLib) (mem : List Nat → Nat) (msd : Int) (k ptr : Nat) (attrs : List (Int × Dyn)) (path : List Nat)
    (sw sr : Bin),
    (∀ k, (S.structs k).members.Pairwise (fun a b => a.id ≠ b.id) ∧ (S.structs k).members.Pairwise (fun a b => a.name ≠ b.name) ∧
      ∀ m ∈ (S.structs k).members, m.name ≠ []) →
    sr.checkReadLength = false → Fine S (.struct k) ((S.structs k).object ptr attrs) →
    ∃ N, ∀ fuel, N ≤ fuel → ∃ as',
      RoundTrips (genWrite binary S fuel (S.structs k) attrs) sw (genRead binary S L mem msd fuel path (S.structs k)) sr as' ∧
      Same ((S.structs k).object ptr attrs) ((S.structs k).object (mem path) as')

/-- Two fields without explicit ids. -/
def implicitSchema : Schema where
  structs _ := ⟨ascii "S", [⟨ascii "a", -1, .i32, false, none, 0, true⟩, ⟨ascii "b", -2, .i32, false, none, 0, true⟩]⟩
  enumText _ _ := ascii "X"

/-- The second implicit field is read into the first. -/
theorem C54_violated : ¬ C54_statement := by
  intro h
  have hty : Fine implicitSchema (.struct 0) ((implicitSchema.structs 0).object 0 [(-1, .int32 5), (-2, .int32 6)]) := by
    refine Fine.struct 0 0 _ rfl ?_ ?_ ?_
    all_goals
      intro m hm
      simp only [implicitSchema, List.mem_cons, List.not_mem_nil, or_false] at hm
      rcases hm with rfl | rfl <;> intro _
    · simp at *
    · simp at *
    · rfl
    · rfl
    · exact Fine.i32 _
    · exact Fine.i32 _
  obtain ⟨N, h⟩ := h implicitSchema noFloats (fun _ => 0) 64 0 0 _ [] Bin.default Bin.default
    (fun _ => ⟨by simp [implicitSchema], by simp [implicitSchema]; decide, by simp [implicitSchema]; decide⟩) rfl hty
  obtain ⟨as', ⟨bs, h1, h1'⟩, h2⟩ := h (N + 10) (by omega)
  have e1 : (genWrite binary implicitSchema (N + 10) (implicitSchema.structs 0) [(-1, .int32 5), (-2, .int32 6)]).run memory
      Bin.default [] = (.ok (none, Bin.default), [8, 0xff, 0xfe, 0, 0, 0, 6, 8, 0xff, 0xff, 0, 0, 0, 5, 0]) := rfl
  have e2 := (h1 []).symm.trans e1
  simp only [List.nil_append, Prod.mk.injEq, true_and] at e2
  subst e2
  have e3 : (genRead binary implicitSchema noFloats (fun _ => 0) 64 (N + 10) [] (implicitSchema.structs 0)).run memory Bin.default
      [8, 0xff, 0xfe, 0, 0, 0, 6, 8, 0xff, 0xff, 0, 0, 0, 5, 0] =
      (.ok (([(-1, .int32 5), (-2, .int32 0)], none), Bin.default), []) := rfl
  have e4 := (h1' []).symm.trans e3
  simp only [Prod.mk.injEq, Res.ok.injEq, and_true] at e4
  subst e4
  have h4 : Same (.int32 6) (.int32 0) := by simpa [attributeOf] using h2.attr (-2)
  cases h4

/-- C54 for at most one implicit id in each struct (-1, the first the compiler
gives), with the restrictions on values of `C51_partial`. -/
theorem C54_partial (S : Schema) (L : FloatLib) (mem : List Nat → Nat) (msd : Int) (k ptr : Nat) (attrs : List (Int × Dyn))
    (path : List Nat) (sw sr : Bin) (hS : S.Ok) (hr : sr.checkReadLength = false)
    (hf : Fine S (.struct k) ((S.structs k).object ptr attrs)) :
    ∃ N, ∀ fuel, N ≤ fuel → ∃ as',
      RoundTrips (genWrite binary S fuel (S.structs k) attrs) sw (genRead binary S L mem msd fuel path (S.structs k)) sr as' ∧
      Same ((S.structs k).object ptr attrs) ((S.structs k).object (mem path) as') :=
  generated_roundtrip S L mem msd k ptr attrs path sw sr hS hr hf

example : StructDef.Ok ⟨ascii "S", [⟨ascii "a", -1, .i32, false, none, 0, true⟩, ⟨ascii "b", 4, .i32, false, none, 0, true⟩]⟩ :=
  ⟨by simp, by simp; decide, by simp, by simp; decide⟩

/-! ## C39: sets -/

/-- C39.  The members of a set of scalars come back. -/
def C39_statement : Prop :=
  ∀ (S : Schema) (L : FloatLib) (mem : List Nat → Nat) (msd : Int) (e : Ty) (ptr : Nat) (vs : List Dyn) (path : List Nat)
    (fn sn : Bytes) (sw sr : Bin), S.Ok → sr.checkReadLength = false → e.Key → vs.length < 2 ^ 31 →
    (∀ d ∈ vs, Fine S e d ∧ d.Ordered) → vs.Pairwise (fun a b => LexLt b.key a.key) →
    ∃ N, ∀ fuel, N ≤ fuel → ∃ p t n vs',
      RoundTrips (genWriteVal binary S fuel fn sn (.set e) (.set ptr e.code vs.length vs)) sw
        (genReadVal binary S L mem msd fuel path fn sn (.set e)) sr (.set p t n vs') ∧ ∀ x, x ∈ vs' ↔ x ∈ vs

theorem val_roundtrips {S : Schema} {L : FloatLib} {mem : List Nat → Nat} (hS : S.Ok) (msd : Int) (sw sr : Bin)
    (hr : sr.checkReadLength = false) {fw fr : Nat} {path : List Nat} {fn sn : Bytes} {ty : Ty} {d d' : Dyn} {v : Val}
    (hf : v.size ≤ fr) (h : flatVal true S fw ty d = some v) (hw : v.WF) (hc : v.Conforms S ty)
    (hb : buildVal S L mem v path ty = .ok d') :
    RoundTrips (genWriteVal binary S fw fn sn ty d) sw (genReadVal binary S L mem msd fr path fn sn ty) sr d' := by
  have ho := Dec.gen hS L mem msd v fr path fn sn ty hf hc (Bin.dec_val v sr hr hw)
  rw [hb] at ho
  exact ⟨_, ((Bin.emits_val v sw hw).sim (sim_val blind_binary fw fn sn ty d v h)).memory, Runs.memory ho⟩

theorem scalar_of_fine {S : Schema} {e : Ty} (he : e.Key) {d : Dyn} (h : Fine S e d) (ho : d.Ordered) : Scalar e.wire d := by
  refine ⟨?_, ho⟩
  cases h <;> first | exact he.elim | rfl | exact .inl rfl

/-- What comes after the largest member is not put into the set. -/
theorem set_rest {S : Schema} {L : FloatLib} {mem : List Nat → Nat} (hS : S.Ok) {e : Ty} (he : e.Key) (y : Dyn)
    (hy : Scalar e.wire y) : ∀ ds : List Dyn, (∀ d ∈ ds, Fine S e d ∧ d.Ordered ∧ LexLt d.key y.key) →
    ∃ vs N, (∀ fuel, N ≤ fuel → flatVals (flatVal true S fuel e) ds = some vs) ∧ vs.length = ds.length ∧
      vs.WF e.wire ∧ vs.Conforms S e ∧ ∀ path i n, buildSet S L mem vs path e i ⟨e.wire, n, [y]⟩ = .ok ⟨e.wire, n, [y]⟩
  | [], _ => ⟨.nil, 0, fun _ _ => rfl, rfl, trivial, trivial, fun _ _ _ => rfl⟩
  | d :: ds, h => by
    obtain ⟨hd, ho, hlt⟩ := h d List.mem_cons_self
    obtain ⟨v, N, h1, h2, h3, h4⟩ := hd.good (L := L) (mem := mem) hS
    obtain ⟨vs, M, k1, kl, k2, k3, k4⟩ := set_rest (L := L) (mem := mem) hS he y hy ds fun x hx => h x (List.mem_cons_of_mem _ hx)
    refine ⟨.cons v vs, max N M, fun fuel hf => ?_, by simp [Vals.length, kl], ⟨flatVal_type (h1 N (Nat.le_refl _)), h2, k2⟩,
      ⟨h3, k3⟩, fun path i n => ?_⟩
    · simp only [flatVals, h1 fuel (by omega), k1 fuel (by omega)]
    · obtain ⟨d', hb, hc⟩ := h4 (i :: path)
      have hk := hc.key he
      subst hk
      obtain ⟨l', ha, hl⟩ := add_cons (scalarOrder L e.wire) (p := ⟨e.wire, n, [y]⟩)
        ⟨rfl, fun z hz => List.mem_singleton.1 hz ▸ hy, List.pairwise_singleton _ _⟩ (scalar_of_fine he hd ho) (by simp)
      have hl := hl.unchanged fun m hm => by rw [List.mem_singleton.1 hm]; exact hlt
      subst hl
      simp only [buildSet, hb, Res.bind_ok, ha, k4]

/-- Of a set with members only the largest comes back. -/
theorem C39_only_largest (S : Schema) (L : FloatLib) (mem : List Nat → Nat) (msd : Int) (e : Ty) (ptr : Nat) (x : Dyn)
    (vs : List Dyn) (path : List Nat) (fn sn : Bytes) (sw sr : Bin) (hS : S.Ok) (hr : sr.checkReadLength = false) (he : e.Key)
    (len : (x :: vs).length < 2 ^ 31) (h : ∀ d ∈ x :: vs, Fine S e d ∧ d.Ordered)
    (hp : (x :: vs).Pairwise (fun a b => LexLt b.key a.key)) :
    ∃ N, ∀ fuel, N ≤ fuel → ∃ p t n,
      RoundTrips (genWriteVal binary S fuel fn sn (.set e) (.set ptr e.code (x :: vs).length (x :: vs))) sw
        (genReadVal binary S L mem msd fuel path fn sn (.set e)) sr (.set p t n [x]) := by
  rw [List.pairwise_cons] at hp
  obtain ⟨hx, hxo⟩ := h x List.mem_cons_self
  have hsx := scalar_of_fine he hx hxo
  obtain ⟨v, N, h1, h2, h3, h4⟩ := hx.good (L := L) (mem := mem) hS
  obtain ⟨ws, M, k1, kl, k2, k3, k4⟩ := set_rest (L := L) (mem := mem) hS he x hsx vs fun d hd =>
    ⟨(h d (List.mem_cons_of_mem _ hd)).1, (h d (List.mem_cons_of_mem _ hd)).2, hp.1 d hd⟩
  obtain ⟨d', hb, hc⟩ := h4 (0 :: path)
  have hk := hc.key he
  subst hk
  refine ⟨max (max N M + 1) (Val.set e.wire (.cons v ws)).size, fun fuel hf => ?_⟩
  obtain ⟨n, rfl⟩ : ∃ n, fuel = n + 1 := ⟨fuel - 1, by omega⟩
  refine ⟨mem path, e.wire, 1, val_roundtrips (v := .set e.wire (.cons v ws)) hS msd sw sr hr (by omega) ?_
    ⟨wire_isWire e, by simp only [Vals.length, kl, List.length_cons] at len ⊢; omega, flatVal_type (h1 N (Nat.le_refl _)), h2, k2⟩
    ⟨h3, k3⟩ ?_⟩
  · simp [flatVal, Ty.header, flatVals, h1 n (by omega), k1 n (by omega)]
  · have ha : (TSet.new e.wire ((Vals.cons v ws).length : Int)).add L d' =
        .ok { TSet.new e.wire ((Vals.cons v ws).length : Int) with l := [d'] } :=
      add_nil (scalarOrder L e.wire) (p := TSet.new e.wire ((Vals.cons v ws).length : Int))
        ⟨rfl, fun z hz => absurd hz List.not_mem_nil, List.Pairwise.nil⟩ hsx rfl
    simp only [buildVal, buildSet, hb, Res.bind_ok, ha]
    simp only [TSet.new, k4, Res.bind_ok, TSet.toDyn]
    rfl

theorem enumListSchema_set : ∃ x y : Dyn, x ≠ y ∧ (∀ d ∈ [x, y], Fine enumListSchema .i32 d ∧ d.Ordered) ∧
    [x, y].Pairwise fun a b => LexLt b.key a.key :=
  ⟨.int32 2, .int32 1, by simp, by
    intro d hd
    simp only [List.mem_cons, List.not_mem_nil, or_false] at hd
    rcases hd with rfl | rfl <;> exact ⟨Fine.i32 _, trivial⟩, by simp [LexLt, Dyn.key]⟩

theorem C39_violated : ¬ C39_statement := by
  intro h
  obtain ⟨x, y, hxy, hd, hp⟩ := enumListSchema_set
  obtain ⟨N, h⟩ := h enumListSchema noFloats (fun _ => 0) 64 .i32 0 [x, y] [] [] [] Bin.default Bin.default enumListSchema_ok rfl trivial
    (by simp) hd hp
  obtain ⟨M, h'⟩ := C39_only_largest enumListSchema noFloats (fun _ => 0) 64 .i32 0 x [y] [] [] [] Bin.default Bin.default
    enumListSchema_ok rfl trivial (by simp) hd hp
  obtain ⟨p, t, n, vs', h1, h2⟩ := h (max M N) (by omega)
  obtain ⟨p', t', n', h3⟩ := h' (max M N) (by omega)
  have e := h1.unique h3
  simp only [Dyn.set.injEq] at e
  obtain ⟨-, -, -, rfl⟩ := e
  have := (h2 y).2 (by simp)
  simp only [List.mem_singleton] at this
  exact hxy this.symm

/-- C39 for sets of at most one member. -/
theorem C39_partial (S : Schema) (L : FloatLib) (mem : List Nat → Nat) (msd : Int) (e : Ty) (ptr : Nat) (vs : List Dyn)
    (path : List Nat) (fn sn : Bytes) (sw sr : Bin) (hS : S.Ok) (hr : sr.checkReadLength = false) (he : e.Key)
    (len : vs.length ≤ 1) (h : ∀ d ∈ vs, Fine S e d) :
    ∃ N, ∀ fuel, N ≤ fuel → ∃ p t,
      RoundTrips (genWriteVal binary S fuel fn sn (.set e) (.set ptr e.code vs.length vs)) sw
        (genReadVal binary S L mem msd fuel path fn sn (.set e)) sr (.set p t vs.length vs) := by
  obtain ⟨v, N, h1, h2, h3, h4⟩ := (Fine.set e ptr e.code vs (key_native he) len h).good (L := L) (mem := mem) hS
  obtain ⟨d', hb, hc⟩ := h4 path
  have hd : ∃ p t, d' = .set p t vs.length vs := by
    match vs, len with
    | [], _ =>
      have := h1 (N + 1) (by omega)
      simp [flatVal, Ty.header, flatVals] at this
      subst this
      simp only [buildVal, buildSet, Res.bind_ok, Res.ok.injEq] at hb
      exact ⟨_, _, hb.symm⟩
    | [d], _ =>
      obtain ⟨w, M, k1, k2, k3, k4⟩ := (h d List.mem_cons_self).good (L := L) (mem := mem) hS
      have := h1 (max N M + 1) (by omega)
      simp only [flatVal, Ty.header, flatVals, k1 (max N M) (by omega)] at this
      simp at this
      subst this
      obtain ⟨w', kb, kc⟩ := k4 (0 :: path)
      have hk := kc.key he
      subst hk
      simp only [buildVal, buildSet, kb, Res.bind_ok, TSet.add, TSet.new, coerceData_native L (kc.plain (key_native he)),
        List.isEmpty_nil, Res.pure_def, if_true, Res.ok.injEq] at hb
      exact ⟨_, _, hb.symm⟩
  obtain ⟨p, t, rfl⟩ := hd
  exact ⟨max N v.size, fun fuel hf => ⟨p, t, val_roundtrips hS msd sw sr hr (by omega) (h1 fuel (by omega)) h2 h3 hb⟩⟩

example : ∃ N, ∀ fuel, N ≤ fuel → ∃ p t,
    RoundTrips (genWriteVal binary enumListSchema fuel [] [] (.set .i32) (.set 0 8 1 [.int32 7])) Bin.default
      (genReadVal binary enumListSchema noFloats (fun _ => 0) 64 fuel [] [] [] (.set .i32)) Bin.default (.set p t 1 [.int32 7]) :=
  C39_partial _ _ _ _ .i32 0 [.int32 7] _ _ _ _ _ enumListSchema_ok rfl trivial (by simp)
    (fun d hd => by rw [List.mem_singleton.1 hd]; exact Fine.i32 _)

/-! ## C48: comparison -/

/-- C48. -/
def C48_statement : Prop :=
  ∀ (L : FloatLib) (sd : StructDef) (p q : Nat) (as bs : List (Int × Dyn)), p ≠ q →
    as.map (·.1) = sd.members.map (·.id.toInt) → bs.map (·.1) = sd.members.map (·.id.toInt) →
    compare L TT.STRUCT (sd.object p as) (sd.object q bs) = .ok (0, true) →
    ∀ i, Same (attributeOf as i) (attributeOf bs i)

theorem fieldsLoop_nil (L : FloatLib) (n : Nat) (as bs : List (Int × Dyn)) : ∀ fs : List Field,
    compareCoerced.fieldsLoop (compareFuel L (n + 1)) true as true bs fs = .ok (0, true)
  | [] => rfl
  | f :: fs => by
    have h : compareFuel L (n + 1) f.typeId .nil .nil = .ok (0, true) := by
      by_cases hb : f.typeId ≠ TT.BINARY
      · simp only [compareFuel, if_pos hb]; rfl
      · simp only [compareFuel, if_neg hb]; rfl
    simp only [compareCoerced.fieldsLoop, attributeFromFieldId, if_true, h, Res.bind_ok]
    simpa using fieldsLoop_nil L n as bs fs

theorem compareString_self (a : Bytes) : compareString a a = 0 := (compareString_sign a a).zero_iff.2 rfl

theorem compareTo_self {sd : StructDef} (h : sd.Ok) :
    (FieldContainer.new sd.fields).compareTo (FieldContainer.new sd.fields) = 0 := by
  have hp : sd.fields.Pairwise fun a b => a.id ≠ b.id := by
    unfold StructDef.fields
    rw [List.pairwise_map]
    exact h.ids.imp fun hab hc => hab (toInt_inj hc)
  have aux : ∀ fs : List Field, (∀ f ∈ fs, f ∈ sd.fields) →
      FieldContainer.compareLoop (FieldContainer.new sd.fields) fs = 0 := by
    intro fs
    induction fs with
    | nil => intro _; rfl
    | cons f fs ih =>
      intro hm
      have hf : (FieldContainer.new sd.fields).fieldFromFieldId f.id = f := by
        simp only [FieldContainer.fieldFromFieldId, FieldContainer.new, fillMaps_mem _ _ _ _ (hm f List.mem_cons_self) hp]
      have hc : f.compareTo f = 0 := by simp [Field.compareTo, compareString_self]
      simp only [FieldContainer.compareLoop, hf, hc]
      simpa using ih fun g hg => hm g (List.mem_cons_of_mem _ hg)
  have hz : compareInt (FieldContainer.new sd.fields).len (FieldContainer.new sd.fields).len = 0 := by simp [compareInt]
  simp only [FieldContainer.compareTo, hz]
  simpa [FieldContainer.new] using aux _ fun _ h => h

/-- All instances of one generated struct compare equal, whatever their fields
hold. -/
theorem C48_all_equal (L : FloatLib) (sd : StructDef) (p q : Nat) (as bs : List (Int × Dyn)) (h : sd.Ok) :
    compare L TT.STRUCT (sd.object p as) (sd.object q bs) = .ok (0, true) := by
  have hd : max (sd.object p as).depth (sd.object q bs).depth = (max (attrsDepth as) (attrsDepth bs)) + 1 := by
    simp only [StructDef.object, Dyn.depth]; omega
  by_cases hpq : p = q
  · subst hpq
    simp [compare, compareFuel, StructDef.object, Dyn.goEq]
  · simp only [compare, hd]
    have e : compareCoerced (compareFuel L (max (attrsDepth as) (attrsDepth bs) + 1)) TT.STRUCT (sd.object p as) (sd.object q bs) =
        .ok (0, true) := by
      have hc := compareTo_self h
      simp only [StructDef.object]
      unfold compareCoerced
      rw [if_neg (by decide), if_neg (by decide), if_neg (by decide), if_neg (by decide), if_neg (by decide),
        if_neg (by decide), if_neg (by decide), if_neg (by decide), if_neg (by decide), if_pos rfl]
      simp only [compareString_self, hc]
      simpa using fieldsLoop_nil L _ as bs sd.fields
    have g : (sd.object p as).goEq (sd.object q bs) = .ok false := by simp [StructDef.object, Dyn.goEq, hpq]
    have n : ∀ p as, Native TT.STRUCT (sd.object p as) := fun _ _ => rfl
    have nn : ∀ p as, (sd.object p as).isNil = false := fun _ _ => rfl
    rw [compareFuel, if_pos (by decide), g]
    simp only [Res.bind_ok, nn, coerceData_native L (n _ _), g, e, Bool.false_eq_true, if_false, Bool.not_true, Bool.and_false,
      Bool.false_and]
    simp only [if_pos (show TT.STRUCT ≠ TT.BINARY by decide)]

example : compare noFloats TT.STRUCT ((implicitSchema.structs 0).object 0 [(-1, .int32 5), (-2, .int32 6)])
    ((implicitSchema.structs 0).object 1 [(-1, .int32 7), (-2, .int32 8)]) = .ok (0, true) := rfl

theorem C48_violated : ¬ C48_statement := by
  intro h
  have h := h noFloats ⟨ascii "S", [⟨ascii "a", 1, .i32, false, none, 0, true⟩]⟩ 0 1 [(1, .int32 5)] [(1, .int32 6)] (by decide) rfl rfl
    (C48_all_equal _ _ _ _ _ _ (singleton_ok rfl (by decide) (by decide))) 1
  have h : Same (.int32 5) (.int32 6) := h
  cases h

/-- C48 holds between generated structs with different names: they never compare
equal. -/
theorem C48_names_partial (L : FloatLib) (sd sd' : StructDef) (p q : Nat) (as bs : List (Int × Dyn)) (hpq : p ≠ q)
    (hn : sd.name ≠ sd'.name) : ∃ c, compare L TT.STRUCT (sd.object p as) (sd'.object q bs) = .ok (c, true) ∧ c ≠ 0 := by
  have hc : compareString sd.name sd'.name ≠ 0 := fun h => hn (by
    have := (compareString_sign _ _).zero_iff.1 h
    exact (List.map_inj_right (fun a b h => BitVec.eq_of_toNat_eq (by exact_mod_cast h))).1 this)
  refine ⟨_, ?_, hc⟩
  have e : ∀ r, compareCoerced r TT.STRUCT (sd.object p as) (sd'.object q bs) = .ok (compareString sd.name sd'.name, true) := by
    intro r
    simp only [StructDef.object]
    unfold compareCoerced
    rw [if_neg (by decide), if_neg (by decide), if_neg (by decide), if_neg (by decide), if_neg (by decide),
      if_neg (by decide), if_neg (by decide), if_neg (by decide), if_neg (by decide), if_pos rfl]
    exact if_pos hc
  have g : (sd.object p as).goEq (sd'.object q bs) = .ok false := by simp [StructDef.object, Dyn.goEq, hpq]
  have n : ∀ sd p as, Native TT.STRUCT (StructDef.object sd p as) := fun _ _ _ => rfl
  have nn : ∀ sd p as, (StructDef.object sd p as).isNil = false := fun _ _ _ => rfl
  rw [compare, compareFuel, if_pos (by decide), g]
  simp only [Res.bind_ok, nn, coerceData_native L (n _ _ _), g, e, Bool.false_eq_true, if_false, Bool.not_true, Bool.and_false,
    Bool.false_and]
  simp only [if_pos (show TT.STRUCT ≠ TT.BINARY by decide)]

example : ∃ c, compare noFloats TT.STRUCT (StructDef.object ⟨ascii "S", []⟩ 0 []) (StructDef.object ⟨ascii "T", []⟩ 1 []) =
    .ok (c, true) ∧ c ≠ 0 := C48_names_partial _ _ _ _ _ _ _ (by decide) (by decide)

/-! ## C52: undeclared fields -/

theorem Outcome.same {m : P π (α × GoErr)} {s s₁ s₂ : π} {a b : Bytes} {r : Res α} (h1 : Outcome m s s₁ a r) (h2 : Outcome m s s₂ b r)
    (rest out : Bytes) :
    SameOutcome (m.run duplex s (a ++ rest, out)) (m.run duplex s (b ++ rest, out)) (rest, out) := by
  have h1 := h1 rest out
  have h2 := h2 rest out
  unfold SameOutcome
  cases r with
  | ok x => simp only at h1 h2; rw [h1, h2]; exact ⟨rfl, rfl, rfl, rfl, rfl⟩
  | panic => simp only at h1 h2; rw [h1, h2]; trivial
  | stuck => simp only at h1 h2; rw [h1, h2]; trivial

/-- C52, binary protocol.  `fs` is any struct on the wire whose declared fields
have the declared types. -/
theorem C52_unknown_fields_binary (S : Schema) (L : FloatLib) (mem : List Nat → Nat) (msd : Int) (fuel : Nat) (path : List Nat)
    (sd : StructDef) (attrs : List (Int × Dyn)) (fs : Fields) (s : Bin) (rest out : Bytes) (hS : S.Ok) (hsd : sd.Ok)
    (hr : s.checkReadLength = false) (hw : fs.WF) (hc : fs.Conforms S sd) (hf : fs.size ≤ fuel) :
    SameOutcome
      ((genReadInto binary S L mem msd fuel path sd attrs).run duplex s (BinarySpec.encode (.struct fs) ++ rest, out))
      ((genReadInto binary S L mem msd fuel path sd attrs).run duplex s (BinarySpec.encode (.struct (fs.strip S sd)) ++ rest, out))
      (rest, out) := by
  have h1 := Dec.genInto hS L mem msd fs fuel path sd attrs hf hsd hc (Bin.dec_val (.struct fs) s hr hw)
  have h2 := Dec.genInto hS L mem msd (fs.strip S sd) fuel path sd attrs (Nat.le_trans (fs.strip_size sd) hf) hsd
    (fs.strip_conforms hS sd hsd hc) (Bin.dec_val (.struct (fs.strip S sd)) s hr (fs.strip_wf sd hw))
  rw [fs.strip_build] at h2
  exact h1.same h2 rest out

example : (Fields.cons 9 (.struct (.cons 1 (.i64 3) .nil)) (.cons 1 (.list 11 .nil) .nil)).Conforms sampleSchema (sampleSchema.structs 0) ∧
    (Fields.cons 9 (.struct (.cons 1 (.i64 3) .nil)) (.cons 1 (.list 11 .nil) .nil)).strip sampleSchema (sampleSchema.structs 0) =
      .cons 1 (.list 11 .nil) .nil := by
  refine ⟨⟨?_, fun h => absurd h (by decide), ?_, fun h => absurd h (by decide), trivial⟩, by decide⟩
  · intro m hm he
    simp only [sampleSchema, List.mem_cons, List.not_mem_nil, or_false] at hm
    rcases hm with rfl | rfl | rfl <;> exact absurd he (by decide)
  · intro m hm he
    simp only [sampleSchema, List.mem_cons, List.not_mem_nil, or_false] at hm
    rcases hm with rfl | rfl | rfl <;> first | exact absurd he (by decide) | exact trivial

/-- C52, compact protocol, for what that protocol can carry (C19). -/
theorem C52_unknown_fields_compact (S : Schema) (L : FloatLib) (mem : List Nat → Nat) (msd : Int) (f fuel : Nat) (path : List Nat)
    (sd : StructDef) (attrs : List (Int × Dyn)) (fs : Fields) (s : Cmp) (rest out : Bytes) (hf : 10 ≤ f) (hS : S.Ok) (hsd : sd.Ok)
    (hr : s.boolValueIsNotNull = false) (hw : fs.WF) (ht : fs.Tame) (ht' : (fs.strip S sd).Tame) (hc : fs.Conforms S sd)
    (hfu : fs.size ≤ fuel) :
    SameOutcome
      ((genReadInto (compact f) S L mem msd fuel path sd attrs).run duplex s (CompactSpec.encode (.struct fs) ++ rest, out))
      ((genReadInto (compact f) S L mem msd fuel path sd attrs).run duplex s
        (CompactSpec.encode (.struct (fs.strip S sd)) ++ rest, out)) (rest, out) := by
  obtain ⟨s₁, d1, _⟩ := Cmp.dec_val f hf (.struct fs) s hr hw ht
  obtain ⟨s₂, d2, _⟩ := Cmp.dec_val f hf (.struct (fs.strip S sd)) s hr (fs.strip_wf sd hw) ht'
  have hsz : fs.norm.size ≤ fuel := by rw [Fields.norm_size]; exact hfu
  have h1 := Dec.genInto hS L mem msd fs.norm fuel path sd attrs hsz hsd (fs.norm_conforms sd hc) d1
  simp only [Val.norm, Fields.norm_strip] at d2
  have h2 := Dec.genInto hS L mem msd (fs.norm.strip S sd) fuel path sd attrs (Nat.le_trans (fs.norm.strip_size sd) hsz) hsd
    (fs.norm.strip_conforms hS sd hsd (fs.norm_conforms sd hc)) d2
  rw [Fields.strip_build] at h2
  exact h1.same h2 rest out

example : (Fields.cons 9 (.struct (.cons 1 (.i64 3) .nil)) (.cons 1 (.list 11 .nil) .nil)).Tame ∧
    (Fields.cons 1 (.list 11 .nil) .nil).Tame := by
  simp [Fields.Tame, Val.Tame, Vals.Tame, Val.structDepth, Fields.structDepth, Vals.structDepth]

/-! ## C53: unexpected wire types -/

/-- C53.  A field with a declared id and a value of another wire type is skipped. -/
def C53_statement : Prop :=
  ∀ (S : Schema) (L : FloatLib) (mem : List Nat → Nat) (msd : Int) (fuel : Nat) (path : List Nat) (sd : StructDef)
    (attrs : List (Int × Dyn)) (m : Member) (v : Val) (fs : Fields) (s : Bin) (rest out : Bytes), S.Ok → sd.Ok →
    s.checkReadLength = false → m ∈ sd.members → v.WF → v.type ≠ m.ty.wire → fs.WF → fs.Conforms S sd →
    (Fields.cons m.id v fs).size ≤ fuel →
    SameOutcome
      ((genReadInto binary S L mem msd fuel path sd attrs).run duplex s (BinarySpec.encode (.struct (.cons m.id v fs)) ++ rest, out))
      ((genReadInto binary S L mem msd fuel path sd attrs).run duplex s (BinarySpec.encode (.struct fs) ++ rest, out)) (rest, out)

/-- An `i64` for a declared `i32`: half of it is taken for the value, the other
half for the next field. -/
theorem C53_violated : ¬ C53_statement := by
  intro h
  have h := h sampleSchema noFloats (fun _ => 0) 64 10 [] ⟨ascii "S", [⟨ascii "a", 1, .i32, false, none, 0, true⟩]⟩ [(1, .int32 0)]
    ⟨ascii "a", 1, .i32, false, none, 0, true⟩ (.i64 0x700000000) .nil Bin.default [] [] sampleSchema_ok
    (singleton_ok rfl (by decide) (by decide)) rfl List.mem_cons_self trivial (by decide) trivial trivial
    (by simp [Fields.size, Val.size])
  have h : [((1 : Int), Dyn.int32 7)] = [(1, .int32 0)] ∧ _ := h
  simp at h

/-- What happens instead: the wire type makes no difference, the field is read
as if it had the declared type.  (`STOP` ends the struct, `VOID` is skipped,
`GENERIC` stands for the declared type.) -/
theorem C53_type_ignored (rd : Bytes → Bytes → Member → P π (Dyn × GoErr)) (sk : TType → P π GoErr) (sd : StructDef)
    (attrs : List (Int × Dyn)) (name : Bytes) (t : TType) (id : I16) (m : Member) (h : sd.find name id = some m) (ht : t ≠ TT.VOID) :
    genReadMember rd sk sd attrs name t id = genReadMember rd sk sd attrs name m.ty.wire id := by
  unfold genReadMember
  simp only [h, if_true, if_neg ht, ite_self]

example : StructDef.find (sampleSchema.structs 0) [] 7 = some ⟨ascii "c", 7, .map .i32 (.enum 0), false, none, 0, true⟩ := rfl

/-- C53 for headers of type `VOID`: skipped. -/
theorem C53_void_partial (rd : Bytes → Bytes → Member → P π (Dyn × GoErr)) (sk : TType → P π GoErr) (sd : StructDef)
    (attrs : List (Int × Dyn)) (name : Bytes) (id : I16) :
    genReadMember rd sk sd attrs name TT.VOID id = (do return (attrs, ← sk TT.VOID)) := by
  unfold genReadMember
  cases h : sd.find name id with
  | none => rfl
  | some m =>
    have hv : TT.VOID ≠ m.ty.wire := by cases m.ty <;> simp [Ty.wire, Ty.code]
    simp only [if_neg hv, if_true]

end Thrift
