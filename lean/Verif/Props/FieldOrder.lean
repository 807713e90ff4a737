import Verif.Spec.FieldOrder
import Verif.Props.Generated
import Verif.Lemmas.KernelRfl
/-!
# Order, repetition and absence of fields (C189, C190)
-/

namespace Thrift

/-! ## What the field loop leaves -/

theorem byId_id {sd : StructDef} {id : I16} {m : Member} (h : sd.byId id = some m) : m.id = id := by
  have := List.find?_some h
  exact (of_decide_eq_true this).symm

/-- The value that a field becomes, if it is declared and can be built. -/
def fieldDyn (S : Schema) (L : FloatLib) (mem : List Nat → Nat) (path : List Nat) (sd : StructDef) (id : I16) (v : Val) : Option Dyn :=
  match sd.byId id with
  | some m => match buildVal S L mem v (m.id.toNat :: path) m.ty with
    | .ok d => some d
    | _ => none
  | none => none

/-- The value of the attribute `x` after the fields, if they mention it. -/
def lastDyn (S : Schema) (L : FloatLib) (mem : List Nat → Nat) (path : List Nat) (sd : StructDef) (fs : Fields) (x : Int) : Option Dyn :=
  match (fs.at (BitVec.ofInt 16 x)).getLast? with
  | some v => if (BitVec.ofInt 16 x).toInt = x then fieldDyn S L mem path sd (BitVec.ofInt 16 x) v else none
  | none => none

/-- Every declared field can be built. -/
def Buildable (S : Schema) (L : FloatLib) (mem : List Nat → Nat) (path : List Nat) (sd : StructDef) (fs : Fields) : Prop :=
  ∀ id, (∃ m, sd.byId id = some m) → ∀ v ∈ fs.at id, ∃ d, fieldDyn S L mem path sd id v = some d

theorem at_cons_self (id : I16) (v : Val) (r : Fields) : (Fields.cons id v r).at id = v :: r.at id := by
  simp [Fields.at]

theorem at_cons_ne {id i : I16} (h : id ≠ i) (v : Val) (r : Fields) : (Fields.cons id v r).at i = r.at i := by
  simp [Fields.at, h]

theorem buildFields_buildable (S : Schema) (L : FloatLib) (mem : List Nat → Nat) (path : List Nat) (sd : StructDef) :
    ∀ (fs : Fields) (attrs attrs' : List (Int × Dyn)), buildFields S L mem fs path sd attrs = .ok attrs' →
      Buildable S L mem path sd fs
  | .nil, _, _, _ => by intro id _ v hv; simp [Fields.at] at hv
  | .cons i w r, attrs, attrs', h => by
    rw [buildFields] at h
    cases hb : sd.byId i with
    | none =>
      rw [hb] at h
      have ih := buildFields_buildable S L mem path sd r _ _ h
      intro id hm v hv
      by_cases e : i = id
      · subst e; obtain ⟨m, hm⟩ := hm; rw [hb] at hm; cases hm
      · rw [at_cons_ne e] at hv; exact ih id hm v hv
    | some m =>
      rw [hb] at h
      dsimp only at h
      cases hd : buildVal S L mem w (m.id.toNat :: path) m.ty with
      | panic => rw [hd] at h; cases h
      | stuck => rw [hd] at h; cases h
      | ok d =>
        rw [hd] at h
        have ih := buildFields_buildable S L mem path sd r _ _ h
        intro id hm v hv
        by_cases e : i = id
        · subst e
          rw [at_cons_self] at hv
          rcases List.mem_cons.1 hv with rfl | hv
          · exact ⟨d, by simp only [fieldDyn, hb, hd]⟩
          · exact ih i hm v hv
        · rw [at_cons_ne e] at hv; exact ih id hm v hv

theorem buildFields_of_buildable (S : Schema) (L : FloatLib) (mem : List Nat → Nat) (path : List Nat) (sd : StructDef) :
    ∀ (fs : Fields) (attrs : List (Int × Dyn)), Buildable S L mem path sd fs →
      buildFields S L mem fs path sd attrs = .ok (attrs.map fun y => (y.1, (lastDyn S L mem path sd fs y.1).getD y.2))
  | .nil, attrs, _ => by
    rw [buildFields]
    congr 1
    have : (fun y : Int × Dyn => (y.1, (lastDyn S L mem path sd .nil y.1).getD y.2)) = id := by
      funext y
      simp [lastDyn, Fields.at]
    rw [this, List.map_id]
  | .cons i w r, attrs, h => by
    have hr : Buildable S L mem path sd r := fun id hm v hv => h id hm v (by
      by_cases e : i = id
      · subst e; rw [at_cons_self]; exact List.mem_cons_of_mem _ hv
      · rw [at_cons_ne e]; exact hv)
    rw [buildFields]
    cases hb : sd.byId i with
    | none =>
      dsimp only
      rw [buildFields_of_buildable S L mem path sd r attrs hr]
      congr 1
      apply List.map_congr_left
      intro y _
      congr 2
      unfold lastDyn
      by_cases e : i = BitVec.ofInt 16 y.1
      · rw [← e]
        have : ∀ v, fieldDyn S L mem path sd i v = none := fun v => by simp only [fieldDyn, hb]
        rw [at_cons_self]
        cases hl : (r.at i).getLast? with
        | none => simp [List.getLast?_cons, hl, this]
        | some v => simp [List.getLast?_cons, hl, this]
      · rw [at_cons_ne e]
    | some m =>
      obtain ⟨d, hd⟩ := h i ⟨m, hb⟩ w (by rw [at_cons_self]; exact List.mem_cons_self)
      have hd' : buildVal S L mem w (m.id.toNat :: path) m.ty = .ok d := by
        simp only [fieldDyn, hb] at hd
        cases hx : buildVal S L mem w (m.id.toNat :: path) m.ty <;> rw [hx] at hd <;> simp at hd
        rw [hd]
      dsimp only
      rw [hd', Res.bind_ok, buildFields_of_buildable S L mem path sd r _ hr]
      congr 1
      rw [setAttr, List.map_map]
      apply List.map_congr_left
      intro y _
      rw [byId_id hb]
      dsimp only [Function.comp_apply]
      by_cases e : y.1 = i.toInt
      · rw [if_pos e]
        dsimp only
        congr 1
        have e2 : BitVec.ofInt 16 y.1 = i := by rw [e, BitVec.ofInt_toInt]
        unfold lastDyn
        rw [e2, at_cons_self]
        simp only [if_pos e.symm, List.getLast?_cons]
        cases hl : (r.at i).getLast? with
        | none => simp [hd]
        | some v =>
          obtain ⟨d', hd'⟩ := hr i ⟨m, hb⟩ v (List.mem_of_getLast? hl)
          simp [hd']
      · rw [if_neg e]
        congr 2
        unfold lastDyn
        by_cases e2 : i = BitVec.ofInt 16 y.1
        · have : ¬ (BitVec.ofInt 16 y.1).toInt = y.1 := fun e3 => e (by rw [← e3, ← e2])
          simp only [if_neg this]
          cases (r.at (BitVec.ofInt 16 y.1)).getLast? <;> cases ((Fields.cons i w r).at (BitVec.ofInt 16 y.1)).getLast? <;> rfl
        · rw [at_cons_ne e2]

theorem lastDyn_congr (S : Schema) (L : FloatLib) (mem : List Nat → Nat) (path : List Nat) (sd : StructDef) (fs gs : Fields)
    (h : ∀ i, fs.at i = gs.at i) : lastDyn S L mem path sd fs = lastDyn S L mem path sd gs := by
  funext x
  unfold lastDyn
  rw [h]

theorem Outcome.ok_of_run {m : P π (α × GoErr)} {s s' : π} {bs : Bytes} {r : Res α} (h : Outcome m s s' bs r) {rest out : Bytes}
    {a : α} {s₁ : π} {t : Bytes × Bytes} (hr : m.run duplex s (bs ++ rest, out) = (.ok ((a, none), s₁), t)) : r = .ok a := by
  have h := h rest out
  cases r with
  | ok x =>
    simp only at h
    rw [h] at hr
    simp only [Prod.mk.injEq, Res.ok.injEq, and_true] at hr
    rw [hr.1.1]
  | panic => simp only at h; rw [hr] at h; cases h
  | stuck => simp only at h; rw [hr] at h; cases h

theorem attributeOf_map (g g' : Int → Option Dyn) (x : Int) (h : g x = g' x) : ∀ attrs : List (Int × Dyn),
    attributeOf (attrs.map fun y => (y.1, (g y.1).getD y.2)) x = attributeOf (attrs.map fun y => (y.1, (g' y.1).getD y.2)) x
  | [] => rfl
  | y :: r => by
    rw [List.map_cons, List.map_cons, attributeOf_cons, attributeOf_cons, attributeOf_map g g' x h r]
    dsimp only
    by_cases e : y.1 = x
    · rw [if_pos e, if_pos e, e, h]
    · rw [if_neg e, if_neg e]

theorem conforms_at (S : Schema) (sd : StructDef) (id : I16) (v : Val) : ∀ fs : Fields, fs.Conforms S sd → v ∈ fs.at id →
    (Fields.cons id v .nil).Conforms S sd
  | .nil, _, hv => by simp [Fields.at] at hv
  | .cons i w r, hc, hv => by
    by_cases e : i = id
    · subst e
      rw [at_cons_self] at hv
      rcases List.mem_cons.1 hv with rfl | hv
      · exact ⟨hc.1, hc.2.1, trivial⟩
      · exact conforms_at S sd i v r hc.2.2 hv
    · rw [at_cons_ne e] at hv; exact conforms_at S sd id v r hc.2.2 hv

theorem wf_at (id : I16) (v : Val) : ∀ fs : Fields, fs.WF → v ∈ fs.at id → (Fields.cons id v .nil).WF
  | .nil, _, hv => by simp [Fields.at] at hv
  | .cons i w r, hc, hv => by
    by_cases e : i = id
    · subst e
      rw [at_cons_self] at hv
      rcases List.mem_cons.1 hv with rfl | hv
      · exact ⟨hc.1, trivial⟩
      · exact wf_at i v r hc.2 hv
    · rw [at_cons_ne e] at hv; exact wf_at id v r hc.2 hv

theorem size_nil_le : ∀ q : Fields, (Fields.nil).size ≤ q.size
  | .nil => Nat.le_refl _
  | .cons _ v r => by have := size_nil_le r; simp only [Fields.size] at this ⊢; omega

theorem size_at (id : I16) (v : Val) : ∀ fs : Fields, v ∈ fs.at id → (Fields.cons id v .nil).size ≤ fs.size
  | .nil, hv => by simp [Fields.at] at hv
  | .cons i w r, hv => by
    have pos := size_nil_le
    by_cases e : i = id
    · subst e
      rw [at_cons_self] at hv
      rcases List.mem_cons.1 hv with rfl | hv
      · have := pos r; simp only [Fields.size] at this ⊢; omega
      · have := size_at i v r hv; simp only [Fields.size] at this ⊢; omega
    · rw [at_cons_ne e] at hv; have := size_at id v r hv; simp only [Fields.size] at this ⊢; omega

/-! ## C189: order and repetition -/

/-- C189, binary protocol: two structs on the wire that have the same fields for every
id, in whatever order the ids come, are read alike, into whatever object. -/
theorem C189_order (S : Schema) (L : FloatLib) (mem : List Nat → Nat) (msd : Int) (fuel : Nat) (path : List Nat) (sd : StructDef)
    (attrs attrs' : List (Int × Dyn)) (fs gs : Fields) (s s' : Bin) (rest out : Bytes) (t : Bytes × Bytes)
    (hS : S.Ok) (hsd : sd.Ok) (hr : s.checkReadLength = false)
    (hw : fs.WF) (hw' : gs.WF) (hc : fs.Conforms S sd) (hc' : gs.Conforms S sd) (hf : fs.size ≤ fuel) (hf' : gs.size ≤ fuel)
    (h : ∀ i, fs.at i = gs.at i)
    (he : (genReadInto binary S L mem msd fuel path sd attrs).run duplex s (BinarySpec.encode (.struct fs) ++ rest, out) =
      (.ok ((attrs', none), s'), t)) :
    (genReadInto binary S L mem msd fuel path sd attrs).run duplex s (BinarySpec.encode (.struct gs) ++ rest, out) =
      (.ok ((attrs', none), s'), (rest, out)) := by
  have h1 := Dec.genInto hS L mem msd fs fuel path sd attrs hf hsd hc (Bin.dec_val (.struct fs) s hr hw)
  have h2 := Dec.genInto hS L mem msd gs fuel path sd attrs hf' hsd hc' (Bin.dec_val (.struct gs) s hr hw')
  have e1 := h1.ok_of_run he
  have b1 := buildFields_buildable S L mem path sd fs _ _ e1
  have b2 : Buildable S L mem path sd gs := fun id hm v hv => b1 id hm v (by rw [h]; exact hv)
  rw [buildFields_of_buildable S L mem path sd fs _ b1, lastDyn_congr S L mem path sd fs gs h] at e1
  rw [buildFields_of_buildable S L mem path sd gs _ b2, e1] at h2
  have h2 := h2 rest out
  simp only at h2
  rw [h2]
  rw [buildFields_of_buildable S L mem path sd fs _ b1, lastDyn_congr S L mem path sd fs gs h, e1] at h1
  have h1 := h1 rest out
  simp only at h1
  rw [h1] at he
  simp only [Prod.mk.injEq, Res.ok.injEq, true_and] at he
  rw [he.1]

/-- C189, the value: a declared field that came holds what a struct with nothing but
the last of its values would have given it, a declared field that did not come what
it held before. -/
theorem C189_last (S : Schema) (L : FloatLib) (mem : List Nat → Nat) (msd : Int) (fuel : Nat) (path : List Nat) (sd : StructDef)
    (attrs attrs' : List (Int × Dyn)) (fs : Fields) (s s' : Bin) (rest out : Bytes) (t : Bytes × Bytes)
    (hS : S.Ok) (hsd : sd.Ok) (hr : s.checkReadLength = false)
    (hw : fs.WF) (hc : fs.Conforms S sd) (hf : fs.size ≤ fuel)
    (he : (genReadInto binary S L mem msd fuel path sd attrs).run duplex s (BinarySpec.encode (.struct fs) ++ rest, out) =
      (.ok ((attrs', none), s'), t)) (id : I16) :
    (fs.at id = [] → attributeOf attrs' id.toInt = attributeOf attrs id.toInt) ∧
    (∀ v, (fs.at id).getLast? = some v → ∃ one,
      (genReadInto binary S L mem msd fuel path sd attrs).run duplex s (BinarySpec.encode (.struct (.cons id v .nil)) ++ rest, out) =
        (.ok ((one, none), s'), (rest, out)) ∧ attributeOf attrs' id.toInt = attributeOf one id.toInt) := by
  have h1 := Dec.genInto hS L mem msd fs fuel path sd attrs hf hsd hc (Bin.dec_val (.struct fs) s hr hw)
  have e1 := h1.ok_of_run he
  have b1 := buildFields_buildable S L mem path sd fs _ _ e1
  have e1' := e1
  rw [buildFields_of_buildable S L mem path sd fs _ b1, Res.ok.injEq] at e1'
  have hi : BitVec.ofInt 16 id.toInt = id := BitVec.ofInt_toInt
  constructor
  · intro hn
    have : lastDyn S L mem path sd fs id.toInt = none := by
      unfold lastDyn; rw [hi, hn]; rfl
    rw [← e1', attributeOf_map _ (fun _ => none) id.toInt this]
    have : (fun y : Int × Dyn => (y.1, (none : Option Dyn).getD y.2)) = fun y => y := rfl
    rw [this, List.map_id']
  · intro v hv
    have hm := List.mem_of_getLast? hv
    have h2 := Dec.genInto hS L mem msd (.cons id v .nil) fuel path sd attrs (Nat.le_trans (size_at id v fs hm) hf) hsd
      (conforms_at S sd id v fs hc hm) (Bin.dec_val (.struct (.cons id v .nil)) s hr (wf_at id v fs hw hm))
    have b2 : Buildable S L mem path sd (.cons id v .nil) := fun i hx w hw => by
      by_cases e : id = i
      · subst e
        rw [at_cons_self] at hw
        simp only [Fields.at, List.mem_singleton] at hw
        subst hw
        exact b1 id hx w hm
      · rw [at_cons_ne e] at hw; simp [Fields.at] at hw
    rw [buildFields_of_buildable S L mem path sd _ _ b2] at h2
    have h2 := h2 rest out
    simp only at h2
    rw [e1] at h1
    have h1 := h1 rest out
    simp only at h1
    rw [h1] at he
    simp only [Prod.mk.injEq, Res.ok.injEq, true_and] at he
    rw [← he.1]
    refine ⟨_, h2, ?_⟩
    rw [← e1']
    refine attributeOf_map _ _ id.toInt ?_ attrs
    unfold lastDyn
    rw [hi, at_cons_self, hv]
    simp [Fields.at]

/-- Field 1 twice and field 2 between, and the fields in the order of the ids. -/
def turned : Fields := .cons 1 (.list 11 .nil) (.cons 2 (.i32 4) (.cons 1 (.list 11 (.cons (.str [104]) .nil)) .nil))
def straight : Fields := .cons 1 (.list 11 .nil) (.cons 1 (.list 11 (.cons (.str [104]) .nil)) (.cons 2 (.i32 4) .nil))

theorem turned_ok : turned.WF ∧ straight.WF ∧ turned.Conforms sampleSchema (sampleSchema.structs 0) ∧
    straight.Conforms sampleSchema (sampleSchema.structs 0) ∧ ∀ i, turned.at i = straight.at i := by
  refine ⟨?_, ?_, ?_, ?_, ?_⟩
  · simp [turned, Fields.WF, Val.WF, Vals.WF, Vals.length, Val.type]; decide
  · simp [straight, Fields.WF, Val.WF, Vals.WF, Vals.length, Val.type]; decide
  · refine ⟨?_, by decide, ?_, by decide, ?_, by decide, trivial⟩ <;>
      (intro m hm he
       simp only [sampleSchema, List.mem_cons, List.not_mem_nil, or_false] at hm
       rcases hm with rfl | rfl | rfl <;> first | exact absurd he (by decide) | exact trivial | exact ⟨trivial, trivial⟩)
  · refine ⟨?_, by decide, ?_, by decide, ?_, by decide, trivial⟩ <;>
      (intro m hm he
       simp only [sampleSchema, List.mem_cons, List.not_mem_nil, or_false] at hm
       rcases hm with rfl | rfl | rfl <;> first | exact absurd he (by decide) | exact trivial | exact ⟨trivial, trivial⟩)
  · intro i
    simp only [turned, straight, Fields.at]
    by_cases h1 : 1 = i
    · subst h1; rfl
    · by_cases h2 : 2 = i
      · subst h2; rfl
      · simp only [if_neg h1, if_neg h2]

def turnedAttrs : List (Int × Dyn) :=
  [(2, .enumer 0 4 (ascii "X")), (1, .list 0 11 [.string [104]]), (7, .nil)]

theorem turned_read : (genReadInto binary sampleSchema noFloats (fun _ => 0) 64 20 [] (sampleSchema.structs 0)
    ((sampleSchema.structs 0).fresh sampleSchema)).run duplex Bin.default (BinarySpec.encode (.struct turned) ++ [], []) =
      (.ok ((turnedAttrs, none), Bin.default), ([], [])) := by
  kernel_rfl

example : (genReadInto binary sampleSchema noFloats (fun _ => 0) 64 20 [] (sampleSchema.structs 0)
    ((sampleSchema.structs 0).fresh sampleSchema)).run duplex Bin.default (BinarySpec.encode (.struct straight) ++ [], []) =
      (.ok ((turnedAttrs, none), Bin.default), ([], [])) :=
  C189_order sampleSchema noFloats (fun _ => 0) 64 20 [] _ _ _ turned straight _ _ [] [] _ sampleSchema_ok (sampleSchema_ok 0) rfl
    turned_ok.1 turned_ok.2.1 turned_ok.2.2.1 turned_ok.2.2.2.1 (by simp [turned, Fields.size, Val.size, Vals.size])
    (by simp [straight, Fields.size, Val.size, Vals.size]) turned_ok.2.2.2.2 turned_read

example : attributeOf turnedAttrs 7 = attributeOf ((sampleSchema.structs 0).fresh sampleSchema) 7 :=
  (C189_last sampleSchema noFloats (fun _ => 0) 64 20 [] _ _ _ turned _ _ [] [] _ sampleSchema_ok (sampleSchema_ok 0) rfl
    turned_ok.1 turned_ok.2.2.1 (by simp [turned, Fields.size, Val.size, Vals.size]) turned_read 7).1 rfl

theorem norm_at : ∀ (fs : Fields) (i : I16), fs.norm.at i = (fs.at i).map Val.norm
  | .nil, _ => rfl
  | .cons id v r, i => by
    simp only [Fields.norm, Fields.at, norm_at r i]
    split <;> rfl

/-- C189, compact protocol, for what that protocol can carry (C19). -/
theorem C189_order_compact (S : Schema) (L : FloatLib) (mem : List Nat → Nat) (msd : Int) (f fuel : Nat) (path : List Nat)
    (sd : StructDef) (attrs attrs' : List (Int × Dyn)) (fs gs : Fields) (s s' : Cmp) (rest out : Bytes) (t : Bytes × Bytes)
    (h10 : 10 ≤ f) (hS : S.Ok) (hsd : sd.Ok) (hr : s.boolValueIsNotNull = false)
    (hw : fs.WF) (hw' : gs.WF) (ht : fs.Tame) (ht' : gs.Tame) (hc : fs.Conforms S sd) (hc' : gs.Conforms S sd)
    (hf : fs.size ≤ fuel) (hf' : gs.size ≤ fuel) (h : ∀ i, fs.at i = gs.at i)
    (he : (genReadInto (compact f) S L mem msd fuel path sd attrs).run duplex s (CompactSpec.encode (.struct fs) ++ rest, out) =
      (.ok ((attrs', none), s'), t)) :
    ∃ s'', (genReadInto (compact f) S L mem msd fuel path sd attrs).run duplex s (CompactSpec.encode (.struct gs) ++ rest, out) =
      (.ok ((attrs', none), s''), (rest, out)) := by
  obtain ⟨s₁, d1, _⟩ := Cmp.dec_val f h10 (.struct fs) s hr hw ht
  obtain ⟨s₂, d2, _⟩ := Cmp.dec_val f h10 (.struct gs) s hr hw' ht'
  have h1 := Dec.genInto hS L mem msd fs.norm fuel path sd attrs (by rw [Fields.norm_size]; exact hf) hsd (fs.norm_conforms sd hc) d1
  have h2 := Dec.genInto hS L mem msd gs.norm fuel path sd attrs (by rw [Fields.norm_size]; exact hf') hsd (gs.norm_conforms sd hc') d2
  have h' : ∀ i, fs.norm.at i = gs.norm.at i := fun i => by rw [norm_at, norm_at, h]
  have e1 := h1.ok_of_run he
  have b1 := buildFields_buildable S L mem path sd fs.norm _ _ e1
  have b2 : Buildable S L mem path sd gs.norm := fun id hm v hv => b1 id hm v (by rw [h']; exact hv)
  rw [buildFields_of_buildable S L mem path sd fs.norm _ b1, lastDyn_congr S L mem path sd fs.norm gs.norm h'] at e1
  rw [buildFields_of_buildable S L mem path sd gs.norm _ b2, e1] at h2
  exact ⟨s₂, h2 rest out⟩

example : turned.Tame ∧ straight.Tame := by
  simp [turned, straight, Fields.Tame, Val.Tame, Vals.Tame, Val.structDepth, Vals.structDepth]

/-! ## C190: absence -/

/-- C190 in full: reading a struct that lacks a field which is neither optional nor has
a default ends with an error. -/
def C190_statement : Prop :=
  ∀ (S : Schema) (L : FloatLib) (mem : List Nat → Nat) (msd : Int) (fuel : Nat) (path : List Nat) (sd : StructDef) (m : Member)
    (fs : Fields) (s : Bin) (rest out : Bytes), S.Ok → sd.Ok → s.checkReadLength = false → m ∈ sd.members → m.optional = false →
    m.dflt = none → fs.WF → fs.Conforms S sd → fs.at m.id = [] → fs.size ≤ fuel →
    ∃ a e s' t, (genRead binary S L mem msd fuel path sd).run duplex s (BinarySpec.encode (.struct fs) ++ rest, out) =
      (.ok ((a, some e), s'), t)

/-- What remains: a struct without any field is read without error into any object and
changes nothing there, whatever is declared. -/
theorem C190_empty_partial (S : Schema) (L : FloatLib) (mem : List Nat → Nat) (msd : Int) (fuel : Nat) (path : List Nat)
    (sd : StructDef) (attrs : List (Int × Dyn)) (s : Bin) (rest out : Bytes) (hS : S.Ok) (hsd : sd.Ok)
    (hr : s.checkReadLength = false) (hf : 1 ≤ fuel) :
    (genReadInto binary S L mem msd fuel path sd attrs).run duplex s (0 :: rest, out) = (.ok ((attrs, none), s), (rest, out)) := by
  have h1 := Dec.genInto hS L mem msd .nil fuel path sd attrs hf hsd trivial (Bin.dec_val (.struct .nil) s hr trivial)
  exact h1 rest out

theorem C190_violated : ¬ C190_statement := by
  intro h
  obtain ⟨a, e, s', t, h⟩ := h sampleSchema noFloats (fun _ => 0) 64 10 [] (sampleSchema.structs 0)
    ⟨ascii "a", 2, .enum 0, false, none, 0, true⟩ .nil Bin.default [] [] sampleSchema_ok (sampleSchema_ok 0) rfl List.mem_cons_self rfl rfl
    trivial trivial rfl (by decide)
  have := (C190_empty_partial sampleSchema noFloats (fun _ => 0) 64 10 [] (sampleSchema.structs 0) _ Bin.default [] [] sampleSchema_ok
    (sampleSchema_ok 0) rfl (by decide)).symm.trans h
  simp at this

theorem without_at : ∀ (fs : Fields) (id i : I16), (fs.without id).at i = if i = id then [] else fs.at i
  | .nil, _, i => by simp [Fields.without, Fields.at]
  | .cons j v r, id, i => by
    simp only [Fields.without]
    by_cases h1 : j = id
    · subst h1
      rw [if_pos rfl, without_at r j i]
      by_cases h2 : i = j
      · rw [if_pos h2, if_pos h2]
      · rw [if_neg h2, if_neg h2, at_cons_ne (Ne.symm h2)]
    · rw [if_neg h1]
      by_cases h2 : j = i
      · subst h2; rw [at_cons_self, at_cons_self, without_at r id j, if_neg h1, if_neg h1]
      · rw [at_cons_ne h2, at_cons_ne h2, without_at r id i]

theorem without_wf : ∀ (fs : Fields) (id : I16), fs.WF → (fs.without id).WF
  | .nil, _, _ => trivial
  | .cons j v r, id, h => by
    simp only [Fields.without]
    split
    · exact without_wf r id h.2
    · exact ⟨h.1, without_wf r id h.2⟩

theorem without_conforms (S : Schema) (sd : StructDef) : ∀ (fs : Fields) (id : I16), fs.Conforms S sd → (fs.without id).Conforms S sd
  | .nil, _, _ => trivial
  | .cons j v r, id, h => by
    simp only [Fields.without]
    split
    · exact without_conforms S sd r id h.2.2
    · exact ⟨h.1, h.2.1, without_conforms S sd r id h.2.2⟩

theorem without_size : ∀ (fs : Fields) (id : I16), (fs.without id).size ≤ fs.size
  | .nil, _ => Nat.le_refl _
  | .cons j v r, id => by
    have := without_size r id
    simp only [Fields.without]
    split <;> simp only [Fields.size] <;> omega

/-- ... and no field, required or not, is needed to read the others: leaving it out
leaves its attribute alone and changes nothing else. -/
theorem C190_partial (S : Schema) (L : FloatLib) (mem : List Nat → Nat) (msd : Int) (fuel : Nat) (path : List Nat) (sd : StructDef)
    (attrs attrs' : List (Int × Dyn)) (fs : Fields) (s s' : Bin) (rest out : Bytes) (t : Bytes × Bytes) (id : I16)
    (hS : S.Ok) (hsd : sd.Ok) (hr : s.checkReadLength = false) (hw : fs.WF) (hc : fs.Conforms S sd) (hf : fs.size ≤ fuel)
    (he : (genReadInto binary S L mem msd fuel path sd attrs).run duplex s (BinarySpec.encode (.struct fs) ++ rest, out) =
      (.ok ((attrs', none), s'), t)) :
    ∃ less, (genReadInto binary S L mem msd fuel path sd attrs).run duplex s
        (BinarySpec.encode (.struct (fs.without id)) ++ rest, out) = (.ok ((less, none), s'), (rest, out)) ∧
      attributeOf less id.toInt = attributeOf attrs id.toInt ∧
      ∀ i, i ≠ id → attributeOf less i.toInt = attributeOf attrs' i.toInt := by
  have h1 := Dec.genInto hS L mem msd fs fuel path sd attrs hf hsd hc (Bin.dec_val (.struct fs) s hr hw)
  have h2 := Dec.genInto hS L mem msd (fs.without id) fuel path sd attrs (Nat.le_trans (without_size fs id) hf) hsd
    (without_conforms S sd fs id hc) (Bin.dec_val (.struct (fs.without id)) s hr (without_wf fs id hw))
  have e1 := h1.ok_of_run he
  have b1 := buildFields_buildable S L mem path sd fs _ _ e1
  have b2 : Buildable S L mem path sd (fs.without id) := fun i hm v hv => b1 i hm v (by
    rw [without_at] at hv
    split at hv
    · cases hv
    · exact hv)
  have e1' := e1
  rw [buildFields_of_buildable S L mem path sd fs _ b1, Res.ok.injEq] at e1'
  rw [buildFields_of_buildable S L mem path sd _ _ b2] at h2
  have h2 := h2 rest out
  simp only at h2
  rw [e1] at h1
  have h1 := h1 rest out
  simp only at h1
  rw [h1] at he
  simp only [Prod.mk.injEq, Res.ok.injEq, true_and] at he
  rw [← he.1]
  refine ⟨_, h2, ?_, fun i hi => ?_⟩
  · have hn : lastDyn S L mem path sd (fs.without id) id.toInt = none := by
      unfold lastDyn
      rw [show BitVec.ofInt 16 id.toInt = id from BitVec.ofInt_toInt, without_at, if_pos rfl]; rfl
    rw [attributeOf_map _ (fun _ => none) id.toInt hn]
    have : (fun y : Int × Dyn => (y.1, (none : Option Dyn).getD y.2)) = fun y => y := rfl
    rw [this, List.map_id']
  · rw [← e1']
    refine attributeOf_map _ _ i.toInt ?_ attrs
    unfold lastDyn
    rw [show BitVec.ofInt 16 i.toInt = i from BitVec.ofInt_toInt, without_at, if_neg hi]

example : ∃ less, (genReadInto binary sampleSchema noFloats (fun _ => 0) 64 20 [] (sampleSchema.structs 0)
    ((sampleSchema.structs 0).fresh sampleSchema)).run duplex Bin.default (BinarySpec.encode (.struct (turned.without 2)) ++ [], []) =
      (.ok ((less, none), Bin.default), ([], [])) ∧ attributeOf less 1 = .list 0 11 [.string [104]] := by
  obtain ⟨less, h1, _, h3⟩ := C190_partial sampleSchema noFloats (fun _ => 0) 64 20 [] _ _ _ turned _ _ [] [] _ 2 sampleSchema_ok
    (sampleSchema_ok 0) rfl turned_ok.1 turned_ok.2.2.1 (by simp [turned, Fields.size, Val.size, Vals.size]) turned_read
  exact ⟨less, h1, h3 1 (by decide)⟩

end Thrift
