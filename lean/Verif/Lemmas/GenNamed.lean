import Verif.Lemmas.GenRead
/-!
# Generated readers over protocols that give names

`TDec p S v ty s s' bs`: the read calls of protocol `p`, made in the order in which
a generated reader of type `ty` makes them, deliver the parts of `v`.  Unlike `Dec`
it lets a field header name its field in any way that the generated code
understands, and asks of a string only the call that fits its declared type.
-/

namespace Thrift

/-- A generated reader takes the header for that of the member. -/
def Picks (sd : StructDef) (h : Bytes × TType × I16) (m : Member) : Prop :=
  sd.find (resolveField sd h.1 h.2.1 h.2.2).1 (resolveField sd h.1 h.2.1 h.2.2).2.2 = some m ∧
    (resolveField sd h.1 h.2.1 h.2.2).2.1 ≠ TT.STOP ∧ (resolveField sd h.1 h.2.1 h.2.2).2.1 ≠ TT.VOID

mutual
def TDec (p : Proto π) (S : Schema) : Val → Ty → π → π → Bytes → Prop
  | .bool b, .bool, s, s', bs => Reads p.readBool s s' bs b
  | .byte b, .byte, s, s', bs => Reads p.readByte s s' bs b
  | .i16 b, .i16, s, s', bs => Reads p.readI16 s s' bs b
  | .i32 b, .i32, s, s', bs => Reads p.readI32 s s' bs b
  | .i32 b, .enum _, s, s', bs => Reads p.readI32 s s' bs b
  | .i64 b, .i64, s, s', bs => Reads p.readI64 s s' bs b
  | .double b, .double, s, s', bs => Reads p.readDouble s s' bs b
  | .str b, .string, s, s', bs => Reads p.readString s s' bs b
  | .str b, .binary, s, s', bs => Reads p.readBinary s s' bs b
  | .struct fs, .struct k, s, s', bs => ∃ s₁ s₂ a b c n, Reads p.readStructBegin s s₁ a n ∧ TDecFields p S (S.structs k) fs s₁ s₂ b ∧
      Runs p.readStructEnd s₂ s' c none ∧ bs = a ++ (b ++ c)
  | .map kt vt ps, .map k v, s, s', bs => ∃ s₁ s₂ a b c, Reads p.readMapBegin s s₁ a (kt, vt, (ps.length : Int)) ∧
      TDecPairs p S k v ps s₁ s₂ b ∧ Runs p.readMapEnd s₂ s' c none ∧ bs = a ++ (b ++ c)
  | .set t vs, .set e, s, s', bs => ∃ s₁ s₂ a b c, Reads p.readSetBegin s s₁ a (t, (vs.length : Int)) ∧
      TDecVals p S e vs s₁ s₂ b ∧ Runs p.readSetEnd s₂ s' c none ∧ bs = a ++ (b ++ c)
  | .list t vs, .list e, s, s', bs => ∃ s₁ s₂ a b c, Reads p.readListBegin s s₁ a (t, (vs.length : Int)) ∧
      TDecVals p S e vs s₁ s₂ b ∧ Runs p.readListEnd s₂ s' c none ∧ bs = a ++ (b ++ c)
  | _, _, _, _, _ => False
def TDecFields (p : Proto π) (S : Schema) (sd : StructDef) : Fields → π → π → Bytes → Prop
  | .nil, s, s', bs => ∃ h, (resolveField sd h.1 h.2.1 h.2.2).2.1 = TT.STOP ∧ Reads p.readFieldBegin s s' bs h
  | .cons id v r, s, s', bs => ∃ m h s₁ s₂ s₃ a b c d, sd.byId id = some m ∧ Picks sd h m ∧ Reads p.readFieldBegin s s₁ a h ∧
      TDec p S v m.ty s₁ s₂ b ∧ Runs p.readFieldEnd s₂ s₃ c none ∧ TDecFields p S sd r s₃ s' d ∧ bs = a ++ (b ++ (c ++ d))
def TDecVals (p : Proto π) (S : Schema) (e : Ty) : Vals → π → π → Bytes → Prop
  | .nil, s, s', bs => s' = s ∧ bs = []
  | .cons v r, s, s', bs => ∃ s₁ a b, TDec p S v e s s₁ a ∧ TDecVals p S e r s₁ s' b ∧ bs = a ++ b
def TDecPairs (p : Proto π) (S : Schema) (kt vt : Ty) : Pairs → π → π → Bytes → Prop
  | .nil, s, s', bs => s' = s ∧ bs = []
  | .cons k v r, s, s', bs => ∃ s₁ s₂ a b c, TDec p S k kt s s₁ a ∧ TDec p S v vt s₁ s₂ b ∧
      TDecPairs p S kt vt r s₂ s' c ∧ bs = a ++ (b ++ c)
end

theorem resolve_stop (sd : StructDef) (n : Bytes) (id : I16) : (resolveField sd n TT.STOP id).2.1 = TT.STOP := by
  simp only [resolveField]
  rfl

/-- A name in a header without type and id is that of the member. -/
theorem picks_name {sd : StructDef} (hok : sd.Ok) {m : Member} (hm : m ∈ sd.members) : Picks sd (m.name, TT.GENERIC, -1) m := by
  have hneg : (-1 : I16).toInt < 0 := by decide
  have names : ∀ (fs : List Field) (n : Bytes → Option Field) (i : Int → Option Field) (x : Bytes),
      (∀ f ∈ fs, f.name ≠ x) → (fillMaps fs n i).1 x = n x := by
    intro fs
    induction fs with
    | nil => intro n i x _; rfl
    | cons f fs ih =>
      intro n i x h
      simp only [fillMaps]
      rw [ih _ _ _ (fun g hg => h g (List.mem_cons_of_mem _ hg))]
      split
      · exact if_neg (fun hc => h f List.mem_cons_self (Eq.symm hc))
      · rfl
  have found : ∀ (fs : List Field) (n : Bytes → Option Field) (i : Int → Option Field) (f : Field),
      f ∈ fs → f.name ≠ [] → fs.Pairwise (fun a b => a.name ≠ b.name) → (fillMaps fs n i).1 f.name = some f := by
    intro fs
    induction fs with
    | nil => intro n i f h; cases h
    | cons g fs ih =>
      intro n i f hf hne hp
      simp only [fillMaps]
      rw [List.pairwise_cons] at hp
      rcases List.mem_cons.mp hf with rfl | hf
      · rw [names fs _ _ _ (fun x hx => Ne.symm (hp.1 x hx)), if_pos hne]
        simp
      · exact ih _ _ f hf hne hp.2
  have hmem : (⟨m.name, m.ty.code, m.id.toInt⟩ : Field) ∈ sd.fields := List.mem_map.mpr ⟨m, hm, rfl⟩
  have hpn : sd.fields.Pairwise fun a b => a.name ≠ b.name := by
    unfold StructDef.fields; rw [List.pairwise_map]; exact hok.names
  have hpi : sd.fields.Pairwise fun a b => a.id ≠ b.id := by
    unfold StructDef.fields; rw [List.pairwise_map]; exact hok.ids.imp fun hab hc => hab (toInt_inj hc)
  have h1 : (FieldContainer.new sd.fields).fieldIdFromFieldName m.name = m.id.toInt := by
    have := found sd.fields (fun _ => none) (fun _ => none) _ hmem (hok.named m hm) hpn
    simp only at this
    simp only [FieldContainer.fieldIdFromFieldName, FieldContainer.new, this]
  have h2 : (FieldContainer.new sd.fields).fieldFromFieldId m.id.toInt = ⟨m.name, m.ty.code, m.id.toInt⟩ := by
    have := fillMaps_mem sd.fields (fun _ => none) (fun _ => none) _ hmem hpi
    simp only at this
    simp only [FieldContainer.fieldFromFieldId, FieldContainer.new, this]
  have hr : resolveField sd m.name TT.GENERIC (-1) = (m.name, m.ty.code, m.id) := by
    simp only [resolveField, if_pos hneg, h1, BitVec.ofInt_toInt, h2, if_true]
  simp only [Picks, hr]
  refine ⟨?_, ?_, ?_⟩
  · unfold StructDef.find
    cases hf : sd.members.find? (fun n => decide (m.id = n.id) || decide (m.name = n.name)) with
    | none =>
      rw [List.find?_eq_none] at hf
      have := hf m hm
      simp at this
    | some x =>
      have hx := List.mem_of_find?_eq_some hf
      have hp := List.find?_some hf
      simp only [Bool.or_eq_true, decide_eq_true_eq] at hp
      congr 1
      rcases hp with h | h
      · exact Classical.byContradiction fun hne => find_resolved.pairwise_ne hok.ids hm hx (Ne.symm hne) h
      · exact Classical.byContradiction fun hne => find_resolved.pairwise_ne hok.names hm hx (Ne.symm hne) h
  · cases m.ty <;> (simp only [Ty.code]; decide)
  · cases m.ty <;> (simp only [Ty.code]; decide)

/-- A name that no member has stands for the end of the struct. -/
theorem resolve_unknown {sd : StructDef} {name : Bytes} (hn : ∀ m ∈ sd.members, m.name ≠ name) (hi : ∀ m ∈ sd.members, m.id ≠ -1) :
    (resolveField sd name TT.GENERIC (-1)).2.1 = TT.STOP := by
  have hneg : (-1 : I16).toInt < 0 := by decide
  have both : ∀ (fs : List Field) (n : Bytes → Option Field) (i : Int → Option Field),
      (∀ f ∈ fs, f.name ≠ name) → (∀ f ∈ fs, f.id ≠ -1) → (fillMaps fs n i).1 name = n name ∧ (fillMaps fs n i).2 (-1) = i (-1) := by
    intro fs
    induction fs with
    | nil => intro n i _ _; exact ⟨rfl, rfl⟩
    | cons f fs ih =>
      intro n i h h'
      simp only [fillMaps]
      have := ih (if f.name ≠ [] then fun x => if x = f.name then some f else n x else n)
        (fun x => if x = f.id then some f else i x) (fun g hg => h g (List.mem_cons_of_mem _ hg)) fun g hg => h' g (List.mem_cons_of_mem _ hg)
      refine ⟨this.1.trans ?_, this.2.trans (if_neg (fun hc => h' f List.mem_cons_self (Eq.symm hc)))⟩
      split
      · exact if_neg (fun hc => h f List.mem_cons_self (Eq.symm hc))
      · rfl
  have hb := both sd.fields (fun _ => none) (fun _ => none)
    (fun f hf => by
      obtain ⟨m, hm, rfl⟩ := List.mem_map.mp hf
      exact hn m hm)
    (fun f hf hc => by
      obtain ⟨m, hm, rfl⟩ := List.mem_map.mp hf
      exact hi m hm (toInt_inj (hc.trans (by decide))))
  have h1 : (FieldContainer.new sd.fields).fieldIdFromFieldName name = -1 := by
    simp only [FieldContainer.fieldIdFromFieldName, FieldContainer.new, hb.1]
  have h2 : (FieldContainer.new sd.fields).fieldFromFieldId (-1) = anonymousField := by
    simp only [FieldContainer.fieldFromFieldId, FieldContainer.new, hb.2]
  have h3 : (BitVec.ofInt 16 (-1)).toInt = -1 := by decide
  simp only [resolveField, if_pos hneg, h1, h3, h2, if_true]
  rfl

variable {p : Proto π} {S : Schema} (hS : S.Ok) (L : FloatLib) (mem : List Nat → Nat) (msd : Int)
set_option linter.unusedSectionVars false
include hS

mutual
theorem TDec.gen : ∀ (v : Val) {s s' : π} {bs : Bytes} (fuel : Nat) (path : List Nat) (fn sn : Bytes) (ty : Ty),
    v.size ≤ fuel → TDec p S v ty s s' bs →
    Outcome (genReadVal p S L mem msd fuel path fn sn ty) s s' bs (buildVal S L mem v path ty)
  | .bool b, _, _, _, fuel + 1, path, fn, sn, .bool, _, h => outcome_leaf hS h _ _
  | .byte b, _, _, _, fuel + 1, path, fn, sn, .byte, _, h => outcome_leaf hS h _ _
  | .i16 b, _, _, _, fuel + 1, path, fn, sn, .i16, _, h => outcome_leaf hS h _ _
  | .i32 b, _, _, _, fuel + 1, path, fn, sn, .i32, _, h => outcome_leaf hS h _ _
  | .i32 b, _, _, _, fuel + 1, path, fn, sn, .enum k, _, h =>
    outcome_leaf hS h (fun b => .enumer k (b.signExtend 64) (S.enumText k (b.signExtend 64))) _
  | .i64 b, _, _, _, fuel + 1, path, fn, sn, .i64, _, h => outcome_leaf hS h _ _
  | .double b, _, _, _, fuel + 1, path, fn, sn, .double, _, h => outcome_leaf hS h _ _
  | .str b, _, _, _, fuel + 1, path, fn, sn, .string, _, h => outcome_leaf hS h _ _
  | .str b, _, _, _, fuel + 1, path, fn, sn, .binary, _, h => outcome_leaf hS h _ _
  | .struct fs, s, s', bs, fuel + 1, path, fn, sn, .struct k, hf, h => by
    obtain ⟨s₁, s₂, a, b, c, n, h1, h2, h3, rfl⟩ := h
    simp only [Val.size] at hf
    simp only [genReadVal, buildVal]
    refine Outcome.map (fun attrs => (S.structs k).object (mem path) attrs) (Option.map _) rfl ?_
    show Outcome (p.readStructBegin >>= _ : P π (List (Int × Dyn) × GoErr)) _ _ _ _
    gstep h1
    have := Outcome.bind (b := c) (s'' := s') (q := fun x => .ok x)
      (TDecFields.gen fs fuel fuel path (S.structs k) ((S.structs k).fresh S) (by omega) (by omega) h2)
      (k := fun x => if x.2.isSome then pure (x.1, x.2) else p.readStructEnd >>= fun e => pure (x.1, e.map (excReadStruct (S.structs k).name)))
      (fun x _ => by
        simp only [Option.isSome_none, Bool.false_eq_true, if_false]
        refine Outcome.congr (a := c ++ []) ?_ (by simp) rfl
        gstep h3
        exact Outcome.pure s' x)
    refine this.congr rfl ?_
    cases buildFields S L mem fs path (S.structs k) ((S.structs k).fresh S) <;> rfl
  | .map kt vt ps, s, s', bs, fuel + 1, path, fn, sn, .map k v, hf, h => by
    obtain ⟨s₁, s₂, a, b, c, h1, h2, h3, rfl⟩ := h
    simp only [Val.size] at hf
    simp only [genReadVal, buildVal]
    gstep h1
    simp only [Int.toNat_natCast]
    refine Outcome.bind (TDecPairs.gen ps fuel path k v 0 _ (by omega) h2) (fun x _ => ?_)
    simp only [Option.isSome_none, Bool.false_eq_true, if_false]
    refine Outcome.congr (a := c ++ []) ?_ (by simp) rfl
    gstep h3
    exact Outcome.pure s' _
  | .set t vs, s, s', bs, fuel + 1, path, fn, sn, .set e, hf, h => by
    obtain ⟨s₁, s₂, a, b, c, h1, h2, h3, rfl⟩ := h
    simp only [Val.size] at hf
    simp only [genReadVal, buildVal]
    gstep h1
    simp only [Int.toNat_natCast]
    refine Outcome.bind (TDecVals.genSet vs fuel path e 0 _ (by omega) h2) (fun x _ => ?_)
    simp only [Option.isSome_none, Bool.false_eq_true, if_false]
    refine Outcome.congr (a := c ++ []) ?_ (by simp) rfl
    gstep h3
    exact Outcome.pure s' _
  | .list t vs, s, s', bs, fuel + 1, path, fn, sn, .list e, hf, h => by
    obtain ⟨s₁, s₂, a, b, c, h1, h2, h3, rfl⟩ := h
    simp only [Val.size] at hf
    simp only [genReadVal, buildVal]
    gstep h1
    simp only [Int.toNat_natCast]
    refine Outcome.bind (TDecVals.genList vs fuel path e 0 _ (by omega) h2) (fun x _ => ?_)
    simp only [Option.isSome_none, Bool.false_eq_true, if_false]
    refine Outcome.congr (a := c ++ []) ?_ (by simp) rfl
    gstep h3
    exact Outcome.pure s' _
  | v, _, _, _, 0, _, _, _, _, hf, h => by
    have := v.size_pos
    omega
theorem TDecFields.gen : ∀ (fs : Fields) {s s' : π} {bs : Bytes} (fuel n : Nat) (path : List Nat) (sd : StructDef)
    (attrs : List (Int × Dyn)), fs.size ≤ fuel → fs.size ≤ n → TDecFields p S sd fs s s' bs →
    Outcome (genReadFields p (fun fn sn m => genReadVal p S L mem msd fuel (m.id.toNat :: path) fn sn m.ty)
      (skipDefaultDepth p msd fuel) sd n attrs) s s' bs (buildFields S L mem fs path sd attrs)
  | .nil, _, _, _, fuel, 0, _, _, _, hf, hn, _ => by simp [Fields.size] at hn
  | .cons id v r, _, _, _, fuel, 0, _, _, _, hf, hn, _ => by
    have := v.size_pos
    simp only [Fields.size] at hn; omega
  | .nil, s, s', bs, fuel, n + 1, path, sd, attrs, hf, hn, h => by
    obtain ⟨hd, hstop, h⟩ := h
    refine Outcome.congr (a := bs ++ []) ?_ (by simp) rfl
    show Outcome (p.readFieldBegin >>= _ : P π (List (Int × Dyn) × GoErr)) _ _ _ _
    gstep h
    simp only [hstop, if_true, buildFields]
    exact Outcome.pure _ _
  | .cons id v r, s, s', bs, fuel, n + 1, path, sd, attrs, hf, hn, h => by
    obtain ⟨m, hd, s₁, s₂, s₃, a, b, c, d, hb, hp, h1, h2, h3, h4, rfl⟩ := h
    have hpos := v.size_pos
    simp only [Fields.size] at hn hf
    show Outcome (p.readFieldBegin >>= _ : P π (List (Int × Dyn) × GoErr)) _ _ _ _
    gstep h1
    obtain ⟨hfind, hstop, hvoid⟩ := hp
    simp only [hstop, if_false, genReadMember, hfind, buildFields, hb, hvoid, ite_self]
    have ih := TDec.gen v fuel (m.id.toNat :: path) m.name sd.name m.ty (by omega) h2
    have hin : Outcome (genReadVal p S L mem msd fuel (m.id.toNat :: path) m.name sd.name m.ty >>= fun x =>
        (pure (if x.2.isSome then attrs else setAttr attrs m.id.toInt x.1, x.2) : P π (List (Int × Dyn) × GoErr)))
        s₁ s₂ (b ++ []) (buildVal S L mem v (m.id.toNat :: path) m.ty >>= fun d => .ok (setAttr attrs m.id.toInt d)) :=
      Outcome.bind ih (fun x _ => Outcome.pure _ _)
    rw [List.append_nil] at hin
    have hq : (buildVal S L mem v (m.id.toNat :: path) m.ty >>= fun d => buildFields S L mem r path sd (setAttr attrs m.id.toInt d)) =
        ((buildVal S L mem v (m.id.toNat :: path) m.ty >>= fun d => .ok (setAttr attrs m.id.toInt d)) >>= fun a =>
          buildFields S L mem r path sd a) := by
      cases buildVal S L mem v (m.id.toNat :: path) m.ty <;> rfl
    rw [hq]
    refine Outcome.bind hin (fun x _ => ?_)
    simp only [Option.isSome_none, Bool.false_eq_true, if_false]
    gstep h3
    exact TDecFields.gen r fuel n path sd _ (by omega) (by omega) h4
theorem TDecVals.genList : ∀ (vs : Vals) {s s' : π} {bs : Bytes} (fuel : Nat) (path : List Nat) (e : Ty) (i : Nat)
    (l : TList), vs.size ≤ fuel → TDecVals p S e vs s s' bs →
    Outcome (genReadList L (fun i => genReadVal p S L mem msd fuel (i :: path) [] [] e) vs.length i l) s s' bs
      (buildList S L mem vs path e i l)
  | .nil, _, _, _, fuel, _, _, _, _, _, h => by
    obtain ⟨rfl, rfl⟩ := h
    exact Outcome.pure _ _
  | .cons v r, _, _, _, fuel, path, e, i, l, hf, h => by
    obtain ⟨s₁, a, b, h1, h2, rfl⟩ := h
    simp only [Vals.size] at hf
    simp only [Vals.length, genReadList, buildList]
    refine Outcome.bind (TDec.gen v fuel (i :: path) [] [] e (by omega) h1) (fun x _ => ?_)
    simp only [Option.isSome_none, Bool.false_eq_true, if_false]
    refine Outcome.bindRes fun l' _ => ?_
    exact TDecVals.genList r fuel path e (i + 1) l' (by omega) h2
theorem TDecVals.genSet : ∀ (vs : Vals) {s s' : π} {bs : Bytes} (fuel : Nat) (path : List Nat) (e : Ty) (i : Nat)
    (l : TSet), vs.size ≤ fuel → TDecVals p S e vs s s' bs →
    Outcome (genReadSet L (fun i => genReadVal p S L mem msd fuel (i :: path) [] [] e) vs.length i l) s s' bs
      (buildSet S L mem vs path e i l)
  | .nil, _, _, _, fuel, _, _, _, _, _, h => by
    obtain ⟨rfl, rfl⟩ := h
    exact Outcome.pure _ _
  | .cons v r, _, _, _, fuel, path, e, i, l, hf, h => by
    obtain ⟨s₁, a, b, h1, h2, rfl⟩ := h
    simp only [Vals.size] at hf
    simp only [Vals.length, genReadSet, buildSet]
    refine Outcome.bind (TDec.gen v fuel (i :: path) [] [] e (by omega) h1) (fun x _ => ?_)
    simp only [Option.isSome_none, Bool.false_eq_true, if_false]
    refine Outcome.bindRes fun l' _ => ?_
    exact TDecVals.genSet r fuel path e (i + 1) l' (by omega) h2
theorem TDecPairs.gen : ∀ (ps : Pairs) {s s' : π} {bs : Bytes} (fuel : Nat) (path : List Nat) (k v : Ty) (i : Nat)
    (l : TMap), ps.size ≤ fuel → TDecPairs p S k v ps s s' bs →
    Outcome (genReadMap L (fun i => genReadVal p S L mem msd fuel (i :: path) [] [] k)
      (fun i => genReadVal p S L mem msd fuel (i :: path) [] [] v) ps.length i l) s s' bs
      (buildPairs S L mem ps path k v i l)
  | .nil, _, _, _, fuel, _, _, _, _, _, _, h => by
    obtain ⟨rfl, rfl⟩ := h
    exact Outcome.pure _ _
  | .cons k v r, _, _, _, fuel, path, ek, ev, i, l, hf, h => by
    obtain ⟨s₁, s₂, a, b, c, h1, h2, h3, rfl⟩ := h
    simp only [Pairs.size] at hf
    simp only [Pairs.length, genReadMap, buildPairs]
    refine Outcome.bind (TDec.gen k fuel ((2 * i) :: path) [] [] ek (by omega) h1) (fun x _ => ?_)
    simp only [Option.isSome_none, Bool.false_eq_true, if_false]
    refine Outcome.bind (TDec.gen v fuel ((2 * i + 1) :: path) [] [] ev (by omega) h2) (fun y _ => ?_)
    simp only [Option.isSome_none, Bool.false_eq_true, if_false]
    refine Outcome.bindRes fun l' _ => ?_
    exact TDecPairs.gen r fuel path ek ev (i + 1) l' (by omega) h3
end

/-- `Read` on a given object. -/
theorem TDec.genInto (fs : Fields) {s s' : π} {bs : Bytes} (fuel : Nat) (path : List Nat) (k : Nat) (attrs : List (Int × Dyn))
    (hf : fs.size ≤ fuel) (h : TDec p S (.struct fs) (.struct k) s s' bs) :
    Outcome (genReadInto p S L mem msd fuel path (S.structs k) attrs) s s' bs (buildFields S L mem fs path (S.structs k) attrs) := by
  obtain ⟨s₁, s₂, a, b, c, n, h1, h2, h3, rfl⟩ := h
  show Outcome (p.readStructBegin >>= _ : P π (List (Int × Dyn) × GoErr)) _ _ _ _
  gstep h1
  have := Outcome.bind (b := c) (s'' := s') (q := fun x => .ok x)
    (TDecFields.gen hS L mem msd fs fuel fuel path (S.structs k) attrs hf hf h2)
    (k := fun x => if x.2.isSome then pure (x.1, x.2) else p.readStructEnd >>= fun e => pure (x.1, e.map (excReadStruct (S.structs k).name)))
    (fun x _ => by
      simp only [Option.isSome_none, Bool.false_eq_true, if_false]
      refine Outcome.congr (a := c ++ []) ?_ (by simp) rfl
      gstep h3
      exact Outcome.pure s' x)
  refine this.congr rfl ?_
  cases buildFields S L mem fs path (S.structs k) attrs <;> rfl

end Thrift
